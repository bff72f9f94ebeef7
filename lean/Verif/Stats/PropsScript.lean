import Verif.Stats.ScriptLemmas
import Verif.Stats.PropsStats
/-!
# The statistics of a listing (`tools/qtrace_statistics.py`)
-/
namespace Script
open Stats.Spec (region isVector)

/-! ## C78: the lines of a listing are read back -/

/-- **C78**: a line of a listing is read as the address, the text of the instruction, and the name under which the function is reported. -/
theorem C78_line_partial (x : Item) (hx : Spec.Plain x) (f : List Char) (hf : ∀ n o, x.sym = some (n, o) → Spec.Reported n f) (hn : x.sym = none → f = []) :
    parseLine (printItem x) = some { addr := x.addr.toNat, insn := x.text, function := f } := by
  rw [parse_item x hx]
  cases hs : x.sym with
  | none => rw [hn hs]; rfl
  | some p =>
    obtain ⟨n, o⟩ := p
    rw [functionOf, functionName_reported (hf n o hs) (fun c hc => (hx.name n o hs c hc).2)]

/-- A line of a system call. -/
def sysRead : Item := { addr := 0xc0000000003a1234, sym := some ("sys_read".toList, 0x14), text := "std     r0,16(r1)".toList }

theorem sysRead_plain : Spec.Plain sysRead where
  name := by
    intro n o h
    obtain ⟨rfl, rfl⟩ := Prod.mk.inj (Option.some.inj h)
    decide
  first := by
    intro c h
    have : c = 's' := by simpa [sysRead] using h.symm
    subst this; decide
  line := by decide

example : Spec.Plain sysRead ∧ Spec.Reported "sys_read".toList "read".toList :=
  ⟨sysRead_plain, .sys _ ⟨not_within.2 (by decide), not_within.2 (by decide)⟩⟩

example : parseLine (printItem sysRead) = some { addr := 0xc0000000003a1234, insn := "std     r0,16(r1)".toList, function := "read".toList } :=
  C78_line_partial sysRead sysRead_plain _ (fun n o h => by
    obtain ⟨rfl, rfl⟩ := Prod.mk.inj (Option.some.inj h)
    exact .sys _ ⟨not_within.2 (by decide), not_within.2 (by decide)⟩) (fun h => by cases h)

/-- The line of a build without binutils. -/
theorem parse_word (addr : BitVec 64) (word : BitVec 32) (suffix : Option (BitVec 32)) : ∃ t, parseLine (printWord addr word suffix) =
    some { addr := addr.toNat, insn := t, function := [] } := by
  let t : List Char := '0' :: 'x' :: (Ptr.Log.fmtX word.toNat ++ (match suffix with
     | some w => ' ' :: '0' :: 'x' :: Ptr.Log.fmtX w.toNat
     | none => []))
  have hhex : ∀ v, '\n' ∉ Ptr.Log.fmtX v := fun v h => (Ptr.Log.fmtX_chars v _ h).1 rfl
  have e : printWord addr word suffix = Ptr.Log.fmtPad 16 addr.toNat ++ '\t' :: (t ++ ['\n']) := by cases suffix <;> simp [printWord, t]
  have ht : '\n' ∉ t := by cases suffix <;> simp [t, hhex]
  obtain ⟨h1, h2⟩ := hexStop (w := 16) (v := addr.toNat) (c := '\t') (r := t ++ ['\n']) (by decide)
  have h7 : afterBlanks ('\t' :: (t ++ ['\n'])) = some t :=
    afterBlanks_eq (b := ['\t']) (by simp) (by simp; decide) (fun c hc => by
      have : c = '0' := by simpa [t] using hc.symm
      subst this; decide) ht
  refine ⟨t, ?_⟩
  rw [e, parseLine]
  have hm : matchSym (Ptr.Log.fmtPad 16 addr.toNat ++ '\t' :: (t ++ ['\n'])) = none := by
    unfold matchSym
    rw [h1, h2]
    split
    · rfl
    · have h3 : List.dropWhile isSpace ('\t' :: (t ++ ['\n'])) = t ++ ['\n'] := by
        have h1 : isSpace '\t' = true := by decide
        have h2 : isSpace '0' = false := by decide
        simp [List.dropWhile_cons, t, h1, h2]
      rw [h3]
      rfl
  rw [hm]
  dsimp only
  unfold matchNoSym
  rw [h1, h2, if_neg (fmtPad_ne _ _), h7]
  show some _ = some _
  rw [int16_fmtPad]

/-- **C78**: the script also reads the lines of a qtdis that was built without binutils, with the same addresses. -/
theorem C78_word_partial (addr : BitVec 64) (word : BitVec 32) (suffix : Option (BitVec 32)) :
    (parseLine (printWord addr word suffix)).map (·.addr) = some addr.toNat := by
  obtain ⟨t, ht⟩ := parse_word addr word suffix
  rw [ht]; rfl

/-! ## The counters -/

theorem countIdle_eq (x : Parsed) (s : State) :
    countIdle x s = { s with idle := s.idle + if occurs "snooze_loop".toList x.function then 1 else 0 } := by
  unfold countIdle
  split <;> rfl

def inSystem (a : Nat) : Bool := decide (a >>> 60 = 0xc)
def inOpal (a : Nat) : Bool := !inSystem a && decide (a &&& 0xFFFFFFFFFF000000 = 0x30000000)
def inUser (a : Nat) : Bool := !inSystem a && !decide (a &&& 0xFFFFFFFFFF000000 = 0x30000000)
def bit (b : Bool) : Nat := if b then 1 else 0

theorem countSpace_eq (x : Parsed) (s : State) : countSpace x s = { s with
    system := s.system + bit (inSystem x.addr), opal := s.opal + bit (inOpal x.addr), user := s.user + bit (inUser x.addr) } := by
  unfold countSpace inOpal inUser inSystem
  by_cases h1 : x.addr >>> 60 = 0xc
  · rw [if_pos h1, decide_eq_true h1]; rfl
  · rw [if_neg h1, decide_eq_false h1]
    by_cases h2 : x.addr &&& 0xFFFFFFFFFF000000 = 0x30000000
    · rw [if_pos h2, decide_eq_true h2]; rfl
    · rw [if_neg h2, decide_eq_false h2]; rfl

theorem countSwitch_eq (x : Parsed) (s : State) :
    countSwitch x s = { s with contextSwitches := s.contextSwitches + bit (occurs "__switch_to".toList x.function && occurs "mflr".toList x.insn) } := by
  unfold countSwitch bit
  split <;> rfl

/-- The vector 0xc00, as the script sees it. -/
def isCall (a : Nat) : Bool := isExceptionEntry a && decide (a &&& 0xfff = 0xc00)

theorem countException_eq (x : Parsed) (s : State) : countException x s = { s with
    exceptions := if isExceptionEntry x.addr then bump (x.addr &&& 0xfff) s.exceptions else s.exceptions
    inEntry := isCall x.addr || s.inEntry } := by
  unfold countException isCall
  by_cases h1 : isExceptionEntry x.addr = true
  · rw [if_pos h1, if_pos h1, h1]
    by_cases h2 : x.addr &&& 0xfff = 0xc00
    · rw [if_pos h2, decide_eq_true h2]; rfl
    · rw [if_neg h2, decide_eq_false h2]; rfl
  · rw [if_neg h1, if_neg h1]
    rw [Bool.not_eq_true] at h1
    rw [h1]; rfl

theorem countCall_eq (x : Parsed) (s : State) : countCall x s = { s with
    systemCalls := if s.branch then bump x.function s.systemCalls else s.systemCalls, branch := false } := by
  unfold countCall
  by_cases h : s.branch = true
  · rw [if_pos h, if_pos h]
  · rw [if_neg h, if_neg h]
    rw [Bool.not_eq_true] at h
    obtain ⟨⟩ := s
    dsimp only at h
    subst h
    rfl

theorem watchBranch_eq (x : Parsed) (s : State) : watchBranch x s = { s with
    branch := s.branch || (s.inEntry && decide (x.insn = "bctrl".toList)), inEntry := s.inEntry && !decide (x.insn = "bctrl".toList) } := by
  unfold watchBranch
  obtain ⟨i, sy, u, o, c, e, k, ine, br⟩ := s
  dsimp only
  cases ine
  · simp
  · by_cases h : x.insn = "bctrl".toList
    · simp [h]
    · have h' : ¬x.insn = ['b', 'c', 't', 'r', 'l'] := h
      simp [h']

/-- One line. -/
theorem parseOne_eq (s : State) (x : Parsed) : parseOne s x = {
    idle := s.idle + bit (occurs "snooze_loop".toList x.function)
    system := s.system + bit (inSystem x.addr), opal := s.opal + bit (inOpal x.addr), user := s.user + bit (inUser x.addr)
    contextSwitches := s.contextSwitches + bit (occurs "__switch_to".toList x.function && occurs "mflr".toList x.insn)
    exceptions := if isExceptionEntry x.addr then bump (x.addr &&& 0xfff) s.exceptions else s.exceptions
    systemCalls := if s.branch then bump x.function s.systemCalls else s.systemCalls
    branch := (isCall x.addr || s.inEntry) && decide (x.insn = "bctrl".toList)
    inEntry := (isCall x.addr || s.inEntry) && !decide (x.insn = "bctrl".toList) } := by
  rw [parseOne, countIdle_eq, countSpace_eq, countSwitch_eq, countException_eq, countCall_eq, watchBranch_eq]
  dsimp only
  rw [Bool.false_or]
  rfl

theorem look_bump {α : Type} [DecidableEq α] (k a : α) : ∀ d : List (α × Nat), look k (bump a d) = look k d + if a = k then 1 else 0
  | [] => by simp only [bump, look]; split <;> rfl
  | (b, n) :: d => by
    rw [bump]
    by_cases h : b = a
    · rw [if_pos h]
      subst h
      simp only [look]
      by_cases h2 : b = k
      · rw [if_pos h2, if_pos h2, if_pos h2]
      · rw [if_neg h2, if_neg h2, if_neg h2]; rfl
    · rw [if_neg h]
      simp only [look]
      by_cases h2 : b = k
      · rw [if_pos h2, if_pos h2, if_neg (fun h3 => h (h2.trans h3.symm))]; rfl
      · rw [if_neg h2, if_neg h2, look_bump k a d]

theorem sum_bump {α : Type} [DecidableEq α] (a : α) : ∀ d : List (α × Nat), ((bump a d).map (·.2)).sum = (d.map (·.2)).sum + 1
  | [] => rfl
  | (b, n) :: d => by
    rw [bump]
    split
    · simp only [List.map_cons, List.sum_cons]; omega
    · simp only [List.map_cons, List.sum_cons, sum_bump a d]; omega

theorem countP_step {α : Type} (p : α → Bool) (x : α) (l : List α) : (x :: l).countP p = bit (p x) + l.countP p := by
  rw [List.countP_cons, bit]; omega

/-- The counters of addresses after a number of lines. -/
theorem fold_counts : ∀ (l : List Parsed) (s : State),
    (l.foldl parseOne s).system = s.system + l.countP (fun x => inSystem x.addr) ∧
    (l.foldl parseOne s).opal = s.opal + l.countP (fun x => inOpal x.addr) ∧
    (l.foldl parseOne s).user = s.user + l.countP (fun x => inUser x.addr) ∧
    (l.foldl parseOne s).idle = s.idle + l.countP (fun x => occurs "snooze_loop".toList x.function) ∧
    ∀ v, look v (l.foldl parseOne s).exceptions = look v s.exceptions + l.countP (fun x => isExceptionEntry x.addr && decide (x.addr &&& 0xfff = v))
  | [], s => by simp
  | x :: l, s => by
    obtain ⟨h1, h2, h3, h4, h5⟩ := fold_counts l (parseOne s x)
    rw [List.foldl_cons]
    simp only [countP_step]
    rw [h1, h2, h3, h4]
    refine ⟨?_, ?_, ?_, ?_, fun v => ?_⟩
    · rw [parseOne_eq]; exact Nat.add_assoc ..
    · rw [parseOne_eq]; exact Nat.add_assoc ..
    · rw [parseOne_eq]; exact Nat.add_assoc ..
    · rw [parseOne_eq]; exact Nat.add_assoc ..
    · rw [h5, parseOne_eq]
      dsimp only
      by_cases h : isExceptionEntry x.addr = true
      · rw [if_pos h, look_bump, h, Bool.true_and]
        by_cases h2 : x.addr &&& 0xfff = v
        · rw [if_pos h2, decide_eq_true h2]; exact Nat.add_assoc ..
        · rw [if_neg h2, decide_eq_false h2]; exact Nat.add_assoc ..
      · rw [if_neg h]
        rw [Bool.not_eq_true] at h
        rw [h]
        show _ = _ + (0 + _)
        rw [Nat.zero_add]

/-- **C78**: the script accepts every listing, and counts every instruction once. -/
theorem C78_listing_partial (l : List Item) (h : ∀ x ∈ l, Spec.Plain x) : ∃ s, run (listing l) = some s ∧ s.system + s.user + s.opal = l.length := by
  refine ⟨_, run_listing l h, ?_⟩
  obtain ⟨h1, h2, h3, -⟩ := fold_counts (l.map parsed) {}
  rw [h1, h2, h3]
  have : ∀ m : List Parsed, m.countP (fun x => inSystem x.addr) + m.countP (fun x => inUser x.addr) + m.countP (fun x => inOpal x.addr) = m.length := by
    intro m
    induction m with
    | nil => rfl
    | cons x m ih =>
      simp only [countP_step, List.length_cons]
      have : bit (inSystem x.addr) + bit (inUser x.addr) + bit (inOpal x.addr) = 1 := by
        unfold inUser inOpal
        cases inSystem x.addr <;> cases decide (x.addr &&& 0xFFFFFFFFFF000000 = 0x30000000) <;> rfl
      omega
  have := this (l.map parsed)
  rw [List.length_map] at this
  show 0 + _ + (0 + _) + (0 + _) = _
  omega

example : (run (listing [sysRead, { sysRead with sym := none }])).isSome = true := by decide +kernel

/-- **C78**, refuted for all names: two functions of the kernel are reported as one. -/
theorem C78_names_refuted : ¬∀ n m : List Char, ('+' ∉ n ∧ '+' ∉ m) → (∀ o, functionOf (some (n, o)) = functionOf (some (m, o))) →
    n = m ∨ n = "sys_".toList ++ m ∨ n = "SyS_".toList ++ m ∨ m = "sys_".toList ++ n ∨ m = "SyS_".toList ++ n := by
  intro h
  have e : ∀ o : BitVec 64, functionOf (some ("do_sys_open".toList, o)) = functionOf (some ("do_open".toList, o)) := by
    intro o
    have h1 : ∀ (n r : List Char), (∀ c ∈ n, c ≠ '+') → (n ++ '+' :: r).takeWhile (fun x => decide (x ≠ '+')) = n := fun n r hn =>
      (takeWhile_stop (fun x hx => by simpa using hn x hx) (by decide)).1
    unfold functionOf functionName
    dsimp only
    rw [h1 "do_sys_open".toList _ (by decide), h1 "do_open".toList _ (by decide)]
    decide
  exact absurd (h _ _ (by decide) e) (by decide)

/-! ## C79: shares, and agreement with the statistics of qtdis -s -/

/-- What is printed for a listing. -/
def report (l : List Item) : Option Shares := (run (listing l)).bind shares

theorem opal_mask (ea : BitVec 64) : (ea.toNat &&& 0xFFFFFFFFFF000000 = 0x30000000) ↔ 0x30000000 ≤ ea.toNat ∧ ea.toNat < 0x31000000 := by
  rw [← Stats.firmware_mask, ← BitVec.toNat_inj, BitVec.toNat_and]
  rfl

theorem shift_60 (a : Nat) : a >>> 60 = a / 1152921504606846976 := by rw [Nat.shiftRight_eq_div_pow]

theorem space_cases (ea : BitVec 64) (h : ea.toNat < 0xd000000000000000) :
    inSystem ea.toNat = (region ea == .kernel) ∧ inOpal ea.toNat = (region ea == .firmware) ∧
    inUser ea.toNat = (region ea == .library || region ea == .binary) := by
  unfold inOpal inUser inSystem region
  by_cases h1 : ea.toNat ≥ 0xc000000000000000
  · rw [decide_eq_true (show ea.toNat >>> 60 = 0xc by rw [shift_60]; omega), if_pos h1]
    exact ⟨rfl, rfl, rfl⟩
  · rw [decide_eq_false (show ¬ea.toNat >>> 60 = 0xc by rw [shift_60]; omega), if_neg h1]
    by_cases h2 : 0x30000000 ≤ ea.toNat ∧ ea.toNat < 0x31000000
    · rw [decide_eq_true ((opal_mask ea).2 h2), if_pos h2]
      exact ⟨rfl, rfl, rfl⟩
    · rw [decide_eq_false (fun h => h2 ((opal_mask ea).1 h)), if_neg h2]
      split <;> exact ⟨rfl, rfl, rfl⟩

theorem count_eq (q : Stats.Insn → Bool) (l : List Stats.Insn) : Stats.Spec.count (fun _ x => q x) l.reverse = l.countP q := by
  have : ∀ h : List Stats.Insn, Stats.Spec.count (fun _ x => q x) h = h.countP q := by
    intro h
    induction h with
    | nil => rfl
    | cons x h ih => rw [Stats.Spec.count, List.countP_cons, ih]
  rw [this, List.countP_reverse]

/-- Counting by address, in a trace and in its listing. -/
theorem countP_addr {l : List Stats.Insn} {m : List Item} (h : m.map (·.addr) = l.map (·.ea)) {p : BitVec 64 → Bool} {q : Nat → Bool}
    (hpq : ∀ x ∈ l, p x.ea = q x.ea.toNat) : l.countP (fun x => p x.ea) = (m.map parsed).countP (fun x => q x.addr) := by
  have h1 : l.countP (fun x => p x.ea) = l.countP (fun x => q x.ea.toNat) := by
    apply List.countP_congr
    intro x hx
    rw [hpq x hx]
  have h2 : l.countP (fun x => q x.ea.toNat) = (l.map (·.ea)).countP (fun a => q a.toNat) := by rw [List.countP_map]; rfl
  have h3 : (m.map parsed).countP (fun x => q x.addr) = (m.map (·.addr)).countP (fun a => q a.toNat) := by
    rw [List.countP_map, List.countP_map]; rfl
  rw [h1, h2, h3, h]

theorem ofNat_countP {l : List Stats.Insn} (hl : l.length < 2 ^ 64) (p : Stats.Insn → Bool) : (BitVec.ofNat 64 (l.countP p)).toNat = l.countP p := by
  rw [BitVec.toNat_ofNat]
  exact Nat.mod_eq_of_lt (Nat.lt_of_le_of_lt List.countP_le_length hl)

/-- **C79**, partial: below 0xd000000000000000 the script and `qtdis -s` count the same instructions of the kernel, the firmware and the programs.
The full statement, for all addresses, is false: `C79_agree_refuted`. -/
theorem C79_agree_partial (l : List Stats.Insn) (m : List Item) (hm : ∀ x ∈ m, Spec.Plain x) (ha : m.map (·.addr) = l.map (·.ea))
    (hl : l.length < 2 ^ 64) (hk : ∀ x ∈ l, x.ea.toNat < 0xd000000000000000) :
    ∃ s t, Stats.run Stats.tables (Stats.init Stats.tables) l = some s ∧ run (listing m) = some t ∧
      t.system = s.system.toNat ∧ t.opal = s.opal.toNat ∧ t.user = s.user.toNat := by
  obtain ⟨s, h1, h2⟩ := Stats.C27_counts Stats.tables_good l
  obtain ⟨c1, c2, c3, -⟩ := fold_counts (m.map parsed) {}
  refine ⟨s, _, h1, run_listing m hm, ?_, ?_, ?_⟩
  · rw [c1, h2.system, count_eq (fun x => region x.ea == .kernel), ofNat_countP hl,
      countP_addr ha (p := fun a => region a == .kernel) (q := inSystem) (fun x hx => (space_cases x.ea (hk x hx)).1.symm)]
    exact Nat.zero_add _
  · rw [c2, h2.opal, count_eq (fun x => region x.ea == .firmware), ofNat_countP hl,
      countP_addr ha (p := fun a => region a == .firmware) (q := inOpal) (fun x hx => (space_cases x.ea (hk x hx)).2.1.symm)]
    exact Nat.zero_add _
  · rw [c3, h2.user, count_eq (fun x => region x.ea == .library || region x.ea == .binary), ofNat_countP hl,
      countP_addr ha (p := fun a => region a == .library || region a == .binary) (q := inUser) (fun x hx => (space_cases x.ea (hk x hx)).2.2.symm)]
    exact Nat.zero_add _

/-- A module of the kernel. -/
def inModule : Item := { addr := 0xd000000001230000, sym := none, text := "nop".toList }

theorem inModule_plain : Spec.Plain inModule where
  name := fun n o h => by cases h
  first := by
    intro c h
    have : c = 'n' := by simpa [inModule] using h.symm
    subst this; decide
  line := by decide

example : ∃ s t, Stats.run Stats.tables (Stats.init Stats.tables) [⟨0xc0000000003a1234, 0x60000000⟩] = some s ∧ run (listing [sysRead]) = some t ∧
    t.system = s.system.toNat ∧ t.opal = s.opal.toNat ∧ t.user = s.user.toNat :=
  C79_agree_partial _ _ (by simpa using sysRead_plain) rfl (by decide) (by decide)

/-- **C79**, refuted: modules of the kernel (0xd000000000000000 on) are part of the kernel for `qtdis -s`, and programs for the script. -/
theorem C79_agree_refuted : ∃ (l : List Stats.Insn) (m : List Item) (s : Stats.Stats) (t : State), (∀ x ∈ m, Spec.Plain x) ∧
    m.map (·.addr) = l.map (·.ea) ∧ Stats.run Stats.tables (Stats.init Stats.tables) l = some s ∧ run (listing m) = some t ∧
    s.system = 1 ∧ s.user = 0 ∧ t.system = 0 ∧ t.user = 1 := by
  obtain ⟨s, h1, h2⟩ := Stats.C27_counts Stats.tables_good [⟨0xd000000001230000, 0x60000000⟩]
  refine ⟨[⟨0xd000000001230000, 0x60000000⟩], [inModule], s, _, by simpa using inModule_plain, rfl, h1, run_listing _ (by simpa using inModule_plain), ?_⟩
  refine ⟨?_, ?_, by decide +kernel, by decide +kernel⟩
  · rw [h2.system]; decide +kernel
  · rw [h2.user]; decide +kernel

theorem vectors_or : ∀ v ∈ exceptionLookup, 0xc000000000004000#64 ||| BitVec.ofNat 64 v = BitVec.ofNat 64 v + 0xc000000000004000#64 := by decide
theorem vectors_low : ∀ v ∈ exceptionLookup, (isExceptionEntry (BitVec.ofNat 64 v).toNat && decide ((BitVec.ofNat 64 v).toNat &&& 0xfff = v)) = true := by decide
theorem vectors_high : ∀ v ∈ exceptionLookup, (isExceptionEntry (BitVec.ofNat 64 v + 0xc000000000004000#64).toNat &&
    decide ((BitVec.ofNat 64 v + 0xc000000000004000#64).toNat &&& 0xfff = v)) = true := by decide

/-- The vectors of the script are at the addresses of the vectors. -/
theorem vector_iff (ea : BitVec 64) {v : Nat} (hv : v ∈ exceptionLookup) : (isExceptionEntry ea.toNat && decide (ea.toNat &&& 0xfff = v)) = true ↔
    ea = BitVec.ofNat 64 v ∨ ea = BitVec.ofNat 64 v + 0xc000000000004000#64 := by
  constructor
  · intro h
    rw [Bool.and_eq_true, decide_eq_true_eq] at h
    obtain ⟨h1, h2⟩ := h
    have hlo : ea &&& 0xfff#64 = BitVec.ofNat 64 v := by
      rw [← BitVec.toNat_inj, BitVec.toNat_and, BitVec.toNat_ofNat, ← h2]
      exact (Nat.mod_eq_of_lt (Nat.lt_of_le_of_lt Nat.and_le_left ea.isLt)).symm
    have hsplit : ea = (ea &&& 0xfffffffffffff000#64) ||| (ea &&& 0xfff#64) := by
      rw [← BitVec.and_or_distrib_left]
      have : 0xfffffffffffff000#64 ||| 0xfff#64 = BitVec.allOnes 64 := by decide
      rw [this, BitVec.and_allOnes]
    have hand : (ea &&& 0xfffffffffffff000#64).toNat = ea.toNat &&& 0xfffffffffffff000 := by rw [BitVec.toNat_and]; rfl
    unfold isExceptionEntry at h1
    split at h1
    · cases h1
    · rename_i h3
      by_cases h4 : ea.toNat &&& 0xfffffffffffff000 = 0xc000000000004000
      · right
        have : ea &&& 0xfffffffffffff000#64 = 0xc000000000004000#64 := by
          rw [← BitVec.toNat_inj, hand, h4]; rfl
        rw [hsplit, this, hlo, vectors_or v hv]
      · left
        have : ea &&& 0xfffffffffffff000#64 = 0#64 := by
          rw [← BitVec.toNat_inj, hand]
          exact Classical.byContradiction fun h5 => h3 ⟨h4, h5⟩
        rw [hsplit, this, hlo, BitVec.zero_or]
  · rintro (rfl | rfl)
    · exact vectors_low v hv
    · exact vectors_high v hv

theorem tables_sub (v : BitVec 64) (hv : v ∈ Stats.exceptionAddrs) : v.toNat ∈ exceptionLookup := by
  have h : (Stats.exceptionAddrs.all fun v => exceptionLookup.contains v.toNat) = true := by decide +kernel
  simpa using List.all_eq_true.1 h v hv

theorem vector_isVector {v : BitVec 64} (hv : v ∈ Stats.exceptionAddrs) (x : Stats.Insn) :
    isVector v x = (isExceptionEntry x.ea.toNat && decide (x.ea.toNat &&& 0xfff = v.toNat)) := by
  rw [Bool.eq_iff_iff, vector_iff x.ea (tables_sub v hv), BitVec.ofNat_toNat, BitVec.setWidth_eq]
  simp [isVector]

/-- **C79**: for all addresses, the script and `qtdis -s` count every exception that `qtdis -s` knows equally often. -/
theorem C79_exceptions (l : List Stats.Insn) (m : List Item) (hm : ∀ x ∈ m, Spec.Plain x) (ha : m.map (·.addr) = l.map (·.ea)) (hl : l.length < 2 ^ 64) :
    ∃ s t, Stats.run Stats.tables (Stats.init Stats.tables) l = some s ∧ run (listing m) = some t ∧
      ∀ (k : Nat) (v : BitVec 64), Stats.exceptionAddrs[k]? = some v → s.exceptions[k]?.map (·.toNat) = some (look v.toNat t.exceptions) := by
  obtain ⟨s, h1, h2⟩ := Stats.C27_counts Stats.tables_good l
  obtain ⟨-, -, -, -, c5⟩ := fold_counts (m.map parsed) {}
  refine ⟨s, _, h1, run_listing m hm, ?_⟩
  intro k v hk
  have hlt : k < Stats.tables.exceptions.length := (List.getElem?_eq_some_iff.1 hk).1
  have hvec : ∀ x : Stats.Insn, Stats.vectorAt Stats.tables x k = isVector v x := by
    intro x
    unfold Stats.vectorAt
    show (Option.map _ (Stats.exceptionAddrs[k]?)).getD false = _
    rw [hk]; rfl
  rw [h2.exceptions, Stats.counters_get, if_pos hlt, Option.map_some, count_eq (fun x => Stats.vectorAt Stats.tables x k), ofNat_countP hl, c5]
  congr 1
  have e : l.countP (fun x => Stats.vectorAt Stats.tables x k) = l.countP (fun x => isVector v ⟨x.ea, 0⟩) := by
    apply List.countP_congr
    intro x _
    rw [hvec]; rfl
  rw [e, countP_addr ha (p := fun a => isVector v ⟨a, 0⟩) (q := fun a => isExceptionEntry a && decide (a &&& 0xfff = v.toNat))
    (fun x _ => vector_isVector (List.mem_of_getElem? hk) ⟨x.ea, 0⟩)]
  exact (Nat.zero_add _).symm

/-- An entry for a system call. -/
def entry : Item := { addr := 0xc000000000004c00, sym := some ("exc_virt_0x4c00_system_call".toList, 0), text := "mr      r9,r13".toList }

theorem entry_plain : Spec.Plain entry where
  name := by
    intro n o h
    obtain ⟨rfl, rfl⟩ := Prod.mk.inj (Option.some.inj h)
    decide
  first := by
    intro c h
    have : c = 'm' := by simpa [entry] using h.symm
    subst this; decide
  line := by decide

example : ∃ s t, Stats.run Stats.tables (Stats.init Stats.tables) [⟨0xc000000000004c00, 0x60000000⟩] = some s ∧ run (listing [entry]) = some t ∧
    ∀ (k : Nat) (v : BitVec 64), Stats.exceptionAddrs[k]? = some v → s.exceptions[k]?.map (·.toNat) = some (look v.toNat t.exceptions) :=
  C79_exceptions _ _ (by simpa using entry_plain) rfl (by decide)

example : (run (listing [entry])).map (fun t => look 0xc00 t.exceptions) = some 1 := by decide +kernel

/-- **C79**, partial: without instructions of the firmware the total is the number of instructions, and the shares add up to it.  The full statement,
for all traces, is false: `C79_shares_refuted`. -/
theorem C79_shares_partial (l : List Item) (hp : ∀ x ∈ l, Spec.Plain x) (hne : l ≠ [])
    (hf : ∀ x ∈ l, ¬(0x30000000 ≤ x.addr.toNat ∧ x.addr.toNat < 0x31000000)) :
    ∃ r, report l = some r ∧ r.total = l.length ∧ (r.user : Int) + r.opal + r.system + r.idle = r.total := by
  obtain ⟨s, h1, h2⟩ := C78_listing_partial l hp
  have h3 : s.opal = 0 := by
    obtain ⟨-, c2, -⟩ := fold_counts (l.map parsed) {}
    rw [run_listing l hp] at h1
    rw [← Option.some.inj h1, c2]
    show 0 + _ = 0
    rw [Nat.zero_add, List.countP_map, List.countP_eq_zero]
    intro x hx h
    simp only [Function.comp, inOpal, Bool.and_eq_true, decide_eq_true_eq] at h
    exact hf x hx ((opal_mask x.addr).1 h.2)
  have hpos : 0 < l.length := List.length_pos_iff.2 hne
  refine ⟨_, by rw [report, h1, Option.bind_some, shares, if_neg (by omega)], ?_, ?_⟩
  · dsimp only; omega
  · dsimp only
    rw [h3]
    omega

example : ∃ r, report [sysRead, inModule] = some r ∧ r.total = 2 ∧ (r.user : Int) + r.opal + r.system + r.idle = r.total :=
  C79_shares_partial _ (by simpa using ⟨sysRead_plain, inModule_plain⟩) (by simp) (by simp [sysRead, inModule])

/-- An instruction of the firmware. -/
def inFirmware : Item := { addr := 0x30000f00, sym := none, text := "nop".toList }

theorem inFirmware_plain : Spec.Plain inFirmware where
  name := fun n o h => by cases h
  first := by
    intro c h
    have : c = 'n' := by simpa [inFirmware] using h.symm
    subst this; decide
  line := by decide

/-- **C79**, refuted: with one instruction of the kernel and one of the firmware, one instruction is reported, of which 100 % are in the kernel and
100 % in the firmware. -/
theorem C79_shares_refuted : ∃ l : List Item, (∀ x ∈ l, Spec.Plain x) ∧ l.length = 2 ∧
    report l = some { total := 1, user := 0, opal := 1, system := 1, idle := 0 } :=
  ⟨[sysRead, inFirmware], by simpa using ⟨sysRead_plain, inFirmware_plain⟩, rfl, by decide +kernel⟩

/-- **C79**, refuted: a share can be negative, if the idle loop is not in the kernel's part of the address space (real mode). -/
theorem C79_negative_refuted : ∃ l : List Item, (∀ x ∈ l, Spec.Plain x) ∧
    report l = some { total := 1, user := 1, opal := 0, system := -1, idle := 1 } := by
  refine ⟨[{ addr := 0x8a0000, sym := some ("snooze_loop".toList, 0x40), text := "nop".toList }], ?_, by decide +kernel⟩
  intro x hx
  rw [List.mem_singleton] at hx
  subst hx
  refine ⟨?_, ?_, by decide⟩
  · intro n o h
    obtain ⟨rfl, rfl⟩ := Prod.mk.inj (Option.some.inj h)
    decide
  · intro c h
    have : c = 'n' := by simpa using h.symm
    subst this; decide

/-! ## C80: system calls -/

theorem isCall_eq (x : Item) : isCall x.addr.toNat = Spec.entersCall x := by
  rw [Bool.eq_iff_iff]
  show (isExceptionEntry x.addr.toNat && decide (x.addr.toNat &&& 0xfff = 0xc00)) = true ↔ _
  rw [vector_iff x.addr (by decide)]
  simp [Spec.entersCall]

/-- What a line does to the state of the search for system calls. -/
theorem step_calls (s : State) (x : Item) :
    (parseOne s (parsed x)).systemCalls = (if s.branch then bump (functionOf x.sym) s.systemCalls else s.systemCalls) ∧
    (parseOne s (parsed x)).branch = ((Spec.entersCall x || s.inEntry) && Spec.callsOut x) ∧
    (parseOne s (parsed x)).inEntry = ((Spec.entersCall x || s.inEntry) && !Spec.callsOut x) := by
  have h : decide ((parsed x).insn = "bctrl".toList) = Spec.callsOut x := by
    unfold Spec.callsOut
    rw [Bool.eq_iff_iff, decide_eq_true_eq, beq_iff_eq]; rfl
  rw [parseOne_eq]
  dsimp only
  rw [h, show (parsed x).addr = x.addr.toNat from rfl, isCall_eq]
  exact ⟨rfl, rfl, rfl⟩

/-- The state between two parts. -/
def Quiet (s : State) : Prop := s.inEntry = false ∧ s.branch = false

theorem path_calls : ∀ (p : List Item) (s : State), s.inEntry = true → s.branch = false → (∀ x ∈ p, Spec.entersCall x = false ∧ Spec.callsOut x = false) →
    ((p.map parsed).foldl parseOne s).inEntry = true ∧ ((p.map parsed).foldl parseOne s).branch = false ∧
    ((p.map parsed).foldl parseOne s).systemCalls = s.systemCalls
  | [], _, h1, h2, _ => ⟨h1, h2, rfl⟩
  | x :: p, s, h1, h2, h => by
    obtain ⟨h3, h4, h5⟩ := step_calls s x
    obtain ⟨hx1, hx2⟩ := h x List.mem_cons_self
    rw [h2, if_neg (by simp)] at h3
    rw [h1, hx1, hx2] at h4 h5
    obtain ⟨i1, i2, i3⟩ := path_calls p (parseOne s (parsed x)) h5 h4 fun y hy => h y (List.mem_cons_of_mem _ hy)
    rw [List.map_cons, List.foldl_cons]
    exact ⟨i1, i2, i3.trans h3⟩

/-- The system calls of a part. -/
def Spec.Piece.counts (f : List Char) (p : Spec.Piece) : Bool := (p.handler.map fun h => decide (functionOf h.sym = f)).getD false

theorem piece_calls (p : Spec.Piece) (hp : p.Good) (s : State) (hs : Quiet s) (f : List Char) :
    Quiet ((p.items.map parsed).foldl parseOne s) ∧
    look f ((p.items.map parsed).foldl parseOne s).systemCalls = look f s.systemCalls + bit (p.counts f) := by
  obtain ⟨q1, q2⟩ := hs
  cases p with
  | insn x =>
    obtain ⟨h3, h4, h5⟩ := step_calls s x
    rw [show Spec.entersCall x = false from hp, q1] at h4 h5
    rw [q2, if_neg (by simp)] at h3
    show Quiet (parseOne s (parsed x)) ∧ look f (parseOne s (parsed x)).systemCalls = _ + 0
    exact ⟨⟨h5, h4⟩, by rw [h3]; rfl⟩
  | call e p b h =>
    obtain ⟨he1, he2, hpath, ⟨hb1, hb2⟩, hh⟩ := hp
    have e1 : ((Spec.Piece.call e p b h).items.map parsed).foldl parseOne s =
        parseOne (parseOne ((p.map parsed).foldl parseOne (parseOne s (parsed e))) (parsed b)) (parsed h) := by
      simp [Spec.Piece.items, List.foldl_append]
    rw [e1]
    obtain ⟨a3, a4, a5⟩ := step_calls s e
    rw [q2, if_neg (by simp)] at a3
    rw [he1, he2] at a4 a5
    obtain ⟨i1, i2, i3⟩ := path_calls p _ (a5.trans (by simp)) (a4.trans (by simp)) hpath
    generalize (p.map parsed).foldl parseOne (parseOne s (parsed e)) = s2 at i1 i2 i3 ⊢
    obtain ⟨b3, b4, b5⟩ := step_calls s2 b
    rw [i2, if_neg (by simp)] at b3
    rw [i1, hb1, hb2] at b4 b5
    generalize parseOne s2 (parsed b) = s3 at b3 b4 b5 ⊢
    obtain ⟨c3, c4, c5⟩ := step_calls s3 h
    rw [b4, if_pos (by simp)] at c3
    rw [b5, hh] at c4 c5
    refine ⟨⟨c5.trans (by simp), c4.trans (by simp)⟩, ?_⟩
    rw [c3, look_bump, b3, i3, a3]
    show _ + _ = _ + bit (decide (functionOf h.sym = f))
    rw [bit]
    simp only [decide_eq_true_eq]

theorem pieces_calls (f : List Char) : ∀ (ps : List Spec.Piece) (s : State), (∀ p ∈ ps, p.Good) → Quiet s →
    look f ((((ps.map (·.items)).flatten).map parsed).foldl parseOne s).systemCalls = look f s.systemCalls + ps.countP (·.counts f)
  | [], _, _, _ => rfl
  | p :: ps, s, h, hs => by
    obtain ⟨h1, h2⟩ := piece_calls p (h p List.mem_cons_self) s hs f
    rw [List.map_cons, List.flatten_cons, List.map_append, List.foldl_append, pieces_calls f ps _ (fun q hq => h q (List.mem_cons_of_mem _ hq)) h1, h2,
      countP_step, Nat.add_assoc]

/-- **C80**, partial: in a trace in which every entry for a system call goes on to a `bctrl` without another one before, and the next instruction is in
the function that serves it, the number reported for a name is the number of the system calls served by functions of that name.  The full statement, for
all traces, is false: `C80_refuted`. -/
theorem C80_calls_partial (ps : List Spec.Piece) (hg : ∀ p ∈ ps, p.Good) (hp : ∀ p ∈ ps, ∀ x ∈ p.items, Spec.Plain x) (f : List Char)
    (hf : ∀ p ∈ ps, ∀ h, p.handler = some h → ∃ n o g, h.sym = some (n, o) ∧ Spec.Reported n g) [DecidablePred (Spec.Piece.ServedBy f)] :
    ∃ s, run (listing (ps.map (·.items)).flatten) = some s ∧ look f s.systemCalls = ps.countP fun p => decide (p.ServedBy f) := by
  refine ⟨_, run_listing _ ?_, ?_⟩
  · intro x hx
    obtain ⟨l, hl, hxl⟩ := List.mem_flatten.1 hx
    obtain ⟨p, hpm, rfl⟩ := List.mem_map.1 hl
    exact hp p hpm x hxl
  · rw [pieces_calls f ps {} hg ⟨rfl, rfl⟩]
    show 0 + _ = _
    rw [Nat.zero_add]
    apply List.countP_congr
    intro p hpm
    rw [decide_eq_true_eq]
    unfold Spec.Piece.counts Spec.Piece.ServedBy
    cases hh : p.handler with
    | none => simp
    | some h =>
      obtain ⟨n, o, g, h1, h2⟩ := hf p hpm h hh
      have hmem : h ∈ p.items := by
        cases p with
        | insn x => cases hh
        | call e q b h' =>
          have : h' = h := Option.some.inj hh
          subst this
          simp [Spec.Piece.items]
      have hplain := (hp p hpm h hmem).name n o h1
      have hfn : ∀ g, Spec.Reported n g → functionOf h.sym = g := by
        intro g hg
        rw [h1]
        exact functionName_reported hg (fun c hc => (hplain c hc).2) _
      simp only [Option.map_some, Option.getD_some, decide_eq_true_eq]
      constructor
      · intro e
        rw [hfn g h2] at e
        subst e
        exact ⟨h, n, o, rfl, h1, h2⟩
      · rintro ⟨h', n', o', e1, e2, e3⟩
        have := Option.some.inj e1
        subst this
        rw [h1] at e2
        obtain ⟨rfl, rfl⟩ := Prod.mk.inj (Option.some.inj e2)
        exact hfn f e3

/-- **C80**: for every listing, no more system calls are reported than there were entries for system calls. -/
theorem C80_bound (l : List Item) (hp : ∀ x ∈ l, Spec.Plain x) : ∃ s, run (listing l) = some s ∧
    (s.systemCalls.map (·.2)).sum ≤ l.countP Spec.entersCall := by
  refine ⟨_, run_listing l hp, ?_⟩
  have : ∀ (l : List Item) (s : State), (((l.map parsed).foldl parseOne s).systemCalls.map (·.2)).sum ≤
      (s.systemCalls.map (·.2)).sum + bit s.branch + bit s.inEntry + l.countP Spec.entersCall := by
    intro l
    induction l with
    | nil => intro s; show _ ≤ _ + _ + _ + 0; simp only [List.map_nil, List.foldl_nil]; omega
    | cons x l ih =>
      intro s
      obtain ⟨h3, h4, h5⟩ := step_calls s x
      have := ih (parseOne s (parsed x))
      rw [List.map_cons, List.foldl_cons, countP_step]
      rw [h3, h4, h5] at this
      refine Nat.le_trans this ?_
      have hs : (((if s.branch then bump (functionOf x.sym) s.systemCalls else s.systemCalls)).map (·.2)).sum =
          (s.systemCalls.map (·.2)).sum + bit s.branch := by
        cases s.branch
        · rfl
        · exact sum_bump _ _
      rw [hs]
      have hb : bit ((Spec.entersCall x || s.inEntry) && Spec.callsOut x) + bit ((Spec.entersCall x || s.inEntry) && !Spec.callsOut x) ≤
          bit s.inEntry + bit (Spec.entersCall x) := by
        cases Spec.entersCall x <;> cases s.inEntry <;> cases Spec.callsOut x <;> decide
      omega
  have := this l {}
  have e : (([] : List (List Char × Nat)).map (·.2)).sum + bit false + bit false = 0 := rfl
  change _ ≤ (([] : List (List Char × Nat)).map (·.2)).sum + bit false + bit false + _ at this
  rw [e, Nat.zero_add] at this
  exact this

/-- The branch to the function, and its first instruction. -/
def branchInsn : Item := { addr := 0xc00000000000bd80, sym := some ("system_call".toList, 0x48), text := "bctrl".toList }
def handlerInsn : Item := { addr := 0xc0000000003a1220, sym := some ("sys_read".toList, 0), text := "mflr    r0".toList }

theorem branch_plain : Spec.Plain branchInsn where
  name := by
    intro n o h
    obtain ⟨rfl, rfl⟩ := Prod.mk.inj (Option.some.inj h)
    decide
  first := by
    intro c h
    have : c = 'b' := by simpa [branchInsn] using h.symm
    subst this; decide
  line := by decide

theorem handler_plain : Spec.Plain handlerInsn where
  name := by
    intro n o h
    obtain ⟨rfl, rfl⟩ := Prod.mk.inj (Option.some.inj h)
    decide
  first := by
    intro c h
    have : c = 'm' := by simpa [handlerInsn] using h.symm
    subst this; decide
  line := by decide

example : (Spec.Piece.call entry [] branchInsn handlerInsn).Good ∧ (∀ x ∈ (Spec.Piece.call entry [] branchInsn handlerInsn).items, Spec.Plain x) := by
  refine ⟨⟨by decide, by decide, by simp, by decide, by decide⟩, ?_⟩
  simpa [Spec.Piece.items] using ⟨entry_plain, branch_plain, handler_plain⟩

example : (run (listing [entry, branchInsn, handlerInsn])).map (·.systemCalls) = some [("read".toList, 1)] := by decide +kernel

/-- A function pointer that the kernel calls later, in an interrupt. -/
def laterBranch : Item := { addr := 0xc000000000123400, sym := some ("__handle_irq_event_percpu".toList, 0x60), text := "bctrl".toList }
def laterHandler : Item := { addr := 0xc000000000567800, sym := some ("e1000_intr".toList, 0), text := "mflr    r0".toList }

theorem later_plain : Spec.Plain laterBranch ∧ Spec.Plain laterHandler := by
  constructor
  · refine ⟨?_, ?_, by decide⟩
    · intro n o h
      obtain ⟨rfl, rfl⟩ := Prod.mk.inj (Option.some.inj h)
      decide
    · intro c h
      have : c = 'b' := by simpa [laterBranch] using h.symm
      subst this; decide
  · refine ⟨?_, ?_, by decide⟩
    · intro n o h
      obtain ⟨rfl, rfl⟩ := Prod.mk.inj (Option.some.inj h)
      decide
    · intro c h
      have : c = 'm' := by simpa [laterHandler] using h.symm
      subst this; decide

/-- **C80**, refuted: an entry that does not go on to a function (a call with a number that does not exist) makes the next function that is called by
`bctrl`, here the one of a device's interrupt, a system call. -/
theorem C80_refuted : ∃ l : List Item, (∀ x ∈ l, Spec.Plain x) ∧ (run (listing l)).map (·.systemCalls) = some [("e1000_intr".toList, 1)] := by
  refine ⟨[entry, sysRead, laterBranch, laterHandler], ?_, by decide +kernel⟩
  simpa using ⟨entry_plain, sysRead_plain, later_plain.1, later_plain.2⟩

/-- **C80**, refuted: in a listing with the words of the instructions (option -r) no system call is found. -/
theorem C80_raw_refuted : ∃ l : List Item, (∀ x ∈ l, Spec.Plain x) ∧ l.countP Spec.entersCall = 1 ∧ (run (listing l)).map (·.systemCalls) = some [] := by
  refine ⟨[entry, { branchInsn with text := "21 04 80 4e \tbctrl".toList }, handlerInsn], ?_, by decide +kernel, by decide +kernel⟩
  intro x hx
  simp only [List.mem_cons, List.not_mem_nil, or_false] at hx
  rcases hx with rfl | rfl | rfl
  · exact entry_plain
  · refine ⟨branch_plain.name, ?_, by decide⟩
    intro c h
    have : c = '2' := by simpa using h.symm
    subst this; decide
  · exact handler_plain

end Script
