import Verif.Ptracer.AsciiLog

/-!
# Reading back the log: helper lemmas
-/

namespace Ptr.Log

theorem hexVal_digitChar : ∀ d : Fin 16, hexVal (Nat.digitChar d) = some d.val := by decide

theorem digitChar_hex : ∀ d : Fin 16, Nat.digitChar d ≠ '\n' ∧ Nat.digitChar d ≠ '\t' := by decide

theorem hexNum_append : ∀ (l m : List Char) (a : Nat), hexNum a (l ++ m) = (hexNum a l).bind fun b => hexNum b m
  | [], _, _ => rfl
  | c :: l, m, a => by
    show (hexVal c).bind _ = ((hexVal c).bind _).bind _
    cases hexVal c with
    | none => rfl
    | some d => exact hexNum_append l m _

theorem hexNum_base : ∀ (l : List Char) (a : Nat),
    hexNum a l = (hexNum 0 l).map fun v => a * 16 ^ l.length + v
  | [], a => by simp [hexNum]
  | c :: l, a => by
    show (hexVal c).bind _ = Option.map _ ((hexVal c).bind _)
    cases hexVal c with
    | none => rfl
    | some d =>
      show hexNum (16 * a + d) l = Option.map _ (hexNum (16 * 0 + d) l)
      rw [hexNum_base l (16 * a + d), hexNum_base l (16 * 0 + d)]
      cases hexNum 0 l with
      | none => rfl
      | some v =>
        simp only [Option.map_some, List.length_cons, Nat.pow_succ, Option.some.injEq]
        rw [Nat.add_mul, Nat.add_mul]
        have : 16 * a * 16 ^ l.length = a * (16 ^ l.length * 16) := by
          rw [Nat.mul_comm 16 a, Nat.mul_assoc, Nat.mul_comm 16]
        omega

theorem fmtX_step (v : Nat) (h : 16 ≤ v) : fmtX v = fmtX (v / 16) ++ [Nat.digitChar (v % 16)] := by
  unfold fmtX
  rw [Nat.toDigits_of_base_le (by omega) h]

theorem fmtX_low (v : Nat) (h : v < 16) : fmtX v = [Nat.digitChar v] := Nat.toDigits_of_lt_base h

theorem hexNum_fmtX : ∀ (v : Nat), hexNum 0 (fmtX v) = some v := by
  intro v
  induction v using Nat.strongRecOn with
  | _ v ih =>
    by_cases h : v < 16
    · rw [fmtX_low v h]
      show (hexVal (Nat.digitChar v)).bind _ = _
      rw [hexVal_digitChar ⟨v, h⟩]
      simp [hexNum]
    · rw [fmtX_step v (by omega), hexNum_append, ih (v / 16) (by omega)]
      show (hexVal (Nat.digitChar (v % 16))).bind _ = _
      rw [hexVal_digitChar ⟨v % 16, by omega⟩]
      simp only [Option.bind_some, hexNum, Option.some.injEq]
      omega

/-- The characters of printed numbers are neither line ends nor tabs. -/
theorem fmtX_chars (v : Nat) : ∀ c ∈ fmtX v, c ≠ '\n' ∧ c ≠ '\t' := by
  induction v using Nat.strongRecOn with
  | _ v ih =>
    intro c hc
    by_cases h : v < 16
    · rw [fmtX_low v h, List.mem_singleton] at hc
      subst hc
      exact digitChar_hex ⟨v, h⟩
    · rw [fmtX_step v (by omega), List.mem_append, List.mem_singleton] at hc
      rcases hc with hc | rfl
      · exact ih _ (by omega) c hc
      · exact digitChar_hex ⟨v % 16, by omega⟩

theorem fmtX_length (v w : Nat) (hw : 0 < w) (h : v < 16 ^ w) : (fmtX v).length ≤ w :=
  (Nat.length_toDigits_le_iff (by omega) hw).2 h

theorem hexNum_zeros : ∀ (k : Nat) (l : List Char), hexNum 0 (List.replicate k '0' ++ l) = hexNum 0 l
  | 0, _ => rfl
  | k + 1, l => by
    rw [List.replicate_succ]
    show hexNum (16 * 0 + 0) _ = _
    exact hexNum_zeros k l

theorem fmtPad_length (w v : Nat) (hw : 0 < w) (h : v < 16 ^ w) : (fmtPad w v).length = w := by
  have := fmtX_length v w hw h
  simp only [fmtPad, List.length_append, List.length_replicate]
  omega

theorem fmtPad_chars (w v : Nat) : ∀ c ∈ fmtPad w v, c ≠ '\n' ∧ c ≠ '\t' := by
  intro c hc
  rw [fmtPad, List.mem_append] at hc
  rcases hc with hc | hc
  · rw [List.eq_of_mem_replicate hc]; decide
  · exact fmtX_chars v c hc

theorem hexNum_fmtPad (w v a : Nat) (hw : 0 < w) (h : v < 16 ^ w) :
    hexNum a (fmtPad w v) = some (a * 16 ^ w + v) := by
  rw [hexNum_base, fmtPad_length w v hw h]
  unfold fmtPad
  rw [hexNum_zeros, hexNum_fmtX]
  rfl

theorem number_of (l : List Char) (h : l ≠ []) : number ('0' :: 'x' :: l) = hexNum 0 l := by
  cases l with
  | nil => exact absurd rfl h
  | cons d t => rfl

theorem fmtX_ne (v : Nat) : fmtX v ≠ [] := Nat.toDigits_ne_nil

theorem lines_cons : ∀ (l : List Char) (t : List Char), (∀ c ∈ l, c ≠ '\n') → lines (l ++ '\n' :: t) = l :: lines t
  | [], t, _ => by simp [lines]
  | c :: l, t, h => by
    have e : lines (c :: l ++ '\n' :: t) = if c = '\n' then [] :: lines (l ++ '\n' :: t) else
      (match lines (l ++ '\n' :: t) with
      | [] => [[c]]
      | l :: ls => (c :: l) :: ls) := rfl
    rw [e, if_neg (h c List.mem_cons_self), lines_cons l t (fun d hd => h d (List.mem_cons_of_mem _ hd))]

theorem mem_all : ∀ r : Reg, r ∈ Reg.all := by
  intro r
  cases r <;> simp [Reg.all, List.mem_finRange]

theorem find_all : ∀ r ∈ Reg.all, named r.name = some r := by
  decide +kernel

theorem name_chars : ∀ r ∈ Reg.all, r.name.all (fun c => decide (c ≠ ' ') && decide (c ≠ '\n')) = true := by
  decide +kernel

theorem name_nospace (r : Reg) : ∀ c ∈ r.name, c ≠ ' ' ∧ c ≠ '\n' := by
  intro c hc
  have h := List.all_eq_true.1 (name_chars r (mem_all r)) c hc
  simpa using h

theorem takeWhile_stop {p : Char → Bool} : ∀ (l : List Char) (x : Char) (t : List Char), (∀ c ∈ l, p c = true) →
    p x = false → (l ++ x :: t).takeWhile p = l ∧ (l ++ x :: t).dropWhile p = x :: t
  | [], x, t, _, hx => by simp [List.takeWhile, List.dropWhile, hx]
  | c :: l, x, t, h, hx => by
    obtain ⟨h1, h2⟩ := takeWhile_stop l x t (fun d hd => h d (List.mem_cons_of_mem _ hd)) hx
    have hc := h c List.mem_cons_self
    constructor
    · rw [List.cons_append, List.takeWhile_cons_of_pos hc, h1]
    · rw [List.cons_append, List.dropWhile_cons_of_pos hc, h2]

/-- A line that gives a register its value; behind the name may be one or two blanks. -/
theorem readLine_value (r : Reg) (ds : List Char) (v : Nat) (extra : List Char) (hx : extra = [] ∨ extra = [' '])
    (hd : ds ≠ []) (hv : hexNum 0 ds = some v) :
    readLine ('\t' :: (r.name ++ extra) ++ [' ', '0', 'x'] ++ ds) = some (.value r v) := by
  have hn : ∀ c ∈ r.name, (fun c => decide (c ≠ ' ')) c = true := fun c hc => by
    simpa using (name_nospace r c hc).1
  have key : ∃ rest, r.name ++ extra ++ [' ', '0', 'x'] ++ ds = r.name ++ ' ' :: rest ∧
      (' ' :: rest).dropWhile (fun c => decide (c = ' ')) = '0' :: 'x' :: ds := by
    rcases hx with rfl | rfl
    · exact ⟨'0' :: 'x' :: ds, by simp, by simp [List.dropWhile]⟩
    · exact ⟨' ' :: '0' :: 'x' :: ds, by simp, by simp [List.dropWhile]⟩
  obtain ⟨rest, h1, h2⟩ := key
  obtain ⟨t1, t2⟩ := takeWhile_stop (p := fun c => decide (c ≠ ' ')) r.name ' ' rest hn (by decide)
  unfold readLine
  rw [if_pos (by rfl)]
  simp only [List.cons_append, List.tail_cons]
  rw [h1, t1, t2, h2, find_all r (mem_all r), number_of ds hd, hv]
  rfl

/-- A line of an instruction. -/
theorem readLine_insn (insn : BitVec 32) (pc : BitVec 64) :
    readLine (fmtP pc.toNat ++ ['\t', '0', 'x'] ++ fmtX insn.toNat) = some (.insn pc.toNat insn.toNat) := by
  have ht : ∀ c ∈ fmtP pc.toNat, (fun c => decide (c ≠ '\t')) c = true := by
    intro c hc
    unfold fmtP at hc
    split at hc
    · have : ∀ c ∈ "(nil)".toList, c ≠ '\t' := by decide
      simpa using this c hc
    · simp only [List.mem_cons] at hc
      rcases hc with rfl | rfl | hc
      · decide
      · decide
      · simpa using (fmtX_chars _ c hc).2
  have hh : (fmtP pc.toNat ++ ['\t', '0', 'x'] ++ fmtX insn.toNat).head? ≠ some '\t' := by
    unfold fmtP
    split <;> simp
  have e : fmtP pc.toNat ++ ['\t', '0', 'x'] ++ fmtX insn.toNat =
      fmtP pc.toNat ++ '\t' :: ('0' :: 'x' :: fmtX insn.toNat) := by simp
  obtain ⟨t1, t2⟩ := takeWhile_stop (p := fun c => decide (c ≠ '\t')) (fmtP pc.toNat) '\t'
    ('0' :: 'x' :: fmtX insn.toNat) ht (by decide)
  unfold readLine
  rw [if_neg hh, e]
  simp only
  rw [t1, t2, List.tail_cons, number_of _ (fmtX_ne _), hexNum_fmtX]
  have ha : address (fmtP pc.toNat) = some pc.toNat := by
    unfold fmtP address
    by_cases h0 : pc.toNat = 0
    · rw [if_pos h0, h0]; rfl
    · rw [if_neg h0, if_neg (by simp), number_of _ (fmtX_ne _), hexNum_fmtX]
  rw [ha]
  rfl

/-! ### Texts of several lines -/

/-- The text is made of whole lines that read as the entries. -/
def Reads (text : List Char) (es : List Entry) : Prop :=
  ∃ ls, ls.mapM readLine = some es ∧ ∀ t, lines (text ++ t) = ls ++ lines t

theorem Reads.nil : Reads [] [] := ⟨[], rfl, fun _ => rfl⟩

theorem Reads.append {t1 t2 : List Char} {e1 e2 : List Entry} (h1 : Reads t1 e1) (h2 : Reads t2 e2) :
    Reads (t1 ++ t2) (e1 ++ e2) := by
  obtain ⟨l1, m1, n1⟩ := h1
  obtain ⟨l2, m2, n2⟩ := h2
  refine ⟨l1 ++ l2, ?_, fun t => ?_⟩
  · rw [List.mapM_append, m1, m2]; rfl
  · rw [List.append_assoc, n1, n2, List.append_assoc]

theorem Reads.line {l : List Char} {e : Entry} (hl : ∀ c ∈ l, c ≠ '\n') (h : readLine l = some e) :
    Reads (l ++ ['\n']) [e] := by
  refine ⟨[l], ?_, fun t => ?_⟩
  · simp [List.mapM_cons, h]
  · rw [List.append_assoc]
    exact lines_cons l t hl

theorem Reads.flatMap {α : Type} {f : α → List Char} {g : α → List Entry} : ∀ (l : List α),
    (∀ a ∈ l, Reads (f a) (g a)) → Reads (l.flatMap f) (l.flatMap g)
  | [], _ => Reads.nil
  | a :: l, h => by
    rw [List.flatMap_cons, List.flatMap_cons]
    exact (h a List.mem_cons_self).append (Reads.flatMap l fun b hb => h b (List.mem_cons_of_mem _ hb))

/-- The entry of a register that has changed. -/
def diff (f g : File) (r : Reg) : List Entry := if f r = g r then [] else [.value r (g r)]

theorem reads_value (r : Reg) (ds : List Char) (v : Nat) (str : List Char) (hs : str = r.name ∨ str = r.name ++ [' '])
    (hd : ds ≠ []) (hv : hexNum 0 ds = some v) (hn : ∀ c ∈ ds, c ≠ '\n') :
    Reads ('\t' :: str ++ [' ', '0', 'x'] ++ ds ++ ['\n']) [.value r v] := by
  have hb : ∀ c ∈ r.name, c ≠ '\n' := fun c hc => (name_nospace r c hc).2
  refine Reads.line ?_ ?_
  · intro c hc
    simp only [List.mem_append, List.mem_cons, List.not_mem_nil, or_false] at hc
    rcases hc with ((rfl | hc) | rfl | rfl | rfl) | hc
    · decide
    · rcases hs with rfl | rfl
      · exact hb c hc
      · rw [List.mem_append, List.mem_singleton] at hc
        rcases hc with hc | rfl
        · exact hb c hc
        · decide
    · decide
    · decide
    · decide
    · exact hn c hc
  · rcases hs with rfl | rfl
    · have := readLine_value r ds v [] (.inl rfl) hd hv
      rwa [List.append_nil] at this
    · exact readLine_value r ds v [' '] (.inr rfl) hd hv

theorem fmtPad_ne (w v : Nat) : fmtPad w v ≠ [] := by
  unfold fmtPad
  intro h
  exact fmtX_ne v (List.append_eq_nil_iff.1 h).2

theorem reads_compare32 (r : Reg) (prev cur : BitVec 32) (f g : File) (str : List Char)
    (hs : str = r.name) (hf : f r = prev.toNat) (hg : g r = cur.toNat) :
    Reads (compare32 prev cur str) (diff f g r) := by
  unfold compare32 diff
  rw [hf, hg]
  by_cases h : prev = cur
  · rw [if_neg (by simpa using h), if_pos (by rw [h])]
    exact Reads.nil
  · rw [if_pos h, if_neg (fun e => h (BitVec.eq_of_toNat_eq e))]
    refine reads_value r _ _ _ (.inl hs) (fmtPad_ne _ _) ?_ (fun c hc => (fmtPad_chars _ _ c hc).1)
    rw [hexNum_fmtPad 8 _ 0 (by omega) (by have := cur.isLt; omega)]
    simp

theorem reads_compare64 (r : Reg) (prev cur : BitVec 64) (f g : File) (str : List Char)
    (hs : str = r.name) (hf : f r = prev.toNat) (hg : g r = cur.toNat) :
    Reads (compare64 prev cur str) (diff f g r) := by
  unfold compare64 diff
  rw [hf, hg]
  by_cases h : prev = cur
  · rw [if_neg (by simpa using h), if_pos (by rw [h])]
    exact Reads.nil
  · rw [if_pos h, if_neg (fun e => h (BitVec.eq_of_toNat_eq e))]
    refine reads_value r _ _ _ (.inl hs) (fmtPad_ne _ _) ?_ (fun c hc => (fmtPad_chars _ _ c hc).1)
    rw [hexNum_fmtPad 16 _ 0 (by omega) (by have := cur.isLt; omega)]
    simp

theorem high_half (v : BitVec 128) : ((v.sshiftRight 64).setWidth 64).toNat = v.toNat / 2 ^ 64 := by
  have e : (v.sshiftRight 64).setWidth 64 = (v >>> 64).setWidth 64 := by
    ext i hi
    simp only [BitVec.getElem_setWidth, BitVec.getLsbD_sshiftRight, BitVec.getLsbD_ushiftRight]
    rw [if_pos (by omega)]
    have : ¬ 128 ≤ i := by omega
    simp [this]
  rw [e, BitVec.toNat_setWidth, BitVec.toNat_ushiftRight, Nat.shiftRight_eq_div_pow]
  have := v.isLt
  exact Nat.mod_eq_of_lt (by omega)

theorem high_word (v : BitVec 128) : ((v.sshiftRight 96).setWidth 32).toNat = v.toNat / 2 ^ 96 := by
  have e : (v.sshiftRight 96).setWidth 32 = (v >>> 96).setWidth 32 := by
    ext i hi
    simp only [BitVec.getElem_setWidth, BitVec.getLsbD_sshiftRight, BitVec.getLsbD_ushiftRight]
    rw [if_pos (by omega)]
    have : ¬ 128 ≤ i := by omega
    simp [this]
  rw [e, BitVec.toNat_setWidth, BitVec.toNat_ushiftRight, Nat.shiftRight_eq_div_pow]
  have := v.isLt
  exact Nat.mod_eq_of_lt (by omega)

theorem low_half (v : BitVec 128) : ((v &&& 0xffffffffffffffff#128).setWidth 64).toNat = v.toNat % 2 ^ 64 := by
  rw [BitVec.toNat_setWidth, BitVec.toNat_and]
  have : (0xffffffffffffffff#128).toNat = 2 ^ 64 - 1 := by decide
  rw [this, Nat.and_two_pow_sub_one_eq_mod, Nat.mod_mod]

theorem reads_compare128 (r : Reg) (prev cur : BitVec 128) (f g : File) (str : List Char)
    (hs : str = r.name ∨ str = r.name ++ [' ']) (hf : f r = prev.toNat) (hg : g r = cur.toNat) :
    Reads (compare128 prev cur str) (diff f g r) := by
  unfold compare128 diff
  rw [hf, hg]
  by_cases h : prev = cur
  · rw [if_neg (by simpa using h), if_pos (by rw [h])]
    exact Reads.nil
  · rw [if_pos h, if_neg (fun e => h (BitVec.eq_of_toNat_eq e)), high_half, low_half]
    have hl := cur.isLt
    rw [List.append_assoc _ (fmtPad 16 _) (fmtPad 16 _)]
    refine reads_value r _ _ _ hs (by simp [fmtPad_ne]) ?_ ?_
    · rw [hexNum_append, hexNum_fmtPad 16 _ 0 (by omega) (by omega), Option.bind_some,
        hexNum_fmtPad 16 _ _ (by omega) (by omega)]
      congr 1
      omega
    · intro c hc
      rw [List.mem_append] at hc
      rcases hc with hc | hc <;> exact (fmtPad_chars _ _ c hc).1

/-! ### A dump of the registers -/

/-- The register values in a state of the tracer. -/
def RState.file (le : Bool) (s : RState) : File
  | .gpr i => (s.gpr i).toNat
  | .vr i => (s.vmx i).toNat
  | .vscr => ((s.vmx 32).setWidth 32).toNat
  | .vrsave => if le = true then ((s.vmx 33).setWidth 32).toNat else (((s.vmx 33).sshiftRight 96).setWidth 32).toNat
  | .vsr i => (s.vsx i).toNat
  | .ctr => s.ctr.toNat
  | .lr => s.link.toNat
  | .xer => s.xer.toNat
  | .cr => (s.ccr.setWidth 32).toNat
  | .fpscr => (s.fpscr.setWidth 64).toNat

theorem names : ∀ i : Fin 32, "GPR".toList ++ fmt02d i = (Reg.gpr i).name ∧
    "VR".toList ++ fmt02d i ++ [' '] = (Reg.vr i).name ++ [' '] ∧ "VSR".toList ++ fmt02d i = (Reg.vsr i).name := by
  decide +kernel

theorem range_finRange : List.range 32 = (List.finRange 32).map Fin.val := by decide

theorem flatMap_map' {α β γ : Type} (f : α → β) (g : β → List γ) (l : List α) :
    (l.map f).flatMap g = l.flatMap fun a => g (f a) := by
  induction l with
  | nil => rfl
  | cons a l ih => simp [List.flatMap_cons, ih]

theorem reads_vrsave (le : Bool) (p c : RState) :
    Reads (compareVrsave le (p.vmx 33) (c.vmx 33)) (diff (p.file le) (c.file le) .vrsave) := by
  unfold compareVrsave
  by_cases h : le = true
  · rw [if_pos h]
    refine reads_compare32 .vrsave _ _ _ _ _ rfl ?_ ?_ <;> exact if_pos h
  · rw [if_neg h]
    refine reads_compare32 .vrsave _ _ _ _ _ rfl ?_ ?_ <;> exact if_neg h

theorem reads_printState (le : Bool) (p c : RState) :
    Reads (printState le p c) (Reg.all.flatMap (diff (p.file le) (c.file le))) := by
  unfold printState Reg.all
  rw [List.flatMap_append, List.flatMap_append, List.flatMap_append, List.flatMap_append,
    flatMap_map', flatMap_map', flatMap_map', range_finRange, flatMap_map', flatMap_map', flatMap_map']
  have e1 : ∀ x : List Entry, List.flatMap (diff (p.file le) (c.file le)) [.vscr, .vrsave] =
      diff (p.file le) (c.file le) .vscr ++ diff (p.file le) (c.file le) .vrsave := by
    intro _; simp
  have e2 : List.flatMap (diff (p.file le) (c.file le)) [.ctr, .lr, .xer, .cr, .fpscr] =
      diff (p.file le) (c.file le) .ctr ++ diff (p.file le) (c.file le) .lr ++ diff (p.file le) (c.file le) .xer ++
      diff (p.file le) (c.file le) .cr ++ diff (p.file le) (c.file le) .fpscr := by
    simp
  rw [e1 [], e2, ← List.append_assoc, ← List.append_assoc, ← List.append_assoc, ← List.append_assoc,
    ← List.append_assoc]
  refine ((((((((Reads.append ?_ ?_).append ?_).append ?_).append ?_).append ?_).append ?_).append ?_).append ?_).append ?_
  · exact Reads.flatMap _ fun i _ => reads_compare64 (.gpr i) _ _ _ _ _ (names i).1 rfl rfl
  · exact Reads.flatMap _ fun i _ => reads_compare128 (.vr i) _ _ _ _ _ (.inr (names i).2.1) rfl rfl
  · exact reads_compare32 .vscr _ _ _ _ _ rfl rfl rfl
  · exact reads_vrsave le p c
  · exact Reads.flatMap _ fun i _ => reads_compare128 (.vsr i) _ _ _ _ _ (.inl (names i).2.2) rfl rfl
  · exact reads_compare64 .ctr _ _ _ _ _ rfl rfl rfl
  · exact reads_compare64 .lr _ _ _ _ _ rfl rfl rfl
  · exact reads_compare64 .xer _ _ _ _ _ rfl rfl rfl
  · exact reads_compare32 .cr _ _ _ _ _ rfl rfl rfl
  · exact reads_compare64 .fpscr _ _ _ _ _ rfl rfl rfl

theorem reads_insn (insn : BitVec 32) (pc : BitVec 64) :
    Reads (asciiRecord insn pc) [.insn pc.toNat insn.toNat] := by
  refine Reads.line ?_ (readLine_insn insn pc)
  intro c hc
  simp only [List.mem_append, List.mem_cons, List.not_mem_nil, or_false] at hc
  rcases hc with (hc | rfl | rfl | rfl) | hc
  · unfold fmtP at hc
    split at hc
    · have : ∀ c ∈ "(nil)".toList, c ≠ '\n' := by decide
      exact this c hc
    · simp only [List.mem_cons] at hc
      rcases hc with rfl | rfl | hc
      · decide
      · decide
      · exact (fmtX_chars _ c hc).1
  · decide
  · decide
  · decide
  · exact (fmtX_chars _ c hc).1

/-- Replaying the entries of the changed registers gives the new values. -/
theorem replay_diff (g : File) (es : List Entry) : ∀ (rs : List Reg) (f f0 : File),
    rs.Nodup → (∀ r ∈ rs, f r = f0 r) →
    replay f (rs.flatMap (diff f0 g) ++ es) = replay (fun r => if r ∈ rs then g r else f r) es
  | [], f, f0, _, _ => by simp
  | q :: rs, f, f0, hn, hf => by
    rw [List.flatMap_cons, List.append_assoc]
    have hq := hf q List.mem_cons_self
    obtain ⟨hqr, hn'⟩ := List.nodup_cons.1 hn
    by_cases e : f0 q = g q
    · have : diff f0 g q = [] := if_pos e
      rw [this, List.nil_append, replay_diff g es rs f f0 hn'
        (fun r hr => hf r (List.mem_cons_of_mem _ hr))]
      congr 1
      funext r
      by_cases hr : r ∈ rs
      · rw [if_pos hr, if_pos (List.mem_cons_of_mem _ hr)]
      · rw [if_neg hr]
        by_cases hrq : r = q
        · rw [if_pos (by rw [hrq]; exact List.mem_cons_self), hrq, hq, e]
        · rw [if_neg (by simp [hr, hrq])]
    · have : diff f0 g q = [.value q (g q)] := if_neg e
      rw [this]
      show replay (f.set q (g q)) (rs.flatMap (diff f0 g) ++ es) = _
      have hs : ∀ r ∈ rs, (f.set q (g q)) r = f0 r := by
        intro r hr
        have : r ≠ q := fun hh => hqr (hh ▸ hr)
        show (if r = q then _ else _) = _
        rw [if_neg this]
        exact hf r (List.mem_cons_of_mem _ hr)
      rw [replay_diff g es rs _ f0 hn' hs]
      congr 1
      funext r
      by_cases hr : r ∈ rs
      · rw [if_pos hr, if_pos (List.mem_cons_of_mem _ hr)]
      · rw [if_neg hr]
        by_cases hrq : r = q
        · rw [if_pos (by rw [hrq]; exact List.mem_cons_self), hrq]
          exact if_pos rfl
        · rw [if_neg (by simp [hr, hrq])]
          exact if_neg hrq

theorem nodup_all : Reg.all.Nodup := by decide +kernel

theorem replay_all (f g : File) (es : List Entry) : replay f (Reg.all.flatMap (diff f g) ++ es) = replay g es := by
  rw [replay_diff g es Reg.all f f nodup_all (fun r _ => rfl)]
  congr 1
  funext r
  exact if_pos (mem_all r)

/-! ### The values of a processor -/

theorem toNat_pair (a b : BitVec 64) : (a.setWidth 128 <<< 64 ||| b.setWidth 128).toNat = a.toNat * 2 ^ 64 + b.toNat := by
  have ha := a.isLt
  have hb := b.isLt
  rw [BitVec.toNat_or, BitVec.toNat_shiftLeft, BitVec.toNat_setWidth, BitVec.toNat_setWidth,
    Nat.mod_eq_of_lt (show a.toNat < 2 ^ 128 by omega), Nat.mod_eq_of_lt (show b.toNat < 2 ^ 128 by omega),
    Nat.shiftLeft_eq, Nat.mod_eq_of_lt (show a.toNat * 2 ^ 64 < 2 ^ 128 by omega), Nat.mul_comm,
    Nat.two_pow_add_eq_or_of_lt hb]

theorem file_getState (le : Bool) (a : Answers) (p : Cpu) (h : a.For le p) : (getState le a).file le = seen le p := by
  funext r
  cases r with
  | gpr i => exact congrArg BitVec.toNat (h.gpr i)
  | vr i => exact congrArg BitVec.toNat (h.vr i)
  | vscr =>
    show ((a.vr 32).setWidth 32).toNat = p.vscr.toNat
    rw [BitVec.toNat_setWidth]; exact h.vscr
  | vrsave =>
    show (if le = true then ((a.vr 33).setWidth 32).toNat else (((a.vr 33).sshiftRight 96).setWidth 32).toNat) =
      p.vrsave.toNat
    rw [BitVec.toNat_setWidth, high_word]; exact h.vrsave
  | vsr i =>
    show (vsxOf le (a.fpr i) (a.vsr i)).toNat =
      if le = true then exchanged (p.vsr i).toNat else (p.vsr i).toNat
    unfold vsxOf exchanged
    by_cases hl : le = true
    · rw [if_pos hl, if_pos hl, toNat_pair, h.fpr, h.vsr]
    · rw [if_neg hl, if_neg hl, toNat_pair, h.fpr, h.vsr]
      omega
  | ctr => exact congrArg BitVec.toNat h.ctr
  | lr => exact congrArg BitVec.toNat h.link
  | xer => exact congrArg BitVec.toNat h.xer
  | cr =>
    show (a.ccr.setWidth 32).toNat = p.cr.toNat
    rw [BitVec.toNat_setWidth]; exact h.ccr
  | fpscr =>
    show (((a.fpr 32).setWidth 32).setWidth 64).toNat = p.fpscr.toNat % 2 ^ 32
    rw [h.fpscr, BitVec.toNat_setWidth, BitVec.toNat_setWidth]
    omega

theorem file_zero (le : Bool) : RState.zero.file le = fun _ => 0 := by
  funext r
  cases r <;> cases le <;> first | rfl | decide

end Ptr.Log
