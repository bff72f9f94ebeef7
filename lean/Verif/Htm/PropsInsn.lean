import Verif.Htm.Still
/-!
C50: the addresses of decoded instructions.
-/
namespace Htm
open Spec

/-- A record for the callback is as expected. -/
structure Shows (r : Qt.Record) (e : Expect) : Prop where
  addr : r.insnAddr = e.addr
  data : (if r.dataAddrValid then some r.dataAddr else none) = e.data
  word : ∀ w, e.word = some w → r.insn = w
  real : (if r.insnRaValid then some r.insnRa else none) = e.real
  nonzero : e.nonzero = true → r.insn ≠ 0

theorem eval_tellAll {α : Type} (p : Prog α) (l : List (BitVec 64)) : ∀ es, (tellAll es p).eval l =
    match p.eval l with
    | .error h => .error h
    | .ok (a, l', es') => .ok (a, l', es ++ es')
  | [] => by
    show p.eval l = _
    cases p.eval l with
    | error h => rfl
    | ok q => rfl
  | e :: es => by
    rw [show tellAll (e :: es) p = .tell e (tellAll es p) from rfl, eval_tell, eval_tellAll p l es]
    cases p.eval l with
    | error h => rfl
    | ok q => rfl

theorem instructions_append (a b : List Ev) : instructions (a ++ b) = instructions a ++ instructions b := List.filterMap_append ..

/-- The counters that were incremented. -/
def counters (l : List Ev) : List Counter := l.filterMap fun
  | .count k => some k
  | _ => none

theorem counters_append (a b : List Ev) : counters (a ++ b) = counters a ++ counters b := List.filterMap_append ..

/-! ### POWER10 -/

theorem emit10_eval (c : Conf) (s : Dec) (x : I10) (l : List (BitVec 64)) (hr : s.rpt = false) :
    (emit10 c s x).eval l =
      .ok (({ s with prevAddr := s.insnAddr, prevBranch := x.branch || isCall s.insn }, true), l,
        [Ev.insn (record10 c { s with prevAddr := s.insnAddr, prevBranch := x.branch || isCall s.insn } x { ok := true })] ++ suffix10 s x) := by
  cases s
  cases hr
  show (tellAll _ _).eval l = _
  rw [eval_tellAll]
  show Except.ok (_, _, _ ++ []) = _
  rw [List.append_nil]
  rfl

/-- The state when there have been no page-table walks. -/
structure Clean (s : Dec) : Prop where
  rpt : s.rpt = false
  host : s.hostShift = 0
  guest : s.guestShift = 0

/-- The record for an instruction in such a state. -/
theorem finish10_eval {c : Conf} (hc : c.full = true) {s : Dec} (x : I10) (l : List (BitVec 64)) (hs : Clean s) :
    ∃ s' w es, wordOf x.branch x.opcode (recodeP10 x.opcode (place s x).insnAddr) = some w ∧
      (finish10 c s x).eval l = .ok ((s', true), l, es) ∧ Clean s' ∧ s'.insnAddr = (place s x).insnAddr ∧
      ∃ t : Dec, t.insn = w ∧ t.insnAddr = (place s x).insnAddr ∧ t.hostShift = 0 ∧
        instructions es = record10 c t x { ok := true } :: (if x.hasPrefix then [{ insn := w, insnAddr := (place s x).insnAddr + 4 }] else []) ∧
        counters es = [] := by
  obtain ⟨w, hw⟩ := wordOf_some (branch := x.branch) (op := x.opcode) (low_p10 x.opcode (place s x).insnAddr)
  have hp : (place s x).rpt = s.rpt ∧ (place s x).hostShift = s.hostShift ∧ (place s x).guestShift = s.guestShift := by
    unfold place
    cases x.ieara <;> exact ⟨rfl, rfl, rfl⟩
  have he := emit10_eval c { place s x with insn := w } x l (by show (place s x).rpt = false; rw [hp.1, hs.rpt])
  have hf : (finish10 c s x).eval l = (Prog.tell (.ea (place s x).insnAddr) (.tell (.inst (place s x).insnAddr w)
      (emit10 c { place s x with insn := w } x))).eval l := by
    unfold finish10
    rw [hw]
    dsimp only
    rw [hc, if_pos rfl]
  rw [eval_tell, eval_tell, he] at hf
  refine ⟨_, w, _, hw, hf, ⟨?_, ?_, ?_⟩, rfl,
    { place s x with insn := w, prevAddr := (place s x).insnAddr, prevBranch := x.branch || isCall w }, rfl, rfl, ?_, ?_, ?_⟩
  · show (place s x).rpt = false; rw [hp.1, hs.rpt]
  · show (place s x).hostShift = 0; rw [hp.2.1, hs.host]
  · show (place s x).guestShift = 0; rw [hp.2.2, hs.guest]
  · show (place s x).hostShift = 0; rw [hp.2.1, hs.host]
  · show instructions ([_] ++ suffix10 _ x) = _
    unfold suffix10
    cases x.hasPrefix <;> rfl
  · show counters ([_] ++ suffix10 _ x) = _
    unfold suffix10
    cases x.hasPrefix <;> rfl

/-- Pairs of data addresses. -/
def putData (x : I10) : List (BitVec 64 × BitVec 64) → I10
  | [] => x
  | [p] => { x with dea0 := p.1, dra0 := bits p.2 0 40 <<< 12 }
  | p :: q :: _ => { x with dea0 := p.1, dra0 := bits p.2 0 40 <<< 12, dea1 := q.1, dra1 := bits q.2 0 40 <<< 12 }

theorem data10_eval {c : Conf} (hc : c.full = true) {x : I10} {data : List (BitVec 64 × BitVec 64)} (hd : x.dea = data.length) (hr : x.dra = data.length)
    (he : x.esid = false) (h2 : data.length ≤ 2) (l : List (BitVec 64)) :
    (data10 c x).eval (data.flatMap (fun p => [p.1, p.2]) ++ l) = .ok (some (putData x data), l, []) := by
  cases x with
  | mk ieara opcode branch hasPrefix dea dra esid eabits hv ir dr dea0 dea1 dra0 dra1 dxlates ndxlates ixlate prefixWord =>
    dsimp only at hd hr he
    subst hd; subst hr; subst he
    match data, h2 with
    | [], _ => rfl
    | [p], _ =>
      obtain ⟨a, b⟩ := p
      simp only [data10, dataStep10, draStep10, List.length_singleton, hc, List.flatMap_cons, List.flatMap_nil, List.cons_append,
        List.nil_append, Prog.bind, Prog.eval, putData]
      simp [Prog.bind, Prog.eval]
    | [p, q], _ =>
      obtain ⟨a, b⟩ := p
      obtain ⟨d, e⟩ := q
      simp only [data10, dataStep10, draStep10, List.length_cons, List.length_nil, hc, List.flatMap_cons, List.flatMap_nil, List.cons_append,
        List.nil_append, Prog.bind, Prog.eval, putData]
      simp [Prog.bind, Prog.eval]

/-- The last line of a list, or the one before. -/
def lastLine (o : Option (BitVec 64 × BitVec 64)) (lines : List (BitVec 64 × BitVec 64 × BitVec 64)) : Option (BitVec 64 × BitVec 64) :=
  match lines.getLast? with
  | some p => some (bits p.2.1 0 56 <<< 7, bits p.2.2 0 39 <<< 12)
  | none => o

theorem recType_eq {v : BitVec 64} (ht : fld v 36 55 = 0xABCDF) {k : BitVec 64} (h : fld v 34 35 = k.toNat) : recType v = k := by
  unfold recType
  rw [if_pos ((u32_eq (by omega) (by omega) (by omega) _).2 ht)]
  exact (bits_eq (by omega) (by omega) _).2 h

theorem gotIeara_nil (s : Dec) (o : Option (BitVec 64 × BitVec 64)) (a r : BitVec 64) :
    gotIeara s [] { ieara := o } a r = .ok (s, { ieara := some (a, r) }) := rfl

theorem head10_line {s : Dec} {n : Nat} {o : Option (BitVec 64 × BitVec 64)} {t : BitVec 64} (ht : recType t = 3) (a r v : BitVec 64) (l : List (BitVec 64)) :
    (head10 (n + 1) s [] { ieara := o } t).eval (a :: r :: v :: l) =
      (head10 n s [] { ieara := some (bits a 0 56 <<< 7, bits r 0 39 <<< 12) } v).eval l := by
  rw [head10, if_pos ht, eval_bind]
  rw [show ieara10.eval (a :: r :: v :: l) = .ok (some (bits a 0 56 <<< 7, bits r 0 39 <<< 12), v :: l, []) from rfl]
  dsimp only
  rw [gotIeara_nil]
  dsimp only
  rw [show ∀ (k : Option (BitVec 64) → Prog (Dec × Option (I10 × BitVec 64))) a b, (Prog.fetch k).eval (a :: b) = (k (some a)).eval b from fun _ _ _ => rfl]
  dsimp only
  generalize (head10 n s [] { ieara := some (bits a 0 56 <<< 7, bits r 0 39 <<< 12) } v).eval l = e
  cases e with
  | error h => rfl
  | ok q => rfl

theorem head10_eval {s : Dec} {info : BitVec 64} (hi : recType info = 2) (l : List (BitVec 64)) (lines : List (BitVec 64 × BitVec 64 × BitVec 64)) :
    ∀ (o : Option (BitVec 64 × BitVec 64)) (n : Nat) (v : BitVec 64) (l0 : List (BitVec 64)),
    (∀ p ∈ lines, recType p.1 = 3) → lines.length < n → lines.flatMap (fun p => [p.1, p.2.1, p.2.2]) ++ info :: l = v :: l0 →
    (head10 n s [] { ieara := o } v).eval l0 = .ok ((s, some ({ ieara := lastLine o lines }, info)), l, []) := by
  induction lines with
  | nil =>
    intro o n v l0 _ hn he
    cases n with
    | zero => exact absurd hn (by omega)
    | succ n =>
      cases he
      rw [head10, if_neg (by rw [hi]; decide), if_neg (by rw [hi]; decide)]
      rfl
  | cons p ps ih =>
    intro o n v l0 hp hn he
    cases n with
    | zero => exact absurd hn (by omega)
    | succ n =>
      obtain ⟨t, a, r⟩ := p
      have hv : recType t = 3 := hp (t, a, r) List.mem_cons_self
      have hrest : ∃ v' l', ps.flatMap (fun p => [p.1, p.2.1, p.2.2]) ++ info :: l = v' :: l' := by
        cases ps with
        | nil => exact ⟨_, _, rfl⟩
        | cons q qs => exact ⟨_, _, rfl⟩
      obtain ⟨v', l', hl'⟩ := hrest
      have hlast : lastLine (some (bits a 0 56 <<< 7, bits r 0 39 <<< 12)) ps = lastLine o ((t, a, r) :: ps) := by
        unfold lastLine
        rw [List.getLast?_cons]
        cases ps.getLast? <;> rfl
      have ih := ih (some (bits a 0 56 <<< 7, bits r 0 39 <<< 12)) n v' l' (fun q hq => hp q (List.mem_cons_of_mem _ hq))
        (by simp at hn; omega) hl'
      rw [hlast] at ih
      rw [List.flatMap_cons, List.append_assoc, hl', List.cons_append, List.cons_append, List.cons_append, List.nil_append] at he
      obtain ⟨e1, e2⟩ := List.cons.inj he
      rw [← e1, ← e2]
      exact (head10_line hv a r v' l').trans ih

theorem info10_eval {o : Option (BitVec 64 × BitVec 64)} {v : BitVec 64} (hi : recType v = 2) (h2 : fld v 62 63 ≤ 2) :
    info10 { ieara := o } v = some { ieara := o, opcode := u32 v 0 31, branch := bit v 32, hasPrefix := bit v 33, eabits := u32 v 56 61 <<< 2, dea := fld v 62 63, dra := fld v 62 63, esid := false } := by
  have hd : ∀ k : BitVec 64, bits v 62 63 = k ↔ fld v 62 63 = k.toNat := bits_eq (by omega) (by omega)
  unfold info10
  rw [if_neg (by rw [hi]; decide)]
  dsimp only
  have h3 : (bits v 62 63 == 3) = false := by
    rw [beq_eq_false_iff_ne]
    intro hx
    have := (hd 3).1 hx
    rw [show (3 : BitVec 64).toNat = 3 from rfl] at this
    omega
  have hn : (if bits v 62 63 = 1 ∨ bits v 62 63 = 3 then 1 else if bits v 62 63 = 2 then 2 else 0) = fld v 62 63 := by
    simp only [hd, show (3 : BitVec 64).toNat = 3 from rfl, show (1 : BitVec 64).toNat = 1 from rfl, show (2 : BitVec 64).toNat = 2 from rfl]
    split
    · omega
    · split <;> omega
  rw [h3, hn]

theorem mask_line (x : BitVec 64) : (x &&& 0xffffffffffffff80).toNat = x.toNat / 128 * 128 := by
  have h : x &&& (0xffffffffffffff80 : BitVec 64) = (x >>> 7) <<< 7 := by
    apply BitVec.eq_of_getLsbD_eq
    intro i hi
    rw [BitVec.getLsbD_and, BitVec.getLsbD_shiftLeft, BitVec.getLsbD_ushiftRight]
    have : (0xffffffffffffff80 : BitVec 64) = (BitVec.allOnes 64 >>> 7) <<< 7 := by decide
    rw [this, BitVec.getLsbD_shiftLeft, BitVec.getLsbD_ushiftRight, BitVec.getLsbD_allOnes]
    by_cases h7 : i < 7
    · simp [h7]
    · simp [h7, hi, show 7 + (i - 7) = i from by omega]
  have hx := x.isLt
  rw [h, BitVec.toNat_shiftLeft, BitVec.toNat_ushiftRight, Nat.shiftRight_eq_div_pow, Nat.shiftLeft_eq]
  simp only [Nat.reducePow] at *
  omega

theorem or_self_mod (L : Nat) : L ||| L % 2 = L := by
  apply Nat.eq_of_testBit_eq
  intro i
  rw [Nat.testBit_or, show (2 : Nat) = 2 ^ 1 from rfl, Nat.testBit_mod_two_pow]
  cases Nat.testBit L i <;> simp

/-- The line and the offset agree on the bit they share. -/
theorem join_line {L f : Nat} (hf : f < 64) (hh : f / 32 = L % 2) : L * 128 ||| f * 4 = L / 2 * 256 + f * 4 := by
  have h1 : f * 4 = L % 2 * 2 ^ 7 ||| f % 32 * 4 := by
    rw [Nat.mul_comm (L % 2), ← Nat.two_pow_add_eq_or_of_lt (by omega)]; omega
  rw [h1, show (128 : Nat) = 2 ^ 7 from rfl, ← Nat.or_assoc, ← Nat.shiftLeft_eq, ← Nat.shiftLeft_eq, ← Nat.shiftLeft_or_distrib, or_self_mod,
    Nat.shiftLeft_eq, Nat.shiftLeft_eq, Nat.mul_comm L, ← Nat.two_pow_add_eq_or_of_lt (by omega), Nat.mul_comm (L % 2),
    ← Nat.two_pow_add_eq_or_of_lt (by omega)]
  omega

theorem place_addr {s : Dec} {x : I10} {i : Item10} {prev : BitVec 64} (hs : s.insnAddr = prev) (hx : x.ieara = lastLine none i.lines)
    (he : x.eabits = u32 i.info 56 61 <<< 2) (hh : fld i.info 56 56 = i.line prev % 2) : (place s x).insnAddr = i.addr prev := by
  have hline : (i.line prev) < 2 ^ 57 := by
    unfold Item10.line
    split
    · rename_i p _; have := p.2.1.isLt; omega
    · have := prev.isLt; omega
  have h1 : (match x.ieara with | some p => p.1 | none => s.insnAddr).toNat / 128 = i.line prev := by
    unfold Item10.line
    rw [hx]
    unfold lastLine
    cases i.lines.getLast? with
    | none => dsimp only; rw [hs]
    | some p =>
      dsimp only
      have := p.2.1.isLt
      rw [BitVec.toNat_shiftLeft, bits_fld (by omega) (by omega), Nat.shiftLeft_eq]
      unfold fld
      simp only [Nat.reduceSub, Nat.reducePow, Nat.reduceAdd] at *
      omega
  have h2 : (place s x).insnAddr = ((match x.ieara with | some p => p.1 | none => s.insnAddr) &&& 0xffffffffffffff80) ||| x.eabits.setWidth 64 := by
    unfold place
    cases x.ieara <;> rfl
  have h6 := fld_lt i.info 56 61
  simp only [Nat.reduceSub, Nat.reducePow, Nat.reduceAdd] at h6
  have h3 : (x.eabits.setWidth 64 : BitVec 64).toNat = fld i.info 56 61 * 4 := by
    rw [he, BitVec.toNat_setWidth, BitVec.toNat_shiftLeft, u32_fld (by omega) (by omega) (by omega), Nat.shiftLeft_eq]
    omega
  have h4 : fld i.info 56 61 / 32 = fld i.info 56 56 := by
    unfold fld
    simp only [Nat.reduceSub, Nat.reducePow, Nat.reduceAdd]
    omega
  apply BitVec.eq_of_toNat_eq
  rw [h2, BitVec.toNat_or, mask_line, h1, h3, join_line h6 (by rw [h4, hh])]
  unfold Item10.addr
  rw [BitVec.toNat_ofNat, Nat.mod_eq_of_lt]
  omega

/-- Every record for the callback is as expected. -/
inductive AllShow : List Qt.Record → List Expect → Prop where
  | nil : AllShow [] []
  | cons {r e l m} : Shows r e → AllShow l m → AllShow (r :: l) (e :: m)

theorem AllShow.append {a b : List Qt.Record} {m n : List Expect} (h1 : AllShow a m) (h2 : AllShow b n) : AllShow (a ++ b) (m ++ n) := by
  induction h1 with
  | nil => exact h2
  | cons h _ ih => exact .cons h ih

theorem lines_length (lines : List (BitVec 64 × BitVec 64 × BitVec 64)) :
    (lines.map fun p => ([p.1, p.2.1, p.2.2] : List (BitVec 64)).length).sum = 3 * lines.length := by
  induction lines with
  | nil => rfl
  | cons a l ih => rw [List.map_cons, List.sum_cons, ih]; show 3 + 3 * l.length = 3 * (l.length + 1); omega

/-- The word that is decoded for an instruction at an address. -/
def word10 (i : Item10) (a : BitVec 64) : BitVec 32 := (wordOf (bit i.info 32) (u32 i.info 0 31) (recodeP10 (u32 i.info 0 31) a)).getD 0

/-- Addresses and words of the records for an instruction. -/
def pairs10 (i : Item10) (a : BitVec 64) : List (BitVec 64 × BitVec 32) :=
  match i.pre with
  | none => [(a, word10 i a)]
  | some p => [(a, u32 p 0 31), (a + 4, word10 i a)]

def told10 (prev : BitVec 64) : List Item10 → List (BitVec 64 × BitVec 32)
  | [] => []
  | i :: l => pairs10 i (i.addr prev) ++ told10 (i.addr prev) l

def pairOf (r : Qt.Record) : BitVec 64 × BitVec 32 := (r.insnAddr, r.insn)

theorem step10 {c : Conf} (hc : c.full = true) {s : Dec} (hs : Clean s) {i : Item10} (hi : i.Ok s.insnAddr) (rest : List (BitVec 64)) :
    ∃ v l0 s' es, i.words ++ rest = v :: l0 ∧ (v ≠ 0 ∧ fld v 36 55 = 0xABCDF) ∧ pureStep c s v l0 = .ok ((s', true), rest, es) ∧ Clean s' ∧
      s'.insnAddr = i.addr s.insnAddr ∧ AllShow (instructions es) (i.expect s.insnAddr) ∧
      (instructions es).map pairOf = pairs10 i (i.addr s.insnAddr) ∧
      counters es = [.recordsProcessed, .instructionsScanned, .instructionsProcessed] := by
  obtain ⟨lines, info, msr, pre, data⟩ := i
  have hinfo : recType info = 2 := recType_eq hi.info.1 hi.info.2
  have hlines : ∀ p ∈ lines, recType p.1 = 3 := fun p hp => recType_eq (hi.lines p hp).1 (hi.lines p hp).2
  have hwords : (Item10.words ⟨lines, info, msr, pre, data⟩) ++ rest =
      lines.flatMap (fun p => [p.1, p.2.1, p.2.2]) ++ info :: (msr :: (pre.toList ++ (data.flatMap (fun p => [p.1, p.2]) ++ rest))) := by
    unfold Item10.words
    simp only [List.append_assoc, List.cons_append, List.nil_append]
  have hhead : ∃ v l0, lines.flatMap (fun p => [p.1, p.2.1, p.2.2]) ++ info :: (msr :: (pre.toList ++ (data.flatMap (fun p => [p.1, p.2]) ++ rest))) = v :: l0 ∧
      fld v 36 55 = 0xABCDF := by
    cases lines with
    | nil => exact ⟨_, _, rfl, hi.info.1⟩
    | cons q qs => exact ⟨_, _, rfl, (hi.lines q List.mem_cons_self).1⟩
  obtain ⟨v, l0, hv, htag⟩ := hhead
  have hlen : lines.length < l0.length + 1 := by
    have := congrArg List.length hv
    rw [List.length_append, List.length_flatMap, List.length_cons, List.length_cons, List.length_cons] at this
    have h3 := lines_length lines
    rw [h3] at this
    omega
  have hh := head10_eval (s := s) hinfo (msr :: (pre.toList ++ (data.flatMap (fun p => [p.1, p.2]) ++ rest))) lines none (l0.length + 1) v l0 hlines hlen hv
  have hd2 := hi.data.2
  have hinf := info10_eval (o := lastLine none lines) hinfo hd2
  -- the instruction as it is after all its records were read
  generalize hx0 : ({ ieara := lastLine none lines, opcode := u32 info 0 31, branch := bit info 32, hasPrefix := bit info 33, eabits := u32 info 56 61 <<< 2, dea := fld info 62 63, dra := fld info 62 63, esid := false, hv := bit msr 0, ir := bit msr 2, dr := bit msr 3 } : I10) = x0
  have hb : ∀ x : I10, x.dea = data.length → x.dra = data.length → x.esid = false →
      (body10 c s x).eval (data.flatMap (fun p => [p.1, p.2]) ++ rest) = match (finish10 c s (putData x data)).eval rest with
        | .error h => .error h
        | .ok (b, l'', es') => .ok (b, l'', es') := by
    intro x h1 h2 h3
    unfold body10
    rw [eval_bind, data10_eval hc h1 h2 h3 (by rw [hi.data.1]; exact hd2)]
    dsimp only
    generalize (finish10 c s (putData x data)).eval rest = e
    cases e with
    | error h => rfl
    | ok q => rfl
  have hput : ∀ x : I10, (putData x data).ieara = x.ieara ∧ (putData x data).opcode = x.opcode ∧ (putData x data).branch = x.branch ∧
      (putData x data).hasPrefix = x.hasPrefix ∧ (putData x data).eabits = x.eabits ∧ (putData x data).esid = x.esid ∧ (putData x data).dea = x.dea ∧
      (putData x data).prefixWord = x.prefixWord ∧ (∀ p, data.head? = some p → (putData x data).dea0 = p.1) := by
    intro x
    match data with
    | [] => exact ⟨rfl, rfl, rfl, rfl, rfl, rfl, rfl, rfl, fun p hp => by cases hp⟩
    | [p] => exact ⟨rfl, rfl, rfl, rfl, rfl, rfl, rfl, rfl, fun p hp => by cases hp; rfl⟩
    | p :: q :: _ => exact ⟨rfl, rfl, rfl, rfl, rfl, rfl, rfl, rfl, fun p hp => by cases hp; rfl⟩
  have hpre : ∃ x : I10, (prefix10 c s x0).eval (pre.toList ++ (data.flatMap (fun p => [p.1, p.2]) ++ rest)) = (body10 c s x).eval (data.flatMap (fun p => [p.1, p.2]) ++ rest) ∧
      x.ieara = lastLine none lines ∧ x.opcode = u32 info 0 31 ∧ x.branch = bit info 32 ∧ x.hasPrefix = pre.isSome ∧ x.eabits = u32 info 56 61 <<< 2 ∧
      x.esid = false ∧ x.dea = data.length ∧ x.dra = data.length ∧ (∀ p, pre = some p → x.prefixWord = u32 p 0 31) := by
    have hp := hi.pre
    dsimp only at hp
    have hbit : bit info 33 = pre.isSome := by rw [bit_fld (by omega), hp]
    have hp0 : x0.hasPrefix = pre.isSome := by rw [← hx0]; exact hbit
    have hlen2 : data.length = fld info 62 63 := hi.data.1
    unfold prefix10
    cases pre with
    | none =>
      refine ⟨x0, by rw [if_neg (by rw [hp0]; decide)]; rfl, ?_⟩
      rw [← hx0, hlen2]
      exact ⟨rfl, rfl, rfl, hbit, rfl, rfl, rfl, rfl, fun p hp => by cases hp⟩
    | some p =>
      refine ⟨{ x0 with prefixWord := u32 p 0 31 }, ?_, ?_⟩
      · rw [if_pos (by rw [hp0]; rfl)]
        show (body10 c s (if c.full then _ else _)).eval _ = _
        rw [hc, if_pos rfl]
        rfl
      · rw [← hx0, hlen2]
        exact ⟨rfl, rfl, rfl, hbit, rfl, rfl, rfl, rfl, fun p hp => by cases hp; rfl⟩
  obtain ⟨x, hx, hx1, hx2, hx3, hx4, hx5, hx6, hx7, hx8, hx9⟩ := hpre
  obtain ⟨p1, p2, p3, p4, p5, p6, p7, p8, p9⟩ := hput x
  obtain ⟨s', w, es, hw, hf, hs', ha', t, ht1, ht2, ht3, hrec, hcnt⟩ := finish10_eval hc (putData x data) rest hs
  have haddr : (place s (putData x data)).insnAddr = Item10.addr ⟨lines, info, msr, pre, data⟩ s.insnAddr :=
    place_addr rfl (by rw [p1, hx1]) (by rw [p5, hx5]) hi.half
  have hstored : ∀ k, stored (fld info 32 32) (fld info 0 31) = some k → w = k := by
    intro k hk
    rw [p3, p2, hx2, hx3] at hw
    refine wordOf_stored hw ?_
    rw [u32_fld (by omega) (by omega) (by omega), bit_fld (by omega)]
    have h1 := fld_lt info 32 32
    have h2 : (if decide (fld info 32 32 = 1) = true then 1 else 0) = fld info 32 32 := by
      simp only [Nat.reduceSub, Nat.reducePow, Nat.reduceAdd, Nat.sub_self] at h1
      by_cases h : fld info 32 32 = 1
      · rw [h]; rfl
      · rw [if_neg (by simpa using h)]; omega
    rw [h2]; exact hk
  have hnz : nonzero10 (fld info 32 32) (fld info 0 31) = true → w ≠ 0 := by
    intro h
    rw [p3, p2, hx2, hx3] at hw
    have hop := u32_fld (v := info) (a := 0) (b := 31) (by omega) (by omega) (by omega)
    have hb := bit_fld (v := info) (n := 32) (by omega)
    unfold nonzero10 at h
    simp only [Bool.and_eq_true, decide_eq_true_eq, Bool.not_eq_true', Bool.and_eq_false_iff, decide_eq_false_iff_not] at h
    refine wordOf_ne hw ?_ ?_
    · intro hbr
      rw [hb, decide_eq_true_eq] at hbr
      apply ne_p10
      rw [hop]
      rintro ⟨k1, k2, k3⟩
      rcases h.2 with ((h | h) | h) | h
      · exact h hbr
      · exact h k1
      · exact h k2
      · exact h k3
    · intro h0
      rw [h0] at hop
      exact h.1 hop.symm
  refine ⟨v, l0, s', .count .recordsProcessed :: .count .instructionsScanned :: .count .instructionsProcessed :: es, by rw [hwords, hv], ⟨?_, htag⟩, ?_, hs', by rw [ha', haddr], ?_, ?_, congrArg (fun l => [Counter.recordsProcessed, .instructionsScanned, .instructionsProcessed] ++ l) hcnt⟩
  · intro h0; rw [h0] at htag; revert htag; decide
  · unfold pureStep
    rw [if_neg (by rw [u32_eq (by omega) (by omega) (by omega), htag]; decide), if_pos ((u32_eq (by omega) (by omega) (by omega) _).2 htag)]
    unfold insn10
    rw [eval_tell, eval_tell, eval_bind, hh]
    dsimp only
    rw [hinf]
    dsimp only
    rw [eval_tell]
    unfold msr10
    rw [show ∀ (k : Option (BitVec 64) → Prog (Dec × Bool)) a b, (Prog.fetch k).eval (a :: b) = (k (some a)).eval b from fun _ _ _ => rfl]
    dsimp only
    rw [hx0, hx, hb x hx7 hx8 hx6, hf]
    rfl
  · show AllShow (instructions es) _
    rw [hrec, haddr]
    have hfirst : ∀ (word : Option (BitVec 32)) (nz : Bool), (∀ k, word = some k → (if x.hasPrefix then x.prefixWord else w) = k) →
        (nz = true → (if x.hasPrefix then x.prefixWord else w) ≠ 0) →
        Shows (record10 c t (putData x data) { ok := true })
          { addr := Item10.addr ⟨lines, info, msr, pre, data⟩ s.insnAddr, data := data.head?.map (·.1), word := word, nonzero := nz } := by
      intro word nz hword hnz
      refine ⟨by show t.insnAddr = _; rw [ht2, haddr], ?_, ?_, ?_, ?_⟩
      · show (if (!(putData x data).esid && decide ((putData x data).dea ≠ 0)) = true then
          some (if (!(putData x data).esid && decide ((putData x data).dea ≠ 0)) = true then (putData x data).dea0 else _) else none) = _
        rw [p6, p7, hx6, hx7]
        cases hdata : data with
        | nil => rfl
        | cons q qs =>
          rw [← hdata, p9 q (by rw [hdata]; rfl), hdata]
          simp
      · intro k hk
        show (if (putData x data).hasPrefix = true then (putData x data).prefixWord else t.insn) = k
        rw [p4, p8, ht1]
        exact hword k hk
      · show (if (!(putData x data).esid && decide (t.hostShift ≠ 0)) = true then some _ else none) = none
        rw [ht3]; simp
      · intro h
        show (if (putData x data).hasPrefix = true then (putData x data).prefixWord else t.insn) ≠ 0
        rw [p4, p8, ht1]
        exact hnz h
    unfold Item10.expect
    dsimp only
    rw [p4, hx4]
    cases pre with
    | none =>
      refine .cons (hfirst _ _ ?_ ?_) .nil
      · intro k hk
        rw [hx4]
        exact hstored k hk
      · rw [hx4]; exact hnz
    | some p =>
      refine .cons (hfirst _ _ ?_ ?_) (.cons ⟨rfl, rfl, fun k hk => hstored k hk, rfl, fun h => hnz h⟩ .nil)
      · intro k hk
        rw [hx4]
        show x.prefixWord = k
        rw [hx9 p rfl]
        cases hk
        rw [← u32_fld (by omega) (by omega) (by omega)]
        simp
      · intro h
        rw [hx4]
        show x.prefixWord ≠ 0
        rw [hx9 p rfl]
        intro h0
        have := u32_fld (v := p) (a := 0) (b := 31) (by omega) (by omega) (by omega)
        rw [h0] at this
        exact of_decide_eq_true h this.symm
  · show (instructions es).map pairOf = _
    have hword : word10 ⟨lines, info, msr, pre, data⟩ (Item10.addr ⟨lines, info, msr, pre, data⟩ s.insnAddr) = w := by
      rw [p3, p2, hx2, hx3, haddr] at hw
      unfold word10
      rw [hw]; rfl
    have h1 : pairOf (record10 c t (putData x data) { ok := true }) = (t.insnAddr, if x.hasPrefix then x.prefixWord else w) := by
      show (t.insnAddr, if (putData x data).hasPrefix = true then (putData x data).prefixWord else t.insn) = _
      rw [p4, p8, ht1]
    rw [hrec, List.map_cons, h1, ht2, haddr, p4, hx4]
    unfold pairs10
    rw [hword]
    cases pre with
    | none => rfl
    | some p => rw [hx9 p rfl]; rfl

/-- Records that are not of instructions are skipped. -/
theorem loop_other {c : Conf} {s : Dec} : ∀ (n e : Nat) (l : List (BitVec 64)), (∀ v ∈ l, Other v) → ([] ++ l).length < n → pureLoop c n e s ([] ++ l) = .ok (s, [])
  | 0, _, _, _, h => absurd h (by omega)
  | n + 1, e, [], _, _ => rfl
  | n + 1, e, v :: l, h, hn => by
    have ih := fun e => loop_other (c := c) (s := s) n e l (fun w hw => h w (List.mem_cons_of_mem _ hw)) (by simp at hn ⊢; omega)
    obtain ⟨h1, h2⟩ := h v (List.mem_cons_self ..)
    rw [List.nil_append] at ih ⊢
    rw [pureLoop]
    split
    · exact ih e
    · rw [show pureStep c s v l = .ok ((s, true), l, []) from by
        unfold pureStep
        rw [if_neg (fun h => h1 ((u32_eq (by omega) (by omega) (by omega) _).1 h)), if_neg (fun h => h2 ((u32_eq (by omega) (by omega) (by omega) _).1 h))]]
      dsimp only
      rw [if_neg (by rintro ⟨h, _⟩; cases h), ih]
      rfl

theorem loop10 {c : Conf} (hc : c.full = true) {tail : List (BitVec 64)} (htail : ∀ v ∈ tail, Other v) : ∀ (items : List Item10) (n e : Nat) (s : Dec), Clean s → Trace10 s.insnAddr items →
    (items.flatMap Item10.words ++ tail).length < n →
    ∃ s' es, pureLoop c n e s (items.flatMap Item10.words ++ tail) = .ok (s', es) ∧ AllShow (instructions es) (expect10 s.insnAddr items) ∧
      (instructions es).map pairOf = told10 s.insnAddr items ∧
      counters es = (items.flatMap fun _ => [.recordsProcessed, .instructionsScanned, .instructionsProcessed]) ∧ lookups es = []
  | _, 0, _, _, _, _, h => absurd h (by omega)
  | [], n + 1, e, s, _, _, hn => ⟨s, [], loop_other (n + 1) e tail htail hn, .nil, rfl, rfl, rfl⟩
  | i :: items, n + 1, e, s, hs, ht, hn => by
    obtain ⟨hi, ht⟩ := ht
    obtain ⟨v, l0, s1, es1, hw, ⟨hv, htag⟩, hstep, hs1, ha, hshow, hpairs, hcnt⟩ := step10 hc hs hi (items.flatMap Item10.words ++ tail)
    rw [← ha] at ht
    have hlen : (items.flatMap Item10.words ++ tail).length < n := by
      have h1 := eval_left (l' := items.flatMap Item10.words ++ tail) hstep
      have h2 := congrArg List.length hw
      rw [List.flatMap_cons, List.append_assoc, h2, List.length_cons] at hn
      omega
    obtain ⟨s2, es2, hloop, hshow2, hpairs2, hcnt2, hlk2⟩ := loop10 hc htail items n 0 s1 hs1 ht hlen
    refine ⟨s2, es1 ++ es2, ?_, ?_, ?_, by rw [counters_append, hcnt, hcnt2]; rfl, by rw [lookups_append, step_still htag hstep, hlk2]; rfl⟩
    · rw [List.flatMap_cons, List.append_assoc, hw, pureLoop, if_neg hv, hstep]
      dsimp only
      rw [if_neg (by rintro ⟨h, _⟩; cases h), if_pos rfl, hloop]
    · rw [instructions_append]
      rw [ha] at hshow2
      exact hshow.append hshow2
    · rw [instructions_append, List.map_append, hpairs, hpairs2, ha]
      rfl

/-- The instructions of a trace are those of the records without stamps. -/
theorem decoded_pure {c : Conf} {eof failing : Bool} {bytes : List (BitVec 8)} {fill phantom : BitVec 64}
    (hk : AllKnown (stream bytes failing eof fill phantom)) {s : Dec} {es : List Ev}
    (h : pureLoop c ((plain (stream bytes failing eof fill phantom)).length + 1) 0 {} (plain (stream bytes failing eof fill phantom)) = .ok (s, es)) :
    decoded c eof bytes failing fill phantom = some (instructions es) := by
  have h1 := decode_pure c eof bytes failing fill phantom hk
  rw [h] at h1
  obtain ⟨r, h2, h3⟩ := h1
  unfold decoded
  rw [h2]
  show some (instructions r.out) = _
  rw [← insnEvents_instructions, h3, insnEvents_instructions]

/-- **C50**, POWER10: whatever the instructions of a trace without page-table walks are, and whatever stamps there are between
its records and whatever other records at its end, the callback gets each instruction, in order, with the address made from the last line and the offset in the
instruction record, with the data address of the trace, and, unless it is a branch, with its instruction word. -/
theorem C50_p10 (c : Conf) (hc : c.full = true) {eof failing : Bool} {bytes : List (BitVec 8)} {fill phantom : BitVec 64} (items : List Item10)
    (tail : List (BitVec 64)) (hk : AllKnown (stream bytes failing eof fill phantom)) (hi : Trace10 0 items)
    (hw : plain (stream bytes failing eof fill phantom) = items.flatMap Item10.words ++ tail) (htail : ∀ v ∈ tail, Other v) :
    ∃ l, decoded c eof bytes failing fill phantom = some l ∧ AllShow l (expect10 0 items) := by
  obtain ⟨s, es, h1, h2, -⟩ := loop10 hc htail items ((items.flatMap Item10.words ++ tail).length + 1) 0 {} ⟨rfl, rfl, rfl⟩ hi (Nat.lt_succ_self _)
  refine ⟨instructions es, decoded_pure hk (s := s) ?_, h2⟩
  rw [hw]; exact h1

theorem allOf {α : Type} {p : α → Prop} [DecidablePred p] {l : List α} (h : (l.all fun x => decide (p x)) = true) : ∀ x ∈ l, p x :=
  fun x hx => of_decide_eq_true (List.all_eq_true.1 h x hx)

instance (v : BitVec 64) : Decidable (IsStamp v) := inferInstanceAs (Decidable (_ = _))
instance (v : BitVec 64) : Decidable (Other v) := inferInstanceAs (Decidable (_ ∧ _))

/-- A line, a load with a data address and a prefixed instruction after it, with a stamp between them. -/
def trace10 : List Item10 :=
  [{ lines := [(0x000000003abcdf00, 0xc000000000001080, 0x5000)], info := 0xe86300002abcdf89, msr := 0, pre := none, data := [(0xc00000000000f008, 0x77)] },
   { lines := [], info := 0x386000006abcdfa0, msr := 0, pre := some 0x0600000000000000, data := [] }]

example : Trace10 0 trace10 ∧ expect10 0 trace10 =
    [{ addr := 0xc000000000001088, data := some 0xc00000000000f008, word := some 0xe8630000, nonzero := true },
     { addr := 0xc0000000000010a0, data := none, word := some 0x06000000, nonzero := true },
     { addr := 0xc0000000000010a4, data := none, word := some 0x38600000, nonzero := true }] := by
  refine ⟨⟨⟨allOf (by decide +kernel), allOf (by decide +kernel), by decide +kernel, by decide +kernel, by decide +kernel, by decide +kernel⟩,
    ⟨allOf (by decide +kernel), allOf (by decide +kernel), by decide +kernel, by decide +kernel, by decide +kernel, by decide +kernel⟩, trivial⟩, by decide +kernel⟩

/-- A file with these records, a stamp and zeros at the end. -/
def file10 : List (BitVec 8) :=
  [0, 0, 0, 0, 0x3a, 0xbc, 0xdf, 0,  0xc0, 0, 0, 0, 0, 0, 0x10, 0x80,  0, 0, 0, 0, 0, 0, 0x50, 0,
   0xe8, 0x63, 0, 0, 0x2a, 0xbc, 0xdf, 0x89,  0, 0, 0, 0, 0, 0, 0, 0,  0xac, 0xef, 0xf8, 0, 0, 0, 0, 5,
   0xc0, 0, 0, 0, 0, 0, 0xf0, 0x08,  0, 0, 0, 0, 0, 0, 0, 0x77,
   0x38, 0x60, 0, 0, 0x6a, 0xbc, 0xdf, 0xa0,  0, 0, 0, 0, 0, 0, 0, 0,  0x06, 0, 0, 0, 0, 0, 0, 0,
   0, 0, 0, 0, 0, 0, 0, 0]

example : plain (stream file10 false false 0 0) = trace10.flatMap Item10.words ++ [0, 0] ∧ (∀ v ∈ [(0 : BitVec 64), 0], Other v) ∧
    ((stream file10 false false 0 0).all fun v => !isStamp v || (stampOf v).toOption.join.isSome) = true := by
  refine ⟨by decide +kernel, allOf (by decide +kernel), by decide +kernel⟩

/-- **C50 needs the two records to agree on the bit they share**: after a line with the bit set, offsets without it do not move
the address to the lower half. -/
theorem C50_half_refuted :
    let i : Item10 := { lines := [(0x000000003abcdf00, 0x1080, 0x5000)], info := 0x600000002abcdf00, msr := 0, pre := none, data := [] }
    fld i.info 56 61 = 0 ∧ i.addr 0 = 0x1000 ∧
    (decoded { fn := true, private_ := true, junk := {} } true
      [0, 0, 0, 0, 0x3a, 0xbc, 0xdf, 0,  0, 0, 0, 0, 0, 0, 0x10, 0x80,  0, 0, 0, 0, 0, 0, 0x50, 0,
       0x60, 0, 0, 0, 0x2a, 0xbc, 0xdf, 0,  0, 0, 0, 0, 0, 0, 0, 0] false 0 0).map (·.map (·.insnAddr)) = some [0x1080] := by
  decide +kernel

/-! ### POWER9 -/

/-- The record for an instruction. -/
theorem finish9_eval {c : Conf} (hc : c.full = true) (s : Dec) (i : I9) (l : List (BitVec 64)) :
    ∃ s' w es, wordOf i.branch i.opcode (recodeP9 i.opcode s.insnAddr) = some w ∧
      (finish9 c s i).eval l = .ok ((s', true), l, es) ∧ s'.tlb = s.tlb ∧ s'.insnAddr = s.insnAddr ∧
      instructions es = [record9 c { s with insn := w } i] := by
  obtain ⟨w, hw⟩ := wordOf_some (branch := i.branch) (op := i.opcode) (low_p9 i.opcode s.insnAddr)
  have hf : (finish9 c s i).eval l = (Prog.tell (.inst s.insnAddr w) (tellAll (jumpEvents s) (.tell (.insn (record9 c { s with insn := w } i))
      (.done ({ s with insn := w, prevAddr := s.insnAddr, prevBranch := i.branch || isCall w || jumped s }, true))))).eval l := by
    unfold finish9
    rw [hw]
    dsimp only
    rw [hc, if_pos rfl]
  rw [eval_tell, eval_tellAll, eval_tell] at hf
  refine ⟨{ s with insn := w, prevAddr := s.insnAddr, prevBranch := i.branch || isCall w || jumped s }, w, _, hw, hf, rfl, rfl, ?_⟩
  show instructions (jumpEvents s ++ [Ev.insn (record9 c { s with insn := w } i)]) = _
  rw [instructions_append]
  have : instructions (jumpEvents s) = [] := by
    unfold jumpEvents
    split
    · split
      · rfl
      · split <;> rfl
    · rfl
  rw [this]; rfl

/-- The same but for the real address of the data. -/
structure Same9 (i i' : I9) : Prop where
  opcode : i'.opcode = i.opcode
  branch : i'.branch = i.branch
  dea : i'.dea = i.dea
  deaAddr : i'.deaAddr = i.deaAddr
  ira : i'.ira = i.ira
  iraAddr : i'.iraAddr = i.iraAddr
  iraSize : i'.iraSize = i.iraSize
  esid : i'.esid = i.esid

/-- The record with the real address of the data. -/
theorem dra9_eval {c : Conf} (hc : c.full = true) (s : Dec) (i : I9) (l : List (BitVec 64)) (dra : Option (BitVec 64))
    (h : i.dra = dra.isSome) (he : i.esid = false) (ht : ∀ v, dra = some v → badTag v = false ∧ fld v 0 1 ≠ 2) :
    ∃ i' es0, Same9 i i' ∧ instructions es0 = [] ∧ (draStep9 c s i).eval (dra.toList ++ l) =
      match (finish9 c s i').eval l with
      | .error h => .error h
      | .ok (b, l', es') => .ok (b, l', es0 ++ es') := by
  cases dra with
  | none =>
    refine ⟨i, [], ⟨rfl, rfl, rfl, rfl, rfl, rfl, rfl, rfl⟩, rfl, ?_⟩
    unfold draStep9
    rw [if_neg (by rw [h]; decide)]
    show (finish9 c s i).eval l = _
    generalize (finish9 c s i).eval l = e
    cases e <;> rfl
  | some v =>
    obtain ⟨h1, h2⟩ := ht v rfl
    have : ∃ a n, dra9 v = some (a, n) := by
      unfold dra9
      rw [h1, if_neg (by decide)]
      split
      · exact ⟨_, _, rfl⟩
      · split
        · exact ⟨_, _, rfl⟩
        · split
          · exact ⟨_, _, rfl⟩
          · rename_i g1 g2 g3
            rw [u32_eq (by omega) (by omega) (by omega)] at g1 g2 g3
            have h4 : fld v 0 1 < 4 := fld_lt v 0 1
            have g1 : fld v 0 1 ≠ 0 := g1
            have g2 : fld v 0 1 ≠ 1 := g2
            have g3 : fld v 0 1 ≠ 3 := g3
            omega
    obtain ⟨a, n, hd⟩ := this
    refine ⟨{ i with draAddr := a, draSize := n }, dataPages9 n ++ [.count .withoutDVsid], ⟨rfl, rfl, rfl, rfl, rfl, rfl, rfl, rfl⟩, ?_, ?_⟩
    · rw [instructions_append]
      unfold dataPages9
      split
      · rfl
      · split
        · rfl
        · split <;> rfl
    · unfold draStep9
      rw [if_pos (by rw [h]; rfl)]
      show Prog.eval (if (!c.full) = true then _ else if i.esid = true then _ else _) l = _
      rw [hc, if_neg (by decide), if_neg (by rw [he]; decide), hd]
      dsimp only
      generalize finish9 c s { i with draAddr := a, draSize := n } = p
      rw [eval_tellAll, eval_tell]
      generalize p.eval l = e
      cases e with
      | error h => rfl
      | ok q => show Except.ok _ = Except.ok _; rw [List.append_assoc]; rfl

/-- The record with the address of the data. -/
theorem dea9_eval {c : Conf} (hc : c.full = true) (s : Dec) (i : I9) (l : List (BitVec 64)) (dea : Option (BitVec 64))
    (h : i.dea = dea.isSome) (he : i.esid = false) (ht : ∀ v, dea = some v → badTag v = false) :
    (deaStep9 c s i).eval (dea.toList ++ l) = (draStep9 c s { i with deaAddr := dea.getD i.deaAddr }).eval l := by
  cases dea with
  | none =>
    unfold deaStep9
    rw [if_neg (by rw [h]; decide)]
    rfl
  | some v =>
    unfold deaStep9
    rw [if_pos (by rw [h]; rfl)]
    show Prog.eval (if (!c.full) = true then _ else if badTag v = true then _ else if i.esid = true then _ else _) l = _
    rw [hc, if_neg (by decide), if_neg (by rw [ht v rfl]; decide), if_neg (by rw [he]; decide)]
    rfl

theorem ira9_eval {c : Conf} (s : Dec) (i : I9) (l : List (BitVec 64)) (h : i.ira = false ∨ i.soft = true) :
    (iraStep9 c s i).eval l =
      match (deaStep9 c s i).eval l with
      | .error h => .error h
      | .ok (b, l', es') => .ok (b, l', .ea s.insnAddr :: .count .withoutIra :: es') := by
  unfold iraStep9
  rw [if_neg (by rcases h with h | h <;> rw [h] <;> simp), eval_tell, eval_tell]
  generalize (deaStep9 c s i).eval l = e
  cases e <;> rfl

/-- The lookup of an address in the cache, to which nothing was added. -/
theorem raGet_empty (ea : BitVec 64) (b : Bool) :
    Tlb.raGet {} ea (reloc b) = if b then some none else some (some (ea &&& 0x3fffffffffffffff, 0x1000)) := by
  cases b <;> rfl

/-- The address of the instruction. -/
def place9 (s : Dec) (iea : Option (BitVec 64)) : Dec :=
  { s with insnAddr := match iea with | some v => v &&& 0xfffffffffffffffc | none => s.insnAddr + 4 }

/-- The real address that is known without the cache. -/
def realOf : Option (BitVec 64) → Option (BitVec 64)
  | some v => if bit v 63 then none else some (v &&& 0xfffffffffffffffc &&& 0x3fffffffffffffff)
  | none => none

/-- The record with the address of the instruction. -/
theorem iea9_eval {c : Conf} (hc : c.full = true) (s : Dec) (i : I9) (l : List (BitVec 64)) (iea : Option (BitVec 64))
    (h : i.iea = iea.isSome) (hi : i.ira = false) (htlb : s.tlb = {}) (ht : ∀ v, iea = some v → badTag v = false) :
    ∃ i' f, (ieaStep9 c s i).eval (iea.toList ++ l) = (tellAll f (iraStep9 c (place9 s iea) i')).eval l ∧ instructions f = [] ∧
      (i'.opcode = i.opcode ∧ i'.branch = i.branch ∧ i'.dea = i.dea ∧ i'.dra = i.dra ∧ i'.esid = i.esid) ∧
      (i'.ira = false ∨ i'.soft = true) ∧
      (if i'.ira && decide (i'.iraSize > 0) then some i'.iraAddr else none) = realOf iea := by
  cases iea with
  | none =>
    refine ⟨i, [], ?_, rfl, ⟨rfl, rfl, rfl, rfl, rfl⟩, Or.inl hi, by rw [hi]; rfl⟩
    unfold ieaStep9
    rw [if_neg (by rw [h]; decide)]
    rfl
  | some v =>
    have h1 : (ieaStep9 c s i).eval ((some v).toList ++ l) = (cached9 c (place9 s (some v)) { i with msrir := bit v 63 }).eval l := by
      unfold ieaStep9
      rw [if_pos (by rw [h]; rfl)]
      show Prog.eval (if badTag v = true then _ else _) l = _
      rw [if_neg (by rw [ht v rfl]; decide)]
      rfl
    have h2 : Tlb.raGet (place9 s (some v)).tlb (v &&& 0xfffffffffffffffc) (reloc (bit v 63)) =
        if bit v 63 then some none else some (some (v &&& 0xfffffffffffffffc &&& 0x3fffffffffffffff, 0x1000)) := by
      rw [show (place9 s (some v)).tlb = {} from htlb]
      exact raGet_empty _ _
    rw [h1]
    unfold cached9
    rw [if_pos (by show (c.full && !i.ira) = true; rw [hc, hi]; rfl)]
    show ∃ i' f, Prog.eval (.tell (.tlb (.get (v &&& 0xfffffffffffffffc) (reloc (bit v 63)))) <| match Tlb.raGet (place9 s (some v)).tlb (v &&& 0xfffffffffffffffc) (reloc (bit v 63)) with
      | none => Prog.stop .assert
      | some none => iraStep9 c (place9 s (some v)) { i with msrir := bit v 63 }
      | some (some (a, size)) => iraStep9 c (place9 s (some v)) { i with msrir := bit v 63, ira := true, soft := true, iraAddr := a, iraSize := shiftOf size }) l = _ ∧ _
    rw [h2]
    cases hb : bit v 63 with
    | true => exact ⟨{ i with msrir := true }, [.tlb _], rfl, rfl, ⟨rfl, rfl, rfl, rfl, rfl⟩, Or.inl hi, by show (if (i.ira && _) = true then _ else _) = (if bit v 63 then _ else _); rw [hi, hb]; rfl⟩
    | false => exact ⟨_, [.tlb _], rfl, rfl, ⟨rfl, rfl, rfl, rfl, rfl⟩, Or.inr rfl, by show some _ = (if bit v 63 then _ else _); rw [hb]; rfl⟩

theorem mask_word (v : BitVec 64) : v &&& 0xfffffffffffffffc = BitVec.ofNat 64 (v.toNat / 4 * 4) := by
  have h : v &&& (0xfffffffffffffffc : BitVec 64) = (v >>> 2) <<< 2 := by
    apply BitVec.eq_of_getLsbD_eq
    intro i hi
    rw [BitVec.getLsbD_and, BitVec.getLsbD_shiftLeft, BitVec.getLsbD_ushiftRight]
    have hm : (0xfffffffffffffffc : BitVec 64).getLsbD i = decide (2 ≤ i) := by
      have : ∀ i : Fin 64, (0xfffffffffffffffc : BitVec 64).getLsbD i = decide (2 ≤ i.val) := by decide
      exact this ⟨i, hi⟩
    rw [hm]
    by_cases h : 2 ≤ i
    · simp [h, hi, Nat.not_lt.2 h, Nat.add_sub_cancel' h]
    · simp [h, Nat.lt_of_not_le h]
  rw [h]
  apply BitVec.eq_of_toNat_eq
  rw [BitVec.toNat_shiftLeft, BitVec.toNat_ushiftRight, Nat.shiftLeft_eq, Nat.shiftRight_eq_div_pow, BitVec.toNat_ofNat]

theorem mask_real (v : BitVec 64) : v &&& 0xfffffffffffffffc &&& 0x3fffffffffffffff = BitVec.ofNat 64 (v.toNat / 4 * 4 % 2 ^ 62) := by
  rw [mask_word]
  apply BitVec.eq_of_toNat_eq
  rw [BitVec.toNat_and, show (0x3fffffffffffffff : BitVec 64).toNat = 2 ^ 62 - 1 from by decide, Nat.and_two_pow_sub_one_eq_mod]
  rw [BitVec.toNat_ofNat, BitVec.toNat_ofNat]
  omega

/-- All records of an instruction. -/
theorem body9_eval {c : Conf} (hc : c.full = true) {s : Dec} (hs : s.tlb = {}) (i : I9) (iea dea dra : Option (BitVec 64)) (rest : List (BitVec 64))
    (h1 : i.iea = iea.isSome) (h2 : i.dea = dea.isSome) (h3 : i.dra = dra.isSome) (h4 : i.ira = false) (h5 : i.esid = false)
    (hbi : ∀ v, iea = some v → badTag v = false) (hbd : ∀ v, dea = some v → badTag v = false)
    (hbr : ∀ v, dra = some v → badTag v = false ∧ fld v 0 1 ≠ 2) :
    ∃ s' w es i', wordOf i.branch i.opcode (recodeP9 i.opcode (place9 s iea).insnAddr) = some w ∧
      (ieaStep9 c s i).eval (iea.toList ++ (dea.toList ++ (dra.toList ++ rest))) = .ok ((s', true), rest, es) ∧
      s'.tlb = {} ∧ s'.insnAddr = (place9 s iea).insnAddr ∧ instructions es = [record9 c { place9 s iea with insn := w } i'] ∧
      i'.dea = dea.isSome ∧ (∀ v, dea = some v → i'.deaAddr = v) ∧ i'.esid = false ∧
      (if i'.ira && decide (i'.iraSize > 0) then some i'.iraAddr else none) = realOf iea := by
  obtain ⟨i1, f0, q1, hf0, ⟨a1, a2, a3, a4, a5⟩, q2, q3⟩ := iea9_eval hc s i (dea.toList ++ (dra.toList ++ rest)) iea h1 h4 hs hbi
  generalize hi2 : ({ i1 with deaAddr := dea.getD i1.deaAddr } : I9) = i2
  have q4 := dea9_eval hc (place9 s iea) i1 (dra.toList ++ rest) dea (a3.trans h2) (a5.trans h5) hbd
  rw [hi2] at q4
  have b1 : i2.opcode = i1.opcode ∧ i2.branch = i1.branch ∧ i2.dea = i1.dea ∧ i2.dra = i1.dra ∧ i2.esid = i1.esid ∧ i2.ira = i1.ira ∧
      i2.iraSize = i1.iraSize ∧ i2.iraAddr = i1.iraAddr ∧ i2.deaAddr = dea.getD i1.deaAddr := by
    rw [← hi2]; exact ⟨rfl, rfl, rfl, rfl, rfl, rfl, rfl, rfl, rfl⟩
  obtain ⟨b1, b2, b3, b4, b5, b6, b7, b8, b9⟩ := b1
  obtain ⟨i3, es0, sm, r1, r2⟩ := dra9_eval hc (place9 s iea) i2 rest dra (b4.trans (a4.trans h3)) (b5.trans (a5.trans h5)) hbr
  obtain ⟨s', w, es, f1, f2, f3, f4, f5⟩ := finish9_eval hc (place9 s iea) i3 rest
  rw [f2] at r2
  dsimp only at r2
  rw [eval_tellAll, ira9_eval _ _ _ q2, q4, r2] at q1
  dsimp only at q1
  refine ⟨s', w, _, i3, ?_, q1, f3.trans hs, f4, ?_, ?_, ?_, ?_, ?_⟩
  · rw [sm.branch, sm.opcode, b1, b2, a1, a2] at f1; exact f1
  · show instructions (f0 ++ (_ :: _ :: (es0 ++ es))) = _
    rw [instructions_append, hf0, List.nil_append]
    show instructions (es0 ++ es) = _
    rw [instructions_append, r1, f5]; rfl
  · rw [sm.dea, b3, a3, h2]
  · intro v hv; rw [sm.deaAddr, b9, hv]; rfl
  · rw [sm.esid, b5, a5, h5]
  · rw [sm.ira, sm.iraSize, sm.iraAddr, b6, b7, b8]; exact q3

theorem if_same {b : Bool} {a d : BitVec 64} : (if b = true then some (if b = true then a else d) else none) = if b = true then some a else none := by
  cases b <;> rfl

/-- The word that is decoded for an instruction at an address. -/
def word9 (i : Item9) (a : BitVec 64) : BitVec 32 := (wordOf (bit i.info 32) (u32 i.info 0 31) (recodeP9 (u32 i.info 0 31) a)).getD 0

def told9 (prev : BitVec 64) : List Item9 → List (BitVec 64 × BitVec 32)
  | [] => []
  | i :: l => (i.addr prev, word9 i (i.addr prev)) :: told9 (i.addr prev) l

/-- One instruction. -/
theorem step9 {c : Conf} (hc : c.full = true) {s : Dec} (hs : s.tlb = {}) {i : Item9} (hi : i.Ok) (rest : List (BitVec 64)) :
    ∃ l0 s' es, i.words = i.info :: l0 ∧ i.info ≠ 0 ∧ pureStep c s i.info (l0 ++ rest) = .ok ((s', true), rest, es) ∧
      s'.tlb = {} ∧ s'.insnAddr = i.addr s.insnAddr ∧ AllShow (instructions es) [i.expect s.insnAddr] ∧
      (∀ r ∈ instructions es, r.radixInsn = c.junk.radixInsn ∧ r.radixData = c.junk.radixData) ∧
      (instructions es).map pairOf = [(i.addr s.insnAddr, word9 i (i.addr s.insnAddr))] := by
  obtain ⟨info, iea, dea, dra⟩ := i
  obtain ⟨htag, hval, hira, hesid⟩ := hi.info
  have hword := hi.word
  have h1 := hi.iea
  have h2 := hi.dea
  have h3 := hi.dra
  dsimp only at htag hval hira hesid hword h1 h2 h3
  have hbad : ∀ v ∈ iea.toList ++ dea.toList ++ dra.toList, badTag v = false := fun v hv =>
    badTag_false (hi.plain v (by
      show v ∈ [info] ++ iea.toList ++ dea.toList ++ dra.toList
      rw [List.append_assoc, List.append_assoc, ← List.append_assoc iea.toList]
      exact List.mem_append_right _ hv)) (hi.tags v hv)
  have hbi : ∀ v, iea = some v → badTag v = false := fun v hv => hbad v (by subst hv; simp)
  have hbd : ∀ v, dea = some v → badTag v = false := fun v hv => hbad v (by subst hv; simp)
  have hbr : ∀ v, dra = some v → badTag v = false ∧ fld v 0 1 ≠ 2 := fun v hv => ⟨hbad v (by subst hv; simp), hi.size v hv⟩
  generalize hi0 : ({ opcode := u32 info 0 31, branch := bit info 32, valid := bit info 56, iea := bit info 57, ira := bit info 58, dea := bit info 59, dra := bit info 60, esid := bit info 61 } : I9) = i0
  have hinfo : info9 info = some i0 := by
    unfold info9
    rw [if_neg (fun h => h ((u32_eq (by omega) (by omega) (by omega) _).2 htag)),
      if_neg (by rw [u32_eq (by omega) (by omega) (by omega)]; exact hword), hi0]
  have e1 : i0.iea = iea.isSome := by rw [h1, ← hi0]; exact bit_fld (by omega)
  have e2 : i0.dea = dea.isSome := by rw [h2, ← hi0]; exact bit_fld (by omega)
  have e3 : i0.dra = dra.isSome := by rw [h3, ← hi0]; exact bit_fld (by omega)
  have e4 : i0.ira = false := by rw [← hi0]; show bit info 58 = false; rw [bit_fld (by omega), hira]; rfl
  have e5 : i0.esid = false := by rw [← hi0]; show bit info 61 = false; rw [bit_fld (by omega), hesid]; rfl
  have e6 : i0.valid = true := by rw [← hi0]; show bit info 56 = true; rw [bit_fld (by omega), hval]; rfl
  have e8 : i0.opcode = u32 info 0 31 := by rw [← hi0]
  have e9 : i0.branch = bit info 32 := by rw [← hi0]
  obtain ⟨s', w, es, i', f1, f2, f3, f4, f5, f6, f7, f8, f9⟩ := body9_eval hc hs i0 iea dea dra rest e1 e2 e3 e4 e5 hbi hbd hbr
  have haddr : (place9 s iea).insnAddr = Item9.addr ⟨info, iea, dea, dra⟩ s.insnAddr := by
    unfold Item9.addr
    cases iea with
    | none => rfl
    | some v => exact mask_word v
  refine ⟨iea.toList ++ dea.toList ++ dra.toList, s', .count .recordsProcessed :: .count .instructionsScanned :: .count .instructionsProcessed :: es,
    by simp [Item9.words], ?_, ?_, f3, f4.trans haddr, ?_, ?_, ?_⟩
  · intro (h0 : info = 0); rw [h0] at htag; revert htag; decide
  · unfold pureStep
    rw [if_pos ((u32_eq (by omega) (by omega) (by omega) _).2 htag)]
    unfold insn9
    rw [hinfo]
    dsimp only
    rw [e6, if_pos rfl, eval_tell, eval_tell, eval_tell, List.append_assoc, List.append_assoc, f2]
  · show AllShow (instructions es) _
    rw [f5]
    refine .cons ⟨haddr, ?_, ?_, ?_, ?_⟩ .nil
    · show (if i'.dea = true then some (if i'.dea = true then i'.deaAddr else _) else none) = dea
      rw [if_same, f6]
      cases dea with
      | none => rfl
      | some v => rw [f7 v rfl]; rfl
    · intro k hk
      show w = k
      rw [e8, e9] at f1
      refine wordOf_stored f1 ?_
      rw [u32_fld (by omega) (by omega) (by omega), bit_fld (by omega)]
      have h1 : fld info 32 32 < 2 := fld_lt info 32 32
      have h2 : (if decide (fld info 32 32 = 1) = true then 1 else 0) = fld info 32 32 := by
        by_cases h : fld info 32 32 = 1
        · rw [h]; rfl
        · rw [if_neg (by simpa using h)]; omega
      rw [h2]; exact hk
    · show (if (i'.ira && !i'.esid && decide (i'.iraSize > 0)) = true then some (if (i'.ira && !i'.esid && decide (i'.iraSize > 0)) = true then i'.iraAddr else _) else none) = Item9.real ⟨info, iea, dea, dra⟩
      rw [if_same, f8, Bool.not_false, Bool.and_true, f9]
      unfold Item9.real
      cases iea with
      | none => rfl
      | some v =>
        show (if bit v 63 then _ else _) = _
        dsimp only
        rw [mask_real, bit_fld (by omega)]
        have h1 : fld v 63 63 < 2 := fld_lt v 63 63
        by_cases h : fld v 63 63 = 1
        · rw [h]; rfl
        · rw [if_neg (by simpa using h), if_pos (by omega)]
    · intro _
      show w ≠ 0
      refine wordOf_ne f1 (fun _ => ne_p9 _ _) ?_
      rw [e8]
      intro h0
      have := u32_fld (v := info) (a := 0) (b := 31) (by omega) (by omega) (by omega)
      rw [h0] at this
      exact hword this.symm
  · show ∀ r ∈ instructions es, _
    rw [f5]
    intro r hr
    rcases List.mem_singleton.1 hr with rfl
    exact ⟨rfl, rfl⟩
  · show (instructions es).map pairOf = _
    rw [f5]
    rw [e8, e9, haddr] at f1
    unfold word9
    rw [f1, ← haddr]
    rfl

theorem loop9 {c : Conf} (hc : c.full = true) {tail : List (BitVec 64)} (htail : ∀ v ∈ tail, Other v) : ∀ (items : List Item9) (n e : Nat) (s : Dec), s.tlb = {} → (∀ i ∈ items, i.Ok) →
    (items.flatMap Item9.words ++ tail).length < n →
    ∃ s' es, pureLoop c n e s (items.flatMap Item9.words ++ tail) = .ok (s', es) ∧ AllShow (instructions es) (expect9 s.insnAddr items) ∧
      (∀ r ∈ instructions es, r.radixInsn = c.junk.radixInsn ∧ r.radixData = c.junk.radixData) ∧
      (instructions es).map pairOf = told9 s.insnAddr items
  | _, 0, _, _, _, _, h => absurd h (by omega)
  | [], n + 1, e, s, _, _, hn => ⟨s, [], loop_other (n + 1) e tail htail hn, .nil, (fun r hr => by cases hr), rfl⟩
  | i :: items, n + 1, e, s, hs, ht, hn => by
    obtain ⟨l0, s1, es1, hw, hv, hstep, hs1, ha, hshow, hrad, hpairs⟩ := step9 hc hs (ht i (List.mem_cons_self ..)) (items.flatMap Item9.words ++ tail)
    have hlen : (items.flatMap Item9.words ++ tail).length < n := by
      rw [List.flatMap_cons, List.append_assoc, hw, List.length_append, List.length_cons] at hn
      omega
    obtain ⟨s2, es2, hloop, hshow2, hrad2, hpairs2⟩ := loop9 hc htail items n 0 s1 hs1 (fun j hj => ht j (List.mem_cons_of_mem _ hj)) hlen
    refine ⟨s2, es1 ++ es2, ?_, ?_, ?_, ?_⟩
    · rw [List.flatMap_cons, List.append_assoc, hw, List.cons_append, pureLoop, if_neg hv, hstep]
      dsimp only
      rw [if_neg (by rintro ⟨h, _⟩; cases h), if_pos rfl, hloop]
    · rw [instructions_append]
      rw [ha] at hshow2
      exact hshow.append hshow2
    · rw [instructions_append]
      intro r hr
      rcases List.mem_append.1 hr with h | h
      · exact hrad r h
      · exact hrad2 r h
    · rw [instructions_append, List.map_append, hpairs, hpairs2, ha]
      rfl

/-- **C50**, POWER9: whatever the instructions of a trace without real addresses of instructions are, and whatever stamps there
are between its records and whatever other records at its end, the callback gets each instruction, in order, with the address of the trace or that after the one
before, with the data address of the trace, and, unless it is a branch, with its instruction word. -/
theorem C50_p9 (c : Conf) (hc : c.full = true) {eof failing : Bool} {bytes : List (BitVec 8)} {fill phantom : BitVec 64} (items : List Item9)
    (tail : List (BitVec 64)) (hk : AllKnown (stream bytes failing eof fill phantom)) (hi : ∀ i ∈ items, i.Ok)
    (hw : plain (stream bytes failing eof fill phantom) = items.flatMap Item9.words ++ tail) (htail : ∀ v ∈ tail, Other v) :
    ∃ l, decoded c eof bytes failing fill phantom = some l ∧ AllShow l (expect9 0 items) := by
  obtain ⟨s, es, h1, h2, -⟩ := loop9 hc htail items ((items.flatMap Item9.words ++ tail).length + 1) 0 {} rfl hi (Nat.lt_succ_self _)
  refine ⟨instructions es, decoded_pure hk (s := s) ?_, h2⟩
  rw [hw]; exact h1

/-- An instruction in real mode and a store after it. -/
def trace9 : List Item9 :=
  [{ info := 0x600000000abcdec0, iea := some 0x8000000000001000, dea := none, dra := none },
   { info := 0xf86300000abcde98, iea := none, dea := some 0xc00000000000f008, dra := some 0x0000000005000000 }]

example : (∀ i ∈ trace9, i.Ok) ∧ expect9 0 trace9 =
    [{ addr := 0x8000000000001000, data := none, word := some 0x60000000, real := some 0x1000, nonzero := true },
     { addr := 0x8000000000001004, data := some 0xc00000000000f008, word := some 0xf8630000, nonzero := true }] := by
  refine ⟨?_, by decide +kernel⟩
  intro i hi
  rcases List.mem_cons.1 hi with rfl | hi
  · exact ⟨allOf (by decide +kernel), by decide +kernel, by decide +kernel, by decide +kernel, by decide +kernel, by decide +kernel, allOf (by decide +kernel), by intro v hv; cases hv⟩
  · rcases List.mem_cons.1 hi with rfl | hi
    · exact ⟨allOf (by decide +kernel), by decide +kernel, by decide +kernel, by decide +kernel, by decide +kernel, by decide +kernel, allOf (by decide +kernel),
        by intro v hv; cases hv; decide +kernel⟩
    · cases hi

def file9 : List (BitVec 8) :=
  [0x60, 0, 0, 0, 0x0a, 0xbc, 0xde, 0xc0,  0xac, 0xef, 0xf8, 0, 0, 0, 0, 5,  0x80, 0, 0, 0, 0, 0, 0x10, 0,
   0xf8, 0x63, 0, 0, 0x0a, 0xbc, 0xde, 0x98,  0xc0, 0, 0, 0, 0, 0, 0xf0, 0x08,  0, 0, 0, 0, 0x05, 0, 0, 0]

example : plain (stream file9 false false 0 0) = trace9.flatMap Item9.words ++ [0] ∧
    ((stream file9 false false 0 0).all fun v => !isStamp v || (stampOf v).toOption.join.isSome) = true := by
  decide +kernel

/-- **C50 is refuted for POWER9 traces with segment information**: the data address is in the trace, but the callback gets 0 as
a valid data address. -/
theorem C50_segment_refuted :
    let v : BitVec 64 := 0xf86300000abcded4
    fld v 57 57 = 1 ∧ fld v 59 59 = 1 ∧ fld v 61 61 = 1 ∧
    (decoded { fn := true, private_ := true, junk := {} } true
      [0xf8, 0x63, 0, 0, 0x0a, 0xbc, 0xde, 0xd4,  0xc0, 0, 0, 0, 0, 0, 0x10, 0,  0xc0, 0, 0, 0, 0, 0, 0xf0, 0x08] false 0 0).map
        (·.map fun r => (r.insnAddr, r.dataAddrValid, r.dataAddr)) = some [(0xc000000000001000, true, 0)] := by
  decide +kernel

end Htm
