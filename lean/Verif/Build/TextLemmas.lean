import Verif.Build.Text
import Verif.Build.Props
import Verif.Dis.Props
import Verif.Qt.PropsRoundTrip

/-! # Lemmas about traces turned into assembler text and back -/

namespace Qtb
open QtbSpec AsmSpec

/-! ### Words -/

theorem kind_b (w : Nat) : Qt.Spec.kind w = .b ↔ w / 2 ^ 26 = 18 := by
  unfold Qt.Spec.kind Qt.Spec.primary
  constructor
  · intro h
    by_cases h1 : w / 2 ^ 26 = 18
    · exact h1
    · rw [if_neg h1] at h
      repeat' (first | (cases h; done) | (split at h))
  · intro h; rw [if_pos h]

theorem kind_bc (w : Nat) : Qt.Spec.kind w = .bc ↔ w / 2 ^ 26 = 16 := by
  unfold Qt.Spec.kind Qt.Spec.primary
  constructor
  · intro h
    by_cases h1 : w / 2 ^ 26 = 16
    · exact h1
    · rw [if_neg h1] at h
      repeat' (first | (cases h; done) | (split at h))
  · intro h; rw [if_neg (by omega), if_pos h]

theorem withoutTarget_toNat (w : BitVec 32) : (withoutTarget w).toNat =
    if Qt.Spec.kind w.toNat = .b then w.toNat - 4 * Qt.Spec.li w.toNat
    else if Qt.Spec.kind w.toNat = .bc then w.toNat - 4 * Qt.Spec.bd w.toNat else w.toNat := by
  have := w.isLt
  unfold withoutTarget
  split
  · rw [BitVec.toNat_ofNat, Nat.mod_eq_of_lt (by omega)]
  · split
    · rw [BitVec.toNat_ofNat, Nat.mod_eq_of_lt (by omega)]
    · rfl

theorem withoutTarget_other {w : BitVec 32} (h : ¬ Targeted w) : withoutTarget w = w := by
  unfold withoutTarget
  rw [if_neg (fun e => h (.inl e)), if_neg (fun e => h (.inr e))]

/-- Everything but the target is left. -/
theorem withoutTarget_fields {w : BitVec 32} (h : Targeted w) :
    Qt.Spec.kind (withoutTarget w).toNat = Qt.Spec.kind w.toNat ∧ Qt.Spec.lk (withoutTarget w).toNat = Qt.Spec.lk w.toNat ∧
    Qt.Spec.aa (withoutTarget w).toNat = Qt.Spec.aa w.toNat ∧
    (Qt.Spec.kind w.toNat = .bc → Qt.Spec.bo (withoutTarget w).toNat = Qt.Spec.bo w.toNat ∧
      Qt.Spec.bi (withoutTarget w).toNat = Qt.Spec.bi w.toNat) := by
  rw [withoutTarget_toNat]
  have hlt := w.isLt
  unfold Targeted at h
  generalize w.toNat = n at hlt h
  rcases h with h | h
  · rw [if_pos h]
    have h' := (kind_b n).1 h
    refine ⟨?_, ?_, ?_, fun e => by rw [h] at e; cases e⟩
    · rw [h, kind_b]; unfold Qt.Spec.li; omega
    · unfold Qt.Spec.lk Qt.Spec.li; omega
    · unfold Qt.Spec.aa Qt.Spec.li; omega
  · rw [if_neg (by rw [h]; decide), if_pos h]
    have h' := (kind_bc n).1 h
    refine ⟨?_, ?_, ?_, fun _ => ⟨?_, ?_⟩⟩
    · rw [h, kind_bc]; unfold Qt.Spec.bd; omega
    · unfold Qt.Spec.lk Qt.Spec.bd; omega
    · unfold Qt.Spec.aa Qt.Spec.bd; omega
    · unfold Qt.Spec.bo Qt.Spec.bd; omega
    · unfold Qt.Spec.bi Qt.Spec.bd; omega

theorem withoutTarget_targeted (w : BitVec 32) : Targeted (withoutTarget w) ↔ Targeted w := by
  by_cases h : Targeted w
  · have := (withoutTarget_fields h).1
    unfold Targeted
    rw [this]
  · rw [withoutTarget_other h]

theorem ofInt_small {a b : Int} (ha : -2 ^ 25 ≤ a ∧ a < 2 ^ 25) (hb : -2 ^ 25 ≤ b ∧ b < 2 ^ 25)
    (h : BitVec.ofInt 64 a = BitVec.ofInt 64 b) : a = b := by
  have := congrArg BitVec.toInt h
  rw [BitVec.toInt_ofInt, BitVec.toInt_ofInt, Int.bmod_eq_of_le (by omega) (by omega), Int.bmod_eq_of_le (by omega) (by omega)] at this
  exact this

theorem displacement_range (w : Nat) : -2 ^ 25 ≤ Qt.Spec.displacement w ∧ Qt.Spec.displacement w < 2 ^ 25 := by
  unfold Qt.Spec.displacement Qt.Spec.signed Qt.Spec.li Qt.Spec.bd
  split <;> split <;> omega

/-- A branch is determined by its target and the other fields. -/
theorem word_determined {v w : BitVec 32} {pc : BitVec 64} (hT : Targeted w) (hk : Qt.Spec.kind v.toNat = Qt.Spec.kind w.toNat)
    (hl : Qt.Spec.lk v.toNat = Qt.Spec.lk w.toNat) (ha : Qt.Spec.aa v.toNat = Qt.Spec.aa w.toNat)
    (hb : Qt.Spec.kind w.toNat = .bc → Qt.Spec.bo v.toNat = Qt.Spec.bo w.toNat ∧ Qt.Spec.bi v.toNat = Qt.Spec.bi w.toNat)
    (ht : Qt.Spec.target v.toNat pc = Qt.Spec.target w.toNat pc) : v = w := by
  have hd : Qt.Spec.displacement v.toNat = Qt.Spec.displacement w.toNat := by
    unfold Qt.Spec.target at ht
    rw [ha] at ht
    exact ofInt_small (displacement_range _) (displacement_range _) ((BitVec.add_left_inj _).1 ht)
  apply BitVec.eq_of_toNat_eq
  have hv := v.isLt
  have hw := w.isLt
  unfold Targeted at hT
  generalize v.toNat = a at *
  generalize w.toNat = b at *
  unfold Qt.Spec.displacement at hd
  rw [hk] at hd
  rcases hT with h | h
  · rw [if_pos h, if_pos h] at hd
    rw [h, kind_b] at hk
    rw [kind_b] at h
    unfold Qt.Spec.signed Qt.Spec.li at hd
    unfold Qt.Spec.lk at hl
    unfold Qt.Spec.aa at ha
    split at hd <;> split at hd <;> omega
  · obtain ⟨h1, h2⟩ := hb h
    rw [if_neg (by rw [h]; decide), if_neg (by rw [h]; decide)] at hd
    rw [h, kind_bc] at hk
    rw [kind_bc] at h
    unfold Qt.Spec.signed Qt.Spec.bd at hd
    unfold Qt.Spec.lk at hl
    unfold Qt.Spec.aa at ha
    unfold Qt.Spec.bo at h1
    unfold Qt.Spec.bi at h2
    split at hd <;> split at hd <;> omega

/-- The target of a branch is within its reach. -/
theorem reachable_target {w : Nat} (h : Qt.Spec.kind w = .b ∨ Qt.Spec.kind w = .bc) (pc : BitVec 64) :
    Qt.Spec.reachable w pc (Qt.Spec.target w pc) := by
  have hdist : Qt.Spec.distance w pc (Qt.Spec.target w pc) = Qt.Spec.displacement w := by
    have hr := displacement_range w
    have e : (if Qt.Spec.aa w = 1 then Qt.Spec.target w pc else Qt.Spec.target w pc - pc) = BitVec.ofInt 64 (Qt.Spec.displacement w) := by
      unfold Qt.Spec.target
      by_cases ha : Qt.Spec.aa w = 1
      · rw [if_pos ha, if_pos ha]; exact BitVec.add_zero _
      · rw [if_neg ha, if_neg ha, BitVec.add_sub_cancel]
    unfold Qt.Spec.distance
    rw [e, BitVec.toInt_ofInt, Int.bmod_eq_of_le (by omega) (by omega)]
  unfold Qt.Spec.reachable
  rw [hdist]
  refine ⟨displacement_mod4 w, ?_⟩
  by_cases hk : Qt.Spec.kind w = .b
  · rw [if_pos hk]; exact displacement_range w
  · rw [if_neg hk]
    unfold Qt.Spec.displacement Qt.Spec.signed Qt.Spec.bd
    rw [if_neg hk]
    split <;> omega

theorem reachable_congr {v w : Nat} (hk : Qt.Spec.kind v = Qt.Spec.kind w) (ha : Qt.Spec.aa v = Qt.Spec.aa w) (pc t : BitVec 64) :
    Qt.Spec.reachable v pc t ↔ Qt.Spec.reachable w pc t := by
  unfold Qt.Spec.reachable Qt.Spec.distance
  rw [hk, ha]

theorem tables_op : (IsaMem.handled ++ IsaMem.unsupported).all (fun i => decide (i.op ≠ 16) && decide (i.op ≠ 18)) = true := by decide +kernel

theorem not_encodes {w : BitVec 32} (h : Targeted w) (i : IsaMem.Insn) (hi : i ∈ IsaMem.handled ++ IsaMem.unsupported) : ¬ i.Encodes w := by
  intro he
  have h1 := tables_op
  rw [List.all_eq_true] at h1
  have h2 := h1 i hi
  rw [Bool.and_eq_true, decide_eq_true_iff, decide_eq_true_iff] at h2
  have h3 := he.1
  have h4 : IsaMem.bits w 0 6 = w.toNat / 2 ^ 26 := by
    have := w.isLt
    unfold IsaMem.bits
    omega
  rw [h4] at h3
  rcases h with h | h
  · exact h2.2 (by rw [← h3]; exact (kind_b _).1 h)
  · exact h2.1 (by rw [← h3]; exact (kind_bc _).1 h)

theorem encodes_withoutTarget (w : BitVec 32) (i : IsaMem.Insn) (hi : i ∈ IsaMem.handled ++ IsaMem.unsupported) :
    i.Encodes (withoutTarget w) ↔ i.Encodes w := by
  by_cases h : Targeted w
  · exact ⟨fun e => absurd e (not_encodes ((withoutTarget_targeted w).2 h) i hi), fun e => absurd e (not_encodes h i hi)⟩
  · rw [withoutTarget_other h]

/-! ### The source for a trace -/

/-- The annotated lines that the text of a trace amounts to. -/
def linesOf : List Qt.Record → List Line
  | [] => []
  | [r] => [⟨withoutTarget r.insn, none, (place r).2⟩]
  | r :: s :: l =>
    ⟨withoutTarget r.insn, if s.insnAddr ≠ r.insnAddr + 4 then some (.abs s.insnAddr) else none, (place r).2⟩ :: linesOf (s :: l)

/-- What is shown for a record without prefix. -/
def Shows (x : Dis.Shown) (r : Qt.Record) : Prop :=
  x.ea = r.insnAddr ∧ Dis.line x = ⟨r.insnAddr, r.insn, none⟩ ∧ (place x.rcd).2 = (place r).2

/-- Related one by one. -/
inductive Pairwise : List Dis.Shown → List Qt.Record → Prop where
  | nil : Pairwise [] []
  | cons {x xs r rs} (h : Shows x r) (t : Pairwise xs rs) : Pairwise (x :: xs) (r :: rs)

theorem shownInsn_eq {x : Dis.Shown} {r : Qt.Record} (h : Shows x r) : shownInsn x = .insn [r.insn] :: (match (place r).2 with
    | some a => [.ldst a]
    | none => []) := by
  obtain ⟨-, h1, h2⟩ := h
  unfold shownInsn shownWords
  rw [h1, ← h2]
  unfold place
  cases x.rcd.dataAddrValid <;> rfl

theorem sections_ldst (t : Nat) (d : Option (BitVec 64)) (l : List Stmt) (o : Object) (h : sections t l = some o) :
    sections t ((match d with
      | some a => [Stmt.ldst a]
      | none => []) ++ l) = some { o with ldstmap := (match d with
        | some a => [(BitVec.ofNat 64 t, a)]
        | none => []) ++ o.ldstmap } := by
  cases d with
  | none => exact h
  | some a =>
    show (sections t l).map _ = _
    rw [h]; rfl

def imapPairs (im : List IMap) : List (BitVec 64 × BitVec 64) := im.map fun e => (e.text, e.dyn)
def lmapPairs (lm : List LMap) : List (BitVec 64 × BitVec 64) := lm.map fun e => (e.text, e.storage)

theorem sections_text {xs : List Dis.Shown} {rs : List Qt.Record} (hp : Pairwise xs rs) : ∀ (x : Dis.Shown) (r : Qt.Record) (t : Nat), Shows x r →
    sections t (shownInsn x ++ textFrom x.ea xs) =
      some ⟨(linesOf (r :: rs)).map Line.word, imapPairs (imapOf t (linesOf (r :: rs))), lmapPairs (lmapOf t (linesOf (r :: rs)))⟩ := by
  induction hp with
  | nil =>
    intro x r t h
    have h0 : sections (t + 4) (textFrom x.ea []) = some ⟨[], [], []⟩ := rfl
    have h1 := sections_ldst (t + 4) (place r).2 _ _ h0
    rw [shownInsn_eq h, List.cons_append]
    show (sections (t + 4 * 1) _).map _ = _
    rw [Nat.mul_one, h1]
    unfold linesOf imapOf lmapOf imapOf lmapOf lmapPairs imapPairs
    cases (place r).2 <;> rfl
  | @cons y xs s rs h2 h3 ih =>
    intro x r t h
    have ih := ih y s (t + 4) h2
    have h0 : sections (t + 4) (textFrom x.ea (y :: xs)) = some ⟨(linesOf (s :: rs)).map Line.word,
        (if s.insnAddr ≠ r.insnAddr + 4 then [(BitVec.ofNat 64 (t + 4), s.insnAddr)] else []) ++ imapPairs (imapOf (t + 4) (linesOf (s :: rs))),
        lmapPairs (lmapOf (t + 4) (linesOf (s :: rs)))⟩ := by
      have e : textFrom x.ea (y :: xs) = (if x.ea + 4 ≠ y.ea then [.branchToAbs y.ea] else []) ++ shownInsn y ++ textFrom y.ea xs := rfl
      rw [e, h.1, h2.1, List.append_assoc]
      rw [h2.1] at ih
      by_cases hc : s.insnAddr = r.insnAddr + 4
      · rw [if_neg (by rw [hc]; simp), if_neg (by rw [hc]; simp)]
        exact ih
      · rw [if_pos (fun e => hc e.symm), if_pos hc]
        show (sections (t + 4) (shownInsn y ++ textFrom s.insnAddr xs)).map _ = _
        rw [ih]; rfl
    have h1 := sections_ldst (t + 4) (place r).2 _ _ h0
    rw [shownInsn_eq h, List.cons_append]
    show (sections (t + 4 * 1) _).map _ = _
    rw [Nat.mul_one, h1]
    have e : linesOf (r :: s :: rs) = ⟨withoutTarget r.insn, if s.insnAddr ≠ r.insnAddr + 4 then some (.abs s.insnAddr) else none, (place r).2⟩
      :: linesOf (s :: rs) := rfl
    rw [e]
    generalize linesOf (s :: rs) = L
    by_cases hc : s.insnAddr = r.insnAddr + 4
    · rw [if_neg (by rw [hc]; simp), if_neg (by rw [hc]; simp)]
      cases (place r).2 <;> rfl
    · rw [if_pos hc, if_pos hc]
      cases (place r).2 <;> rfl

theorem imapOf_btype : ∀ (rs : List Qt.Record) (t : Nat), ∀ e ∈ imapOf t (linesOf rs), e.btype = 0
  | [], _, e, he => by cases he
  | [r], t, e, he => by simp [linesOf, imapOf] at he
  | r :: s :: l, t, e, he => by
    have e' : linesOf (r :: s :: l) = ⟨withoutTarget r.insn, if s.insnAddr ≠ r.insnAddr + 4 then some (.abs s.insnAddr) else none, (place r).2⟩
      :: linesOf (s :: l) := rfl
    rw [e'] at he
    have ih := imapOf_btype (s :: l) (t + 4) e
    unfold imapOf at he
    rcases List.mem_append.1 he with h | h
    · dsimp only at h
      by_cases hc : s.insnAddr = r.insnAddr + 4
      · rw [if_neg (by rw [hc]; simp)] at h; simp at h
      · rw [if_pos hc] at h
        have := List.mem_singleton.1 h
        rw [this]; rfl
    · exact ih h

theorem pairs_back (im : List IMap) (h : ∀ e ∈ im, e.btype = 0) : (imapPairs im).map (fun e => (⟨e.1, 0, e.2⟩ : IMap)) = im := by
  unfold imapPairs
  rw [List.map_map]
  conv => rhs; rw [← List.map_id im]
  apply List.map_congr_left
  intro e he
  show (⟨e.text, 0, e.dyn⟩ : IMap) = e
  rw [← h e he]

theorem lpairs_back (lm : List LMap) : (lmapPairs lm).map (fun e => (⟨e.1, e.2⟩ : LMap)) = lm := by
  unfold lmapPairs
  rw [List.map_map]
  conv => rhs; rw [← List.map_id lm]
  rfl

/-- Turning what is shown into text and building it is building the annotated lines. -/
theorem rebuild_eq (m : Qt.Mem) (r : Qt.Record) (rs : List Qt.Record) (h : Pairwise (Dis.list m).shown (r :: rs)) :
    rebuild m = some (buildSource r.insnAddr (linesOf (r :: rs))) := by
  unfold rebuild
  generalize (Dis.list m).shown = S at h
  cases h with
  | @cons x _ xs _ h1 h2 =>
    unfold text object
    dsimp only
    rw [sections_text h2 x r 0 h1]
    simp only [Option.map_some]
    unfold buildSource
    rw [lpairs_back, List.map_cons, pairs_back _ (imapOf_btype _ _), h1.1]

theorem linesOf_length : ∀ rs : List Qt.Record, (linesOf rs).length = rs.length
  | [] => rfl
  | [_] => rfl
  | _ :: s :: l => by
    show (linesOf (s :: l)).length + 1 = _
    rw [linesOf_length (s :: l)]; rfl

theorem linesOf_get : ∀ (rs : List Qt.Record) (i : Nat) (r : Qt.Record), rs[i]? = some r →
    (linesOf rs)[i]? = some ⟨withoutTarget r.insn, if after rs i r ≠ r.insnAddr + 4 then some (.abs (after rs i r)) else none, (place r).2⟩
  | [], i, r, h => by simp at h
  | [q], i, r, h => by
    cases i with
    | zero =>
      obtain rfl := Option.some.inj h
      have : after [q] 0 q = q.insnAddr + 4 := rfl
      rw [this, if_neg (by simp)]; rfl
    | succ i => simp at h
  | q :: s :: l, i, r, h => by
    cases i with
    | zero =>
      obtain rfl := Option.some.inj h
      rfl
    | succ i =>
      have := linesOf_get (s :: l) i r h
      exact this

theorem addresses_linesOf : ∀ (rs : List Qt.Record) (pc : BitVec 64), (∀ r, rs.head? = some r → r.insnAddr = pc) →
    addresses pc (linesOf rs) = rs.map (·.insnAddr)
  | [], _, _ => rfl
  | [r], pc, h => by rw [← h r rfl]; rfl
  | r :: s :: l, pc, h => by
    have ih := addresses_linesOf (s :: l) s.insnAddr (fun q hq => by rw [← Option.some.inj hq])
    have e' : linesOf (r :: s :: l) = ⟨withoutTarget r.insn, if s.insnAddr ≠ r.insnAddr + 4 then some (.abs s.insnAddr) else none, (place r).2⟩
      :: linesOf (s :: l) := rfl
    rw [e']
    unfold addresses
    have : next ⟨withoutTarget r.insn, if s.insnAddr ≠ r.insnAddr + 4 then some (.abs s.insnAddr) else none, (place r).2⟩ pc = s.insnAddr := by
      unfold next
      by_cases hc : s.insnAddr = r.insnAddr + 4
      · rw [if_neg (by rw [hc]; simp), ← h r rfl, hc]
      · rw [if_pos hc]
    rw [this, ih, ← h r rfl]; rfl

theorem sourceOk_of : ∀ (ls : List Line) (pc : BitVec 64),
    (∀ (i : Nat) (l : Line) (a : BitVec 64), ls[i]? = some l → (addresses pc ls)[i]? = some a → LineOk l a) → SourceOk pc ls
  | [], _, _ => trivial
  | l :: ls, pc, h => ⟨h 0 l pc rfl rfl, sourceOk_of ls _ (fun i l' a h1 h2 => h (i + 1) l' a h1 h2)⟩

theorem words_of : ∀ (ls : List Line), (∀ l ∈ ls, l.word ≠ 0) → Words ls
  | [], _ => trivial
  | [_], _ => trivial
  | _ :: l' :: ls, h => ⟨fun e => absurd e (h l' (by simp)), words_of (l' :: ls) (fun l hl => h l (List.mem_cons_of_mem _ hl))⟩

theorem withoutTarget_ne_zero {w : BitVec 32} (h : w ≠ 0) : withoutTarget w ≠ 0 := by
  by_cases ht : Targeted w
  · intro e
    have := (withoutTarget_targeted w).2 ht
    rw [e] at this
    exact absurd this (by decide)
  · rw [withoutTarget_other ht]; exact h

end Qtb
