import Verif.Build.Model
import Verif.Build.Spec
import Verif.Qt.PropsBranch
import Verif.Qt.PropsRoundTrip
import Verif.Ptracer.PropsStorage

/-! # Lemmas about building traces from annotated assembler text -/

namespace Qtb
open QtbSpec

/-! ## The sections the assembler produces from a source -/

/-- The type and value of an entry, qtbuild/qtb.h: `branch_to_abs`, `branch_to_rel`, `branch_taken`. (As it
stands `branch_to_rel` does not assemble: it says `long` for `.long`.) -/
def jumpEntry (t : Nat) : Jump → IMap
  | .abs a => ⟨BitVec.ofNat 64 t, 0, a⟩
  | .rel d => ⟨BitVec.ofNat 64 t, 1, d⟩
  | .taken => ⟨BitVec.ofNat 64 t, 2, 0⟩

/-- `.data.insnmap` for lines beginning at text address `t`: the macros record the address behind the
instruction. -/
def imapOf (t : Nat) : List Line → List IMap
  | [] => []
  | l :: ls => (match l.jump with
    | none => []
    | some j => [jumpEntry (t + 4) j]) ++ imapOf (t + 4) ls

/-- `.data.ldstmap` for lines beginning at text address `t` (macro `ldst` of qtbuild/qtb.h). -/
def lmapOf (t : Nat) : List Line → List LMap
  | [] => []
  | l :: ls => (match l.ldst with
    | none => []
    | some a => [⟨BitVec.ofNat 64 (t + 4), a⟩]) ++ lmapOf (t + 4) ls

/-- Assemble a source that begins with `start_trace pc` and run `qtbuild` on the object. -/
def buildSource (pc : BitVec 64) (lines : List Line) : Result :=
  build (lines.map Line.word) (⟨0, 0, pc⟩ :: imapOf 0 lines) (lmapOf 0 lines)

/-! ## Lemmas -/

theorem isStorage_eq (w : BitVec 32) : Ptr.isStorage w = match Ptr.isStorageInsn w (fun _ => 0) with
    | .no => some false
    | .abort => none
    | .yes _ _ => some true := by
  unfold Ptr.isStorage Ptr.isStorageInsn
  cases Ptr.select (Ptr.opc w) (Ptr.field w 21 10).toNat (Ptr.field w 30 2).toNat (Ptr.field w 29 3).toNat <;> rfl

theorem isStorage_handled {w : BitVec 32} (h : ∃ i ∈ IsaMem.handled, i.Encodes w) : Ptr.isStorage w = some true := by
  obtain ⟨i, hi, he⟩ := h
  obtain ⟨a, s, h1, _⟩ := (Ptr.C37_storage_partial w fun _ => 0).1 i hi he
  rw [isStorage_eq, h1]

theorem isStorage_unsupported {w : BitVec 32} (h : ∃ i ∈ IsaMem.unsupported, i.Encodes w) : Ptr.isStorage w = none := by
  obtain ⟨i, hi, he⟩ := h
  rw [isStorage_eq, Ptr.C37_refuted.1 w _ ⟨i, hi, he⟩]

theorem isStorage_other {w : BitVec 32} (h : ¬ IsaMem.Accesses w) : Ptr.isStorage w = some false := by
  unfold Ptr.isStorage; rw [Ptr.select_no h]

theorem handled_iff (w : BitVec 32) : Ptr.isStorage w = some true ↔ ∃ i ∈ IsaMem.handled, i.Encodes w := by
  refine ⟨fun h => ?_, isStorage_handled⟩
  by_cases h1 : ∃ i ∈ IsaMem.handled, i.Encodes w
  · exact h1
  · by_cases h2 : ∃ i ∈ IsaMem.unsupported, i.Encodes w
    · rw [isStorage_unsupported h2] at h; cases h
    · rw [isStorage_other (fun h => h.elim h1 h2)] at h; cases h

theorem hasTarget_iff (w : BitVec 32) : Qt.hasBranchTarget w = true ↔ Qt.Spec.kind w.toNat = .b ∨ Qt.Spec.kind w.toNat = .bc := by
  unfold Qt.hasBranchTarget
  rw [Bool.or_eq_true, Qt.iform_iff, Qt.bform_iff]

theorem ofNat_small {n : Nat} (h : n < 2 ^ 64) : (BitVec.ofNat 64 n).toNat = n := by
  rw [BitVec.toNat_ofNat]; exact Nat.mod_eq_of_lt h

/-- Entries of the rest of the source are for later text addresses. -/
theorem imapOf_later : ∀ (ls : List Line) (t : Nat), t + 4 * ls.length < 2 ^ 64 → ∀ e ∈ imapOf t ls, t < e.text.toNat
  | [], _, _, e, h => by cases h
  | l :: ls, t, hb, e, h => by
    rw [List.length_cons] at hb
    rcases List.mem_append.1 h with h | h
    · cases hj : l.jump with
      | none => rw [hj] at h; cases h
      | some j =>
        rw [hj] at h
        rw [List.mem_singleton.1 h]
        have : (jumpEntry (t + 4) j).text = BitVec.ofNat 64 (t + 4) := by cases j <;> rfl
        rw [this, ofNat_small (by omega)]; omega
    · exact Nat.lt_of_le_of_lt (by omega) (imapOf_later ls (t + 4) (by omega) e h)

theorem lmapOf_later : ∀ (ls : List Line) (t : Nat), t + 4 * ls.length < 2 ^ 64 → ∀ e ∈ lmapOf t ls, t < e.text.toNat
  | [], _, _, e, h => by cases h
  | l :: ls, t, hb, e, h => by
    rw [List.length_cons] at hb
    rcases List.mem_append.1 h with h | h
    · cases hj : l.ldst with
      | none => rw [hj] at h; cases h
      | some j =>
        rw [hj] at h
        rw [List.mem_singleton.1 h]
        show t < (BitVec.ofNat 64 (t + 4)).toNat
        rw [ofNat_small (by omega)]; omega
    · exact Nat.lt_of_le_of_lt (by omega) (lmapOf_later ls (t + 4) (by omega) e h)

/-- The destination of an annotated branch is that of the source. -/
theorem destination_eq {l : Line} {j : Jump} (hj : l.jump = some j) (hp : Plain l) {pc : BitVec 64} (h4 : pc.toNat % 4 = 0) (t : Nat) :
    destination (jumpEntry t j) l.word pc = none ∧ j = .taken ∧ ¬ (Qt.Spec.kind l.word.toNat = .b ∨ Qt.Spec.kind l.word.toNat = .bc) ∨
    destination (jumpEntry t j) l.word pc = some (next l pc) := by
  unfold Plain at hp
  rw [hj] at hp
  cases j with
  | abs a => right; unfold next; rw [hj]; rfl
  | rel d => right; unfold next; rw [hj]; rfl
  | taken =>
    have e : destination (jumpEntry t .taken) l.word pc =
        if Qt.hasBranchTarget l.word then some (Qt.branchTarget l.word pc) else none := rfl
    rw [e]
    by_cases hk : Qt.Spec.kind l.word.toNat = .b ∨ Qt.Spec.kind l.word.toNat = .bc
    · right
      rw [if_pos ((hasTarget_iff _).2 hk), Qt.C14_decode_partial l.word pc hk hp h4]
      unfold next; rw [hj]
    · left
      exact ⟨if_neg fun h => hk ((hasTarget_iff _).1 h), rfl, hk⟩

theorem displacement_mod4 (w : Nat) : Qt.Spec.displacement w % 4 = 0 := by
  unfold Qt.Spec.displacement; omega

theorem next_aligned {l : Line} (hp : Plain l) {pc : BitVec 64} (h4 : pc.toNat % 4 = 0) : (next l pc).toNat % 4 = 0 := by
  unfold Plain at hp
  unfold next
  cases hj : l.jump with
  | none => dsimp only; rw [BitVec.toNat_add]; have : (4 : BitVec 64).toNat = 4 := rfl; omega
  | some j =>
    rw [hj] at hp
    cases j with
    | abs a => exact hp
    | rel d => dsimp only at hp ⊢; rw [BitVec.toNat_add]; omega
    | taken =>
      dsimp only at hp ⊢
      unfold Qt.Spec.target
      rw [if_neg (by omega), BitVec.toNat_add, BitVec.toNat_ofInt]
      have := displacement_mod4 l.word.toNat
      generalize Qt.Spec.displacement l.word.toNat = x at this
      omega

/-- Setting the branch target, if it succeeds. -/
theorem reaches_set {w : BitVec 32} {pc t : BitVec 64} (h : Qt.setBranchTarget w pc t ≠ 0) :
    Reaches w (Qt.setBranchTarget w pc t) pc t := by
  unfold Reaches
  split
  · next hk =>
    by_cases hr : Qt.Spec.reachable w.toNat pc t
    · exact Qt.C14_retarget w pc t hk hr
    · exact absurd (Qt.C14_refused w pc t hk hr) h
  · next hk => exact (Qt.C14_other w pc t (fun e => hk (.inl e)) (fun e => hk (.inr e))).1

/-- One step of the instruction map. -/
theorem advance_source {l : Line} {ls : List Line} {t : Nat} {pc : BitVec 64} (hb : t + 4 * (ls.length + 1) < 2 ^ 64)
    (hp : Plain l) (h4 : pc.toNat % 4 = 0) {v : BitVec 32} {d' : BitVec 64} {im' : List IMap}
    (h : advance l.word t pc (imapOf t (l :: ls)) = some (v, d', im')) :
    d' = next l pc ∧ im' = imapOf (t + 4) ls ∧
    (match l.jump with
      | none => v = l.word
      | some _ => Reaches l.word v pc (next l pc) ∧ v ≠ 0) := by
  cases hj : l.jump with
  | none =>
    have e : imapOf t (l :: ls) = imapOf (t + 4) ls := by unfold imapOf; rw [hj]; cases ls <;> rfl
    have hn : next l pc = pc + 4 := by unfold next; rw [hj]
    rw [e] at h
    have hl := imapOf_later ls (t + 4) (by omega)
    cases hi : imapOf (t + 4) ls with
    | nil => rw [hi] at h; unfold advance at h; injection h with h; injection h with h1 h2; injection h2 with h2 h3
             exact ⟨by rw [hn, h2], h3.symm, h1.symm⟩
    | cons e rest =>
      rw [hi] at h hl
      unfold advance at h
      dsimp only at h
      rw [if_neg (by have := hl e (List.mem_cons_self ..); omega)] at h
      injection h with h; injection h with h1 h2; injection h2 with h2 h3
      exact ⟨by rw [hn, h2], h3.symm, h1.symm⟩
  | some j =>
    have e : imapOf t (l :: ls) = jumpEntry (t + 4) j :: imapOf (t + 4) ls := by
      rw [imapOf, hj]; rfl
    rw [e] at h
    unfold advance at h
    dsimp only at h
    have ht : (jumpEntry (t + 4) j).text.toNat = t + 4 := by
      have : (jumpEntry (t + 4) j).text = BitVec.ofNat 64 (t + 4) := by cases j <;> rfl
      rw [this, ofNat_small (by omega)]
    rw [if_pos ht] at h
    rcases destination_eq hj hp h4 (t + 4) with ⟨hd, -, -⟩ | hd
    · rw [hd] at h; cases h
    · rw [hd] at h
      dsimp only at h
      split at h
      · cases h
      · next hz =>
        injection h with h; injection h with h1 h2; injection h2 with h2 h3
        exact ⟨h2.symm, h3.symm, by rw [← h1]; exact reaches_set hz, by rw [← h1]; exact hz⟩

/-- One step of the load/store map: `old` are entries of earlier lines that were not used. -/
theorem storage_source {l : Line} {ls : List Line} {t : Nat} (hb : t + 4 * (ls.length + 1) < 2 ^ 64)
    {old : List LMap} (ho : ∀ e ∈ old, e.text.toNat ≤ t) {data : Option (BitVec 64)} {lm' : List LMap}
    (h : storage l.word t (old ++ lmapOf t (l :: ls)) = .inr (data, lm')) :
    (data.isSome = true ↔ ∃ i ∈ IsaMem.handled, i.Encodes l.word) ∧ (∀ a, data = some a → l.ldst = some a) ∧
    ∃ old', lm' = old' ++ lmapOf (t + 4) ls ∧ ∀ e ∈ old', e.text.toNat ≤ t + 4 := by
  have e : lmapOf t (l :: ls) = (match l.ldst with
    | none => []
    | some a => [⟨BitVec.ofNat 64 (t + 4), a⟩]) ++ lmapOf (t + 4) ls := rfl
  unfold storage at h
  rw [← handled_iff]
  cases hs : Ptr.isStorage l.word with
  | none => rw [hs] at h; cases h
  | some b =>
    rw [hs] at h
    cases b with
    | false =>
      injection h with h; injection h with h1 h2
      subst h1
      refine ⟨⟨(fun h => by cases h), (fun h => by cases h)⟩, (fun a h => by cases h), ?_⟩
      rw [← h2, e, ← List.append_assoc]
      refine ⟨_, rfl, fun x hx => ?_⟩
      rcases List.mem_append.1 hx with hx | hx
      · have := ho x hx; omega
      · cases hl : l.ldst with
        | none => rw [hl] at hx; cases hx
        | some a => rw [hl] at hx; rw [List.mem_singleton.1 hx]; show (BitVec.ofNat 64 (t + 4)).toNat ≤ _
                    rw [ofNat_small (by omega)]; omega
    | true =>
      dsimp only at h
      cases old with
      | cons x rest =>
        dsimp only [List.cons_append] at h
        rw [if_pos (by have := ho x (List.mem_cons_self ..); omega)] at h
        cases h
      | nil =>
        rw [List.nil_append, e] at h
        cases hl : l.ldst with
        | none =>
          rw [hl] at h
          have hlater := lmapOf_later ls (t + 4) (by omega)
          cases hm : lmapOf (t + 4) ls with
          | nil => rw [hm] at h; cases h
          | cons x rest =>
            rw [hm] at h hlater
            dsimp only [List.nil_append] at h
            rw [if_pos (by have := hlater x (List.mem_cons_self ..); omega)] at h
            cases h
        | some a =>
          rw [hl] at h
          dsimp only [List.cons_append, List.nil_append] at h
          rw [if_neg (by rw [ofNat_small (by omega)]; omega)] at h
          injection h with h; injection h with h1 h2
          subst h1
          exact ⟨⟨fun _ => rfl, fun _ => rfl⟩, fun a' h => h, [], h2.symm, fun x hx => by cases hx⟩

theorem record_matches {l : Line} {v : BitVec 32} {pc : BitVec 64} {data : Option (BitVec 64)}
    (hv : match l.jump with
      | none => v = l.word
      | some _ => Reaches l.word v pc (next l pc) ∧ v ≠ 0)
    (h1 : data.isSome = true ↔ ∃ i ∈ IsaMem.handled, i.Encodes l.word) (h2 : ∀ a, data = some a → l.ldst = some a) :
    Matches l pc (record l.word v pc data) := by
  refine ⟨rfl, ?_, h1, fun h => ?_, Qt.C13_is_branch_partial _, Qt.C13_conditional _⟩
  · cases hj : l.jump with
    | none => rw [hj] at hv; exact hv
    | some j => rw [hj] at hv; exact hv.1
  · cases data with
    | none => cases h
    | some a => exact h2 a rfl

/-- Pointwise relation between the lines (with their addresses) and the records. -/
def Follows (pc : BitVec 64) : List Line → List Qt.Record → Prop
  | _, [] => True
  | [], _ :: _ => False
  | l :: ls, r :: rs => Matches l pc r ∧ (l.jump.isSome = true → r.insn ≠ 0) ∧ Follows (next l pc) ls rs

theorem loop_follows : ∀ (ls : List Line) (t : Nat) (pc : BitVec 64) (old : List LMap), t + 4 * ls.length < 2 ^ 64 →
    (∀ l ∈ ls, Plain l) → pc.toNat % 4 = 0 → (∀ e ∈ old, e.text.toNat ≤ t) →
    Follows pc ls (loop t pc (imapOf t ls) (old ++ lmapOf t ls) (ls.map Line.word)).records ∧
    ((loop t pc (imapOf t ls) (old ++ lmapOf t ls) (ls.map Line.word)).final = .done →
      (loop t pc (imapOf t ls) (old ++ lmapOf t ls) (ls.map Line.word)).records.length = ls.length)
  | [], _, _, _, _, _, _, _ => ⟨trivial, fun _ => rfl⟩
  | l :: ls, t, pc, old, hb, hp, h4, ho => by
    rw [List.length_cons] at hb
    rw [List.map_cons]
    unfold loop
    cases hs : storage l.word t (old ++ lmapOf t (l :: ls)) with
    | inl e =>
      refine ⟨trivial, fun h => ?_⟩
      dsimp only at h
      subst h
      unfold storage at hs
      split at hs
      · cases hs
      · cases hs
      · split at hs
        · cases hs
        · split at hs <;> cases hs
    | inr x =>
      obtain ⟨data, lm'⟩ := x
      dsimp only
      obtain ⟨s1, s2, old', s3, s4⟩ := storage_source hb ho hs
      cases ha : advance l.word t pc (imapOf t (l :: ls)) with
      | none => exact ⟨trivial, fun h => by cases h⟩
      | some y =>
        obtain ⟨v, d', im'⟩ := y
        dsimp only
        obtain ⟨a1, a2, a3⟩ := advance_source hb (hp l (List.mem_cons_self ..)) h4 ha
        subst a1 a2 s3
        have ih := loop_follows ls (t + 4) (next l pc) old' (by omega) (fun l' h => hp l' (List.mem_cons_of_mem _ h))
          (next_aligned (hp l (List.mem_cons_self ..)) h4) s4
        refine ⟨⟨record_matches a3 s1 s2, fun hj => ?_, ih.1⟩, fun h => ?_⟩
        · cases hj' : l.jump with
          | none => rw [hj'] at hj; cases hj
          | some j => rw [hj'] at a3; exact a3.2
        · rw [List.length_cons, List.length_cons, ih.2 h]

theorem storage_ok {l : Line} {pc : BitVec 64} (h : LineOk l pc) {ls : List Line} {t : Nat} (hb : t + 4 < 2 ^ 64) :
    storage l.word t (lmapOf t (l :: ls)) = .inr (l.ldst, lmapOf (t + 4) ls) := by
  have e : lmapOf t (l :: ls) = (match l.ldst with
    | none => []
    | some a => [⟨BitVec.ofNat 64 (t + 4), a⟩]) ++ lmapOf (t + 4) ls := rfl
  rw [e]
  unfold storage
  cases hl : l.ldst with
  | none =>
    have hn : ¬ ∃ i ∈ IsaMem.handled, i.Encodes l.word := fun hh => by
      have := h.1.2 hh; rw [hl] at this; cases this
    rw [isStorage_other fun hh => hh.elim hn h.2.1]; rfl
  | some a =>
    rw [isStorage_handled (h.1.1 (by rw [hl]; rfl))]
    dsimp only [List.cons_append]
    rw [if_neg (by rw [ofNat_small hb]; omega)]; rfl

theorem advance_ok {l : Line} {pc : BitVec 64} (h : LineOk l pc) (hp : Plain l) (h4 : pc.toNat % 4 = 0) {ls : List Line}
    {t : Nat} (hb : t + 4 * (ls.length + 1) < 2 ^ 64) :
    ∃ v, advance l.word t pc (imapOf t (l :: ls)) = some (v, next l pc, imapOf (t + 4) ls) := by
  cases hj : l.jump with
  | none =>
    have e : imapOf t (l :: ls) = imapOf (t + 4) ls := by unfold imapOf; rw [hj]; cases ls <;> rfl
    have hn : next l pc = pc + 4 := by unfold next; rw [hj]
    rw [e, hn]
    have hl := imapOf_later ls (t + 4) (by omega)
    refine ⟨l.word, ?_⟩
    unfold advance
    cases hi : imapOf (t + 4) ls with
    | nil => rfl
    | cons x rest =>
      rw [hi] at hl
      exact if_neg (by have := hl x (List.mem_cons_self ..); omega)
  | some j =>
    have e : imapOf t (l :: ls) = jumpEntry (t + 4) j :: imapOf (t + 4) ls := by rw [imapOf, hj]; rfl
    rw [e]
    unfold advance
    have ht : (jumpEntry (t + 4) j).text.toNat = t + 4 := by
      have : (jumpEntry (t + 4) j).text = BitVec.ofNat 64 (t + 4) := by cases j <;> rfl
      rw [this, ofNat_small (by omega)]
    obtain ⟨h1, h2, h3⟩ := h.2.2 j hj
    rcases destination_eq hj hp h4 (t + 4) with ⟨-, ht, hk⟩ | hd
    · subst ht; exact absurd h3 hk
    · dsimp only
      rw [if_pos ht, hd]
      dsimp only
      refine ⟨_, if_neg ?_⟩
      by_cases hk : Qt.Spec.kind l.word.toNat = .b ∨ Qt.Spec.kind l.word.toNat = .bc
      · exact Qt.C14_success_nonzero l.word pc _ hk (h1 hk)
      · rw [(Qt.C14_other _ _ _ (fun e => hk (.inl e)) (fun e => hk (.inr e))).1]; exact h2

theorem loop_done : ∀ (ls : List Line) (t : Nat) (pc : BitVec 64), t + 4 * ls.length < 2 ^ 64 →
    (∀ l ∈ ls, Plain l) → pc.toNat % 4 = 0 → SourceOk pc ls →
    (loop t pc (imapOf t ls) (lmapOf t ls) (ls.map Line.word)).final = .done
  | [], _, _, _, _, _, _ => rfl
  | l :: ls, t, pc, hb, hp, h4, hs => by
    rw [List.length_cons] at hb
    obtain ⟨v, ha⟩ := advance_ok hs.1 (hp l (List.mem_cons_self ..)) h4 hb
    rw [List.map_cons]
    unfold loop
    rw [storage_ok hs.1 (by omega)]
    dsimp only
    rw [ha]
    exact loop_done ls (t + 4) (next l pc) (by omega) (fun l' h => hp l' (List.mem_cons_of_mem _ h))
      (next_aligned (hp l (List.mem_cons_self ..)) h4) hs.2

theorem buildSource_eq (pc : BitVec 64) (lines : List Line) (hb : 4 * lines.length < 2 ^ 64) :
    buildSource pc lines = loop 0 pc (imapOf 0 lines) (lmapOf 0 lines) (lines.map Line.word) := by
  unfold buildSource build
  dsimp only
  rw [if_neg (by decide), if_neg (by decide)]
  have hl := imapOf_later lines 0 (by omega)
  cases hi : imapOf 0 lines with
  | nil => rfl
  | cons e rest =>
    rw [hi] at hl
    have := hl e (List.mem_cons_self ..)
    exact if_neg (fun h => by rw [h] at this; exact absurd this (by decide))

theorem follows_get : ∀ (ls : List Line) (pc : BitVec 64) (rs : List Qt.Record), Follows pc ls rs →
    ∀ (i : Nat) (r : Qt.Record), rs[i]? = some r →
      ∃ l a, ls[i]? = some l ∧ (addresses pc ls)[i]? = some a ∧ Matches l a r
  | _, _, [], _, i, r, h => by rw [List.getElem?_nil] at h; cases h
  | [], _, _ :: _, hf, _, _, _ => hf.elim
  | l :: ls, pc, r0 :: rs, hf, 0, r, h => by
    rw [List.getElem?_cons_zero] at h; injection h with h; subst h
    exact ⟨l, pc, rfl, rfl, hf.1⟩
  | l :: ls, pc, r0 :: rs, hf, i + 1, r, h => by
    rw [List.getElem?_cons_succ] at h
    obtain ⟨l', a, h1, h2, h3⟩ := follows_get ls _ rs hf.2.2 i r h
    exact ⟨l', a, by rw [List.getElem?_cons_succ]; exact h1, by rw [addresses, List.getElem?_cons_succ]; exact h2, h3⟩

/-! ## The records are expressible in a trace file -/

theorem record_ok : ∀ (ws : List (BitVec 32)) (t : Nat) (d : BitVec 64) (im : List IMap) (lm : List LMap),
    ∀ r ∈ (loop t d im lm ws).records, r.insnRaValid = false ∧ r.dataRaValid = false ∧ r.insnPageShiftValid = false ∧
      r.guestInsnPageShiftValid = false ∧ r.dataPageShiftValid = false ∧ r.guestDataPageShiftValid = false ∧ r.radixInsn.nrPtes = 0
  | [], _, _, _, _, r, h => by cases h
  | w :: ws, t, d, im, lm, r, h => by
    unfold loop at h
    split at h
    · cases h
    · split at h
      · cases h
      · rcases List.mem_cons.1 h with h | h
        · subst h; exact ⟨rfl, rfl, rfl, rfl, rfl, rfl, rfl⟩
        · exact record_ok ws _ _ _ _ r h

/-- No instruction word of the source is zero, except behind the prefix word of a prefixed instruction. -/
def Words : List Line → Prop
  | [] => True
  | [_] => True
  | l :: l' :: ls => (l'.word = 0 → Qt.Spec.IsPrefix l.word) ∧ Words (l' :: ls)

theorem prefix_kind {w : BitVec 32} (h : Qt.Spec.IsPrefix w) : Qt.Spec.kind w.toNat = .other := by
  unfold Qt.Spec.IsPrefix at h
  unfold Qt.Spec.kind Qt.Spec.primary
  rw [h]; rfl

theorem follows_insn {l : Line} {pc : BitVec 64} {r : Qt.Record} (h : Matches l pc r) (h0 : l.jump.isSome = true → r.insn ≠ 0) :
    (r.insn = 0 → l.word = 0) ∧ (Qt.Spec.IsPrefix l.word → r.insn = l.word) := by
  obtain ⟨-, h, -⟩ := h
  cases hj : l.jump with
  | none => rw [hj] at h; exact ⟨fun e => by rw [← h, e], fun _ => h⟩
  | some j =>
    rw [hj] at h h0
    refine ⟨fun e => absurd e (h0 rfl), fun hp => ?_⟩
    dsimp only at h
    unfold Reaches at h
    rwa [if_neg (by rw [prefix_kind hp]; decide)] at h

theorem follows_chain : ∀ (ls : List Line) (pc : BitVec 64) (rs : List Qt.Record), Follows pc ls rs → Words ls →
    (∀ r ∈ rs, r.dataRaValid = false) → Qt.Spec.Chain Qt.Spec.StepOk rs
  | _, _, [], _, _, _ => trivial
  | _, _, [_], _, _, _ => trivial
  | [], _, _ :: _ :: _, hf, _, _ => hf.elim
  | [_], _, _ :: _ :: _, hf, _, _ => hf.2.2.elim
  | l :: l' :: ls, pc, r :: r' :: rs, hf, hw, hr => by
    refine ⟨⟨fun h0 => ?_, fun _ h => ?_⟩, follows_chain (l' :: ls) _ (r' :: rs) hf.2.2 hw.2 fun x hx => hr x (List.mem_cons_of_mem _ hx)⟩
    · have hp := hw.1 ((follows_insn hf.2.2.1 hf.2.2.2.1).1 h0)
      rw [(follows_insn hf.1 hf.2.1).2 hp]; exact hp
    · rw [hr r (List.mem_cons_self ..)] at h; cases h

end Qtb
