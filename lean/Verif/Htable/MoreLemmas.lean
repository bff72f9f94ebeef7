import Verif.Htable.State
import Verif.Htable.SpecMore
/-! Lemmas for C103: the invariant of State.lean under the calls of More.lean. -/
namespace Htable

variable {hash : Word → Word} {U : Word → Prop} {ht : Ht} {S : List Word} {s : List Slot}

theorem Inv.congr (h : Inv hash U ht S s) {S' : List Word} (hp : S.Perm S') : Inv hash U ht S' s := by
  refine ⟨h.view, h.chain, h.perm.trans hp, h.elems.trans hp.length_eq, h.max, h.maxDel, h.used, h.full, h.room, h.bits, ?_, ?_⟩
  · rcases h.origin with ⟨a, b, c⟩ | x
    · refine .inl ⟨a, b, ?_⟩
      subst c
      exact List.Perm.nil_eq hp |>.symm
    · exact .inr x
  · intro p hm
    exact h.mem p (hp.mem_iff.2 hm)

/-- Deleting at a position. -/
theorem Inv.delval (h : Inv hash U ht S s) {i : Nat} {p : Word} {f : Bool} (hsc : s[i]? = some (.elem p f)) :
    ∃ ht', ht.delval i = some ht' ∧ Inv hash U ht' (S.erase p) (s.set i .deleted) ∧ ht'.bits = ht.bits := by
  have hel := elements_set (new := .deleted) hsc
  simp only [Slot.ptr?, Option.toList, List.nil_append, List.singleton_append] at hel
  have hyes : p ∈ S := h.perm.mem_iff.1 (hel.mem_iff.1 (by simp))
  have hi : i < ht.size := by
    have := (List.getElem?_eq_some_iff.1 hsc).1
    rw [h.view.len] at this
    exact this
  have hlen : S.length ≠ 0 := by
    intro h0
    rw [List.eq_nil_of_length_eq_zero h0] at hyes
    simp at hyes
  have hperm : (elements (s.set i .deleted)).Perm (S.erase p) := by
    have h2 := (hel.trans h.perm).erase p
    rwa [List.erase_cons_head] at h2
  refine ⟨{ ht with elems := ht.elems - 1, table := ht.table.set i 1, deleted := ht.deleted + 1 }, ?_, ?_, rfl⟩
  · unfold Ht.delval
    rw [if_pos hi, h.view.get hsc]
    simp only
    rw [h.view.valid_enc hsc]
    rfl
  · refine ⟨⟨?_, ?_, ⟨h.view.masks.perf, h.view.masks.cb⟩, ?_⟩, chain_delete h.chain _, hperm, ?_, h.max, h.maxDel, ?_, ?_,
      ?_, h.bits, ?_, ?_⟩
    · rw [List.length_set]; exact h.view.len
    · show ht.table.set i 1 = _
      rw [h.view.words, List.map_set]
      rfl
    · intro q hq
      have := h.view.fits q (hel.mem_iff.1 (List.mem_cons_of_mem _ hq))
      exact ⟨this.common, this.shown⟩
    · show ht.elems - 1 = _
      rw [h.elems, List.length_erase_of_mem hyes]
    · show nonEmpty _ ≤ ht.elems - 1 + (ht.deleted + 1)
      have h1 := nonEmpty_set (new := .deleted) hsc
      have h2 := h.used
      simp only [Slot.used, if_true] at h1
      omega
    · show ht.elems - 1 + (ht.deleted + 1) ≤ ht.maxDel
      have h1 := h.elems
      have h2 := h.full
      omega
    · show ht.elems - 1 ≤ ht.max
      have := h.room
      omega
    · rcases h.origin with ⟨-, -, hS⟩ | ⟨p1, a, b⟩
      · rw [hS] at hlen; exact absurd rfl hlen
      · exact .inr ⟨p1, a, b.top, b.cb⟩
    · intro q hq
      exact h.mem q (List.mem_of_mem_erase hq)

/-! ### Walking -/

/-- The elements with their positions. -/
def places : Nat → List Slot → List (Nat × Word)
  | _, [] => []
  | k, .elem p _ :: l => (k, p) :: places (k + 1) l
  | k, .empty :: l => places (k + 1) l
  | k, .deleted :: l => places (k + 1) l

theorem places_snd : ∀ (k : Nat) (l : List Slot), (places k l).map (·.2) = elements l
  | _, [] => rfl
  | k, .elem p f :: l => by
    show p :: (places (k + 1) l).map (·.2) = _
    rw [places_snd (k + 1) l]; rfl
  | k, .empty :: l => places_snd (k + 1) l
  | k, .deleted :: l => places_snd (k + 1) l

theorem places_append : ∀ (k : Nat) (a b : List Slot), places k (a ++ b) = places k a ++ places (k + a.length) b
  | _, [], _ => rfl
  | k, .elem p f :: a, b => by
    show (k, p) :: places (k + 1) (a ++ b) = (k, p) :: places (k + 1) a ++ _
    rw [places_append (k + 1) a b, List.length_cons, show k + 1 + a.length = k + (a.length + 1) by omega]; rfl
  | k, .empty :: a, b => by
    show places (k + 1) (a ++ b) = places (k + 1) a ++ _
    rw [places_append (k + 1) a b, List.length_cons, show k + 1 + a.length = k + (a.length + 1) by omega]
  | k, .deleted :: a, b => by
    show places (k + 1) (a ++ b) = places (k + 1) a ++ _
    rw [places_append (k + 1) a b, List.length_cons, show k + 1 + a.length = k + (a.length + 1) by omega]

/-- One step of the scan upwards, at a slot. -/
theorem scanUp_elem (h : Inv hash U ht S s) {i fuel : Nat} {p : Word} {f : Bool} (hs : s[i]? = some (.elem p f)) :
    ht.scanUp (fuel + 1) i = some (i, some p) := by
  have hi : i < ht.size := by
    have := (List.getElem?_eq_some_iff.1 hs).1
    rw [h.view.len] at this
    exact this
  unfold Ht.scanUp
  rw [if_pos hi, h.view.get hs]
  simp only
  rw [h.view.valid_enc hs, if_pos (by rfl), h.view.raw_enc hs]

theorem scanUp_skip (h : Inv hash U ht S s) {i fuel : Nat} {x : Slot} (hs : s[i]? = some x) (hx : x.isElem = false) :
    ht.scanUp (fuel + 1) i = ht.scanUp fuel (i + 1) := by
  have hi : i < ht.size := by
    have := (List.getElem?_eq_some_iff.1 hs).1
    rw [h.view.len] at this
    exact this
  rw [Ht.scanUp, if_pos hi, h.view.get hs]
  simp only
  rw [h.view.valid_enc hs, hx, if_neg (by simp)]

theorem scanUp_end {i fuel : Nat} (hi : ht.size ≤ i) : ht.scanUp (fuel + 1) i = some (i, none) := by
  unfold Ht.scanUp
  rw [if_neg (by omega)]

theorem get_mid {α : Type} (pre : List α) (x : α) (l : List α) : (pre ++ x :: l)[pre.length]? = some x := by simp

theorem set_mid {α : Type} (pre : List α) (x y : α) (l : List α) : (pre ++ x :: l).set pre.length y = pre ++ y :: l := by simp

theorem elements_append (a b : List Slot) : elements (a ++ b) = elements a ++ elements b := by
  unfold elements
  rw [List.filterMap_append]

/-- The loop that deletes while it walks. -/
theorem sweepLoop_spec (q : Word → Bool) : ∀ (l : List Slot) (pre : List Slot) (ht : Ht) (S : List Word) (fuel fuel' : Nat),
    Inv hash U ht S (pre ++ l) → l.length < fuel → l.length < fuel' →
    ∃ ht' s', ht.sweepLoop q fuel (ht.scanUp fuel' pre.length) = some (places pre.length l, ht.size, ht') ∧
      Inv hash U ht' (elements pre ++ (elements l).filter fun p => !q p) s' ∧ ht'.bits = ht.bits ∧
      ((∀ p, q p = false) → ht' = ht) := by
  intro l
  induction l with
  | nil =>
    intro pre ht S fuel fuel' h hf hf'
    obtain ⟨fuel, rfl⟩ : ∃ n, fuel = n + 1 := ⟨fuel - 1, by omega⟩
    obtain ⟨fuel', rfl⟩ : ∃ n, fuel' = n + 1 := ⟨fuel' - 1, by omega⟩
    have hlen := h.view.len
    rw [List.append_nil] at h hlen
    rw [scanUp_end (by omega)]
    refine ⟨ht, pre, ?_, ?_, rfl, fun _ => rfl⟩
    · unfold Ht.sweepLoop
      rw [hlen]
      rfl
    · refine h.congr ?_
      have : (elements ([] : List Slot)) = [] := rfl
      rw [this, List.filter_nil, List.append_nil]
      exact h.perm.symm
  | cons x l ih =>
    intro pre ht S fuel fuel' h hf hf'
    rw [List.length_cons] at hf hf'
    obtain ⟨fuel, rfl⟩ : ∃ n, fuel = n + 1 := ⟨fuel - 1, by omega⟩
    obtain ⟨fuel', rfl⟩ : ∃ n, fuel' = n + 1 := ⟨fuel' - 1, by omega⟩
    have hs : (pre ++ x :: l)[pre.length]? = some x := get_mid ..
    have happ : ∀ y : Slot, pre ++ y :: l = (pre ++ [y]) ++ l := fun y => by simp
    have hln : ∀ y : Slot, (pre ++ [y]).length = pre.length + 1 := fun y => by simp
    have hsize : l.length < ht.size + 1 := by
      have := h.view.len
      rw [List.length_append, List.length_cons] at this
      omega
    by_cases hx : x.isElem = false
    · rw [scanUp_skip h hs hx]
      have hpl : places pre.length (x :: l) = places (pre.length + 1) l := by cases x <;> first | rfl | cases hx
      have hel : ∀ m, elements (x :: m) = elements m := by intro m; cases x <;> first | rfl | cases hx
      have hh := h
      rw [happ] at hh
      have := ih (pre ++ [x]) ht S (fuel + 1) fuel' hh (by omega) (by omega)
      rw [hln, elements_append, hel, show elements ([] : List Slot) = [] from rfl, List.append_nil] at this
      rw [hpl, hel]
      exact this
    · obtain ⟨p, f, rfl⟩ : ∃ p f, x = .elem p f := by
        cases x with
        | elem p f => exact ⟨p, f, rfl⟩
        | empty => exact absurd rfl hx
        | deleted => exact absurd rfl hx
      rw [scanUp_elem h hs]
      have hpl : places pre.length (.elem p f :: l) = (pre.length, p) :: places (pre.length + 1) l := rfl
      have hel : elements (.elem p f :: l) = p :: elements l := rfl
      rw [hpl, hel]
      unfold Ht.sweepLoop
      cases hq : q p with
      | true =>
        obtain ⟨h1, e1, i1, b1⟩ := h.delval hs
        rw [set_mid, happ] at i1
        have hsz : h1.size = ht.size := by unfold Ht.size; rw [b1]
        obtain ⟨h2, s2, e2, i2, b2, -⟩ := ih (pre ++ [.deleted]) h1 _ fuel (h1.size + 1) i1 (by omega) (by omega)
        rw [hln] at e2
        refine ⟨h2, s2, ?_, ?_, b2.trans b1, ?_⟩
        · rw [if_pos rfl, e1, Option.bind_some]
          show Option.map _ (h1.sweepLoop q fuel (h1.scanUp (h1.size + 1) (pre.length + 1))) = _
          rw [e2, hsz]
          rfl
        · rw [List.filter_cons, hq]
          rw [elements_append, show elements [Slot.deleted] = [] from rfl, List.append_nil] at i2
          exact i2
        · intro hno
          rw [hno p] at hq
          cases hq
      | false =>
        have hh := h
        rw [happ] at hh
        obtain ⟨h2, s2, e2, i2, b2, n2⟩ := ih (pre ++ [.elem p f]) ht S fuel (ht.size + 1) hh (by omega) (by omega)
        rw [hln] at e2
        refine ⟨h2, s2, ?_, ?_, b2, n2⟩
        · rw [if_neg (by simp)]
          show Option.map _ (ht.sweepLoop q fuel (ht.scanUp (ht.size + 1) (pre.length + 1))) = _
          rw [e2]
          rfl
        · rw [List.filter_cons, hq]
          rw [elements_append, show elements [Slot.elem p f] = [p] from rfl, List.append_assoc] at i2
          exact i2

theorem Inv.sweep (h : Inv hash U ht S s) (q : Word → Bool) :
    ∃ ht' s', ht.sweep q = some (places 0 s, ht.size, ht') ∧ Inv hash U ht' (S.filter fun p => !q p) s' ∧
      ht'.bits = ht.bits ∧ ((∀ p, q p = false) → ht' = ht) := by
  have hlen := h.view.len
  obtain ⟨h1, s1, e1, i1, b1, n1⟩ := sweepLoop_spec q s [] ht S (ht.size + 1) (ht.size + 1) h (by omega) (by omega)
  refine ⟨h1, s1, e1, i1.congr ?_, b1, n1⟩
  rw [show elements ([] : List Slot) = [] from rfl, List.nil_append]
  exact h.perm.filter _

/-! ### Walking back -/

theorem backLoop_spec (h : Inv hash U ht S s) : ∀ (off fuel : Nat), off ≤ s.length → off < fuel →
    ht.backLoop fuel (ht.prev off) = some (places 0 (s.take off)).reverse := by
  intro off
  induction off with
  | zero =>
    intro fuel _ hf
    obtain ⟨fuel, rfl⟩ : ∃ n, fuel = n + 1 := ⟨fuel - 1, by omega⟩
    rfl
  | succ off ih =>
    intro fuel hle hf
    have hs : s[off]? = some (s[off]'(by omega)) := List.getElem?_eq_getElem _
    have htake : s.take (off + 1) = s.take off ++ [s[off]'(by omega)] := by rw [List.take_succ, hs]; rfl
    have hlt : (s.take off).length = off := by rw [List.length_take]; omega
    rw [htake, places_append, hlt, Nat.zero_add]
    generalize s[off]'(by omega) = x at hs
    unfold Ht.prev
    rw [h.view.get hs]
    simp only
    rw [h.view.valid_enc hs]
    cases x with
    | empty =>
      rw [show Slot.empty.isElem = false from rfl, if_neg (by simp), ih fuel (by omega) (by omega)]
      simp [places]
    | deleted =>
      rw [show Slot.deleted.isElem = false from rfl, if_neg (by simp), ih fuel (by omega) (by omega)]
      simp [places]
    | elem p f =>
      obtain ⟨fuel, rfl⟩ : ∃ n, fuel = n + 1 := ⟨fuel - 1, by omega⟩
      rw [show (Slot.elem p f).isElem = true from rfl, if_pos rfl, h.view.raw_enc hs]
      unfold Ht.backLoop
      rw [ih fuel (by omega) (by omega)]
      simp [places]

theorem back_spec (h : Inv hash U ht S s) {off : Nat} (hle : off ≤ s.length) :
    ht.back off = some (places 0 (s.take off)).reverse := backLoop_spec h off (off + 1) hle (by omega)

/-- What is before a place. -/
theorem places_split : ∀ (k : Nat) (s : List Slot) (A B : List (Nat × Word)) (c : Nat × Word), places k s = A ++ c :: B →
    k ≤ c.1 ∧ c.1 - k ≤ s.length ∧ places k (s.take (c.1 - k)) = A := by
  intro k s
  induction s generalizing k with
  | nil => intro A B c h; cases A <;> cases h
  | cons x s ih =>
    intro A B c h
    have step : ∀ A', places (k + 1) s = A' ++ c :: B → k ≤ c.1 ∧ c.1 - k ≤ (x :: s).length ∧
        places k ((x :: s).take (c.1 - k)) = (if x.isElem then (k, (x.ptr?).getD 0) :: A' else A') := by
      intro A' h'
      obtain ⟨a, b, e⟩ := ih (k + 1) A' B c h'
      rw [List.length_cons]
      refine ⟨by omega, by omega, ?_⟩
      rw [show c.1 - k = (c.1 - (k + 1)) + 1 by omega, List.take_succ_cons]
      cases x with
      | empty => exact e
      | deleted => exact e
      | elem p f =>
        show (k, p) :: places (k + 1) (s.take (c.1 - (k + 1))) = _
        rw [e]
        rfl
    cases x with
    | empty => exact step A h
    | deleted => exact step A h
    | elem p f =>
      cases A with
      | nil =>
        obtain ⟨rfl, -⟩ := List.cons.inj h
        refine ⟨Nat.le_refl _, by omega, ?_⟩
        rw [Nat.sub_self]
        rfl
      | cons a A =>
        obtain ⟨rfl, h'⟩ := List.cons.inj h
        exact step A h'

/-! ### Capacity -/

theorem sizeBits_enough (e : Nat) : ∀ fuel b, 30 ≤ b + fuel → b ≤ 30 →
    sizeBits e fuel b = 30 ∨ e ≤ 3 * 2 ^ sizeBits e fuel b / 4 := by
  intro fuel
  induction fuel with
  | zero => intro b h1 h2; left; unfold sizeBits; omega
  | succ fuel ih =>
    intro b h1 h2
    unfold sizeBits
    split
    · split
      · left; assumption
      · exact ih (b + 1) (by omega) (by omega)
    · right; omega

/-- An addition that finds room does not change the size of the table. -/
theorem add_bits (h : Inv hash U ht S s) (hU : Spaced U) {p : Word} (hp : U p) (hroom : ht.elems + 1 ≤ ht.max) :
    ∃ ht' s', ht.add hash p = some ht' ∧ Inv hash U ht' (p :: S) s' ∧ ht'.bits = ht.bits := by
  have hbits := h.bits
  have hmax := h.max
  have hsmall : S.length + 1 ≤ 3 * 2 ^ 28 := by
    have : 2 ^ ht.bits ≤ 2 ^ 30 := Nat.pow_le_pow_right (by omega) hbits
    rw [← h.elems]
    omega
  obtain ⟨ht', s', e, i⟩ := h.add hU hp hsmall
  refine ⟨ht', s', e, i, ?_⟩
  unfold Ht.add Ht.grow at e
  rw [if_neg (by omega), Option.bind_some] at e
  have htAdd_bits : ∀ (a b : Ht) (p x : Word), a.htAdd p x = some b → b.bits = a.bits := by
    intro a b p x hab
    unfold Ht.htAdd at hab
    obtain ⟨y, -, rfl⟩ := Option.map_eq_some_iff.1 hab
    rfl
  have loop_bits : ∀ (start n i : Nat) (a b : Ht), a.rehashLoop hash start n i = some b → b.bits = a.bits := by
    intro start n
    induction n with
    | zero => intro i a b hab; cases hab; rfl
    | succ n ih =>
      intro i a b hab
      unfold Ht.rehashLoop at hab
      dsimp only at hab
      split at hab
      · cases hab
      · split at hab
        · exact ih _ _ _ hab
        · split at hab
          · exact (ih _ _ _ hab).trans rfl
          · split at hab
            · obtain ⟨c, h1, h2⟩ := Option.bind_eq_some_iff.1 hab
              exact (ih _ _ _ h2).trans ((htAdd_bits _ _ _ _ h1).trans rfl)
            · exact ih _ _ _ hab
  have clean_bits : ∀ a b : Ht, a.clean hash = some b → b.bits = a.bits := by
    intro a b hab
    unfold Ht.clean at hab
    split at hab
    · unfold Ht.rehash at hab
      obtain ⟨c, -, h2⟩ := Option.bind_eq_some_iff.1 hab
      obtain ⟨d, h3, rfl⟩ := Option.map_eq_some_iff.1 h2
      show d.bits = a.bits
      exact loop_bits _ _ _ _ _ h3
    · cases hab; rfl
  obtain ⟨a, h1, h2⟩ := Option.bind_eq_some_iff.1 e
  split at h2
  · cases h2
  · unfold Ht.place at h2
    obtain ⟨b, h3, rfl⟩ := Option.map_eq_some_iff.1 h2
    show b.bits = ht.bits
    rw [htAdd_bits _ _ _ _ h3]
    have : (if p &&& a.mask ≠ a.cbits then a.updateCommon p else a).bits = a.bits := by
      split
      · unfold Ht.updateCommon; split <;> rfl
      · rfl
    rw [this]
    exact clean_bits _ _ h1

theorem del_bits {p : Word} {r : Bool × Ht} (h : ht.del hash p = some r) : r.2.bits = ht.bits := by
  unfold Ht.del at h
  split at h
  · cases h
  · cases h; rfl
  · split at h
    · cases h
    · split at h
      · cases h; rfl
      · cases h

end Htable
