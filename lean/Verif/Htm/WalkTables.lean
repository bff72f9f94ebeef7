import Verif.Htm.SpecWalk
import Verif.Htm.PropsPwc
import Verif.Htm.Xlate
/-!
Lemmas about page tables and the caches that agree with them.
-/
namespace Htm.Mmu
open Htm Htm.Pwc Htm.Xl

namespace Table
variable (T : Table)

def SmallOk : Prop := T.small = 12 ∨ T.small = 16

theorem Ok.small {T : Table} (h : T.Ok) : T.SmallOk := h.1

/-- The table of a level. -/
def base : Nat → BitVec 64 → BitVec 64
  | 0, _ => T.root
  | i + 1, a => T.next (T.entry i a)

theorem entry_eq (i : Nat) (a : BitVec 64) : T.entry i a = T.base i a + BitVec.ofNat 64 (8 * T.index i a) := by
  cases i <;> rfl

/-- The level of the model. -/
def lvl : Nat → Lvl
  | 0 => .pgd
  | 1 => .pud
  | 2 => .pmd
  | _ => if T.small = 12 then .pte4k else .pte64k

/-- The kind of level of the model. -/
def typ : Nat → Lvl
  | 0 => .pgd
  | 1 => .pud
  | 2 => .pmd
  | _ => .pte

/-- Whether the entry of a level maps a page. -/
def leafAt (i : Nat) (a : BitVec 64) : Bool :=
  match i with
  | 0 => false
  | 1 => T.leaf (T.entry 1 a)
  | 2 => T.leaf (T.entry 2 a)
  | _ => true

variable {T}

theorem lvl_ne (i : Nat) : T.lvl i ≠ .pte := by
  unfold lvl; split <;> try simp
  split <;> simp

theorem lvl_inj {i j : Nat} (hi : i < 4) (hj : j < 4) (h : T.lvl i = T.lvl j) : i = j := by
  have hi' : i = 0 ∨ i = 1 ∨ i = 2 ∨ i = 3 := by omega
  have hj' : j = 0 ∨ j = 1 ∨ j = 2 ∨ j = 3 := by omega
  by_cases hs : T.small = 12 <;> rcases hi' with rfl | rfl | rfl | rfl <;> rcases hj' with rfl | rfl | rfl | rfl <;>
    simp [lvl, hs] at h ⊢

theorem htmLevel_typ {i : Nat} (hi : i < 4) : htmLevel (typ i) = level i := by
  have hi' : i = 0 ∨ i = 1 ∨ i = 2 ∨ i = 3 := by omega
  rcases hi' with rfl | rfl | rfl | rfl <;> rfl

theorem pageSizes_lvl (hs : T.SmallOk) {i : Nat} (h0 : i ≠ 0) : pageSizes (T.lvl i) = T.shift i := by
  unfold lvl shift
  rcases hs with hs | hs
  · split <;> simp_all [pageSizes]
  · split <;> simp_all [pageSizes]

theorem index_of_same (hs : T.SmallOk) {i j : Nat} (hi : i < 4) (hji : j ≤ i) {a b : BitVec 64} (h : T.Same i a b) :
    T.index j a = T.index j b := by
  have hi' : i = 0 ∨ i = 1 ∨ i = 2 ∨ i = 3 := by omega
  unfold Same at h
  unfold index
  rcases hi' with rfl | rfl | rfl | rfl
  · have : j = 0 := by omega
    subst this
    simp only [shift, top] at h ⊢; exact h
  · have : j = 0 ∨ j = 1 := by omega
    rcases this with rfl | rfl <;> simp only [shift, top] at h ⊢ <;> omega
  · have : j = 0 ∨ j = 1 ∨ j = 2 := by omega
    rcases this with rfl | rfl | rfl <;> simp only [shift, top] at h ⊢ <;> omega
  · have : j = 0 ∨ j = 1 ∨ j = 2 ∨ j = 3 := by omega
    rcases hs with hs | hs <;> rcases this with rfl | rfl | rfl | rfl <;> simp only [shift, top, hs] at h ⊢ <;> omega

theorem entry_of_index : ∀ {i : Nat} {a b : BitVec 64}, (∀ j ≤ i, T.index j a = T.index j b) → T.entry i a = T.entry i b := by
  intro i
  induction i with
  | zero => intro a b h; simp only [entry, h 0 (Nat.le_refl 0)]
  | succ i ih =>
    intro a b h
    simp only [entry, h (i + 1) (Nat.le_refl _), ih fun j hj => h j (by omega)]

theorem entry_of_same (hs : T.SmallOk) {i j : Nat} (hi : i < 4) (hji : j ≤ i) {a b : BitVec 64} (h : T.Same i a b) :
    T.entry j a = T.entry j b :=
  entry_of_index fun _ hk => index_of_same hs hi (Nat.le_trans hk hji) h

theorem leafAt_of_same (hs : T.SmallOk) {i j : Nat} (hi : i < 4) (hji : j ≤ i) {a b : BitVec 64} (h : T.Same i a b) :
    T.leafAt j a = T.leafAt j b := by
  have e := entry_of_same hs hi hji h
  unfold leafAt
  split
  · rfl
  · rw [e]
  · rw [e]
  · rfl

theorem base_of_sameTable (hs : T.SmallOk) {i : Nat} (hi : i < 4) {a b : BitVec 64} (h : T.SameTable i a b) :
    T.base i a = T.base i b := by
  cases i with
  | zero => rfl
  | succ i => simp only [base, entry_of_same hs (by omega) (Nat.le_refl i) (h i rfl)]

theorem dirAddress_lvl {i : Nat} (hi : i < 4) (a : BitVec 64) :
    dirAddress (T.lvl i) a = some (if i = 0 then 0 else pteAddress (T.shift (i - 1)) a) := by
  have hi' : i = 0 ∨ i = 1 ∨ i = 2 ∨ i = 3 := by omega
  by_cases hs : T.small = 12 <;> rcases hi' with rfl | rfl | rfl | rfl <;> simp [lvl, hs, dirAddress, shift]

/-- The part of the address that selects the table. -/
def dirOf (T : Table) (i : Nat) (a : BitVec 64) : BitVec 64 := if i = 0 then 0 else pteAddress (T.shift (i - 1)) a

theorem shift_lt (hs : T.SmallOk) (i : Nat) : T.shift i < 52 := by
  unfold shift
  rcases hs with hs | hs <;> split <;> omega

theorem dirOf_eq_iff (hs : T.SmallOk) {i : Nat} {a b : BitVec 64} : T.dirOf i a = T.dirOf i b ↔ T.SameTable i a b := by
  unfold dirOf SameTable
  cases i with
  | zero => simp
  | succ i =>
    rw [if_neg (by omega), if_neg (by omega), pteAddress_eq_iff (by have := shift_lt hs (i + 1 - 1); omega)]
    constructor
    · intro h j hj
      have : j = i := by omega
      subst this; exact h
    · intro h; exact h i rfl

theorem same_iff (hs : T.SmallOk) {i : Nat} (hi : i < 4) {a b : BitVec 64} :
    T.Same i a b ↔ T.SameTable i a b ∧ T.index i a = T.index i b := by
  have hi' : i = 0 ∨ i = 1 ∨ i = 2 ∨ i = 3 := by omega
  unfold SameTable Same index
  rcases hi' with rfl | rfl | rfl | rfl
  · simp [shift, top]
  · simp only [Nat.reduceAdd, Nat.add_eq_right, shift, top]
    constructor
    · intro h
      refine ⟨fun j hj => ?_, by omega⟩
      have : j = 0 := by omega
      subst this; simp only; omega
    · intro ⟨h1, h2⟩
      have := h1 0 rfl
      simp only at this
      omega
  · simp only [shift, top]
    constructor
    · intro h
      refine ⟨fun j hj => ?_, by omega⟩
      have : j = 1 := by omega
      subst this; simp only; omega
    · intro ⟨h1, h2⟩
      have := h1 1 rfl
      simp only at this
      omega
  · rcases hs with hs | hs <;> simp only [shift, top, hs]
    all_goals
      constructor
      · intro h
        refine ⟨fun j hj => ?_, by omega⟩
        have : j = 2 := by omega
        subst this; simp only; omega
      · intro ⟨h1, h2⟩
        have := h1 2 rfl
        simp only at this
        omega

theorem index_lt (hs : T.SmallOk) {i : Nat} (hi : i < 4) (a : BitVec 64) : T.index i a < 2 ^ 13 := by
  have hi' : i = 0 ∨ i = 1 ∨ i = 2 ∨ i = 3 := by omega
  unfold index
  rcases hi' with rfl | rfl | rfl | rfl
  · simp only [shift, top]; omega
  · simp only [shift, top]; omega
  · simp only [shift, top]; omega
  · rcases hs with hs | hs <;> simp only [shift, top, hs] <;> omega

theorem dirOffset_lvl (hs : T.SmallOk) {i : Nat} (hi : i < 4) (a : BitVec 64) :
    dirOffset (T.lvl i) a = BitVec.ofNat 64 (8 * T.index i a) := by
  have hi' : i = 0 ∨ i = 1 ∨ i = 2 ∨ i = 3 := by omega
  have hlt := index_lt hs hi a
  apply BitVec.eq_of_toNat_eq
  rw [dirOffset_toNat (lvl_ne i), BitVec.toNat_ofNat, (Nat.mod_eq_of_lt (by omega) : 8 * T.index i a % 2 ^ 64 = _)]
  unfold index
  rcases hi' with rfl | rfl | rfl | rfl
  · simp only [lvl, geometry, shift, top]; omega
  · simp only [lvl, geometry, shift, top]; omega
  · simp only [lvl, geometry, shift, top]; omega
  · rcases hs with hs | hs <;> simp [lvl, geometry, shift, top, hs] <;> omega

theorem dirOffset_inj (hs : T.SmallOk) {i : Nat} (hi : i < 4) {a b : BitVec 64} :
    dirOffset (T.lvl i) a = dirOffset (T.lvl i) b ↔ T.index i a = T.index i b := by
  have h1 := index_lt hs hi a
  have h2 := index_lt hs hi b
  rw [dirOffset_lvl hs hi, dirOffset_lvl hs hi, ← BitVec.toNat_inj, BitVec.toNat_ofNat, BitVec.toNat_ofNat]
  omega

theorem entry_base (hs : T.SmallOk) {i : Nat} (hi : i < 4) (a : BitVec 64) :
    T.entry i a - dirOffset (T.lvl i) a = T.base i a := by
  rw [dirOffset_lvl hs hi, entry_eq]
  exact BitVec.add_sub_cancel _ _

theorem base_entry (hs : T.SmallOk) {i : Nat} (hi : i < 4) (a : BitVec 64) :
    T.base i a + dirOffset (T.lvl i) a = T.entry i a := by
  rw [dirOffset_lvl hs hi, entry_eq]

theorem depth_cases (a : BitVec 64) :
    (T.depth a = 2 ∧ T.leafAt 1 a = true) ∨ (T.depth a = 3 ∧ T.leafAt 1 a = false ∧ T.leafAt 2 a = true) ∨
    (T.depth a = 4 ∧ T.leafAt 1 a = false ∧ T.leafAt 2 a = false) := by
  unfold depth leafAt
  by_cases h1 : T.leaf (T.entry 1 a) <;> by_cases h2 : T.leaf (T.entry 2 a) <;> simp [h1, h2]

theorem depth_le (a : BitVec 64) : 2 ≤ T.depth a ∧ T.depth a ≤ 4 := by
  rcases T.depth_cases a with h | h | h <;> omega

theorem leafAt_eq {i : Nat} {a : BitVec 64} (hi : i < T.depth a) : T.leafAt i a = decide (i + 1 = T.depth a) := by
  rcases T.depth_cases a with ⟨h, h1⟩ | ⟨h, h1, h2⟩ | ⟨h, h1, h2⟩
  · rw [h] at hi ⊢
    have : i = 0 ∨ i = 1 := by omega
    rcases this with rfl | rfl
    · rfl
    · simp [h1]
  · rw [h] at hi ⊢
    have : i = 0 ∨ i = 1 ∨ i = 2 := by omega
    rcases this with rfl | rfl | rfl
    · rfl
    · simp [h1]
    · simp [h2]
  · rw [h] at hi ⊢
    have : i = 0 ∨ i = 1 ∨ i = 2 ∨ i = 3 := by omega
    rcases this with rfl | rfl | rfl | rfl
    · rfl
    · simp [h1]
    · simp [h2]
    · rfl

/-- Addresses with the same entry at a level both use that level. -/
theorem lt_depth_of_same (hs : T.SmallOk) {i : Nat} {a b : BitVec 64} (hi : i < T.depth a) (h : T.Same i a b) : i < T.depth b := by
  have h4 := (T.depth_le a).2
  have hd := T.depth_le b
  apply Nat.lt_of_not_le
  intro hb
  have hl := leafAt_of_same hs (j := T.depth b - 1) (by omega) (by omega) h
  rw [leafAt_eq (by omega), leafAt_eq (by omega)] at hl
  simp at hl
  omega

theorem depth_of_same (hs : T.SmallOk) {a b : BitVec 64} (h : T.SamePage a b) : T.depth a = T.depth b := by
  have h4 := T.depth_le a
  have h5 := T.depth_le b
  have h1 := lt_depth_of_same hs (i := T.depth a - 1) (by omega) h
  have hl := leafAt_of_same hs (j := T.depth a - 1) (by omega) (Nat.le_refl _) h
  rw [leafAt_eq (by omega), leafAt_eq (by omega)] at hl
  simp at hl
  omega

theorem pageSize_size (hs : T.SmallOk) (a : BitVec 64) : PageSize (T.size a) := by
  unfold size PageSize
  rcases T.depth_cases a with ⟨h, _⟩ | ⟨h, _⟩ | ⟨h, _⟩ <;> rw [h] <;> rcases hs with hs | hs <;> simp [shift, hs]

end Table
end Htm.Mmu
