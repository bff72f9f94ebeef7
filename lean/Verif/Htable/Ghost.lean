import Verif.Htable.Model
/-! Ghost view of the table: slots instead of words, and what the loops of the model do in terms of slots. -/
namespace Htable

/-- A word of the table with its meaning; `home` tells that the element is in the bucket of its hash. -/
inductive Slot where
  | empty
  | deleted
  | elem (p : Word) (home : Bool)
deriving DecidableEq

def Slot.isElem : Slot → Bool
  | .elem _ _ => true
  | _ => false

/-- Not an empty slot. -/
def Slot.used : Slot → Bool
  | .empty => false
  | _ => true

def Slot.ptr? : Slot → Option Word
  | .elem p _ => some p
  | _ => none

/-- The word of a slot. -/
def Ht.enc (ht : Ht) (hash : Word → Word) : Slot → Word
  | .empty => 0
  | .deleted => 1
  | .elem p f => ht.mkHval p (ht.hashBits (hash p) ||| if f then ht.perfect else 0)

/-- The pointers in the slots. -/
def elements (s : List Slot) : List Word := s.filterMap Slot.ptr?

/-- Masks under which pointer `p` can be stored: the shared bits are its, and a bit above bit 0 of it is kept. -/
structure Fits (ht : Ht) (p : Word) : Prop where
  common : p &&& ht.mask = ht.cbits
  shown : ∃ j, 1 ≤ j ∧ p.getLsbD j = true ∧ ht.mask.getLsbD j = false

/-- The masks are consistent. -/
structure Masks (ht : Ht) : Prop where
  perf : ht.perfect &&& ~~~ ht.mask = 0
  cb : ht.cbits &&& ~~~ ht.mask = 0

theorem valid_iff {e : Word} : valid e = true ↔ e ≠ 0 ∧ e ≠ 1 := by
  unfold valid
  simp only [GT.gt, decide_eq_true_eq, BitVec.lt_def]
  constructor
  · intro h
    constructor
    · rintro rfl; simp at h
    · rintro rfl; simp at h
  · rintro ⟨h0, h1⟩
    have h0 : e.toNat ≠ 0 := fun h => h0 (BitVec.eq_of_toNat_eq h)
    have h1 : e.toNat ≠ 1 := fun h => h1 (BitVec.eq_of_toNat_eq h)
    have : (1 : BitVec 64).toNat = 1 := rfl
    omega

theorem valid_of_bit {e : Word} {j : Nat} (h1 : 1 ≤ j) (h : e.getLsbD j = true) : valid e = true := by
  rw [valid_iff]
  constructor
  · rintro rfl; simp at h
  · rintro rfl
    have : (1#64).getLsbD j = decide (j = 0) := by
      simp
    rw [show (1 : Word) = 1#64 from rfl, this] at h
    simp at h
    omega

theorem bit_of {a b : Word} (h : a = b) (j : Nat) : a.getLsbD j = b.getLsbD j := by rw [h]

theorem getLsbD_lt {p : Word} {j : Nat} (h : p.getLsbD j = true) : j < 64 := by
  by_cases hj : j < 64
  · exact hj
  · rw [BitVec.getLsbD_of_ge _ _ (by omega)] at h; cases h

theorem Fits.valid_mk {ht : Ht} {p : Word} (h : Fits ht p) (b : Word) : valid (ht.mkHval p b) = true := by
  obtain ⟨j, h1, h2, h3⟩ := h.shown
  have := getLsbD_lt h2
  refine valid_of_bit h1 ?_
  unfold Ht.mkHval
  rw [BitVec.getLsbD_or, BitVec.getLsbD_and, BitVec.getLsbD_not, h2, h3]
  simp [this]

theorem Fits.raw_mk {ht : Ht} {p : Word} (h : Fits ht p) {b : Word} (hb : b &&& ~~~ ht.mask = 0) :
    ht.raw (ht.mkHval p b) = p := by
  unfold Ht.raw Ht.mkHval
  rw [← h.common]
  ext i hi
  have := bit_of hb i
  simp at this ⊢
  cases hm : ht.mask[i] <;> simp_all

theorem Masks.extra_mk {ht : Ht} {p b : Word} (hb : b &&& ~~~ ht.mask = 0) : ht.extra (ht.mkHval p b) = b := by
  unfold Ht.extra Ht.mkHval
  ext i hi
  have := bit_of hb i
  simp at this ⊢
  cases hm : ht.mask[i] <;> simp_all

theorem Masks.hashBits_sub {ht : Ht} (h : Masks ht) (x : Word) (f : Bool) :
    (ht.hashBits x ||| if f then ht.perfect else 0) &&& ~~~ ht.mask = 0 := by
  unfold Ht.hashBits
  ext i hi
  have := bit_of h.perf i
  simp at this ⊢
  cases f <;> cases hm : ht.mask[i] <;> simp_all

theorem hashBits_perfect {ht : Ht} (x : Word) : ht.hashBits x &&& ht.perfect = 0 := by
  unfold Ht.hashBits
  ext i hi
  simp

theorem hashBits_clear {ht : Ht} (x : Word) : (ht.hashBits x ||| ht.perfect) &&& ~~~ ht.perfect = ht.hashBits x := by
  unfold Ht.hashBits
  ext i hi
  simp
  cases ht.perfect[i] <;> simp

theorem hashBits_clear' {ht : Ht} (x : Word) : ht.hashBits x &&& ~~~ ht.perfect = ht.hashBits x := by
  unfold Ht.hashBits
  ext i hi
  simp

theorem hashBits_zero {ht : Ht} (x : Word) : ht.hashBits x &&& ~~~ 0 = ht.hashBits x := by
  rw [show ~~~ (0 : Word) = BitVec.allOnes 64 by decide, BitVec.and_allOnes]

/-! ### Rotation -/

/-- The slots from position `b` on, around the table. -/
def rot {α : Type} (s : List α) (b : Nat) : List α := s.drop b ++ s.take b

theorem rot_perm {α : Type} (s : List α) (b : Nat) : (rot s b).Perm s := by
  unfold rot
  exact List.perm_append_comm.trans (by rw [List.take_append_drop])

theorem rot_length {α : Type} (s : List α) (b : Nat) : (rot s b).length = s.length := (rot_perm s b).length_eq

theorem mod_two {x n : Nat} (h : x < 2 * n) : x % n = if x < n then x else x - n := by
  split
  · exact Nat.mod_eq_of_lt (by assumption)
  · rw [show x = (x - n) + n by omega, Nat.add_mod_right, Nat.mod_eq_of_lt (by omega)]; omega

theorem rot_get {α : Type} {s : List α} {b k : Nat} (hb : b < s.length) (hk : k < s.length) :
    (rot s b)[k]? = s[(b + k) % s.length]? := by
  unfold rot
  rw [mod_two (by omega), List.getElem?_append]
  split
  · rename_i h
    rw [List.length_drop] at h
    rw [if_pos (by omega), List.getElem?_drop]
  · rename_i h
    rw [List.length_drop] at h
    rw [if_neg (by omega), List.getElem?_take_of_lt (by rw [List.length_drop]; omega), List.length_drop]
    congr 1; omega

theorem mod_inj {n b k k' : Nat} (hb : b < n) (hk : k < n) (hk' : k' < n) (h : (b + k) % n = (b + k') % n) : k = k' := by
  rw [mod_two (by omega), mod_two (by omega)] at h
  split at h <;> split at h <;> omega

/-! ### List facts -/

theorem set_perm {α : Type} : ∀ {l : List α} {i : Nat} (x : α), i < l.length → (l.set i x).Perm (x :: l.eraseIdx i) := by
  intro l
  induction l with
  | nil => intro i x h; simp at h
  | cons a l ih =>
    intro i x h
    cases i with
    | zero => simp
    | succ i =>
      rw [List.set_cons_succ, List.eraseIdx_cons_succ]
      exact ((ih x (by simpa using h)).cons a).trans (List.Perm.swap ..)

theorem get_perm {α : Type} {l : List α} {i : Nat} {x : α} (h : l[i]? = some x) : l.Perm (x :: l.eraseIdx i) := by
  obtain ⟨hi, rfl⟩ := List.getElem?_eq_some_iff.1 h
  have := set_perm l[i] hi
  rwa [List.set_getElem_self] at this

theorem elements_perm {s t : List Slot} (h : s.Perm t) : (elements s).Perm (elements t) := h.filterMap _

theorem elements_cons (x : Slot) (s : List Slot) : elements (x :: s) = x.ptr?.toList ++ elements s := by
  unfold elements
  cases x <;> rfl

theorem elements_set {s : List Slot} {i : Nat} {old new : Slot} (h : s[i]? = some old) :
    (old.ptr?.toList ++ elements (s.set i new)).Perm (new.ptr?.toList ++ elements s) := by
  have hi := (List.getElem?_eq_some_iff.1 h).1
  have h1 := elements_perm (set_perm new hi)
  have h2 := elements_perm (get_perm h)
  rw [elements_cons] at h1 h2
  refine (h1.append_left _).trans ?_
  refine List.Perm.trans ?_ (h2.symm.append_left _)
  rw [← List.append_assoc, ← List.append_assoc]
  exact List.Perm.append_right _ List.perm_append_comm

def nonEmpty (s : List Slot) : Nat := s.countP Slot.used

theorem nonEmpty_set {s : List Slot} {i : Nat} {old new : Slot} (h : s[i]? = some old) :
    (if old.used then 1 else 0) + nonEmpty (s.set i new) = (if new.used then 1 else 0) + nonEmpty s := by
  have hi := (List.getElem?_eq_some_iff.1 h).1
  have h1 := (set_perm new hi).countP_eq Slot.used
  have h2 := (get_perm h).countP_eq Slot.used
  rw [List.countP_cons] at h1 h2
  unfold nonEmpty
  omega

theorem elements_le (s : List Slot) : (elements s).length ≤ nonEmpty s := by
  unfold nonEmpty
  induction s with
  | nil => simp [elements]
  | cons x s ih =>
    rw [elements_cons, List.countP_cons]
    cases x <;> simp [Slot.ptr?, Slot.used] <;> omega

theorem exists_notElem {s : List Slot} (h : (elements s).length < s.length) :
    ∃ (i : Nat) (x : Slot), s[i]? = some x ∧ x.isElem = false := by
  induction s with
  | nil => simp at h
  | cons x s ih =>
    by_cases hx : x.isElem = false
    · exact ⟨0, x, by simp, hx⟩
    · cases x with
      | elem p f =>
        rw [elements_cons] at h
        obtain ⟨i, y, h1, h2⟩ := ih (by simpa [Slot.ptr?] using h)
        exact ⟨i + 1, y, by rw [List.getElem?_cons_succ]; exact h1, h2⟩
      | empty => simp [Slot.isElem] at hx
      | deleted => simp [Slot.isElem] at hx

theorem exists_empty {s : List Slot} (h : nonEmpty s < s.length) : ∃ (i : Nat) (x : Slot), s[i]? = some x ∧ x.used = false := by
  induction s with
  | nil => simp at h
  | cons x s ih =>
    by_cases hx : x.used = false
    · exact ⟨0, x, by simp, hx⟩
    · unfold nonEmpty at h ih
      rw [List.countP_cons, if_pos (by simpa using hx), List.length_cons] at h
      obtain ⟨i, y, h1⟩ := ih (by omega)
      exact ⟨i + 1, y, by simpa using h1⟩

/-- The first position with a property, counting from `b` around the table. -/
theorem first_from {s : List Slot} {b : Nat} (hb : b < s.length) {q : Slot → Prop} [DecidablePred q]
    (h : ∃ (i : Nat) (x : Slot), s[i]? = some x ∧ q x) :
    ∃ k x, k < s.length ∧ s[(b + k) % s.length]? = some x ∧ q x ∧
      ∀ k' < k, ∀ y, s[(b + k') % s.length]? = some y → ¬ q y := by
  obtain ⟨i, x, hi, hx⟩ := h
  have hlt := (List.getElem?_eq_some_iff.1 hi).1
  have hmem : x ∈ rot s b := (rot_perm s b).mem_iff.2 (List.mem_of_getElem? hi)
  have hex : ∃ k : Nat, ∃ y, (rot s b)[k]? = some y ∧ q y := by
    obtain ⟨k, hk⟩ := List.getElem?_of_mem hmem
    exact ⟨k, x, hk, hx⟩
  -- strong induction for the least such position
  have least : ∀ k : Nat, (∃ y, (rot s b)[k]? = some y ∧ q y) →
      ∃ k0 : Nat, (∃ y, (rot s b)[k0]? = some y ∧ q y) ∧ ∀ k' < k0, ¬ ∃ y, (rot s b)[k']? = some y ∧ q y := by
    intro k
    induction k using Nat.strongRecOn with
    | ind k ih =>
      intro hk
      by_cases hsm : ∃ k' < k, ∃ y, (rot s b)[k']? = some y ∧ q y
      · obtain ⟨k', hk', hy⟩ := hsm
        exact ih k' hk' hy
      · exact ⟨k, hk, fun k' hlt hy => hsm ⟨k', hlt, hy⟩⟩
  obtain ⟨k, hk⟩ := hex
  obtain ⟨k0, ⟨y, hy, hq⟩, hmin⟩ := least k hk
  have hk0 : k0 < s.length := by
    have := (List.getElem?_eq_some_iff.1 hy).1
    rwa [rot_length] at this
  refine ⟨k0, y, hk0, by rw [← rot_get hb hk0]; exact hy, hq, ?_⟩
  intro k' hk' z hz hqz
  exact hmin k' hk' ⟨z, by rw [rot_get hb (by omega)]; exact hz, hqz⟩

end Htable
