import Verif.Str.Spec

namespace Str
open Spec

variable {t s h a b junk : List Byte}

theorem strlen_append (ht : 0#8 ∉ t) : strlen (t ++ 0#8 :: junk) = some t.length := by
  induction t with
  | nil => rfl
  | cons x t ih =>
    simp only [List.mem_cons, not_or] at ht
    rw [List.cons_append, strlen, if_neg (fun h => ht.1 h.symm), ih ht.2]
    rfl

theorem strlen_holds (ha : Holds a t) : strlen a = some t.length := by
  obtain ⟨h1, junk, rfl⟩ := ha
  exact strlen_append h1

theorem strcmp_holds : ∀ {s t a b : List Byte}, Holds a s → Holds b t → ∃ r, strcmp a b = some r ∧ (r = 0 ↔ s = t) := by
  intro s
  induction s with
  | nil =>
    rintro t a b ⟨-, ja, rfl⟩ ⟨h2, jb, rfl⟩
    cases t with
    | nil => exact ⟨0, rfl, by simp⟩
    | cons y t =>
      simp only [List.mem_cons, not_or] at h2
      refine ⟨((0#8 : Byte).toNat : Int) - y.toNat, ?_, ?_⟩
      · simp only [List.nil_append, List.cons_append, strcmp]
        rw [if_pos h2.1]
      · have : y.toNat ≠ 0 := fun hh => h2.1 (BitVec.eq_of_toNat_eq hh.symm)
        simp only [List.nil_eq, reduceCtorEq, iff_false]
        change ¬((0 : Nat) : Int) - y.toNat = 0
        omega
  | cons x s ih =>
    rintro t a b ⟨h1, ja, rfl⟩ ⟨h2, jb, rfl⟩
    simp only [List.mem_cons, not_or] at h1
    cases t with
    | nil =>
      refine ⟨(x.toNat : Int) - (0#8 : Byte).toNat, ?_, ?_⟩
      · simp only [List.nil_append, List.cons_append, strcmp]
        rw [if_pos (fun h => h1.1 h.symm)]
      · have : x.toNat ≠ 0 := fun hh => h1.1 (BitVec.eq_of_toNat_eq hh.symm)
        simp only [reduceCtorEq, iff_false]
        change ¬(x.toNat : Int) - ((0 : Nat) : Int) = 0
        omega
    | cons y t =>
      simp only [List.mem_cons, not_or] at h2
      simp only [List.cons_append, strcmp]
      by_cases hxy : x = y
      · subst hxy
        rw [if_neg (by simp), if_neg (fun h => h1.1 h.symm)]
        obtain ⟨r, k1, k2⟩ := ih (a := s ++ 0#8 :: ja) (b := t ++ 0#8 :: jb) ⟨h1.2, ja, rfl⟩ ⟨h2.2, jb, rfl⟩
        exact ⟨r, k1, by simp [k2]⟩
      · rw [if_pos hxy]
        refine ⟨_, rfl, ?_⟩
        have : x.toNat ≠ y.toNat := fun hh => hxy (BitVec.eq_of_toNat_eq hh)
        simp only [List.cons.injEq, hxy, false_and, iff_false]
        omega

theorem strncmp_holds : ∀ {t s a b : List Byte}, Holds a s → Holds b t → ∃ r, strncmp t.length a b = some r ∧ (r = 0 ↔ t <+: s) := by
  intro t
  induction t with
  | nil => intro s a b _ _; exact ⟨0, rfl, by simp⟩
  | cons y t ih =>
    rintro s a b ⟨h1, ja, rfl⟩ ⟨h2, jb, rfl⟩
    simp only [List.mem_cons, not_or] at h2
    cases s with
    | nil =>
      refine ⟨((0#8 : Byte).toNat : Int) - y.toNat, ?_, ?_⟩
      · simp only [List.nil_append, List.cons_append, List.length_cons, strncmp]
        rw [if_pos h2.1]
      · have : y.toNat ≠ 0 := fun hh => h2.1 (BitVec.eq_of_toNat_eq hh.symm)
        simp only [List.prefix_nil, reduceCtorEq, iff_false]
        change ¬((0 : Nat) : Int) - y.toNat = 0
        omega
    | cons x s =>
      simp only [List.mem_cons, not_or] at h1
      simp only [List.cons_append, List.length_cons, strncmp]
      by_cases hxy : x = y
      · subst hxy
        rw [if_neg (by simp), if_neg (fun h => h1.1 h.symm)]
        obtain ⟨r, k1, k2⟩ := ih (a := s ++ 0#8 :: ja) (b := t ++ 0#8 :: jb) ⟨h1.2, ja, rfl⟩ ⟨h2.2, jb, rfl⟩
        exact ⟨r, k1, by simp [k2]⟩
      · rw [if_pos hxy]
        refine ⟨_, rfl, ?_⟩
        have : x.toNat ≠ y.toNat := fun hh => hxy (BitVec.eq_of_toNat_eq hh)
        rw [List.cons_prefix_cons]
        exact ⟨fun hh => absurd hh (by omega), fun hh => absurd hh.1.symm hxy⟩

theorem prefix_zero : ∀ {t s : List Byte}, 0#8 ∉ t → (t.isPrefixOf (s ++ 0#8 :: junk) = true ↔ t <+: s) := by
  intro t
  induction t with
  | nil => intro s _; simp
  | cons y t ih =>
    intro s ht
    simp only [List.mem_cons, not_or] at ht
    cases s with
    | nil =>
      simp only [List.nil_append, List.isPrefixOf, Bool.and_eq_true, beq_iff_eq, List.prefix_nil, reduceCtorEq, iff_false]
      exact fun hh => ht.1 hh.1.symm
    | cons x s => simp only [List.cons_append, List.isPrefixOf, Bool.and_eq_true, beq_iff_eq, List.cons_prefix_cons, ih ht.2]

/-- `strstr` finds the first occurrence. -/
theorem strstr_first (ht : 0#8 ∉ t) (hs : 0#8 ∉ s) :
    (strstr t (s ++ 0#8 :: junk) = some none ∧ ∀ p ≤ s.length, ¬t <+: s.drop p) ∨
      ∃ k ≤ s.length, strstr t (s ++ 0#8 :: junk) = some (some k) ∧ t <+: s.drop k ∧ ∀ p < k, ¬t <+: s.drop p := by
  induction s with
  | nil =>
    have hp := prefix_zero (junk := junk) (s := []) ht
    rw [List.nil_append] at hp ⊢
    unfold strstr
    by_cases h : t.isPrefixOf (0#8 :: junk) = true
    · rw [if_pos h]
      exact Or.inr ⟨0, Nat.le_refl _, rfl, hp.mp h, fun p h => absurd h (Nat.not_lt_zero p)⟩
    · rw [if_neg h, if_pos rfl]
      exact Or.inl ⟨rfl, fun p _ hh => h (hp.mpr (by simpa using hh))⟩
  | cons x s ih =>
    simp only [List.mem_cons, not_or] at hs
    have hp := prefix_zero (junk := junk) (s := x :: s) ht
    rw [List.cons_append] at hp ⊢
    unfold strstr
    by_cases h : t.isPrefixOf (x :: (s ++ 0#8 :: junk)) = true
    · rw [if_pos h]
      exact Or.inr ⟨0, Nat.zero_le _, rfl, hp.mp h, fun p h => absurd h (Nat.not_lt_zero p)⟩
    · rw [if_neg h, if_neg (fun hh => hs.1 hh.symm)]
      rcases ih hs.2 with ⟨i1, i2⟩ | ⟨k, i1, i2, i3, i4⟩
      · rw [i1]
        refine Or.inl ⟨rfl, fun p hp' => ?_⟩
        cases p with
        | zero => exact fun hh => h (hp.mpr hh)
        | succ p => exact i2 p (by simpa using hp')
      · rw [i2]
        refine Or.inr ⟨k + 1, by simpa using i1, rfl, i3, fun p hp' => ?_⟩
        cases p with
        | zero => exact fun hh => h (hp.mpr hh)
        | succ p => exact i4 p (by omega)

/-- An occurrence at a position. -/
theorem at_iff {p : Nat} : (∃ before after, before.length = p ∧ h = before ++ t ++ after) ↔ p ≤ h.length ∧ t <+: h.drop p := by
  constructor
  · rintro ⟨x, y, rfl, rfl⟩
    refine ⟨by simp, ?_⟩
    rw [List.append_assoc, List.drop_left]
    exact List.prefix_append _ _
  · rintro ⟨h1, y, h2⟩
    refine ⟨h.take p, y, by simp [h1], ?_⟩
    rw [List.append_assoc, h2, List.take_append_drop]

theorem apart_mono {ps : List Nat} {m n : Nat} (hmn : m ≤ n) (hp : Apart t h n ps) : Apart t h m ps := by
  cases ps with
  | nil => trivial
  | cons p ps => exact ⟨Nat.le_trans hmn hp.1, hp.2⟩

theorem turns_add (m n : Nat) (o : Out) : turns t (m + n) o = turns t n (turns t m o) := by
  induction m generalizing o with
  | zero => rw [Nat.zero_add]; rfl
  | succ m ih => rw [Nat.add_right_comm]; exact ih _

theorem turns_one (o : Out) : turns t 1 o = turn t o := by simp only [turns]

/-- The loop from a position of the haystack on. -/
theorem count_from (ht : 0#8 ∉ t) (ht' : t ≠ []) : ∀ (n : Nat) (pre s : List Byte) (i : BitVec 64), s.length ≤ n → 0#8 ∉ s →
    ∃ m c, turns t m (.running (s ++ 0#8 :: junk) i) = .ended (i + BitVec.ofNat 64 c) ∧ c ≤ s.length ∧
      (∃ ps, Apart t (pre ++ s) pre.length ps ∧ ps.length = c) ∧ ∀ ps, Apart t (pre ++ s) pre.length ps → ps.length ≤ c := by
  have hpos : 0 < t.length := List.length_pos_iff.mpr ht'
  intro n
  induction n with
  | zero =>
    intro pre s i hl hs
    have : s = [] := List.length_eq_zero_iff.mp (by omega)
    subst this
    rcases strstr_first (junk := junk) ht hs with ⟨h1, h2⟩ | ⟨k, h1, h2, h3, -⟩
    · refine ⟨1, 0, ?_, Nat.le_refl _, ⟨[], trivial, rfl⟩, ?_⟩
      · rw [turns_one]
        unfold turn
        dsimp only
        rw [h1]; simp
      · intro ps hp
        cases ps with
        | nil => exact Nat.le_refl _
        | cons p ps =>
          obtain ⟨q1, q2⟩ := at_iff.mp hp.2.1
          simp only [List.append_nil] at q1 q2
          rw [List.drop_eq_nil_of_le hp.1, List.prefix_nil] at q2
          exact absurd q2 ht'
    · simp only [List.drop_nil, List.prefix_nil] at h3
      exact absurd h3 ht'
  | succ n ih =>
    intro pre s i hl hs
    have low : ∀ ps, Apart t (pre ++ s) pre.length ps → ∀ p ps', ps = p :: ps' → p - pre.length ≤ s.length ∧ t <+: s.drop (p - pre.length) := by
      rintro ps hp p ps' rfl
      obtain ⟨q1, q2⟩ := at_iff.mp hp.2.1
      have := hp.1
      rw [List.length_append] at q1
      rw [List.drop_append, List.drop_eq_nil_of_le hp.1, List.nil_append] at q2
      exact ⟨by omega, q2⟩
    rcases strstr_first (junk := junk) ht hs with ⟨h1, h2⟩ | ⟨k, h1, h2, h3, h4⟩
    · refine ⟨1, 0, ?_, Nat.zero_le _, ⟨[], trivial, rfl⟩, ?_⟩
      · rw [turns_one]
        unfold turn
        dsimp only
        rw [h1]; simp
      · intro ps hp
        cases ps with
        | nil => exact Nat.le_refl _
        | cons p ps =>
          obtain ⟨q1, q2⟩ := low _ hp p ps rfl
          exact absurd q2 (h2 _ q1)
    · have hkl : k + t.length ≤ s.length := by
        have := h3.length_le
        rw [List.length_drop] at this
        omega
      have hpl : (pre ++ s.take (k + t.length)).length = pre.length + k + t.length := by simp; omega
      have happ : (pre ++ s.take (k + t.length)) ++ s.drop (k + t.length) = pre ++ s := by rw [List.append_assoc, List.take_append_drop]
      obtain ⟨m, c, j1, j2, ⟨ps, j3, j4⟩, j5⟩ := ih (pre ++ s.take (k + t.length)) (s.drop (k + t.length)) (i + 1#64) (by rw [List.length_drop]; omega)
        (fun hh => hs (List.mem_of_mem_drop hh))
      rw [happ, hpl] at j3 j5
      rw [List.length_drop] at j2
      refine ⟨1 + m, c + 1, ?_, by omega, ⟨(pre.length + k) :: ps, ⟨by omega, ?_, j3⟩, by simp [j4]⟩, ?_⟩
      · rw [turns_add]
        have e1 : turns t 1 (.running (s ++ 0#8 :: junk) i) = .running (s.drop (k + t.length) ++ 0#8 :: junk) (i + 1#64) := by
          rw [turns_one]
          unfold turn
          dsimp only
          rw [h2]
          dsimp only
          rw [List.drop_append_of_le_length hkl]
        rw [e1, j1]
        congr 1
        rw [BitVec.add_assoc]
        congr 1
        rw [Nat.add_comm c 1, BitVec.ofNat_add]
      · refine at_iff.mpr ⟨by simp; omega, ?_⟩
        rw [List.drop_append, List.drop_eq_nil_of_le (by omega), List.nil_append, show pre.length + k - pre.length = k by omega]
        exact h3
      · intro ps hp
        cases ps with
        | nil => exact Nat.zero_le _
        | cons p ps =>
          obtain ⟨q1, q2⟩ := low _ hp p ps rfl
          have hpk : k ≤ p - pre.length := Nat.le_of_not_lt fun hh => h4 _ hh q2
          have := j5 ps (apart_mono (by have := hp.1; omega) hp.2.2)
          simpa using this

end Str
