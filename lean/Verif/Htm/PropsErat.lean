import Verif.Htm.Erat
/-!
C19: the ERAT returns the translation inserted last for that page pair.

The specification speaks about the history of the insertions and about page numbers: `matching` are the insertions that a
lookup may find, in order.
-/
namespace Htm.Erat
open Htm
variable {R : Type}

/-- The page sizes that exist. -/
def PageSize (s : Nat) : Prop := s = 12 ∨ s = 16 ∨ s = 21 ∨ s = 30

instance (s : Nat) : Decidable (PageSize s) := inferInstanceAs (Decidable (_ ∨ _))

/-- The insertion was for the same page size, effective page and real page. -/
def Same (shift : Nat) (address real : BitVec 64) (i : Ins R) : Prop :=
  min i.host i.guest = shift ∧ i.address.toNat / 2 ^ shift = address.toNat / 2 ^ shift ∧
    i.real.toNat / 2 ^ shift = real.toNat / 2 ^ shift

instance (shift : Nat) (address real : BitVec 64) (i : Ins R) : Decidable (Same shift address real i) :=
  inferInstanceAs (Decidable (_ ∧ _))

/-- The insertions for a page, oldest first. -/
def matching (h : List (Ins R)) (shift : Nat) (address real : BitVec 64) : List (Ins R) :=
  h.filter fun i => Same shift address real i

theorem mkKey_isSome (s : Nat) (a r : BitVec 64) : (mkKey s a r).isSome ↔ PageSize s := by
  unfold mkKey sizes PageSize
  by_cases h : s ∈ [12, 16, 21, 30]
  · rw [if_pos h]; simpa using h
  · rw [if_neg h]; simpa using h

theorem mkKey_of {s : Nat} (hs : PageSize s) (a r : BitVec 64) : mkKey s a r = some ⟨aligned s a, aligned s r, s⟩ := by
  unfold mkKey sizes
  rw [if_pos]
  simpa [PageSize] using hs

def keyOf (i : Ins R) : Key := ⟨aligned (min i.host i.guest) i.address, aligned (min i.host i.guest) i.real, min i.host i.guest⟩

theorem run_eq : ∀ (h : List (Ins R)) (st : St R), (∀ i ∈ h, PageSize (min i.host i.guest)) →
    run st h = some (h.foldl (fun st i => st.put (keyOf i) (update i.rcd i.host i.guest)) st) := by
  intro h
  induction h with
  | nil => intro st _; rfl
  | cons i h ih =>
    intro st hs
    rw [run, insert, mkKey_of (hs i (by simp)), Option.bind_some, ih _ (fun j hj => hs j (List.mem_cons_of_mem _ hj))]
    rfl

/-- The cache takes every history of insertions of pages of existing sizes and no other; a lookup ends if and only if it is
for such a size. -/
theorem C19_total (h : List (Ins R)) :
    ((run init h).isSome ↔ ∀ i ∈ h, PageSize (min i.host i.guest)) ∧
    ∀ (st : St R) (s : Nat) (a r : BitVec 64), (get st s a r).isSome ↔ PageSize s := by
  constructor
  · constructor
    · intro hs
      generalize (init : St R) = st at hs
      induction h generalizing st with
      | nil => simp
      | cons i h ih =>
        rw [run, insert] at hs
        have hk := mkKey_isSome (min i.host i.guest) i.address i.real
        cases hm : mkKey (min i.host i.guest) i.address i.real with
        | none => rw [hm] at hs; simp at hs
        | some k =>
          rw [hm] at hs hk
          rw [Option.bind_some] at hs
          intro j hj
          rcases List.mem_cons.1 hj with rfl | hj
          · exact hk.1 rfl
          · exact ih _ hs j hj
    · intro hs; rw [run_eq h _ hs]; rfl
  · intro st s a r
    rw [get, ← mkKey_isSome s a r]
    cases mkKey s a r <;> simp

theorem keyOf_eq_iff {s : Nat} (hs : s < 64) (i : Ins R) (a r : BitVec 64) :
    keyOf i = ⟨aligned s a, aligned s r, s⟩ ↔ Same s a r i := by
  unfold keyOf Same
  constructor
  · intro h
    injection h with h1 h2 h3
    rw [h3] at h1 h2
    exact ⟨h3, (aligned_eq_iff hs _ _).1 h1, (aligned_eq_iff hs _ _).1 h2⟩
  · rintro ⟨h1, h2, h3⟩
    rw [h1, (aligned_eq_iff hs _ _).2 h2, (aligned_eq_iff hs _ _).2 h3]

theorem PageSize.lt {s : Nat} (h : PageSize s) : s < 64 := by unfold PageSize at h; omega

theorem get_eq {h : List (Ins R)} {st : St R} (hr : run init h = some st) {s : Nat} (hs : PageSize s) (a r : BitVec 64) :
    get st s a r = some ((matching h s a r).foldl (fun v i => some (update i.rcd i.host i.guest v)) none) := by
  have hp := (C19_total h).1.1 (by rw [hr]; rfl)
  rw [run_eq h _ hp] at hr
  injection hr with hr
  rw [get, mkKey_of hs]
  simp only
  rw [← hr, Cache.foldl_put_at keyOf (fun i => update i.rcd i.host i.guest) ⟨aligned s a, aligned s r, s⟩ h init]
  have : (fun i : Ins R => decide (keyOf i = ⟨aligned s a, aligned s r, s⟩)) = fun i => decide (Same s a r i) := by
    funext i
    exact decide_eq_decide.2 (keyOf_eq_iff hs.lt i a r)
  rw [this]
  rfl

theorem fold_from : ∀ (l : List (Ins R)) (v : Val R),
    l.foldl (fun v i => some (update i.rcd i.host i.guest v)) (some v) =
      some ⟨(l.getLast?.map (·.rcd)).getD v.rcd, v.host, (l.getLast?.map (·.guest)).getD v.guest⟩ := by
  intro l
  induction l with
  | nil => intro v; rfl
  | cons i l ih =>
    intro v
    rw [List.foldl_cons]
    show List.foldl _ (some (⟨i.rcd, v.host, i.guest⟩ : Val R)) l = _
    rw [ih, List.getLast?_cons]
    cases l.getLast? <;> rfl

theorem fold_value {l : List (Ins R)} {f i : Ins R} (h1 : l.head? = some f) (h2 : l.getLast? = some i) :
    l.foldl (fun v i => some (update i.rcd i.host i.guest v)) none = some ⟨i.rcd, f.host, i.guest⟩ := by
  cases l with
  | nil => simp at h1
  | cons x l =>
    simp only [List.head?_cons, Option.some.injEq] at h1
    subst h1
    rw [List.foldl_cons]
    show List.foldl _ (some (⟨x.rcd, x.host, x.guest⟩ : Val R)) l = _
    rw [fold_from]
    rw [List.getLast?_cons] at h2
    simp only [Option.some.injEq] at h2
    subst h2
    cases l.getLast? <;> rfl

/-- A lookup finds something if and only if something was inserted for the page. -/
theorem C19_found {h : List (Ins R)} {st : St R} (hr : run init h = some st) {s : Nat} (hs : PageSize s) (a r : BitVec 64) :
    get st s a r = some none ↔ ∀ i ∈ h, ¬ Same s a r i := by
  rw [get_eq hr hs]
  constructor
  · intro e i hi hsame
    injection e with e
    have hmem : i ∈ matching h s a r := by unfold matching; simp [hi, hsame]
    cases hm : matching h s a r with
    | nil => rw [hm] at hmem; simp at hmem
    | cons x l =>
      rw [hm, fold_value (f := x) rfl (List.getLast?_eq_some_getLast (by simp))] at e
      simp at e
  · intro hn
    have : matching h s a r = [] := by
      unfold matching
      rw [List.filter_eq_nil_iff]
      intro i hi; simpa using hn i hi
    rw [this]; rfl

/-- What the cache does: a lookup gives the record and the guest page size of the last insertion for the page, but the host
page size of the first one. -/
theorem C19_lookup_partial {h : List (Ins R)} {st : St R} (hr : run init h = some st) {s : Nat} (hs : PageSize s)
    (a r : BitVec 64) {first last : Ins R} (h1 : (matching h s a r).head? = some first)
    (h2 : (matching h s a r).getLast? = some last) :
    get st s a r = some (some ⟨last.rcd, first.host, last.guest⟩) := by
  rw [get_eq hr hs, fold_value h1 h2]

/-- If the insertions for a page agree on the host page size, a lookup gives everything as inserted last. -/
theorem C19_lookup {h : List (Ins R)} {st : St R} (hr : run init h = some st) {s : Nat} (hs : PageSize s)
    (a r : BitVec 64) {last : Ins R} (h2 : (matching h s a r).getLast? = some last)
    (hagree : ∀ i ∈ h, Same s a r i → i.host = last.host) :
    get st s a r = some (some ⟨last.rcd, last.host, last.guest⟩) := by
  cases hm : matching h s a r with
  | nil => rw [hm] at h2; simp at h2
  | cons f l =>
    have hf : f ∈ matching h s a r := by rw [hm]; simp
    unfold matching at hf
    rw [List.mem_filter] at hf
    rw [C19_lookup_partial hr hs a r (first := f) (by rw [hm]; rfl) h2, hagree f hf.1 (by simpa using hf.2)]

/-- A case for the theorems: two pages, one of them inserted twice, looked up at another offset. -/
def exHistory : List (Ins Nat) :=
  [⟨16, 0x10234, 0x7f0234, 1, 16⟩, ⟨21, 0x412345, 0x812345, 2, 16⟩, ⟨16, 0x1fff8, 0x7ffff8, 3, 30⟩]

example : (run init exHistory).isSome ∧ (∀ i ∈ exHistory, PageSize (min i.host i.guest)) ∧ PageSize 16 ∧
    (matching exHistory 16 0x10008 0x7f0008).getLast? = some ⟨16, 0x1fff8, 0x7ffff8, 3, 30⟩ ∧
    (∀ i ∈ exHistory, Same 16 0x10008 0x7f0008 i → i.host = 16) ∧
    ((run init exHistory).bind fun st => get st 16 0x10008 0x7f0008) = some (some ⟨3, 16, 30⟩) := by decide +kernel

/-- The host page size of an entry is not replaced: an entry first inserted with a 2 MB host page and then with a 64 kB host
page for the same 64 kB page is returned with the new record and the old host page size. -/
theorem C19_host_refuted :
    ¬ ∀ (h : List (Ins Nat)) (st : St Nat) (s : Nat) (a r : BitVec 64) (last : Ins Nat), run init h = some st → PageSize s →
      (matching h s a r).getLast? = some last → get st s a r = some (some ⟨last.rcd, last.host, last.guest⟩) := by
  intro H
  have h1 : ((run init [⟨21, 0x10000, 0x7f0000, 1, 16⟩, ⟨16, 0x10000, 0x7f0000, 2, 16⟩]).bind fun st => get st 16 0x10000 0x7f0000) =
      some (some (⟨2, 21, 16⟩ : Val Nat)) := by decide +kernel
  cases hr : run (init (R := Nat)) [⟨21, 0x10000, 0x7f0000, 1, 16⟩, ⟨16, 0x10000, 0x7f0000, 2, 16⟩] with
  | none => rw [hr] at h1; simp at h1
  | some st =>
    rw [hr, Option.bind_some] at h1
    have := H _ st 16 0x10000 0x7f0000 ⟨16, 0x10000, 0x7f0000, 2, 16⟩ hr (by decide) (by decide +kernel)
    rw [h1] at this
    simp at this

end Htm.Erat
