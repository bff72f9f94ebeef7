import Verif.Htm.Tlb
/-! Lemmas about the translation cache model. -/
namespace Htm.Tlb

/-- First address of the page. -/
def Entry.lo (t : Entry) : Nat := t.ea.toNat
/-- First address after the page. -/
def Entry.hi (t : Entry) : Nat := t.ea.toNat + t.size.toNat
/-- The page contains address `a`. -/
def Entry.Covers (t : Entry) (a : Nat) : Prop := t.lo ≤ a ∧ a < t.hi
instance (t : Entry) (a : Nat) : Decidable (t.Covers a) := by unfold Entry.Covers; infer_instance

theorem size_cases {s : BitVec 64} (h : pagesizeOk s = true) : s = 4096 ∨ s = 65536 ∨ s = 16777216 := by
  simpa [pagesizeOk, or_assoc] using h

theorem size_pow {s : BitVec 64} (h : pagesizeOk s = true) : ∃ k, k < 64 ∧ s.toNat = 2 ^ k ∧ s = BitVec.twoPow 64 k := by
  rcases size_cases h with rfl | rfl | rfl
  · exact ⟨12, by decide⟩
  · exact ⟨16, by decide⟩
  · exact ⟨24, by decide⟩

theorem and_offset {s : BitVec 64} (h : pagesizeOk s = true) (x : BitVec 64) :
    (x &&& maskOffset s).toNat = x.toNat % s.toNat := by
  obtain ⟨k, hk, e, -⟩ := size_pow h
  have : (maskOffset s).toNat = 2 ^ k - 1 := by
    unfold maskOffset
    rcases size_cases h with rfl | rfl | rfl <;> (rw [← e]; decide)
  rw [BitVec.toNat_and, this, Nat.and_two_pow_sub_one_eq_mod, e]

theorem and_rpn {s : BitVec 64} (h : pagesizeOk s = true) (x : BitVec 64) :
    (x &&& maskRpn s).toNat = x.toNat - x.toNat % s.toNat := by
  have h1 : (x &&& maskRpn s) + (x &&& maskOffset s) = x := by
    unfold maskRpn
    rw [BitVec.add_eq_or_of_and_eq_zero]
    · ext i hi; simp; cases x[i] <;> cases (maskOffset s)[i] <;> rfl
    · ext i hi; simp; cases x[i] <;> cases (maskOffset s)[i] <;> simp
  have h2 := and_offset h x
  have h3 : (x &&& maskRpn s).toNat ≤ x.toNat := by
    rw [BitVec.toNat_and]; exact Nat.and_le_left
  have h4 := congrArg BitVec.toNat h1
  rw [BitVec.toNat_add] at h4
  have h5 : x.toNat % s.toNat ≤ x.toNat := Nat.mod_le ..
  have := x.isLt
  have := (x &&& maskRpn s).isLt
  omega

/-- The facts in a valid entry. -/
structure Valid (t : Entry) : Prop where
  size : pagesizeOk t.size = true
  ea : t.ea.toNat % t.size.toNat = 0
  ra : t.ra.toNat % t.size.toNat = 0

theorem entryOk_iff {t : Entry} : entryOk t = true ↔ Valid t := by
  unfold entryOk
  simp only [Bool.and_eq_true, beq_iff_eq]
  constructor
  · rintro ⟨⟨h1, h2⟩, h3⟩
    refine ⟨h1, ?_, ?_⟩
    · rw [← and_offset h1, h2]; rfl
    · rw [← and_offset h1, h3]; rfl
  · rintro ⟨h1, h2, h3⟩
    refine ⟨⟨h1, ?_⟩, ?_⟩
    · exact BitVec.eq_of_toNat_eq (by rw [and_offset h1, h2]; rfl)
    · exact BitVec.eq_of_toNat_eq (by rw [and_offset h1, h3]; rfl)

theorem size_pos {s : BitVec 64} (h : pagesizeOk s = true) : 0 < s.toNat := by
  rcases size_cases h with rfl | rfl | rfl <;> decide

/-- An aligned page ends inside the address space. -/
theorem Valid.top {t : Entry} (h : Valid t) : t.hi ≤ 2 ^ 64 := by
  have h1 := t.ea.isLt
  have h2 := h.ea
  unfold Entry.hi
  rcases size_cases h.size with e | e | e <;> rw [e] at h2 ⊢ <;>
    simp only [BitVec.reduceToNat] at h2 ⊢ <;> omega

theorem Valid.pos {t : Entry} (h : Valid t) : t.lo < t.hi := by
  have := size_pos h.size
  unfold Entry.lo Entry.hi; omega

theorem Valid.last {t : Entry} (h : Valid t) : (t.ea + t.size - 1).toNat = t.hi - 1 := by
  have h1 := h.top
  have h2 := size_pos h.size
  unfold Entry.hi at *
  have := t.ea.isLt
  have := t.size.isLt
  rw [BitVec.toNat_sub, BitVec.toNat_add]
  simp only [BitVec.reduceToNat]
  omega

theorem compare_ok {t : Entry} (h : Valid t) (a : BitVec 64) :
    compare a t = some (if a.toNat < t.lo then .lt else if t.hi ≤ a.toNat then .gt else .eq) := by
  unfold compare
  rw [if_pos (entryOk_iff.2 h)]
  have h1 := h.last
  have h2 := h.pos
  simp only [BitVec.lt_def, GT.gt]
  rw [h1]
  have : (t.hi - 1 < a.toNat) ↔ t.hi ≤ a.toNat := by omega
  simp only [this]
  rfl

theorem compare_eq {t : Entry} (h : Valid t) (a : BitVec 64) : compare a t = some .eq ↔ t.Covers a.toNat := by
  rw [compare_ok h]
  unfold Entry.Covers
  constructor
  · intro e
    split at e
    · cases e
    · split at e
      · cases e
      · omega
  · rintro ⟨h1, h2⟩
    rw [if_neg (by omega), if_neg (by omega)]

/-! ### Binary search -/

theorem searchLoop_sound {l : List Entry} (hv : ∀ t ∈ l, Valid t) {a : BitVec 64} : ∀ {fuel : Nat} {first last : Int} {m : Nat},
    0 ≤ first → searchLoop l a fuel first last = some (some m) →
    first ≤ m ∧ ∃ t, l[m]? = some t ∧ t.Covers a.toNat := by
  intro fuel
  induction fuel with
  | zero => intro first last m _ h; simp [searchLoop] at h
  | succ fuel ih =>
    intro first last m hf h
    unfold searchLoop at h
    split at h
    · rename_i hle
      simp only at h
      cases ht : l[((first + last) / 2).toNat]? with
      | none => rw [ht] at h; cases h
      | some t =>
        rw [ht] at h
        have hvt := hv t (List.mem_of_getElem? ht)
        simp only at h
        cases hc : compare a t with
        | none => rw [hc] at h; cases h
        | some o =>
          rw [hc] at h
          cases o with
          | lt =>
            simp only at h
            split at h
            · simp at h
            · exact ih hf h
          | gt =>
            simp only at h
            split at h
            · simp at h
            · have := ih (by omega) h
              exact ⟨by omega, this.2⟩
          | eq =>
            simp only [Option.some.injEq] at h
            subst h
            exact ⟨by omega, t, ht, (compare_eq hvt a).1 hc⟩
    · simp at h

theorem searchLoop_total {l : List Entry} (hv : ∀ t ∈ l, Valid t) {a : BitVec 64} : ∀ {fuel : Nat} {first last : Int},
    0 ≤ first → last < l.length → searchLoop l a fuel first last ≠ none := by
  intro fuel
  induction fuel with
  | zero => intro first last _ _; simp [searchLoop]
  | succ fuel ih =>
    intro first last hf hl
    unfold searchLoop
    split
    · rename_i hle
      have hlt : ((first + last) / 2).toNat < l.length := by omega
      simp only
      rw [List.getElem?_eq_getElem hlt]
      have hvt := hv _ (List.getElem_mem hlt)
      simp only
      rw [compare_ok hvt]
      generalize (if a.toNat < _ then Ordering.lt else _) = o
      cases o with
      | lt =>
        simp only
        split
        · simp
        · exact ih hf (by omega)
      | gt =>
        simp only
        split
        · simp
        · exact ih (by omega) hl
      | eq => simp
    · simp

/-- The search finds an entry covering the address when the entries to the left of a smaller entry, and to the right of
a larger one, do not matter. -/
theorem searchLoop_complete {l : List Entry} (hv : ∀ t ∈ l, Valid t) {a : BitVec 64} {k : Nat}
    (hlt : ∀ m t, l[m]? = some t → a.toNat < t.lo → k < m)
    (hgt : ∀ m t, l[m]? = some t → t.hi ≤ a.toNat → m < k) :
    ∀ {fuel : Nat} {first last : Int}, 0 ≤ first → first ≤ k → k ≤ last → last < l.length → last - first < fuel →
    ∃ m, searchLoop l a fuel first last = some (some m) := by
  intro fuel
  induction fuel with
  | zero => intro first last h0 h1 h2 h3 h4; omega
  | succ fuel ih =>
    intro first last h0 h1 h2 h3 h4
    unfold searchLoop
    rw [if_pos (by omega)]
    have hm : ((first + last) / 2).toNat < l.length := by omega
    simp only
    rw [List.getElem?_eq_getElem hm]
    have hvt := hv _ (List.getElem_mem hm)
    have hget := List.getElem?_eq_getElem hm
    simp only
    rw [compare_ok hvt]
    by_cases c1 : a.toNat < (l[((first + last) / 2).toNat]).lo
    · rw [if_pos c1]
      have := hlt _ _ hget c1
      simp only
      rw [if_neg (by omega)]
      exact ih h0 h1 (by omega) (by omega) (by omega)
    · rw [if_neg c1]
      by_cases c2 : (l[((first + last) / 2).toNat]).hi ≤ a.toNat
      · rw [if_pos c2]
        have := hgt _ _ hget c2
        simp only
        rw [if_neg (by omega)]
        exact ih (by omega) (by omega) h2 h3 (by omega)
      · rw [if_neg c2]
        exact ⟨_, rfl⟩

/-! ### Good caches -/

/-- Sorted, apart from each other, valid. -/
structure Good (l : List Entry) : Prop where
  valid : ∀ t ∈ l, Valid t
  apart : l.Pairwise fun a b => a.hi ≤ b.lo

theorem Good.index {l : List Entry} (h : Good l) {i j : Nat} {a b : Entry} (hi : l[i]? = some a) (hj : l[j]? = some b)
    (hij : i < j) : a.hi ≤ b.lo := by
  obtain ⟨h1, rfl⟩ := List.getElem?_eq_some_iff.1 hi
  obtain ⟨h2, rfl⟩ := List.getElem?_eq_some_iff.1 hj
  exact List.pairwise_iff_getElem.1 h.apart i j h1 h2 hij

theorem Good.unique {l : List Entry} (h : Good l) {i j : Nat} {s t : Entry} {a : Nat} (hi : l[i]? = some s)
    (hj : l[j]? = some t) (h1 : s.Covers a) (h2 : t.Covers a) : i = j := by
  unfold Entry.Covers at h1 h2
  rcases Nat.lt_trichotomy i j with hlt | rfl | hlt
  · have := h.index hi hj hlt; omega
  · rfl
  · have := h.index hj hi hlt; omega

theorem Good.search_none {l : List Entry} (h : Good l) {a : BitVec 64} (hn : ∀ t ∈ l, ¬ t.Covers a.toNat) (start : Nat) :
    search l a start = some none := by
  have h1 : search l a start ≠ none := searchLoop_total h.valid (by omega) (by omega)
  cases e : search l a start with
  | none => exact absurd e h1
  | some o =>
    cases o with
    | none => rfl
    | some m =>
      obtain ⟨-, t, ht, hc⟩ := searchLoop_sound h.valid (by omega) e
      exact absurd hc (hn t (List.mem_of_getElem? ht))

theorem Good.search_some {l : List Entry} (h : Good l) {a : BitVec 64} {k : Nat} {t : Entry} (hk : l[k]? = some t)
    (hc : t.Covers a.toNat) : search l a 0 = some (some k) := by
  have hlen := (List.getElem?_eq_some_iff.1 hk).1
  have hc' := hc
  unfold Entry.Covers at hc
  obtain ⟨m, e⟩ := searchLoop_complete (a := a) (fuel := l.length + 1) (first := (0 : Nat)) (last := (l.length : Int) - 1)
    h.valid (k := k)
    (by
      intro m s hm hlt
      rcases Nat.lt_trichotomy k m with g | rfl | g
      · exact g
      · rw [hk] at hm; cases hm; omega
      · have := h.index hm hk g
        have := (h.valid s (List.mem_of_getElem? hm)).pos
        omega)
    (by
      intro m s hm hle
      rcases Nat.lt_trichotomy m k with g | rfl | g
      · exact g
      · rw [hk] at hm; cases hm; omega
      · have := h.index hk hm g
        have := (h.valid s (List.mem_of_getElem? hm)).pos
        omega)
    (by omega) (by omega) (by omega) (by omega) (by omega)
  have e2 : search l a 0 = some (some m) := e
  obtain ⟨-, s, hs, hcs⟩ := searchLoop_sound h.valid (by omega) e
  rw [e2, h.unique hs hk hcs hc']

theorem Good.validate {c : Cache} (h : Good c.entries) (hl : c.entries.length ≤ c.size) : validate c = true := by
  unfold Tlb.validate
  rw [decide_eq_true hl, Bool.true_and, List.all_eq_true]
  rintro ⟨t, i⟩ hmem
  have hi := List.mk_mem_zipIdx_iff_getElem?.1 hmem
  have ht := List.mem_of_getElem? hi
  have hp := (h.valid t ht).pos
  have aux : ∀ a : BitVec 64, a.toNat < t.hi → search c.entries a (i + 1) = some none := by
    intro a ha
    have h1 : search c.entries a (i + 1) ≠ none := searchLoop_total h.valid (by omega) (by omega)
    cases e : search c.entries a (i + 1) with
    | none => exact absurd e h1
    | some o =>
      cases o with
      | none => rfl
      | some m =>
        obtain ⟨hm, s, hs, hc⟩ := searchLoop_sound h.valid (by omega) e
        have := h.index hi hs (by omega)
        unfold Entry.Covers at hc
        omega
  unfold checkOne
  rw [aux _ hp, aux _ (by rw [(h.valid t ht).last]; omega)]
  decide

/-! ### Sorting -/

theorem insertEa_perm (t : Entry) : ∀ l : List Entry, (insertEa t l).Perm (t :: l)
  | [] => .rfl
  | u :: l => by
    unfold insertEa
    split
    · exact .rfl
    · exact ((insertEa_perm t l).cons u).trans (.swap ..)

theorem sortEa_perm : ∀ l : List Entry, (sortEa l).Perm l
  | [] => .rfl
  | t :: l => (insertEa_perm t _).trans ((sortEa_perm l).cons t)

theorem insertEa_sorted (t : Entry) : ∀ {l : List Entry}, l.Pairwise (fun a b => a.lo ≤ b.lo) →
    (insertEa t l).Pairwise fun a b => a.lo ≤ b.lo
  | [], _ => by simp [insertEa]
  | u :: l, h => by
    obtain ⟨h1, h2⟩ := List.pairwise_cons.1 h
    unfold insertEa
    split
    · rename_i hle
      have hle : t.lo ≤ u.lo := hle
      refine List.pairwise_cons.2 ⟨?_, h⟩
      intro v hv
      rcases List.mem_cons.1 hv with rfl | hv
      · exact hle
      · exact Nat.le_trans hle (h1 v hv)
    · rename_i hle
      have hle : ¬ t.lo ≤ u.lo := hle
      refine List.pairwise_cons.2 ⟨?_, insertEa_sorted t h2⟩
      intro v hv
      rcases List.mem_cons.1 ((insertEa_perm t l).mem_iff.1 hv) with rfl | hv
      · omega
      · exact h1 v hv

theorem sortEa_sorted : ∀ l : List Entry, (sortEa l).Pairwise fun a b => a.lo ≤ b.lo
  | [] => .nil
  | t :: l => insertEa_sorted t (sortEa_sorted l)

/-- The two pages have no address in common. -/
def Apart (a b : Entry) : Prop := a.hi ≤ b.lo ∨ b.hi ≤ a.lo

theorem Good.sort {l : List Entry} (hv : ∀ t ∈ l, Valid t) (h : l.Pairwise Apart) : Good (sortEa l) := by
  have hp := sortEa_perm l
  have hv' : ∀ t ∈ sortEa l, Valid t := fun t ht => hv t (hp.mem_iff.1 ht)
  refine ⟨hv', ?_⟩
  have h1 : (sortEa l).Pairwise Apart := (hp.pairwise_iff (by intro a b; unfold Apart; omega)).2 h
  have h2 := (h1.and (sortEa_sorted l))
  refine List.Pairwise.imp_of_mem ?_ h2
  rintro a b ha hb ⟨h3, h4⟩
  have := (hv' a ha).pos
  have := (hv' b hb).pos
  unfold Apart at h3
  omega

theorem Good.pairwise {l : List Entry} (h : Good l) : l.Pairwise Apart := h.apart.imp fun h => .inl h

theorem finish_good {c : Cache} (hv : ∀ t ∈ c.entries, Valid t) (h : c.entries.Pairwise Apart)
    (hl : c.entries.length ≤ c.size) : finish c = some { c with entries := sortEa c.entries } := by
  unfold finish
  simp only
  rw [if_pos]
  exact Good.validate (Good.sort hv h) (by simpa [(sortEa_perm c.entries).length_eq] using hl)

end Htm.Tlb
