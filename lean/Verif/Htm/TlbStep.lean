import Verif.Htm.TlbLemmas
import Verif.Htm.SpecTlb
/-! The translation cache follows its specification. -/
namespace Htm.Tlb
open Htm.TlbSpec (Page pageOf PageSize)

def Entry.page (t : Entry) : Page := { ea := t.ea.toNat, ra := t.ra.toNat, size := t.size.toNat }

theorem page_covers (t : Entry) (a : Nat) : t.page.Covers a ↔ t.Covers a := Iff.rfl

def newEntry (ea ra size : BitVec 64) : Entry := { ea := ea &&& maskRpn size, ra := ra &&& maskRpn size, size := size }

theorem mod_self_sub (x n : Nat) : (x - x % n) % n = 0 := by
  have : x - x % n = n * (x / n) := by have := Nat.div_add_mod x n; omega
  rw [this, Nat.mul_mod_right]

theorem newEntry_valid {s : BitVec 64} (h : pagesizeOk s = true) (ea ra : BitVec 64) : Valid (newEntry ea ra s) := by
  refine ⟨h, ?_, ?_⟩
  · simp only [newEntry, and_rpn h, mod_self_sub]
  · simp only [newEntry, and_rpn h, mod_self_sub]

theorem newEntry_page {s : BitVec 64} (h : pagesizeOk s = true) (ea ra : BitVec 64) :
    (newEntry ea ra s).page = pageOf ea.toNat ra.toNat s.toNat := by
  simp only [Entry.page, newEntry, pageOf, and_rpn h]

theorem newEntry_covers {s : BitVec 64} (h : pagesizeOk s = true) (ea ra : BitVec 64) :
    (newEntry ea ra s).Covers ea.toNat := by
  have := size_pos h
  have h1 := Nat.mod_lt ea.toNat this
  have h2 : ea.toNat % s.toNat ≤ ea.toNat := Nat.mod_le ..
  simp only [Entry.Covers, Entry.lo, Entry.hi, newEntry, and_rpn h]
  omega

theorem pageSize_iff {s : BitVec 64} : pagesizeOk s = true ↔ PageSize s.toNat := by
  constructor
  · intro h
    rcases size_cases h with rfl | rfl | rfl
    · exact .inl rfl
    · exact .inr (.inl rfl)
    · exact .inr (.inr rfl)
  · rintro (h | h | h)
    · rw [BitVec.eq_of_toNat_eq (y := (4096 : BitVec 64)) h]; decide
    · rw [BitVec.eq_of_toNat_eq (y := (65536 : BitVec 64)) h]; decide
    · rw [BitVec.eq_of_toNat_eq (y := (16777216 : BitVec 64)) h]; decide

theorem filter_eraseIdx {α : Type} {p : α → Bool} : ∀ {l : List α} {i : Nat} {x : α}, l[i]? = some x → p x = false →
    (∀ j y, l[j]? = some y → j ≠ i → p y = true) → l.filter p = l.eraseIdx i := by
  intro l
  induction l with
  | nil => intro i x h; simp at h
  | cons a l ih =>
    intro i x h hx ho
    cases i with
    | zero =>
      have : a = x := by simpa using h
      subst this
      rw [List.filter_cons, hx, List.eraseIdx_cons_zero]
      simp only [Bool.false_eq_true, if_false]
      rw [List.filter_eq_self]
      intro y hy
      obtain ⟨j, hj⟩ := List.getElem?_of_mem hy
      exact ho (j + 1) y (by simpa using hj) (by omega)
    | succ i =>
      rw [List.filter_cons, ho 0 a (by simp) (by omega), List.eraseIdx_cons_succ]
      simp only [if_true]
      rw [ih (by simpa using h) hx]
      intro j y hj hne
      exact ho (j + 1) y (by simpa using hj) (by omega)

theorem set_perm {α : Type} : ∀ {l : List α} {i : Nat} (x : α), i < l.length → (l.set i x).Perm (x :: l.eraseIdx i) := by
  intro l
  induction l with
  | nil => intro i x h; simp at h
  | cons a l ih =>
    intro i x h
    cases i with
    | zero => simp
    | succ i =>
      rw [List.set_cons_succ, List.eraseIdx_cons_succ]
      exact ((ih x (by simpa using h)).cons a).trans (List.Perm.swap ..)

structure Rel (c : Cache) (s : List Page) : Prop where
  good : Good c.entries
  cap : c.entries.length ≤ c.size
  same : (c.entries.map Entry.page).Perm s

theorem filter_page (l : List Entry) (a : Nat) :
    (l.map Entry.page).filter (fun p => ¬ p.Covers a) = (l.filter fun t => ¬ t.Covers a).map Entry.page := by
  rw [List.filter_map]; rfl

theorem apart_of_not_overlap {s t : Entry} (hs : Valid s) (ht : Valid t) (h : ¬ s.page.Overlaps t.page) : Apart s t := by
  unfold Apart
  have := hs.pos
  have := ht.pos
  by_cases h1 : s.lo ≤ t.lo
  · by_cases h2 : s.hi ≤ t.lo
    · exact .inl h2
    · exact absurd ⟨t.lo, (page_covers ..).2 ⟨by omega, by omega⟩, (page_covers ..).2 ⟨by omega, by omega⟩⟩ h
  · by_cases h2 : t.hi ≤ s.lo
    · exact .inr h2
    · exact absurd ⟨s.lo, (page_covers ..).2 ⟨by omega, by omega⟩, (page_covers ..).2 ⟨by omega, by omega⟩⟩ h

/-- The state after a proper insertion. -/
theorem raSet_proper {c : Cache} {s : List Page} (h : Rel c s) {ea ra size : BitVec 64} (hs : PageSize size.toNat)
    (hov : ∀ p ∈ s, p.Overlaps (pageOf ea.toNat ra.toNat size.toNat) → p.Covers ea.toNat) :
    ∃ c', raSet c ea 1 ra size = some c' ∧ Rel c' (TlbSpec.insert s ea.toNat ra.toNat size.toNat) := by
  have hsz := pageSize_iff.2 hs
  obtain ⟨good, cap, same⟩ := h
  have hvn := newEntry_valid hsz ea ra
  have hin : (TlbSpec.insert s ea.toNat ra.toNat size.toNat).Perm
      ((newEntry ea ra size :: c.entries.filter fun t => ¬ t.Covers ea.toNat).map Entry.page) := by
    unfold TlbSpec.insert
    rw [List.map_cons, newEntry_page hsz, ← filter_page]
    exact (same.symm.filter _).cons _
  -- the new entries, before sorting, are valid and apart
  have key : ∀ l : List Entry, l.Perm (newEntry ea ra size :: c.entries.filter fun t => ¬ t.Covers ea.toNat) →
      (∀ t ∈ l, Valid t) ∧ l.Pairwise Apart := by
    intro l hl
    have hv : ∀ t ∈ newEntry ea ra size :: c.entries.filter (fun t => ¬ t.Covers ea.toNat), Valid t := by
      intro t ht
      rcases List.mem_cons.1 ht with rfl | ht
      · exact hvn
      · exact good.valid t (List.mem_filter.1 ht).1
    refine ⟨fun t ht => hv t (hl.mem_iff.1 ht), (hl.pairwise_iff (by intro a b; unfold Apart; omega)).2 ?_⟩
    rw [List.pairwise_cons]
    refine ⟨?_, good.pairwise.filter _⟩
    intro t ht
    obtain ⟨ht1, ht2⟩ := List.mem_filter.1 ht
    have : Apart t (newEntry ea ra size) := by
      refine apart_of_not_overlap (good.valid t ht1) hvn ?_
      intro ho
      rw [newEntry_page hsz] at ho
      have := hov t.page (same.mem_iff.1 (List.mem_map_of_mem ht1)) ho
      rw [page_covers] at this
      simp [this] at ht2
    unfold Apart at *; omega
  have done : ∀ (l : List Entry) (n : Nat), l.Perm (newEntry ea ra size :: c.entries.filter fun t => ¬ t.Covers ea.toNat) →
      l.length ≤ n → ∃ c', finish { entries := l, size := n } = some c' ∧
        Rel c' (TlbSpec.insert s ea.toNat ra.toNat size.toNat) := by
    intro l n hl hn
    obtain ⟨k1, k2⟩ := key l hl
    refine ⟨_, finish_good (c := { entries := l, size := n }) k1 k2 hn, Good.sort k1 k2, ?_, ?_⟩
    · simpa [(sortEa_perm l).length_eq] using hn
    · exact (((sortEa_perm l).trans hl).map _).trans hin.symm
  have hset : raSet c ea 1 ra size = (match search c.entries ea 0 with
    | none => none
    | some none =>
      match (if c.size = c.entries.length then allocate c else some c) with
      | none => none
      | some c => finish { c with entries := c.entries ++ [newEntry ea ra size] }
    | some (some i) =>
      if c.entries[i]? = some (newEntry ea ra size) then some c
      else finish { c with entries := c.entries.set i (newEntry ea ra size) }) := by
    unfold raSet
    rw [if_neg (by decide), if_neg (by simp [hsz]), if_neg (by decide)]
    rfl
  rw [hset]
  by_cases hc : ∃ t ∈ c.entries, t.Covers ea.toNat
  · obtain ⟨t, ht, hcov⟩ := hc
    obtain ⟨i, hi⟩ := List.getElem?_of_mem ht
    have hlen := (List.getElem?_eq_some_iff.1 hi).1
    rw [good.search_some hi hcov]
    have hf : c.entries.filter (fun t => ¬ t.Covers ea.toNat) = c.entries.eraseIdx i := by
      refine filter_eraseIdx hi (by simp [hcov]) ?_
      intro j y hj hne
      simp only [decide_not, Bool.not_eq_true', decide_eq_false_iff_not]
      intro hy
      exact hne (good.unique hj hi hy hcov)
    simp only
    split
    · rename_i heq
      rw [hi] at heq
      have hnew : t = newEntry ea ra size := by simpa using heq
      refine ⟨c, rfl, good, cap, ?_⟩
      refine List.Perm.trans ?_ hin.symm
      rw [hf]
      refine List.Perm.map _ ?_
      rw [← hnew]
      have he : c.entries[i] = t := (List.getElem?_eq_some_iff.1 hi).2
      rw [← he]
      have := set_perm (l := c.entries) (i := i) c.entries[i] hlen
      rwa [List.set_getElem_self] at this
    · refine done _ c.size ?_ (by simpa using cap)
      rw [hf]
      exact set_perm _ hlen
  · have hn : ∀ t ∈ c.entries, ¬ t.Covers ea.toNat := fun t ht hcov => hc ⟨t, ht, hcov⟩
    rw [good.search_none hn 0]
    have hf : c.entries.filter (fun t => ¬ t.Covers ea.toNat) = c.entries := by
      rw [List.filter_eq_self]; intro t ht; simpa using hn t ht
    have hperm : (c.entries ++ [newEntry ea ra size]).Perm
        (newEntry ea ra size :: c.entries.filter fun t => ¬ t.Covers ea.toNat) := by
      rw [hf]; exact List.perm_append_comm
    simp only
    by_cases hfull : c.size = c.entries.length
    · rw [if_pos hfull]
      unfold allocate
      by_cases h0 : c.size = 0
      · rw [if_pos h0]
        exact done _ 1 hperm (by rw [List.length_append, ← hfull, h0]; exact Nat.le_refl 1)
      · rw [if_neg h0]
        simp only
        rw [if_pos (good.validate (c := { c with size := c.size * 2 }) (by simp only; omega))]
        exact done _ (c.size * 2) hperm (by simp; omega)
    · rw [if_neg hfull]
      exact done _ c.size hperm (by simp; omega)

/-- A lookup in a page that does not end the address space. -/
theorem raGet_hit {c : Cache} {s : List Page} (h : Rel c s) {a : BitVec 64} {p : Page} (hp : p ∈ s)
    (hc : p.Covers a.toNat) (ht : p.ea + p.size < 2 ^ 64) : ∃ ra size : BitVec 64,
    raGet c a 1 = some (some (ra, size)) ∧ ra.toNat = p.translate a.toNat ∧ size.toNat = p.size := by
  obtain ⟨t, htm, rfl⟩ := List.mem_map.1 (h.same.mem_iff.2 hp)
  rw [page_covers] at hc
  obtain ⟨i, hi⟩ := List.getElem?_of_mem htm
  have hv := h.good.valid t htm
  have hcov := hc
  unfold Entry.Covers Entry.lo Entry.hi at hc
  have htop : t.ea.toNat + t.size.toNat < 2 ^ 64 := ht
  have e : translate a 1 t = some ((a &&& maskOffset t.size) ||| (t.ra &&& maskRpn t.size)) := by
    unfold translate
    rw [if_pos]
    simp only [ge_iff_le, Bool.and_eq_true, decide_eq_true_eq]
    refine ⟨⟨⟨hc.1, ?_⟩, by decide⟩, entryOk_iff.2 hv⟩
    rw [BitVec.lt_def, BitVec.toNat_add, Nat.mod_eq_of_lt htop]
    exact hc.2
  refine ⟨(a &&& maskOffset t.size) ||| (t.ra &&& maskRpn t.size), t.size, ?_, ?_, rfl⟩
  · unfold raGet
    rw [if_neg (by decide), h.good.search_some hi hcov]
    simp only [hi, e]
    rfl
  · have h0 : (a &&& maskOffset t.size) &&& (t.ra &&& maskRpn t.size) = 0#64 := by
      unfold maskRpn
      ext i hi
      simp
      cases (maskOffset t.size)[i] <;> simp
    rw [← BitVec.add_eq_or_of_and_eq_zero _ _ h0, BitVec.toNat_add, and_offset hv.size, and_rpn hv.size, hv.ra]
    unfold Page.translate Entry.page
    simp only
    have h1 : a.toNat % t.size.toNat = a.toNat - t.ea.toNat := by
      have h2 : t.size.toNat * (t.ea.toNat / t.size.toNat) = t.ea.toNat := by
        have := Nat.div_add_mod t.ea.toNat t.size.toNat
        rw [hv.ea] at this; omega
      have h3 : a.toNat = (a.toNat - t.ea.toNat) + t.size.toNat * (t.ea.toNat / t.size.toNat) := by omega
      rw [h3, Nat.add_mul_mod_self_left, Nat.mod_eq_of_lt (by omega)]
      omega
    rw [h1]
    have hr : t.ra.toNat + t.size.toNat ≤ 2 ^ 64 := by
      have h1 := t.ra.isLt
      have h2 := hv.ra
      rcases size_cases hv.size with e | e | e <;> rw [e] at h2 ⊢ <;>
        simp only [BitVec.reduceToNat] at h2 ⊢ <;> omega
    omega

theorem raGet_miss {c : Cache} {s : List Page} (h : Rel c s) {a : BitVec 64} (hn : ∀ p ∈ s, ¬ p.Covers a.toNat) :
    raGet c a 1 = some none := by
  unfold raGet
  rw [if_neg (by decide), h.good.search_none]
  intro t ht hc
  exact hn t.page (h.same.mem_iff.1 (List.mem_map_of_mem ht)) hc

theorem Rel.empty : Rel {} [] := ⟨⟨by simp, by simp⟩, by simp, by simp⟩

theorem run_proper : ∀ (history : List Op) {c : Cache} {s : List Page}, Rel c s → TlbSpec.Proper s history →
    ∃ c', run c history = some c' ∧ Rel c' (TlbSpec.pages s history) := by
  intro history
  induction history with
  | nil => intro c s h _; exact ⟨c, rfl, h⟩
  | cons o l ih =>
    intro c s h hp
    cases o with
    | set ea flags ra size =>
      rcases hp with ⟨rfl, hp⟩ | ⟨rfl, hs, hov, hp⟩
      · obtain ⟨c', e, r⟩ := ih h hp
        refine ⟨c', ?_, ?_⟩
        · unfold run
          have : raSet c ea 0 ra size = some c := by unfold raSet; rw [if_pos (by decide)]
          rw [this]; exact e
        · unfold TlbSpec.pages
          rw [if_neg (by decide)]; exact r
      · obtain ⟨c1, e1, r1⟩ := raSet_proper h hs hov
        obtain ⟨c', e, r⟩ := ih r1 hp
        refine ⟨c', ?_, ?_⟩
        · unfold run; rw [e1]; exact e
        · unfold TlbSpec.pages
          rw [if_pos rfl]; exact r
    | get ea flags =>
      obtain ⟨hg, hp⟩ := hp
      obtain ⟨c', e, r⟩ := ih h hp
      refine ⟨c', ?_, r⟩
      have : ∃ x, raGet c ea flags = some x := by
        rcases hg with rfl | ⟨rfl, hg⟩
        · exact ⟨_, by unfold raGet; rw [if_pos (by decide)]⟩
        · by_cases hc : ∃ p ∈ s, p.Covers ea.toNat
          · obtain ⟨p, hp, hc⟩ := hc
            obtain ⟨ra, size, e, -⟩ := raGet_hit h hp hc (hg p hp hc)
            exact ⟨_, e⟩
          · exact ⟨_, raGet_miss h fun p hp hcov => hc ⟨p, hp, hcov⟩⟩
      obtain ⟨x, hx⟩ := this
      unfold run; rw [hx]; exact e

end Htm.Tlb

/-! ### Histories that are not proper -/
namespace Htm.Tlb
open Htm.TlbSpec (Page pageOf)

/-- Two entries that start at the same address make `tlb_validate` abort, in whatever order the sort leaves them. -/
theorem validate_dup {c : Cache} (hv : ∀ t ∈ c.entries, Valid t) (hs : c.entries.Pairwise fun a b => a.lo ≤ b.lo)
    (h : validate c = true) : c.entries.Pairwise fun a b => a.lo < b.lo := by
  rw [List.pairwise_iff_getElem]
  intro i j hi hj hij
  have hle := List.pairwise_iff_getElem.1 hs i j hi hj hij
  refine Nat.lt_of_le_of_ne hle ?_
  intro heq
  unfold validate at h
  simp only [Bool.and_eq_true, List.all_eq_true] at h
  have := h.2 (c.entries[i], i) (List.mk_mem_zipIdx_iff_getElem?.2 (List.getElem?_eq_getElem hi))
  unfold checkOne at this
  simp only [Bool.and_eq_true, beq_iff_eq] at this
  obtain ⟨m, e⟩ := searchLoop_complete (l := c.entries) (a := c.entries[i].ea) (k := j) (fuel := c.entries.length + 1)
    (first := ((i + 1 : Nat) : Int)) (last := (c.entries.length : Int) - 1) hv
    (by
      intro m t hm hlt
      rcases Nat.lt_or_ge j m with g | g
      · exact g
      · obtain ⟨hm', rfl⟩ := List.getElem?_eq_some_iff.1 hm
        have h1 : c.entries[m].lo ≤ c.entries[j].lo := by
          rcases Nat.lt_or_eq_of_le g with g | rfl
          · exact List.pairwise_iff_getElem.1 hs m j hm' hj g
          · exact Nat.le_refl _
        have : c.entries[i].ea.toNat = c.entries[i].lo := rfl
        omega)
    (by
      intro m t hm hle'
      rcases Nat.lt_or_ge m j with g | g
      · exact g
      · obtain ⟨hm', rfl⟩ := List.getElem?_eq_some_iff.1 hm
        have h1 : c.entries[j].lo ≤ c.entries[m].lo := by
          rcases Nat.lt_or_eq_of_le g with g | rfl
          · exact List.pairwise_iff_getElem.1 hs j m hj hm' g
          · exact Nat.le_refl _
        have h2 := (hv _ (List.getElem_mem hm')).pos
        have : c.entries[i].ea.toNat = c.entries[i].lo := rfl
        omega)
    (by omega) (by omega) (by omega) (by omega) (by omega)
  have h2 : searchLoop c.entries c.entries[i].ea (c.entries.length + 1) ((i + 1 : Nat) : Int)
      ((c.entries.length : Int) - 1) = some none := this.1
  rw [h2] at e
  cases e

/-- What holds after every history that does not abort. -/
structure Weak (c : Cache) (origin : Entry → Prop) : Prop where
  valid : ∀ t ∈ c.entries, Valid t
  strict : c.entries.Pairwise fun a b => a.lo < b.lo
  origin : ∀ t ∈ c.entries, origin t

theorem Weak.mono {c : Cache} {p q : Entry → Prop} (h : Weak c p) (hpq : ∀ t, p t → q t) : Weak c q :=
  ⟨h.valid, h.strict, fun t ht => hpq t (h.origin t ht)⟩

theorem finish_weak {c c' : Cache} {p : Entry → Prop} (hv : ∀ t ∈ c.entries, Valid t) (hp : ∀ t ∈ c.entries, p t)
    (h : finish c = some c') : Weak c' p := by
  unfold finish at h
  simp only at h
  split at h
  · rename_i hval
    have : c' = { c with entries := sortEa c.entries } := by simpa using h.symm
    subst this
    have hm : ∀ t, t ∈ sortEa c.entries ↔ t ∈ c.entries := fun t => (sortEa_perm c.entries).mem_iff
    refine ⟨fun t ht => hv t ((hm t).1 ht), ?_, fun t ht => hp t ((hm t).1 ht)⟩
    exact validate_dup (fun t ht => hv t ((hm t).1 ht)) (sortEa_sorted _) hval
  · cases h

theorem allocate_entries {c c' : Cache} (h : allocate c = some c') : c'.entries = c.entries := by
  unfold allocate at h
  split at h
  · cases h; rfl
  · simp only at h
    split at h
    · cases h; rfl
    · cases h

/-- An accepted flag word with relocation is 1. -/
theorem flags_one {flags : BitVec 64} (h0 : ¬ flags &&& 1 = 0) (h : flagsOk flags = true) : flags = 1 := by
  have h1 : flags &&& ~~~ 1#64 = 0#64 := by simpa [flagsOk] using h
  have h2 : ∀ m : BitVec 64, (flags &&& m) ||| (flags &&& ~~~ m) = flags := by
    intro m
    ext i hi; simp; cases flags[i] <;> cases m[i] <;> rfl
  have h2 := h2 1#64
  rw [h1] at h2
  have h3 : (flags &&& 1).toNat = flags.toNat % 2 := by
    rw [BitVec.toNat_and]; exact Nat.and_one_is_mod _
  have h4 : (flags &&& 1).toNat ≠ 0 := fun e => h0 (BitVec.eq_of_toNat_eq e)
  have h5 : flags &&& 1 = flags := by simpa using h2
  refine BitVec.eq_of_toNat_eq ?_
  rw [← h5, h3]
  have : (1 : BitVec 64).toNat = 1 := rfl
  omega

theorem raSet_weak {c c' : Cache} {p : Entry → Prop} (hw : Weak c p) {ea flags ra size : BitVec 64}
    (h : raSet c ea flags ra size = some c') :
    Weak c' fun t => p t ∨ flags = 1 ∧ pagesizeOk size = true ∧ t = newEntry ea ra size := by
  unfold raSet at h
  split at h
  · cases h; exact hw.mono fun t ht => .inl ht
  rename_i hf
  split at h
  · cases h
  rename_i hs
  split at h
  · cases h
  rename_i hfl
  have hf1 := flags_one hf (by simpa using hfl)
  have hsz : pagesizeOk size = true := by simpa using hs
  have hvn := newEntry_valid hsz ea ra
  simp only at h
  cases hsr : search c.entries ea 0 with
  | none => rw [hsr] at h; cases h
  | some o =>
    rw [hsr] at h
    cases o with
    | none =>
      simp only at h
      cases ha : (if c.size = c.entries.length then allocate c else some c) with
      | none => rw [ha] at h; cases h
      | some c1 =>
        rw [ha] at h
        have he : c1.entries = c.entries := by
          split at ha
          · exact allocate_entries ha
          · cases ha; rfl
        refine finish_weak ?_ ?_ h
        · simp only [he]
          intro t ht
          rcases List.mem_append.1 ht with ht | ht
          · exact hw.valid t ht
          · rw [List.mem_singleton] at ht; rw [ht]; exact hvn
        · simp only [he]
          intro t ht
          rcases List.mem_append.1 ht with ht | ht
          · exact .inl (hw.origin t ht)
          · rw [List.mem_singleton] at ht; exact .inr ⟨hf1, hsz, ht⟩
    | some i =>
      simp only at h
      split at h
      · cases h; exact hw.mono fun t ht => .inl ht
      · refine finish_weak ?_ ?_ h
        · intro t ht
          rcases List.mem_or_eq_of_mem_set ht with ht | ht
          · exact hw.valid t ht
          · rw [ht]; exact hvn
        · intro t ht
          rcases List.mem_or_eq_of_mem_set ht with ht | ht
          · exact .inl (hw.origin t ht)
          · exact .inr ⟨hf1, hsz, ht⟩

theorem run_weak : ∀ (history : List Op) {c c' : Cache} {p : Entry → Prop}, Weak c p → run c history = some c' →
    Weak c' fun t => p t ∨ ∃ ea ra size, Op.set ea 1 ra size ∈ history ∧ pagesizeOk size = true ∧ t = newEntry ea ra size := by
  intro history
  induction history with
  | nil => intro c c' p hw h; cases h; exact hw.mono fun t ht => .inl ht
  | cons o l ih =>
    intro c c' p hw h
    cases o with
    | set ea flags ra size =>
      unfold run at h
      cases h1 : raSet c ea flags ra size with
      | none => rw [h1] at h; cases h
      | some c1 =>
        rw [h1] at h
        refine (ih (raSet_weak hw h1) h).mono ?_
        rintro t ((ht | ⟨rfl, hs, rfl⟩) | ⟨e, r, s, hm, hs, rfl⟩)
        · exact .inl ht
        · exact .inr ⟨ea, ra, size, List.mem_cons_self, hs, rfl⟩
        · exact .inr ⟨e, r, s, List.mem_cons_of_mem _ hm, hs, rfl⟩
    | get ea flags =>
      unfold run at h
      cases h1 : raGet c ea flags with
      | none => rw [h1] at h; cases h
      | some x =>
        rw [h1] at h
        refine (ih hw h).mono ?_
        rintro t (ht | ⟨e, r, s, hm, hs, rfl⟩)
        · exact .inl ht
        · exact .inr ⟨e, r, s, List.mem_cons_of_mem _ hm, hs, rfl⟩

/-- A translation by a valid entry. -/
theorem translate_value {t : Entry} (hv : Valid t) {a ra : BitVec 64} (h : translate a 1 t = some ra) :
    t.Covers a.toNat ∧ ra.toNat = t.page.translate a.toNat := by
  have hT := h
  unfold translate at h
  split at h
  · rename_i hc
    simp only [ge_iff_le, Bool.and_eq_true, decide_eq_true_eq] at hc
    obtain ⟨⟨⟨h1, h2⟩, -⟩, -⟩ := hc
    have hlt : t.ea.toNat + t.size.toNat < 2 ^ 64 := by
      have := hv.top
      unfold Entry.hi at this
      rcases Nat.lt_or_eq_of_le this with g | g
      · exact g
      · rw [BitVec.lt_def, BitVec.toNat_add, g] at h2; omega
    have h1' : t.ea.toNat ≤ a.toNat := h1
    have h2' : a.toNat < t.ea.toNat + t.size.toNat := by
      rw [BitVec.lt_def, BitVec.toNat_add, Nat.mod_eq_of_lt hlt] at h2; exact h2
    have rel : Rel { entries := [t], size := 1 } [t.page] :=
      ⟨⟨by simpa using hv, by simp⟩, by simp, by simp⟩
    have hcov : t.Covers a.toNat := ⟨h1', h2'⟩
    obtain ⟨ra', size, e, er, -⟩ := raGet_hit rel (a := a) (p := t.page) (by simp) hcov hlt
    refine ⟨hcov, ?_⟩
    rw [← er]
    unfold raGet at e
    rw [if_neg (by decide), rel.good.search_some (k := 0) rfl hcov] at e
    simp only [List.getElem?_cons_zero] at e
    cases h3 : translate a 1 t with
    | none => rw [h3] at e; cases e
    | some r =>
      rw [h3] at e
      rw [hT] at h3
      simp only [Option.map_some, Option.some.injEq, Prod.mk.injEq] at e h3
      rw [← e.1, ← h3]
  · cases h

end Htm.Tlb
