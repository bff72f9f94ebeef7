import Verif.Htm.TlbStep
/-! Properties C17 and C18: the translation cache. -/
namespace Htm.Tlb
open Htm.TlbSpec (Page pageOf Proper pages latest PageSize)

/-! ### C17 -/

/-- C17, for histories that use the cache properly (see `TlbSpec.Proper`): the cache never aborts, a lookup of an address
covered by one of the current pages gives that page's real address with the offset of the looked-up address and its
size, and a miss is reported exactly when no current page covers the address. -/
theorem C17_proper_partial (history : List Op) (hp : Proper [] history) :
    ∃ c, run {} history = some c ∧
      (∀ (a : BitVec 64) (p : Page), p ∈ pages [] history → p.Covers a.toNat → p.ea + p.size < 2 ^ 64 →
        ∃ ra size : BitVec 64, raGet c a 1 = some (some (ra, size)) ∧ ra.toNat = p.translate a.toNat ∧
          size.toNat = p.size) ∧
      (∀ a : BitVec 64, (¬ ∃ p ∈ pages [] history, p.Covers a.toNat) → raGet c a 1 = some none) := by
  obtain ⟨c, e, r⟩ := run_proper history Rel.empty hp
  exact ⟨c, e, fun a p hp hc ht => raGet_hit r hp hc ht, fun a h => raGet_miss r fun p hp hc => h ⟨p, hp, hc⟩⟩

/-- The page just inserted is current: with `C17_proper_partial`, every address of that page is translated by it. -/
theorem C17_inserted_is_current (history : List Op) (ea ra size : BitVec 64) :
    ∀ s, pageOf ea.toNat ra.toNat size.toNat ∈ pages s (history ++ [.set ea 1 ra size]) := by
  induction history with
  | nil => intro s; simp [pages, TlbSpec.insert]
  | cons o l ih =>
    intro s
    cases o with
    | set ea' f ra' size' => exact ih _
    | get ea' f => exact ih _

/-- A proper history with three page sizes, a replacement by a smaller page, a non-relocated insertion and lookups. -/
example : Proper [] [.set 0x10001234 1 0x5678 4096, .set 0x20001234 1 0x12345678 65536, .get 0x2000ffff 1,
    .set 0x20005000 1 0x7000 4096, .set 0x7 0 0 5, .get 0x3 0, .set 0x3012345 1 0x5000000 16777216, .get 0x10001fff 1] ∧
    pages [] [.set 0x10001234 1 0x5678 4096, .set 0x20001234 1 0x12345678 65536, .set 0x20005000 1 0x7000 4096] =
      [⟨0x20005000, 0x7000, 4096⟩, ⟨0x10001000, 0x5000, 4096⟩] := by
  refine ⟨?_, by decide⟩
  simp [Proper, PageSize, pageOf, TlbSpec.insert, Page.Overlaps, Page.Covers]
  refine ⟨?_, ?_, ?_, ?_⟩ <;> intros <;> omega

theorem single_proper {size : BitVec 64} (hs : PageSize size.toNat) : ∀ (inserts : List (BitVec 64 × BitVec 64)) (s : List Page),
    (∀ p ∈ s, p.size = size.toNat ∧ p.ea % size.toNat = 0) → Proper s (inserts.map fun x => .set x.1 1 x.2 size) := by
  intro inserts
  induction inserts with
  | nil => intro s _; exact trivial
  | cons x l ih =>
    intro s h
    have hpos : 0 < size.toNat := by rcases hs with h | h | h <;> omega
    refine .inr ⟨rfl, hs, ?_, ih _ ?_⟩
    · rintro p hp ⟨a, h1, h2⟩
      obtain ⟨e1, e2⟩ := h p hp
      unfold Page.Covers at *
      unfold pageOf at h2
      simp only at h2
      generalize size.toNat = n at *
      rw [e1] at h1 ⊢
      have d1 := Nat.div_add_mod p.ea n
      have d2 := Nat.div_add_mod x.1.toNat n
      have d3 := Nat.mod_lt x.1.toNat hpos
      rw [e2] at d1
      have e3 : p.ea / n = a / n := by
        symm; rw [Nat.div_eq_iff hpos]; rw [Nat.mul_comm]; omega
      have e4 : x.1.toNat / n = a / n := by
        symm; rw [Nat.div_eq_iff hpos]; rw [Nat.mul_comm]; omega
      rw [e4, ← e3] at d2
      omega
    · intro p hp
      rcases List.mem_cons.1 hp with rfl | hp
      · exact ⟨rfl, mod_self_sub ..⟩
      · exact h p (List.mem_filter.1 hp).1

theorem single_pages {size : BitVec 64} (hpos : 0 < size.toNat) (a : Nat) : ∀ (inserts : List (BitVec 64 × BitVec 64)) (s : List Page),
    (∀ p ∈ s, p.size = size.toNat ∧ p.ea % size.toNat = 0) →
    match latest size.toNat a inserts with
    | some r => ∃ p ∈ pages s (inserts.map fun x => .set x.1 1 x.2 size), p.Covers a ∧ p.translate a = r ∧
        p.size = size.toNat ∧ p.ea % size.toNat = 0
    | none => (∀ p, p ∈ pages s (inserts.map fun x => .set x.1 1 x.2 size) → p.Covers a → p ∈ s) ∧
        (∀ p ∈ s, p.Covers a → p ∈ pages s (inserts.map fun x => .set x.1 1 x.2 size)) := by
  intro inserts
  induction inserts with
  | nil => intro s _; exact ⟨fun p h _ => h, fun p h _ => h⟩
  | cons x l ih =>
    intro s h
    have h' : ∀ p ∈ TlbSpec.insert s x.1.toNat x.2.toNat size.toNat, p.size = size.toNat ∧ p.ea % size.toNat = 0 := by
      intro p hp
      rcases List.mem_cons.1 hp with rfl | hp
      · exact ⟨rfl, mod_self_sub ..⟩
      · exact h p (List.mem_filter.1 hp).1
    have := ih _ h'
    have hpg : pages s ((x :: l).map fun x => .set x.1 1 x.2 size) =
        pages (TlbSpec.insert s x.1.toNat x.2.toNat size.toNat) (l.map fun x => .set x.1 1 x.2 size) := by
      rw [List.map_cons, pages, if_pos rfl]
    rw [hpg]
    unfold latest
    generalize size.toNat = n at *
    have d1 := Nat.div_add_mod x.1.toNat n
    have d2 := Nat.div_add_mod a n
    have d3 := Nat.div_add_mod x.2.toNat n
    have m1 := Nat.mod_lt x.1.toNat hpos
    have m2 := Nat.mod_lt a hpos
    have hcov : (pageOf x.1.toNat x.2.toNat n).Covers a ↔ x.1.toNat / n = a / n := by
      unfold pageOf Page.Covers
      simp only
      constructor
      · intro hc
        symm; rw [Nat.div_eq_iff hpos, Nat.mul_comm]; omega
      · intro hc
        rw [hc] at d1; omega
    cases hl : latest n a l with
    | some r => rw [hl] at this; exact this
    | none =>
      rw [hl] at this
      rw [Option.none_or]
      by_cases hc : x.1.toNat / n = a / n
      · rw [if_pos hc]
        refine ⟨pageOf x.1.toNat x.2.toNat n, this.2 _ List.mem_cons_self (hcov.2 hc), hcov.2 hc, ?_, rfl, mod_self_sub ..⟩
        unfold Page.translate pageOf
        simp only
        have e1 := hc
        rw [hc] at d1
        rw [Nat.mul_comm (x.2.toNat / n)]
        omega
      · rw [if_neg hc]
        refine ⟨fun p hp hpc => ?_, fun p hp hpc => ?_⟩
        · rcases List.mem_cons.1 (this.1 p hp hpc) with rfl | hp
          · exact absurd (hcov.1 hpc) hc
          · exact (List.mem_filter.1 hp).1
        · refine this.2 p (List.mem_cons_of_mem _ (List.mem_filter.2 ⟨hp, ?_⟩)) hpc
          simp only [decide_not, Bool.not_eq_true', decide_eq_false_iff_not]
          intro hx
          obtain ⟨e1, e2⟩ := h p hp
          unfold Page.Covers at hx hpc
          rw [e1] at hx hpc
          have d4 := Nat.div_add_mod p.ea n
          rw [e2] at d4
          apply hc
          have e3 : x.1.toNat / n = p.ea / n := by rw [Nat.div_eq_iff hpos, Nat.mul_comm]; omega
          have e4 : a / n = p.ea / n := by rw [Nat.div_eq_iff hpos, Nat.mul_comm]; omega
          rw [e3, e4]

/-- C17, for any history of insertions of one page size: no abort, and a lookup outside the last page of the address space
returns the most recent insertion for the page of the address, or a miss if there was none. -/
theorem C17_single_size_partial (size : BitVec 64) (hs : PageSize size.toNat) (inserts : List (BitVec 64 × BitVec 64)) :
    ∃ c, run {} (inserts.map fun x => .set x.1 1 x.2 size) = some c ∧
      ∀ a : BitVec 64, a.toNat < 2 ^ 64 - size.toNat →
        (raGet c a 1).map (·.map fun r => (r.1.toNat, r.2)) =
          some ((latest size.toNat a.toNat inserts).map fun r => (r, size)) := by
  have hpos : 0 < size.toNat := by rcases hs with h | h | h <;> omega
  obtain ⟨c, e, r⟩ := run_proper _ Rel.empty (single_proper hs inserts [] (by simp))
  refine ⟨c, e, ?_⟩
  intro a ha
  have := single_pages hpos a.toNat inserts [] (by simp)
  cases hl : latest size.toNat a.toNat inserts with
  | none =>
    rw [hl] at this
    rw [raGet_miss r (fun p hp hc => by simpa using this.1 p hp hc)]
    rfl
  | some x =>
    rw [hl] at this
    obtain ⟨p, hp, hc, ht, hsz, hal⟩ := this
    have htop : p.ea + p.size < 2 ^ 64 := by
      unfold Page.Covers at hc
      rcases hs with h | h | h <;> rw [h] at hsz hal ha <;> omega
    obtain ⟨ra, sz, e1, e2, e3⟩ := raGet_hit r hp hc htop
    have hsz' : sz = size := BitVec.eq_of_toNat_eq (e3.trans hsz)
    rw [e1]
    simp only [Option.map_some]
    rw [e2, ht, hsz']

/-- Two insertions for one page and one for another: the later wins, with the offset of the lookup. -/
example : latest 4096 0x1abc [(0x1000, 0x5000), (0x2000, 0x6000), (0x1234, 0x7123)] = some 0x7abc ∧
    PageSize (4096#64).toNat := ⟨by decide, .inl rfl⟩

/-- C17, one direction for every history that does not abort: a translation returned is that of some inserted page that
covers the address. -/
theorem C17_sound_partial (history : List Op) (c : Cache) (h : run {} history = some c) (a ra size : BitVec 64)
    (hg : raGet c a 1 = some (some (ra, size))) :
    ∃ ea r, Op.set ea 1 r size ∈ history ∧ (pageOf ea.toNat r.toNat size.toNat).Covers a.toNat ∧
      ra.toNat = (pageOf ea.toNat r.toNat size.toNat).translate a.toNat := by
  have w := run_weak (p := fun _ => False) history (c := {}) ⟨by simp, by simp, by simp⟩ h
  unfold raGet at hg
  rw [if_neg (by decide)] at hg
  cases hs : search c.entries a 0 with
  | none => rw [hs] at hg; cases hg
  | some o =>
    rw [hs] at hg
    cases o with
    | none => simp at hg
    | some i =>
      simp only at hg
      cases hi : c.entries[i]? with
      | none => rw [hi] at hg; cases hg
      | some t =>
        rw [hi] at hg
        simp only at hg
        have htm := List.mem_of_getElem? hi
        cases ht : translate a 1 t with
        | none => rw [ht] at hg; cases hg
        | some r =>
          rw [ht] at hg
          simp only [Option.map_some, Option.some.injEq, Prod.mk.injEq] at hg
          obtain ⟨rfl, rfl⟩ := hg
          obtain ⟨h1, h2⟩ := translate_value (w.valid t htm) ht
          rcases w.origin t htm with hf | ⟨ea, r', s, hm, hsz, rfl⟩
          · exact hf.elim
          · have hp := newEntry_page hsz ea r'
            refine ⟨ea, r', hm, ?_, ?_⟩
            · have h1' := (page_covers ..).2 h1
              rw [hp] at h1'; exact h1'
            · rw [h2, hp]; rfl

/-- C17 fails when a large page is inserted over smaller ones: a lookup in the page inserted last returns the older,
smaller page ... -/
theorem C17_latest_refuted : (run {} [.set 0x11000 1 0xa000 4096, .set 0x12000 1 0xb000 4096,
      .set 0x10000 1 0x70000 65536]).bind (raGet · 0x11004 1) = some (some (0xa004, 4096)) := by
  decide +kernel

/-- ... and a lookup of an address only the large page covers is reported as a miss. -/
theorem C17_miss_refuted : (run {} [.set 0x11000 1 0xa000 4096, .set 0x12000 1 0xb000 4096,
      .set 0x10000 1 0x70000 65536]).bind (raGet · 0x1f000 1) = some none := by
  decide +kernel

/-- C17 fails in the last page of the address space: the lookup aborts. -/
theorem C17_last_page_refuted : (run {} [.set 0xffffffffffffe000 1 0xa000 4096,
      .set 0xfffffffffffff000 1 0xb000 4096]).isSome = true ∧
    (run {} [.set 0xffffffffffffe000 1 0xa000 4096, .set 0xfffffffffffff000 1 0xb000 4096]).bind
      (raGet · 0xfffffffffffff008 1) = none := by
  decide +kernel

/-- C17: inserting a larger page over a smaller one that starts at the same address aborts. -/
theorem C17_same_start_aborts : run {} [.set 0x10000 1 0xa000 4096, .set 0x15000 1 0x70000 65536] = none := by
  decide +kernel

/-! ### C18 -/

/-- C18 for proper histories: no two entries cover a common address. -/
theorem C18_proper_partial (history : List Op) (hp : Proper [] history) :
    ∃ c, run {} history = some c ∧ ∀ (i j : Nat) (s t : Entry), c.entries[i]? = some s → c.entries[j]? = some t → i ≠ j →
      ¬ ∃ a : Nat, (s.ea.toNat ≤ a ∧ a < s.ea.toNat + s.size.toNat) ∧ (t.ea.toNat ≤ a ∧ a < t.ea.toNat + t.size.toNat) := by
  obtain ⟨c, e, r⟩ := run_proper history Rel.empty hp
  refine ⟨c, e, ?_⟩
  rintro i j s t hi hj hne ⟨a, h1, h2⟩
  exact hne (r.good.unique hi hj h1 h2)

/-- C18, for every history that does not abort: no two entries start at the same address. -/
theorem C18_starts_partial (history : List Op) (c : Cache) (h : run {} history = some c) :
    c.entries.Pairwise fun s t => s.ea.toNat < t.ea.toNat :=
  (run_weak (p := fun _ => False) history (c := {}) ⟨by simp, by simp, by simp⟩ h).strict

/-- C18 fails in general: two entries covering address 0x11004. -/
theorem C18_refuted : ∃ history c s t, run {} history = some c ∧ c.entries = [s, t] ∧
    (s.ea.toNat ≤ 0x11004 ∧ 0x11004 < s.ea.toNat + s.size.toNat) ∧
    (t.ea.toNat ≤ 0x11004 ∧ 0x11004 < t.ea.toNat + t.size.toNat) :=
  ⟨[.set 0x11000 1 0xa000 4096, .set 0x10000 1 0x70000 65536],
    { entries := [⟨0x10000, 0x70000, 65536⟩, ⟨0x11000, 0xa000, 4096⟩], size := 2 }, _, _, by decide +kernel, rfl, by decide,
    by decide⟩

end Htm.Tlb
