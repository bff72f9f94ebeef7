import Verif.Htm.SpecTlbAll
import Verif.Htm.PropsTlbDump
import Verif.Htm.PropsReport
import Verif.Htm.Tracks
/-! C101: the report about the translation cache, for every history of calls that is accepted, and for every dump. -/
namespace Htm.Tlb
open Htm.TlbSpec (Page pageOf PageSize Row Tally Counting)

theorem flags_and {flags : BitVec 64} : flags &&& 1 = 0 ↔ ¬ flags.toNat % 2 = 1 := by
  have h3 : (flags &&& 1).toNat = flags.toNat % 2 := by
    rw [BitVec.toNat_and]; exact Nat.and_one_is_mod _
  constructor
  · intro h
    rw [h] at h3
    have : (0 : BitVec 64).toNat = 0 := rfl
    omega
  · intro h
    apply BitVec.eq_of_toNat_eq
    rw [h3]
    have : (0 : BitVec 64).toNat = 0 := rfl
    omega

/-- The state after `n` calls. -/
structure Told (n : Nat) (c : Counted) (t : Tally) : Prop where
  weak : Weak c.cache fun _ => True
  rows : (c.lines.map Line.row).Perm t.rows
  most : ∀ x ∈ c.lines, x.hits.toNat ≤ n ∧ x.misses.toNat ≤ n
  lookups : c.translations.toNat = t.lookups ∧ t.lookups ≤ n
  failed : c.noTranslation.toNat = t.failed ∧ t.failed ≤ n
  replaced : c.changes.toNat = t.replaced ∧ t.replaced ≤ n

theorem Told.more {n : Nat} {c : Counted} {t : Tally} (h : Told n c t) : Told (n + 1) c t :=
  ⟨h.weak, h.rows, fun x hx => ⟨Nat.le_succ_of_le (h.most x hx).1, Nat.le_succ_of_le (h.most x hx).2⟩,
    ⟨h.lookups.1, Nat.le_succ_of_le h.lookups.2⟩, ⟨h.failed.1, Nat.le_succ_of_le h.failed.2⟩, ⟨h.replaced.1, Nat.le_succ_of_le h.replaced.2⟩⟩

/-- Entries with the same start are the same. -/
theorem Weak.unique {c : Cache} {p : Entry → Prop} (h : Weak c p) {i j : Nat} {s t : Entry} (hi : c.entries[i]? = some s) (hj : c.entries[j]? = some t)
    (he : s = t) : i = j := by
  obtain ⟨hi1, hi2⟩ := List.getElem?_eq_some_iff.1 hi
  obtain ⟨hj1, hj2⟩ := List.getElem?_eq_some_iff.1 hj
  have hp := List.pairwise_iff_getElem.1 h.strict
  rcases Nat.lt_trichotomy i j with hlt | heq | hgt
  · have := hp i j hi1 hj1 hlt
    rw [hi2, hj2, he] at this
    omega
  · exact heq
  · have := hp j i hj1 hi1 hgt
    rw [hi2, hj2, he] at this
    omega

/-- Without overlaps the search is complete. -/
theorem Weak.good {c : Cache} {p : Entry → Prop} (h : Weak c p) (ho : ∀ s ∈ c.entries, ∀ t ∈ c.entries, s ≠ t → ¬ s.page.Overlaps t.page) : Good c.entries := by
  refine ⟨h.valid, h.strict.imp_of_mem fun {a b} ha hb hab => ?_⟩
  refine Nat.le_of_not_lt fun hlt => ?_
  refine ho a ha b hb (fun e => by rw [e] at hab; omega) ⟨b.lo, ?_, ?_⟩
  · rw [page_covers]
    exact ⟨Nat.le_of_lt hab, hlt⟩
  · rw [page_covers]
    exact ⟨Nat.le_refl _, (h.valid b hb).pos⟩

/-- What the search finds. -/
theorem Told.searched {n : Nat} {c : Counted} {t : Tally} (h : Told n c t) (a : BitVec 64) :
    (search c.cache.entries a 0 = some none ∧ t.Finds a.toNat none) ∨
    ∃ i x, search c.cache.entries a 0 = some (some i) ∧ c.lines[i]? = some x ∧ x.e.Covers a.toNat ∧ t.Finds a.toNat (some x.e.page) := by
  cases hs : search c.cache.entries a 0 with
  | none => exact absurd hs (searchLoop_total h.weak.valid (by omega) (by omega))
  | some o =>
    cases o with
    | none =>
      refine Or.inl ⟨rfl, ?_⟩
      rintro ⟨r, hr, hc⟩
      obtain ⟨x, hx, rfl⟩ := List.mem_map.1 (h.rows.mem_iff.2 hr)
      refine Classical.byContradiction fun hno => ?_
      have hgood : Good c.cache.entries := by
        refine h.weak.good fun s hs' u hu hne hov => hno ?_
        obtain ⟨y, hy, rfl⟩ := List.mem_map.1 hs'
        obtain ⟨z, hz, rfl⟩ := List.mem_map.1 hu
        exact ⟨y.row, h.rows.mem_iff.1 (List.mem_map_of_mem hy), z.row, h.rows.mem_iff.1 (List.mem_map_of_mem hz), fun e => hne (page_inj e), hov⟩
      obtain ⟨i, hi⟩ := List.getElem?_of_mem hx
      rw [hgood.search_some (lines_mem hi) ((page_covers ..).1 hc)] at hs
      cases hs
    | some i =>
      obtain ⟨-, e, he, hc⟩ := searchLoop_sound h.weak.valid (by omega) hs
      rw [show c.cache.entries[i]? = c.lines[i]?.map Line.e from List.getElem?_map ..] at he
      cases hx : c.lines[i]? with
      | none => rw [hx] at he; cases he
      | some x =>
        rw [hx] at he
        cases he
        exact Or.inr ⟨i, x, rfl, hx, hc, ⟨x.row, h.rows.mem_iff.1 (List.mem_map_of_mem (List.mem_of_getElem? hx)), rfl⟩, (page_covers ..).2 hc⟩

/-- Changing the line at an index changes the line with its page. -/
theorem Told.modify {n : Nat} {c : Counted} {t : Tally} (h : Told n c t) {i : Nat} {x : Line} (hi : c.lines[i]? = some x) (f : Line → Line) :
    c.lines.modify i f = c.lines.map fun y => if decide (some x.e.page = some y.e.page) then f y else y := by
  refine modify_map (fun y : Line => decide (some x.e.page = some y.e.page)) _ ?_ ?_
  · intro y hy
    rw [hi] at hy
    cases hy
    exact decide_eq_true rfl
  · intro j y hj hne
    exact decide_eq_false fun e => hne (h.weak.unique (lines_mem hj) (lines_mem hi) (page_inj (Option.some.inj e)).symm)

/-- The answer for a page. -/
def answer (a : Nat) (p : Page) : Nat × Nat := (p.translate a, p.size)

theorem told_get {n : Nat} (hn : n < 2 ^ 31) {c c' : Counted} {t : Tally} (h : Told n c t) {a flags : BitVec 64} {r : Option (BitVec 64 × BitVec 64)}
    (hr : flags.toNat % 2 = 1) (hg : countedGet c a flags = some (r, c')) :
    ∃ found, t.Finds a.toNat found ∧ Told (n + 1) c' (t.after found (.get a flags)) ∧ r.map (fun x => (x.1.toNat, x.2.toNat)) = found.map (answer a.toNat) := by
  have hr' : ¬ flags &&& 1 = 0 := fun e => flags_and.1 e hr
  unfold countedGet at hg
  rw [if_neg hr'] at hg
  dsimp only at hg
  rw [show ({ c with translations := c.translations + 1 } : Counted).cache = c.cache from rfl] at hg
  rcases h.searched a with ⟨hs, hf⟩ | ⟨i, x, hs, hi, hcov, hf⟩
  · rw [hs] at hg
    obtain ⟨rfl, rfl⟩ := Prod.mk.inj (Option.some.inj hg)
    refine ⟨none, hf, ?_, rfl⟩
    unfold Tally.after
    dsimp only
    rw [if_pos rfl]
    refine ⟨h.weak, ?_, fun x hx => ⟨Nat.le_succ_of_le (h.most x hx).1, Nat.le_succ_of_le (h.most x hx).2⟩, succ32 h.lookups hn, succ32 h.failed hn, ⟨h.replaced.1, Nat.le_succ_of_le h.replaced.2⟩⟩
    have e : (t.rows.map fun r => if none = some r.page then { r with uses := r.uses + 1 } else r) = t.rows := by
      conv => rhs; rw [← List.map_id t.rows]
      exact List.map_congr_left fun r _ => if_neg (by simp)
    dsimp only
    rw [e]
    exact h.rows
  · rw [hs] at hg
    dsimp only at hg
    rw [hi] at hg
    dsimp only at hg
    cases ht : translate a flags x.e with
    | none => rw [ht] at hg; cases hg
    | some ra =>
      rw [ht] at hg
      obtain ⟨rfl, rfl⟩ := Prod.mk.inj (Option.some.inj hg)
      have hv := h.weak.valid x.e (List.mem_of_getElem? (lines_mem hi))
      have hfl : flags = 1 := by
        refine flags_one hr' ?_
        unfold translate at ht
        split at ht
        · rename_i hc
          simp only [Bool.and_eq_true] at hc
          exact hc.1.2
        · cases ht
      rw [hfl] at ht
      refine ⟨some x.e.page, hf, ?_, ?_⟩
      · unfold Tally.after
        dsimp only
        rw [if_neg (by simp)]
        have hmod := h.modify hi fun t => { t with hits := t.hits + 1 }
        refine ⟨?_, ?_, ?_, succ32 h.lookups hn, ⟨h.failed.1, Nat.le_succ_of_le h.failed.2⟩, ⟨h.replaced.1, Nat.le_succ_of_le h.replaced.2⟩⟩
        · have e : Counted.cache { c with translations := c.translations + 1, lines := hit c.lines i } = c.cache := by
            unfold Counted.cache; dsimp only; rw [hit_e]
          rw [e]
          exact h.weak
        · dsimp only
          rw [show hit c.lines i = c.lines.modify i fun t => { t with hits := t.hits + 1 } from rfl, hmod, List.map_map]
          have := h.rows.map fun r : Row => if some x.e.page = some r.page then { r with uses := r.uses + 1 } else r
          rw [List.map_map] at this
          refine List.Perm.trans (List.Perm.of_eq ?_) this
          refine List.map_congr_left fun y hy => ?_
          have hmost := h.most y hy
          show Line.row (if decide (some x.e.page = some y.e.page) then _ else _) = if some x.e.page = some y.e.page then _ else _
          by_cases hyc : some x.e.page = some y.e.page
          · rw [if_pos (decide_eq_true hyc), if_pos hyc]
            show Row.mk _ (y.hits + 1).toNat _ = Row.mk _ (y.hits.toNat + 1) _
            rw [succ64 hmost.1 hn]
            rfl
          · rw [if_neg (by rw [decide_eq_false hyc]; decide), if_neg hyc]
        · dsimp only
          rw [show hit c.lines i = c.lines.modify i fun t => { t with hits := t.hits + 1 } from rfl, hmod]
          intro z hz
          obtain ⟨y, hy, rfl⟩ := List.mem_map.1 hz
          have hmost := h.most y hy
          split
          · dsimp only; rw [succ64 hmost.1 hn]; omega
          · omega
      · obtain ⟨-, h2⟩ := translate_value hv ht
        show some (ra.toNat, x.e.size.toNat) = some _
        rw [h2]
        rfl

theorem told_set {n : Nat} (hn : n < 2 ^ 31) {c c' : Counted} {t : Tally} (h : Told n c t) {ea flags ra size : BitVec 64}
    (hr : flags.toNat % 2 = 1) (hg : countedSet c ea flags ra size = some c') :
    ∃ found, t.Finds ea.toNat found ∧ Told (n + 1) c' (t.after found (.set ea flags ra size)) := by
  have hr' : ¬ flags &&& 1 = 0 := fun e => flags_and.1 e hr
  have hw : Weak c'.cache fun _ => True := by
    have hset := set_cache c ea flags ra size
    rw [hg] at hset
    exact (raSet_weak h.weak hset.symm).mono fun _ _ => trivial
  unfold countedSet at hg
  rw [if_neg hr'] at hg
  split at hg
  · cases hg
  rename_i hsz
  have hsz : pagesizeOk size = true := by simpa using hsz
  split at hg
  · cases hg
  dsimp only at hg
  have hpg := newEntry_page hsz ea ra
  rcases h.searched ea with ⟨hs, hf⟩ | ⟨i, x, hs, hi, hcov, hf⟩
  · rw [hs] at hg
    dsimp only at hg
    refine ⟨none, hf, ?_⟩
    unfold Tally.after
    dsimp only
    rw [if_neg (by simp), if_pos rfl]
    cases hal : (if c.size = c.lines.length then countedAllocate c else some c) with
    | none => rw [hal] at hg; cases hg
    | some c1 =>
      rw [hal] at hg
      obtain ⟨l1, l2, l3, l4⟩ := allocate_lines hal
      have hc' := finish_lines hg
      dsimp only at hc'
      rw [l1] at hc'
      have hperm : c'.lines.Perm ({ e := newEntry ea ra size } :: c.lines) := by
        rw [hc']
        exact (sortLines_perm _).trans List.perm_append_comm
      refine ⟨hw, ?_, ?_, ?_, ?_, ?_⟩
      · refine (hperm.map Line.row).trans ?_
        rw [List.map_cons]
        have e : (t.rows.filter fun r => decide (none ≠ some r.page)) = t.rows := List.filter_eq_self.2 fun r _ => by simp
        dsimp only
        rw [e, ← hpg]
        exact h.rows.cons _
      · intro y hy
        rcases List.mem_cons.1 (hperm.mem_iff.1 hy) with rfl | hy
        · exact ⟨Nat.zero_le _, Nat.zero_le _⟩
        · have := h.most y hy
          omega
      · rw [hc']; dsimp only; rw [l2]; exact ⟨h.lookups.1, Nat.le_succ_of_le h.lookups.2⟩
      · rw [hc']; dsimp only; rw [l3]; exact ⟨h.failed.1, Nat.le_succ_of_le h.failed.2⟩
      · rw [hc']; dsimp only; rw [l4]; exact ⟨h.replaced.1, Nat.le_succ_of_le h.replaced.2⟩
  · rw [hs] at hg
    dsimp only at hg
    have hie := lines_mem hi
    refine ⟨some x.e.page, hf, ?_⟩
    unfold Tally.after
    dsimp only
    rw [← hpg]
    split at hg
    · rename_i heq
      rw [hie] at heq
      have hnew : x.e = newEntry ea ra size := Option.some.inj heq
      rw [if_pos (by rw [hnew])]
      cases hg
      have hmod : miss (hit c.lines i) i = c.lines.map fun y => if decide (some x.e.page = some y.e.page) then { y with hits := y.hits + 1, misses := y.misses + 1 } else y := by
        rw [← h.modify hi fun t => { t with hits := t.hits + 1, misses := t.misses + 1 }]
        unfold miss hit
        apply List.ext_getElem?
        intro j
        rw [List.getElem?_modify, List.getElem?_modify, List.getElem?_modify]
        cases c.lines[j]? with
        | none => rfl
        | some y =>
          by_cases hij : i = j
          · simp [hij]
          · simp [hij]
      refine ⟨hw, ?_, ?_, ⟨h.lookups.1, Nat.le_succ_of_le h.lookups.2⟩, ⟨h.failed.1, Nat.le_succ_of_le h.failed.2⟩,
        ⟨h.replaced.1, Nat.le_succ_of_le h.replaced.2⟩⟩
      · dsimp only
        rw [hmod, List.map_map]
        have := h.rows.map fun r : Row => if some x.e.page = some r.page then { r with uses := r.uses + 1, again := r.again + 1 } else r
        rw [List.map_map] at this
        refine List.Perm.trans (List.Perm.of_eq ?_) this
        refine List.map_congr_left fun y hy => ?_
        have hmost := h.most y hy
        show Line.row (if decide (some x.e.page = some y.e.page) then _ else _) = if some x.e.page = some y.e.page then _ else _
        by_cases hyc : some x.e.page = some y.e.page
        · rw [if_pos (decide_eq_true hyc), if_pos hyc]
          show Row.mk _ (y.hits + 1).toNat (y.misses + 1).toNat = Row.mk _ (y.hits.toNat + 1) (y.misses.toNat + 1)
          rw [succ64 hmost.1 hn, succ64 hmost.2 hn]
          rfl
        · rw [if_neg (by rw [decide_eq_false hyc]; decide), if_neg hyc]
      · dsimp only
        rw [hmod]
        intro z hz
        obtain ⟨y, hy, rfl⟩ := List.mem_map.1 hz
        have hmost := h.most y hy
        split
        · dsimp only; rw [succ64 hmost.1 hn, succ64 hmost.2 hn]; omega
        · omega
    · rename_i hne0
      have hne : x.e ≠ newEntry ea ra size := fun e => hne0 (by rw [hie, e]; rfl)
      rw [if_neg (fun e => hne (page_inj (Option.some.inj e))), if_neg (by simp)]
      have hc' := finish_lines hg
      dsimp only at hc'
      have hset' : (hit c.lines i).set i { e := newEntry ea ra size } = c.lines.set i { e := newEntry ea ra size } := by
        apply List.ext_getElem?
        intro j
        unfold hit
        rw [List.getElem?_set, List.getElem?_set, List.length_modify, List.getElem?_modify]
        by_cases hij : i = j
        · simp [hij]
        · cases c.lines[j]? <;> simp [hij]
      have hlen := (List.getElem?_eq_some_iff.1 hi).1
      have hperm : c'.lines.Perm ({ e := newEntry ea ra size } :: c.lines.filter fun y => decide (some x.e.page ≠ some y.e.page)) := by
        rw [hc']
        dsimp only
        refine (sortLines_perm _).trans ?_
        show ((hit c.lines i).set i { e := newEntry ea ra size }).Perm _
        rw [hset']
        have hf : c.lines.filter (fun y => decide (some x.e.page ≠ some y.e.page)) = c.lines.eraseIdx i := by
          refine filter_eraseIdx hi (decide_eq_false fun h => h rfl) ?_
          intro j y hj hne
          exact decide_eq_true fun e => hne (h.weak.unique (lines_mem hj) hie (page_inj (Option.some.inj e)).symm)
        rw [hf]
        exact set_perm _ hlen
      refine ⟨hw, ?_, ?_, ?_, ?_, ?_⟩
      · refine (hperm.map Line.row).trans ?_
        rw [List.map_cons]
        refine List.Perm.cons _ ?_
        refine List.Perm.symm ((h.rows.symm.filter _).trans (List.Perm.of_eq ?_))
        rw [List.filter_map]
        rfl
      · intro y hy
        rcases List.mem_cons.1 (hperm.mem_iff.1 hy) with rfl | hy
        · exact ⟨Nat.zero_le _, Nat.zero_le _⟩
        · have := h.most y (List.mem_filter.1 hy).1
          omega
      · rw [hc']; exact ⟨h.lookups.1, Nat.le_succ_of_le h.lookups.2⟩
      · rw [hc']; exact ⟨h.failed.1, Nat.le_succ_of_le h.failed.2⟩
      · rw [hc']; exact succ32 h.replaced hn

/-- The answers of the lookups are those of the pages that are found. -/
def Answers : Cache → List (Op × Option Page) → Prop
  | _, [] => True
  | c, (.get a flags, found) :: l =>
    (flags.toNat % 2 = 1 → ∃ r, raGet c a flags = some r ∧ r.map (fun x => (x.1.toNat, x.2.toNat)) = found.map (answer a.toNat)) ∧ Answers c l
  | c, (.set ea flags ra size, _) :: l => ∃ c', raSet c ea flags ra size = some c' ∧ Answers c' l

theorem told_run : ∀ (history : List Op) (n : Nat) {c c' : Counted} {t : Tally}, Told n c t → countedRun c history = some c' → n + history.length < 2 ^ 31 →
    ∃ (found : List (Option Page)) (t' : Tally), found.length = history.length ∧ Counting t (history.zip found) t' ∧ Told (n + history.length) c' t' ∧
      Answers c.cache (history.zip found)
  | [], n, c, c', t, h, hr, _ => by
    cases hr
    exact ⟨[], t, rfl, .nil t, h, trivial⟩
  | .set ea flags ra size :: l, n, c, c', t, h, hr, hn => by
    rw [List.length_cons] at hn
    rw [countedRun] at hr
    cases hs : countedSet c ea flags ra size with
    | none => rw [hs] at hr; cases hr
    | some c1 =>
      rw [hs] at hr
      have hcache : raSet c.cache ea flags ra size = some c1.cache := by rw [← set_cache, hs]; rfl
      by_cases hf : flags.toNat % 2 = 1
      · obtain ⟨p, h1, h2⟩ := told_set (by omega) h hf hs
        obtain ⟨found, t', h3, h4, h5, h6⟩ := told_run l (n + 1) h2 hr (by omega)
        exact ⟨p :: found, t', by rw [List.length_cons, h3, List.length_cons], .call hf h1 h4,
          by rw [List.length_cons, show n + (l.length + 1) = n + 1 + l.length by omega]; exact h5, c1.cache, hcache, h6⟩
      · have e : c1 = c := by
          unfold countedSet at hs
          rw [if_pos (flags_and.2 hf)] at hs
          exact (Option.some.inj hs).symm
        subst e
        obtain ⟨found, t', h3, h4, h5, h6⟩ := told_run l (n + 1) h.more hr (by omega)
        exact ⟨none :: found, t', by rw [List.length_cons, h3, List.length_cons], .skip hf h4,
          by rw [List.length_cons, show n + (l.length + 1) = n + 1 + l.length by omega]; exact h5, c1.cache, hcache, h6⟩
  | .get a flags :: l, n, c, c', t, h, hr, hn => by
    rw [List.length_cons] at hn
    rw [countedRun] at hr
    cases hs : countedGet c a flags with
    | none => rw [hs] at hr; cases hr
    | some x =>
      obtain ⟨r, c1⟩ := x
      rw [hs] at hr
      have hcache := get_cache c a flags
      rw [hs] at hcache
      have hget : raGet c.cache a flags = some r ∧ c1.cache = c.cache := by
        cases hq : raGet c.cache a flags with
        | none => rw [hq] at hcache; cases hcache
        | some q =>
          rw [hq] at hcache
          obtain ⟨e1, e2⟩ := Prod.mk.inj (Option.some.inj hcache)
          exact ⟨by rw [← e1], e2⟩
      by_cases hf : flags.toNat % 2 = 1
      · obtain ⟨p, h1, h2, h2'⟩ := told_get (by omega) h hf hs
        obtain ⟨found, t', h3, h4, h5, h6⟩ := told_run l (n + 1) h2 hr (by omega)
        exact ⟨p :: found, t', by rw [List.length_cons, h3, List.length_cons], .call hf h1 h4,
          by rw [List.length_cons, show n + (l.length + 1) = n + 1 + l.length by omega]; exact h5, fun _ => ⟨r, hget.1, h2'⟩, by rw [← hget.2]; exact h6⟩
      · have e : c1 = c := by
          unfold countedGet at hs
          rw [if_pos (flags_and.2 hf)] at hs
          exact ((Prod.mk.inj (Option.some.inj hs)).2).symm
        subst e
        obtain ⟨found, t', h3, h4, h5, h6⟩ := told_run l (n + 1) h.more hr (by omega)
        exact ⟨none :: found, t', by rw [List.length_cons, h3, List.length_cons], .skip hf h4,
          by rw [List.length_cons, show n + (l.length + 1) = n + 1 + l.length by omega]; exact h5, fun h => absurd h hf, h6⟩

/-- **C101**, for every history of calls that is accepted, with pages that may overlap: there is a way to say which page each call
found, one that covers the address and was inserted and not replaced (and one is found if there is one and no two overlap), that
explains the answers of all lookups, and with it the report has a line for each page, in ascending order of the effective addresses, with
the number of its uses since it was inserted and the number of times it was inserted again, and then the numbers of lookups
without result, of all lookups, and of replaced pages. -/
theorem C101_overlap_partial (history : List Op) (c : Cache) (hr : run {} history = some c) (hn : history.length < 2 ^ 31) :
    ∃ (found : List (Option Page)) (t : Tally) (cc : Counted) (rows : List Row), found.length = history.length ∧ Counting {} (history.zip found) t ∧
      Answers {} (history.zip found) ∧ countedRun {} history = some cc ∧ rows.map Row.page = c.entries.map Entry.page ∧
      rows.Perm t.rows ∧ rows.Pairwise (fun a b => a.page.ea < b.page.ea) ∧ dump cc = TlbSpec.rowsText rows ++ t.text := by
  have h0 : Told 0 {} {} := ⟨⟨by simp [Counted.cache], by simp [Counted.cache], by simp⟩, .rfl, by simp, ⟨rfl, Nat.le_refl _⟩, ⟨rfl, Nat.le_refl _⟩, ⟨rfl, Nat.le_refl _⟩⟩
  have hcr := run_cache history {}
  rw [show Counted.cache {} = {} from rfl, hr] at hcr
  cases hcc : countedRun {} history with
  | none => rw [hcc] at hcr; cases hcr
  | some cc =>
    rw [hcc] at hcr
    obtain ⟨found, t, h1, h2, h3, h4⟩ := told_run history 0 h0 hcc (by omega)
    rw [Nat.zero_add] at h3
    refine ⟨found, t, cc, cc.lines.map Line.row, h1, h2, h4, rfl, ?_, h3.rows, ?_, ?_⟩
    · rw [← show cc.cache = c from Option.some.inj hcr, show cc.cache.entries = cc.lines.map Line.e from rfl, List.map_map, List.map_map]
      rfl
    · rw [List.pairwise_map]
      have := h3.weak.strict
      rw [show cc.cache.entries = cc.lines.map Line.e from rfl, List.pairwise_map] at this
      exact this
    · unfold dump
      rw [lines_text hn cc.lines 0 h3.most, fmtI_nat h3.failed hn, fmtI_nat h3.lookups hn, fmtI_nat h3.replaced hn]
      unfold TlbSpec.rowsText Tally.text
      simp only [List.append_assoc]

/-- A large page over two small ones, a lookup in the overlap, and one of an address that only the large page covers. -/
def exOverlap : List Op :=
  [.set 0x11000 1 0xa000 4096, .set 0x12000 1 0xb000 4096, .set 0x10000 1 0x70000 65536, .get 0x11004 1, .get 0x1f000 1]

example : (run {} exOverlap).isSome = true ∧ exOverlap.length < 2 ^ 31 ∧ ¬ TlbSpec.Proper [] exOverlap ∧
    (countedRun {} exOverlap).map (fun c => String.ofList (dump c)) = some
    "TLBDUMP 00: ea:0000000000010000 ra:0000000000070000 size:00010000 miss:0 hit:0\nTLBDUMP 01: ea:0000000000011000 ra:000000000000a000 size:00001000 miss:0 hit:1\nTLBDUMP 02: ea:0000000000012000 ra:000000000000b000 size:00001000 miss:0 hit:0\nTLBDUMP no translation: 1 of 2\nTLBDUMP replaced translations: 0\n" := by
  refine ⟨by decide +kernel, by decide, ?_, by decide +kernel⟩
  intro h
  rcases h with ⟨h, -⟩ | ⟨-, -, -, h⟩
  · cases h
  rcases h with ⟨h, -⟩ | ⟨-, -, -, h⟩
  · cases h
  rcases h with ⟨h, -⟩ | ⟨-, -, h, -⟩
  · cases h
  have := h ⟨0x11000, 0xa000, 4096⟩ (by decide) ⟨0x11000, by decide, by decide⟩
  exact absurd this (by decide)

end Htm.Tlb

namespace Htm
open Htm.Spec
open Htm.TlbSpec (Page Row Tally Counting)

/-- **C101**, for every dump that is decoded, whatever it has: the last lines are the report of C101 about the calls that the decoder made. -/
theorem C101_dump_partial (c : Conf) {eof failing : Bool} {bytes : List (BitVec 8)} {fill phantom : BitVec 64} {s : Dec} {r : Rd}
    (hd : decode c eof bytes failing fill phantom = .ok (s, r)) (hn : (lookups r.out).length < 2 ^ 31) :
    ∃ (found : List (Option Page)) (t : Tally) (summary : List Char) (rows : List Row), found.length = (lookups r.out).length ∧
      Counting {} ((lookups r.out).zip found) t ∧ Tlb.Answers {} ((lookups r.out).zip found) ∧
      printed c eof bytes failing fill phantom [] = some summary ∧
      printedAll c eof bytes failing fill phantom = some (summary ++ (TlbSpec.rowsText rows ++ t.text)) ∧
      rows.Perm t.rows ∧ rows.Pairwise (fun a b => a.page.ea < b.page.ea) ∧ (rows.map Row.page) = s.tlb.entries.map Tlb.Entry.page := by
  obtain ⟨found, t, cc, rows, h1, h2, h3, h4, h5, h6, h7, h8⟩ := Tlb.C101_overlap_partial (lookups r.out) s.tlb (keptTlb_decode hd) hn
  refine ⟨found, t, printStat r [], rows, h1, h2, h3, ?_, ?_, h6, h7, h5⟩
  · unfold printed
    rw [hd]
  · unfold printedAll
    rw [hd]
    dsimp only
    rw [h4, Option.map_some, printStat_append, h8]

/-- A dump with segment information, a large page over a small one, and a record that can not be decoded. -/
def exSegments : List Item9r :=
  [{ info := 0x600000000abcdee4, iea := some 0x0000000000011001, ira := some 0x0000000281000000, dea := none, dra := none },
   { info := 0xf86300000abcde9c, iea := none, ira := none, dea := some 0xc00000000000f008, dra := some 0x8000000005000000 },
   { info := 0x600000000abcdee4, iea := some 0x0000000000010001, ira := some 0x0000000402000000, dea := none, dra := none },
   { info := 0x000000000abcdec0, iea := none, ira := none, dea := none, dra := none },
   { info := 0x600000000abcdec0, iea := some 0x0000000000011005, ira := none, dea := none, dra := none }]

example : ((decode { fn := true, private_ := true, junk := {} } false (bytes9 exSegments) false 0 0).toOption.map fun x => (lookups x.2.out).length) = some 3 ∧
    (printedAll { fn := true, private_ := true, junk := {} } false (bytes9 exSegments) false 0 0).map (fun t => ((textLines t).drop 46).map String.ofList) =
      some ["TLBDUMP 00: ea:0000000000010000 ra:0000000000100000 size:00010000 miss:0 hit:1",
        "TLBDUMP 01: ea:0000000000011000 ra:00000000000a0000 size:00001000 miss:0 hit:0",
        "TLBDUMP no translation: 0 of 1", "TLBDUMP replaced translations: 0"] := by
  decide +kernel

end Htm
