import Verif.Htm.TlbDump
import Verif.Htm.TlbStep
import Verif.Htm.SpecTlbDump
/-! C101: the report about the translation cache. -/
namespace Htm.Tlb
open Htm.TlbSpec (Page pageOf PageSize Row Tally)

/-! ### The counters do not change the translations -/

theorem insertLine_e (t : Line) : ∀ l : List Line, (insertLine t l).map Line.e = insertEa t.e (l.map Line.e)
  | [] => rfl
  | u :: l => by
    unfold insertLine
    rw [List.map_cons, insertEa]
    split
    · rfl
    · rw [List.map_cons, insertLine_e t l]

theorem sortLines_e : ∀ l : List Line, (sortLines l).map Line.e = sortEa (l.map Line.e)
  | [] => rfl
  | t :: l => by rw [sortLines, insertLine_e, sortLines_e l]; rfl

theorem insertLine_perm (t : Line) : ∀ l : List Line, (insertLine t l).Perm (t :: l)
  | [] => .rfl
  | u :: l => by
    unfold insertLine
    split
    · exact .rfl
    · exact ((insertLine_perm t l).cons u).trans (.swap ..)

theorem sortLines_perm : ∀ l : List Line, (sortLines l).Perm l
  | [] => .rfl
  | t :: l => (insertLine_perm t _).trans ((sortLines_perm l).cons t)

theorem hit_e (l : List Line) (i : Nat) : (hit l i).map Line.e = l.map Line.e := by
  unfold hit
  apply List.ext_getElem?
  intro j
  rw [List.getElem?_map, List.getElem?_map, List.getElem?_modify]
  cases l[j]? with
  | none => rfl
  | some t => simp only [Option.map_some]; split <;> rfl

theorem miss_e (l : List Line) (i : Nat) : (miss l i).map Line.e = l.map Line.e := by
  unfold miss
  apply List.ext_getElem?
  intro j
  rw [List.getElem?_map, List.getElem?_map, List.getElem?_modify]
  cases l[j]? with
  | none => rfl
  | some t => simp only [Option.map_some]; split <;> rfl

theorem finish_cache (c : Counted) : (countedFinish c).map Counted.cache = finish c.cache := by
  unfold countedFinish finish
  have e : ({ c with lines := sortLines c.lines } : Counted).cache = { c.cache with entries := sortEa c.cache.entries } := by
    unfold Counted.cache; dsimp only; rw [sortLines_e]
  dsimp only
  rw [e]
  split
  · rw [Option.map_some, e]
  · rfl

theorem set_cache (c : Counted) (ea flags ra size : BitVec 64) : (countedSet c ea flags ra size).map Counted.cache = raSet c.cache ea flags ra size := by
  unfold countedSet raSet
  split
  · rfl
  split
  · rfl
  split
  · rfl
  dsimp only
  cases search c.cache.entries ea 0 with
  | none => rfl
  | some o =>
    cases o with
    | none =>
      dsimp only
      have hl : c.cache.entries.length = c.lines.length := by unfold Counted.cache; rw [List.length_map]
      have ha : (if c.size = c.lines.length then countedAllocate c else some c).map Counted.cache =
          if c.cache.size = c.cache.entries.length then allocate c.cache else some c.cache := by
        rw [hl]
        show _ = if c.size = c.lines.length then _ else _
        split
        · unfold countedAllocate allocate
          show _ = if c.size = 0 then _ else _
          split
          · rfl
          · show Option.map _ (if validate { c.cache with size := c.size * 2 } = true then _ else _) = if validate { c.cache with size := c.size * 2 } = true then _ else _
            split <;> rfl
        · rfl
      rw [← ha]
      cases (if c.size = c.lines.length then countedAllocate c else some c) with
      | none => rfl
      | some c' =>
        dsimp only [Option.map_some]
        rw [finish_cache]
        unfold Counted.cache
        dsimp only
        rw [List.map_append]
        rfl
    | some i =>
      dsimp only
      split
      · rw [Option.map_some]
        unfold Counted.cache
        dsimp only
        rw [miss_e, hit_e]
      · rw [finish_cache]
        unfold Counted.cache
        dsimp only
        rw [List.map_set, hit_e]

theorem get_cache (c : Counted) (ea flags : BitVec 64) :
    (countedGet c ea flags).map (fun r => (r.1, r.2.cache)) = (raGet c.cache ea flags).map fun r => (r, c.cache) := by
  unfold countedGet raGet
  split
  · rfl
  dsimp only
  show Option.map _ (match search c.cache.entries ea 0 with | none => none | some none => _ | some (some i) => _) = _
  cases search c.cache.entries ea 0 with
  | none => rfl
  | some o =>
    cases o with
    | none => rfl
    | some i =>
      dsimp only
      rw [show c.cache.entries[i]? = c.lines[i]?.map Line.e from List.getElem?_map ..]
      cases c.lines[i]? with
      | none => rfl
      | some t =>
        dsimp only [Option.map_some]
        cases translate ea flags t.e with
        | none => rfl
        | some ra =>
          dsimp only [Option.map_some]
          unfold Counted.cache
          dsimp only
          rw [hit_e]

theorem run_cache : ∀ (h : List Op) (c : Counted), (countedRun c h).map Counted.cache = run c.cache h
  | [], _ => rfl
  | .set ea flags ra ps :: l, c => by
    rw [countedRun, run, ← set_cache]
    cases countedSet c ea flags ra ps with
    | none => rfl
    | some c' => exact run_cache l c'
  | .get ea flags :: l, c => by
    rw [countedRun, run]
    have h := get_cache c ea flags
    cases h1 : countedGet c ea flags with
    | none =>
      rw [h1] at h
      cases h2 : raGet c.cache ea flags with
      | none => rfl
      | some r => rw [h2] at h; cases h
    | some r =>
      rw [h1] at h
      cases h2 : raGet c.cache ea flags with
      | none => rw [h2] at h; cases h
      | some r' =>
        rw [h2] at h
        have h := (Prod.mk.inj (Option.some.inj h)).2
        show (countedRun r.2 l).map Counted.cache = run c.cache l
        rw [run_cache l, h]

/-! ### What is counted -/

def Line.row (t : Line) : Row := ⟨t.e.page, t.hits.toNat, t.misses.toNat⟩

/-- The state after `n` calls. -/
structure Counts (n : Nat) (c : Counted) (t : Tally) : Prop where
  good : Good c.cache.entries
  cap : c.cache.entries.length ≤ c.cache.size
  rows : (c.lines.map Line.row).Perm t.rows
  most : ∀ x ∈ c.lines, x.hits.toNat ≤ n ∧ x.misses.toNat ≤ n
  lookups : c.translations.toNat = t.lookups ∧ t.lookups ≤ n
  failed : c.noTranslation.toNat = t.failed ∧ t.failed ≤ n
  replaced : c.changes.toNat = t.replaced ∧ t.replaced ≤ n

theorem Counts.rel {n : Nat} {c : Counted} {t : Tally} (h : Counts n c t) : Rel c.cache (t.rows.map Row.page) := by
  refine ⟨h.good, h.cap, ?_⟩
  have := h.rows.map Row.page
  rw [List.map_map] at this
  show ((c.lines.map Line.e).map Entry.page).Perm _
  rw [List.map_map]
  exact this

theorem succ32 {x : BitVec 32} {m n : Nat} (h : x.toNat = m ∧ m ≤ n) (hn : n < 2 ^ 31) : (x + 1).toNat = m + 1 ∧ m + 1 ≤ n + 1 := by
  rw [BitVec.toNat_add, show (1 : BitVec 32).toNat = 1 from rfl]
  omega

theorem succ64 {x : BitVec 64} {n : Nat} (h : x.toNat ≤ n) (hn : n < 2 ^ 31) : (x + 1).toNat = x.toNat + 1 := by
  rw [BitVec.toNat_add, show (1 : BitVec 64).toNat = 1 from rfl]
  omega

/-- Changing the only line with a property changes all of those. -/
theorem modify_map {α : Type} (p : α → Bool) (f : α → α) {l : List α} {i : Nat} (hi : ∀ x, l[i]? = some x → p x = true)
    (ho : ∀ j x, l[j]? = some x → j ≠ i → p x = false) : l.modify i f = l.map fun x => if p x then f x else x := by
  apply List.ext_getElem?
  intro j
  rw [List.getElem?_modify, List.getElem?_map]
  cases hj : l[j]? with
  | none => simp
  | some x =>
    by_cases hji : i = j
    · subst hji
      simp [hi x hj]
    · simp [ho j x hj (Ne.symm hji), hji]

theorem lines_mem {c : Counted} {i : Nat} {x : Line} (h : c.lines[i]? = some x) : c.cache.entries[i]? = some x.e := by
  show (c.lines.map Line.e)[i]? = _
  rw [List.getElem?_map, h]; rfl

/-- The state after one call. -/
theorem step_get {n : Nat} (hn : n < 2 ^ 31) {c : Counted} {t : Tally} (h : Counts n c t) {a flags : BitVec 64}
    (hg : flags = 0 ∨ flags = 1 ∧ ∀ p ∈ t.rows.map Row.page, p.Covers a.toNat → p.ea + p.size < 2 ^ 64) :
    ∃ r c', countedGet c a flags = some (r, c') ∧ Counts (n + 1) c' (t.step (.get a flags)) := by
  rcases hg with rfl | ⟨rfl, hg⟩
  · refine ⟨_, c, (by unfold countedGet; rw [if_pos (by decide)]), ?_⟩
    unfold Tally.step
    dsimp only
    rw [if_neg (by decide)]
    exact ⟨h.good, h.cap, h.rows, fun x hx => ⟨Nat.le_succ_of_le (h.most x hx).1, Nat.le_succ_of_le (h.most x hx).2⟩,
      ⟨h.lookups.1, Nat.le_succ_of_le h.lookups.2⟩, ⟨h.failed.1, Nat.le_succ_of_le h.failed.2⟩, ⟨h.replaced.1, Nat.le_succ_of_le h.replaced.2⟩⟩
  · unfold Tally.step
    dsimp only
    rw [if_pos rfl]
    have hhas : t.has a.toNat = true ↔ ∃ x ∈ c.lines, x.e.Covers a.toNat := by
      unfold Tally.has
      rw [List.any_eq_true]
      constructor
      · rintro ⟨r, hr, hc⟩
        obtain ⟨x, hx, rfl⟩ := List.mem_map.1 (h.rows.mem_iff.2 hr)
        exact ⟨x, hx, of_decide_eq_true hc⟩
      · rintro ⟨x, hx, hc⟩
        exact ⟨x.row, h.rows.mem_iff.1 (List.mem_map_of_mem hx), decide_eq_true hc⟩
    by_cases hc : ∃ x ∈ c.lines, x.e.Covers a.toNat
    · obtain ⟨x, hx, hcov⟩ := hc
      obtain ⟨i, hi⟩ := List.getElem?_of_mem hx
      have hie := lines_mem hi
      have hs := h.good.search_some hie hcov
      obtain ⟨ra, size, hget, -⟩ := raGet_hit h.rel (a := a) (p := x.e.page) (List.mem_map.2 ⟨x.row, h.rows.mem_iff.1 (List.mem_map_of_mem hx), rfl⟩) hcov
        (hg _ (List.mem_map.2 ⟨x.row, h.rows.mem_iff.1 (List.mem_map_of_mem hx), rfl⟩) hcov)
      have htr : ∃ ra, translate a 1 x.e = some ra := by
        unfold raGet at hget
        rw [if_neg (by decide), hs] at hget
        dsimp only at hget
        rw [hie] at hget
        dsimp only at hget
        cases ht : translate a 1 x.e with
        | none => rw [ht] at hget; cases hget
        | some r => exact ⟨r, rfl⟩
      obtain ⟨r, htr⟩ := htr
      refine ⟨some (r, x.e.size), { c with translations := c.translations + 1, lines := hit c.lines i }, ?_, ?_⟩
      · unfold countedGet
        rw [if_neg (by decide)]
        dsimp only
        rw [show ({ c with translations := c.translations + 1 } : Counted).cache = c.cache from rfl, hs]
        dsimp only
        rw [hi]
        dsimp only
        rw [htr]
        rfl
      · have hce : ({ c with translations := c.translations + 1, lines := hit c.lines i } : Counted).cache = c.cache := by
          unfold Counted.cache; dsimp only; rw [hit_e]
        have hmod : hit c.lines i = c.lines.map fun t => if decide (t.e.Covers a.toNat) then { t with hits := t.hits + 1 } else t := by
          refine modify_map (fun t : Line => decide (t.e.Covers a.toNat)) _ ?_ ?_
          · intro y hy
            rw [hi] at hy
            cases hy
            exact decide_eq_true hcov
          · intro j y hj hne
            refine decide_eq_false fun hy => hne (h.good.unique (lines_mem hj) hie hy hcov)
        refine ⟨by rw [hce]; exact h.good, by rw [hce]; exact h.cap, ?_, ?_, succ32 h.lookups hn, ?_, ⟨h.replaced.1, Nat.le_succ_of_le h.replaced.2⟩⟩
        · dsimp only
          rw [hmod, List.map_map]
          have := h.rows.map fun r : Row => if r.page.Covers a.toNat then { r with uses := r.uses + 1 } else r
          rw [List.map_map] at this
          refine List.Perm.trans (List.Perm.of_eq ?_) this
          refine List.map_congr_left fun y hy => ?_
          have hmost := h.most y hy
          show Line.row (if decide (y.e.Covers a.toNat) then _ else _) = if y.e.Covers a.toNat then _ else _
          by_cases hyc : y.e.Covers a.toNat
          · rw [if_pos (decide_eq_true hyc), if_pos hyc]
            show Row.mk _ (y.hits + 1).toNat _ = Row.mk _ (y.hits.toNat + 1) _
            rw [succ64 hmost.1 hn]
            rfl
          · rw [if_neg (by rw [decide_eq_false hyc]; decide), if_neg hyc]
        · dsimp only
          rw [hmod]
          intro z hz
          obtain ⟨y, hy, rfl⟩ := List.mem_map.1 hz
          have hmost := h.most y hy
          split
          · dsimp only; rw [succ64 hmost.1 hn]; omega
          · omega
        · rw [if_pos (hhas.2 ⟨x, hx, hcov⟩)]
          exact ⟨h.failed.1, Nat.le_succ_of_le h.failed.2⟩
    · have hs := h.good.search_none (a := a) (fun e he hcov => by
        obtain ⟨x, hx, rfl⟩ := List.mem_map.1 he
        exact hc ⟨x, hx, hcov⟩) 0
      refine ⟨none, { c with translations := c.translations + 1, noTranslation := c.noTranslation + 1 }, ?_, ?_⟩
      · unfold countedGet
        rw [if_neg (by decide)]
        dsimp only
        rw [show ({ c with translations := c.translations + 1 } : Counted).cache = c.cache from rfl, hs]
      · refine ⟨h.good, h.cap, ?_, fun x hx => ⟨Nat.le_succ_of_le (h.most x hx).1, Nat.le_succ_of_le (h.most x hx).2⟩, succ32 h.lookups hn, ?_,
          ⟨h.replaced.1, Nat.le_succ_of_le h.replaced.2⟩⟩
        · have := h.rows.map fun r : Row => if r.page.Covers a.toNat then { r with uses := r.uses + 1 } else r
          rw [List.map_map] at this
          refine List.Perm.trans (List.Perm.of_eq ?_) this
          refine List.map_congr_left fun y hy => ?_
          show y.row = if y.e.Covers a.toNat then _ else _
          rw [if_neg fun hcov => hc ⟨y, hy, hcov⟩]
        · dsimp only
          rw [if_neg (fun hh => hc (hhas.1 hh))]
          exact succ32 h.failed hn

theorem page_inj {s t : Entry} (h : s.page = t.page) : s = t := by
  obtain ⟨a, b, c⟩ := s
  obtain ⟨a', b', c'⟩ := t
  unfold Entry.page at h
  injection h with h1 h2 h3
  dsimp only at h1 h2 h3
  rw [BitVec.eq_of_toNat_eq h1, BitVec.eq_of_toNat_eq h2, BitVec.eq_of_toNat_eq h3]

theorem finish_lines {c c' : Counted} (h : countedFinish c = some c') : c' = { c with lines := sortLines c.lines } := by
  unfold countedFinish at h
  dsimp only at h
  split at h
  · exact (Option.some.inj h).symm
  · cases h

theorem allocate_lines {c c' : Counted} (h : (if c.size = c.lines.length then countedAllocate c else some c) = some c') :
    c'.lines = c.lines ∧ c'.translations = c.translations ∧ c'.noTranslation = c.noTranslation ∧ c'.changes = c.changes := by
  unfold countedAllocate at h
  split at h
  · split at h
    · cases h; exact ⟨rfl, rfl, rfl, rfl⟩
    · dsimp only at h
      split at h
      · cases h; exact ⟨rfl, rfl, rfl, rfl⟩
      · cases h
  · cases h; exact ⟨rfl, rfl, rfl, rfl⟩

theorem step_set {n : Nat} (hn : n < 2 ^ 31) {c : Counted} {t : Tally} (h : Counts n c t) {ea flags ra size : BitVec 64}
    (hp : flags = 0 ∨ flags = 1 ∧ PageSize size.toNat ∧ ∀ p ∈ t.rows.map Row.page, p.Overlaps (pageOf ea.toNat ra.toNat size.toNat) → p.Covers ea.toNat) :
    ∃ c', countedSet c ea flags ra size = some c' ∧ Counts (n + 1) c' (t.step (.set ea flags ra size)) := by
  rcases hp with rfl | ⟨rfl, hs, hov⟩
  · refine ⟨c, (by unfold countedSet; rw [if_pos (by decide)]), ?_⟩
    unfold Tally.step
    dsimp only
    rw [if_neg (by decide)]
    exact ⟨h.good, h.cap, h.rows, fun x hx => ⟨Nat.le_succ_of_le (h.most x hx).1, Nat.le_succ_of_le (h.most x hx).2⟩,
      ⟨h.lookups.1, Nat.le_succ_of_le h.lookups.2⟩, ⟨h.failed.1, Nat.le_succ_of_le h.failed.2⟩, ⟨h.replaced.1, Nat.le_succ_of_le h.replaced.2⟩⟩
  · have hsz := pageSize_iff.2 hs
    obtain ⟨cc, hcc, hrel⟩ := raSet_proper h.rel hs hov
    have hset := set_cache c ea 1 ra size
    rw [hcc] at hset
    cases hcs : countedSet c ea 1 ra size with
    | none => rw [hcs] at hset; cases hset
    | some c' =>
      rw [hcs] at hset
      have hce : c'.cache = cc := Option.some.inj hset
      have hg' : Good c'.cache.entries := hce ▸ hrel.good
      have hcap' : c'.cache.entries.length ≤ c'.cache.size := hce ▸ hrel.cap
      refine ⟨c', rfl, ?_⟩
      have hpg := newEntry_page hsz ea ra
      have hcv := newEntry_covers hsz ea ra
      unfold Tally.step
      dsimp only
      rw [if_pos rfl, ← hpg]
      have hany : (t.rows.any fun r => decide (r.page = (newEntry ea ra size).page)) = true ↔ ∃ x ∈ c.lines, x.e = newEntry ea ra size := by
        rw [List.any_eq_true]
        constructor
        · rintro ⟨r, hr, hc⟩
          obtain ⟨x, hx, rfl⟩ := List.mem_map.1 (h.rows.mem_iff.2 hr)
          exact ⟨x, hx, page_inj (of_decide_eq_true hc)⟩
        · rintro ⟨x, hx, hc⟩
          exact ⟨x.row, h.rows.mem_iff.1 (List.mem_map_of_mem hx), decide_eq_true (by rw [← hc]; rfl)⟩
      have hhas : t.has ea.toNat = true ↔ ∃ x ∈ c.lines, x.e.Covers ea.toNat := by
        unfold Tally.has
        rw [List.any_eq_true]
        constructor
        · rintro ⟨r, hr, hc⟩
          obtain ⟨x, hx, rfl⟩ := List.mem_map.1 (h.rows.mem_iff.2 hr)
          exact ⟨x, hx, of_decide_eq_true hc⟩
        · rintro ⟨x, hx, hc⟩
          exact ⟨x.row, h.rows.mem_iff.1 (List.mem_map_of_mem hx), decide_eq_true hc⟩
      have hrows : (newEntry ea ra size).page = (Line.row { e := newEntry ea ra size }).page := rfl
      have hfilter : (Row.mk (newEntry ea ra size).page 0 0 :: t.rows.filter fun r => ¬ r.page.Covers ea.toNat).Perm
          (({ e := newEntry ea ra size } :: c.lines.filter fun y => decide (¬ y.e.Covers ea.toNat) : List Line).map Line.row) := by
        rw [List.map_cons]
        refine List.Perm.cons _ ?_
        refine (h.rows.symm.filter _).trans (List.Perm.of_eq ?_)
        rw [List.filter_map]
        rfl
      unfold countedSet at hcs
      rw [if_neg (by decide), if_neg (by simp [hsz]), if_neg (by decide)] at hcs
      dsimp only at hcs
      by_cases hc : ∃ x ∈ c.lines, x.e.Covers ea.toNat
      · obtain ⟨x, hx, hcov⟩ := hc
        obtain ⟨i, hi⟩ := List.getElem?_of_mem hx
        have hie := lines_mem hi
        rw [h.good.search_some hie hcov] at hcs
        dsimp only at hcs
        split at hcs
        · rename_i heq
          rw [hie] at heq
          have hnew : x.e = newEntry ea ra size := Option.some.inj heq
          rw [if_pos (hany.2 ⟨x, hx, hnew⟩)]
          cases hcs
          have hmod : miss (hit c.lines i) i = c.lines.map fun t => if decide (t.e.page = (newEntry ea ra size).page) then { t with hits := t.hits + 1, misses := t.misses + 1 } else t := by
            have e : miss (hit c.lines i) i = c.lines.modify i fun t => { t with hits := t.hits + 1, misses := t.misses + 1 } := by
              unfold miss hit
              apply List.ext_getElem?
              intro j
              rw [List.getElem?_modify, List.getElem?_modify, List.getElem?_modify]
              cases c.lines[j]? with
              | none => rfl
              | some y =>
                by_cases hij : i = j
                · simp [hij]
                · simp [hij]
            rw [e]
            refine modify_map (fun t : Line => decide (t.e.page = (newEntry ea ra size).page)) _ ?_ ?_
            · intro y hy
              rw [hi] at hy
              cases hy
              exact decide_eq_true (by rw [hnew])
            · intro j y hj hne
              refine decide_eq_false fun hy => hne (h.good.unique (lines_mem hj) hie ?_ hcov)
              rw [page_inj hy]; exact hcv
          refine ⟨hg', hcap', ?_, ?_, ⟨h.lookups.1, Nat.le_succ_of_le h.lookups.2⟩, ⟨h.failed.1, Nat.le_succ_of_le h.failed.2⟩,
            ⟨h.replaced.1, Nat.le_succ_of_le h.replaced.2⟩⟩
          · dsimp only
            rw [hmod, List.map_map]
            have := h.rows.map fun r : Row => if r.page = (newEntry ea ra size).page then { r with uses := r.uses + 1, again := r.again + 1 } else r
            rw [List.map_map] at this
            refine List.Perm.trans (List.Perm.of_eq ?_) this
            refine List.map_congr_left fun y hy => ?_
            have hmost := h.most y hy
            show Line.row (if decide (y.e.page = (newEntry ea ra size).page) then _ else _) = if y.e.page = (newEntry ea ra size).page then _ else _
            by_cases hyc : y.e.page = (newEntry ea ra size).page
            · rw [if_pos (decide_eq_true hyc), if_pos hyc]
              show Row.mk _ (y.hits + 1).toNat (y.misses + 1).toNat = Row.mk _ (y.hits.toNat + 1) (y.misses.toNat + 1)
              rw [succ64 hmost.1 hn, succ64 hmost.2 hn]
              rfl
            · rw [if_neg (by rw [decide_eq_false hyc]; decide), if_neg hyc]
          · dsimp only
            rw [hmod]
            intro z hz
            obtain ⟨y, hy, rfl⟩ := List.mem_map.1 hz
            have hmost := h.most y hy
            split
            · dsimp only; rw [succ64 hmost.1 hn, succ64 hmost.2 hn]; omega
            · omega
        · rename_i hne0
          have hne : x.e ≠ newEntry ea ra size := fun e => hne0 (by rw [hie, e]; rfl)
          rw [if_neg (fun hh => by
            obtain ⟨y, hy, e⟩ := hany.1 hh
            obtain ⟨j, hj⟩ := List.getElem?_of_mem hy
            have := h.good.unique (lines_mem hj) hie (by rw [e]; exact hcv) hcov
            subst this
            rw [hi] at hj
            cases hj
            exact hne e), if_pos (hhas.2 ⟨x, hx, hcov⟩)]
          have hc' := finish_lines hcs
          dsimp only at hc'
          have hset' : (hit c.lines i).set i { e := newEntry ea ra size } = c.lines.set i { e := newEntry ea ra size } := by
            apply List.ext_getElem?
            intro j
            unfold hit
            rw [List.getElem?_set, List.getElem?_set, List.length_modify, List.getElem?_modify]
            by_cases hij : i = j
            · simp [hij]
            · cases c.lines[j]? <;> simp [hij]
          have hlen := (List.getElem?_eq_some_iff.1 hi).1
          have hperm : c'.lines.Perm ({ e := newEntry ea ra size } :: c.lines.filter fun y => decide (¬ y.e.Covers ea.toNat)) := by
            rw [hc']
            dsimp only
            refine (sortLines_perm _).trans ?_
            show ((hit c.lines i).set i { e := newEntry ea ra size }).Perm _
            rw [hset']
            have hf : c.lines.filter (fun y => decide (¬ y.e.Covers ea.toNat)) = c.lines.eraseIdx i := by
              refine filter_eraseIdx hi (by simp [hcov]) ?_
              intro j y hj hne
              simp only [decide_not, Bool.not_eq_true', decide_eq_false_iff_not]
              intro hy
              exact hne (h.good.unique (lines_mem hj) hie hy hcov)
            rw [hf]
            exact set_perm _ hlen
          refine ⟨hg', hcap', (hperm.map Line.row).trans hfilter.symm, ?_, ?_, ?_, ?_⟩
          · intro y hy
            rcases List.mem_cons.1 (hperm.mem_iff.1 hy) with rfl | hy
            · exact ⟨Nat.zero_le _, Nat.zero_le _⟩
            · have := h.most y (List.mem_filter.1 hy).1
              omega
          · rw [hc']; exact ⟨h.lookups.1, Nat.le_succ_of_le h.lookups.2⟩
          · rw [hc']; exact ⟨h.failed.1, Nat.le_succ_of_le h.failed.2⟩
          · rw [hc']; exact succ32 h.replaced hn
      · rw [h.good.search_none (a := ea) (fun e he hcov => by
          obtain ⟨x, hx, rfl⟩ := List.mem_map.1 he
          exact hc ⟨x, hx, hcov⟩) 0] at hcs
        dsimp only at hcs
        rw [if_neg (fun hh => by
            obtain ⟨y, hy, e⟩ := hany.1 hh
            exact hc ⟨y, hy, by rw [e]; exact hcv⟩), if_neg (fun hh => hc (hhas.1 hh))]
        cases hal : (if c.size = c.lines.length then countedAllocate c else some c) with
        | none => rw [hal] at hcs; cases hcs
        | some c1 =>
          rw [hal] at hcs
          obtain ⟨l1, l2, l3, l4⟩ := allocate_lines hal
          have hc' := finish_lines hcs
          dsimp only at hc'
          rw [l1] at hc'
          have hperm : c'.lines.Perm ({ e := newEntry ea ra size } :: c.lines.filter fun y => decide (¬ y.e.Covers ea.toNat)) := by
            rw [hc']
            dsimp only
            refine (sortLines_perm _).trans ?_
            have hf : c.lines.filter (fun y => decide (¬ y.e.Covers ea.toNat)) = c.lines := by
              rw [List.filter_eq_self]; intro y hy; simpa using fun hcov => hc ⟨y, hy, hcov⟩
            rw [hf]
            exact List.perm_append_comm
          refine ⟨hg', hcap', (hperm.map Line.row).trans hfilter.symm, ?_, ?_, ?_, ?_⟩
          · intro y hy
            rcases List.mem_cons.1 (hperm.mem_iff.1 hy) with rfl | hy
            · exact ⟨Nat.zero_le _, Nat.zero_le _⟩
            · have := h.most y (List.mem_filter.1 hy).1
              omega
          · rw [hc']; dsimp only; rw [l2]; exact ⟨h.lookups.1, Nat.le_succ_of_le h.lookups.2⟩
          · rw [hc']; dsimp only; rw [l3]; exact ⟨h.failed.1, Nat.le_succ_of_le h.failed.2⟩
          · rw [hc']; dsimp only; rw [l4]; exact ⟨h.replaced.1, Nat.le_succ_of_le h.replaced.2⟩

/-- The pages of the tally are those of the cache. -/
theorem step_pages {n : Nat} {c : Counted} {t : Tally} (h : Counts n c t) {ea ra size : BitVec 64} (hs : PageSize size.toNat)
    {s : List Page} (hr : (t.rows.map Row.page).Perm s) :
    ((t.step (.set ea 1 ra size)).rows.map Row.page).Perm (TlbSpec.insert s ea.toNat ra.toNat size.toNat) := by
  have hsz := pageSize_iff.2 hs
  have hcv := newEntry_covers hsz ea ra
  have hpg := newEntry_page hsz ea ra
  unfold Tally.step TlbSpec.insert
  dsimp only
  rw [if_pos rfl, ← hpg]
  have hf : (t.rows.filter fun r => decide (¬ r.page.Covers ea.toNat)).map Row.page = (t.rows.map Row.page).filter fun p => decide (¬ p.Covers ea.toNat) := by
    rw [List.filter_map]; rfl
  split
  · rename_i hany
    have e : (t.rows.map fun r => if r.page = (newEntry ea ra size).page then { r with uses := r.uses + 1, again := r.again + 1 } else r).map Row.page = t.rows.map Row.page := by
      rw [List.map_map]
      refine List.map_congr_left fun r _ => ?_
      show Row.page (if r.page = _ then _ else _) = _
      split <;> rfl
    dsimp only
    rw [e]
    refine List.Perm.trans ?_ ((hr.filter _).cons _)
    have hlines : (t.rows.map Row.page).Perm (c.cache.entries.map Entry.page) := h.rel.same.symm
    obtain ⟨r, hr1, hr2⟩ := List.any_eq_true.1 hany
    have hr2 := of_decide_eq_true hr2
    have hm : (newEntry ea ra size).page ∈ c.cache.entries.map Entry.page := hlines.mem_iff.1 (hr2 ▸ List.mem_map_of_mem hr1)
    obtain ⟨x, hx, hxe⟩ := List.mem_map.1 hm
    have hxe := page_inj hxe
    obtain ⟨i, hi⟩ := List.getElem?_of_mem hx
    have hcov : x.Covers ea.toNat := by rw [hxe]; exact hcv
    have hf' : c.cache.entries.filter (fun y => decide (¬ y.Covers ea.toNat)) = c.cache.entries.eraseIdx i := by
      refine filter_eraseIdx hi (by simp [hcov]) ?_
      intro j y hj hne
      simp only [decide_not, Bool.not_eq_true', decide_eq_false_iff_not]
      intro hy
      exact hne (h.good.unique hj hi hy hcov)
    refine hlines.trans (List.Perm.trans ?_ ((hlines.symm.filter _).cons _))
    rw [filter_page, hf', ← hxe, ← List.map_cons]
    refine List.Perm.map _ ?_
    have hlen := (List.getElem?_eq_some_iff.1 hi).1
    have he : c.cache.entries[i] = x := (List.getElem?_eq_some_iff.1 hi).2
    rw [← he]
    have := set_perm (l := c.cache.entries) (i := i) c.cache.entries[i] hlen
    rwa [List.set_getElem_self] at this
  · dsimp only
    rw [List.map_cons, hf]
    exact (hr.filter _).cons _

theorem get_pages (t : Tally) (a flags : BitVec 64) : (t.step (.get a flags)).rows.map Row.page = t.rows.map Row.page := by
  unfold Tally.step
  dsimp only
  split
  · dsimp only
    rw [List.map_map]
    refine List.map_congr_left fun r _ => ?_
    show Row.page (if r.page.Covers a.toNat then _ else _) = _
    split <;> rfl
  · rfl

theorem counted_proper : ∀ (h : List Op) (n : Nat) {c : Counted} {t : Tally} {s : List Page}, Counts n c t → (t.rows.map Row.page).Perm s → TlbSpec.Proper s h →
    n + h.length < 2 ^ 31 → ∃ c', countedRun c h = some c' ∧ Counts (n + h.length) c' (h.foldl Tally.step t) ∧
      ((h.foldl Tally.step t).rows.map Row.page).Perm (TlbSpec.pages s h)
  | [], n, c, t, s, hc, hs, _, _ => ⟨c, rfl, hc, hs⟩
  | .set ea flags ra size :: l, n, c, t, s, hc, hs, hp, hn => by
    rw [List.length_cons] at hn
    have hstep : ∃ c', countedSet c ea flags ra size = some c' ∧ Counts (n + 1) c' (t.step (.set ea flags ra size)) := by
      refine step_set (by omega) hc ?_
      rcases hp with ⟨rfl, -⟩ | ⟨rfl, h1, h2, -⟩
      · exact Or.inl rfl
      · exact Or.inr ⟨rfl, h1, fun p hp => h2 p (hs.mem_iff.1 hp)⟩
    obtain ⟨c', e1, hc'⟩ := hstep
    have hpages : ((t.step (.set ea flags ra size)).rows.map Row.page).Perm (if flags = 1 then TlbSpec.insert s ea.toNat ra.toNat size.toNat else s) ∧
        TlbSpec.Proper (if flags = 1 then TlbSpec.insert s ea.toNat ra.toNat size.toNat else s) l := by
      rcases hp with ⟨rfl, hp⟩ | ⟨rfl, h1, -, hp⟩
      · rw [if_neg (by decide)]
        unfold Tally.step
        dsimp only
        rw [if_neg (by decide)]
        exact ⟨hs, hp⟩
      · rw [if_pos rfl]
        exact ⟨step_pages hc h1 hs, hp⟩
    obtain ⟨c'', e2, h2, h3⟩ := counted_proper l (n + 1) hc' hpages.1 hpages.2 (by omega)
    refine ⟨c'', ?_, by rw [List.length_cons, show n + (l.length + 1) = n + 1 + l.length by omega]; exact h2, h3⟩
    rw [countedRun, e1]
    exact e2
  | .get a flags :: l, n, c, t, s, hc, hs, hp, hn => by
    rw [List.length_cons] at hn
    obtain ⟨r, c', e1, hc'⟩ := step_get (n := n) (by omega) hc (a := a) (flags := flags)
      (hp.1.imp_right fun h => ⟨h.1, fun p hp => h.2 p (hs.mem_iff.1 hp)⟩)
    obtain ⟨c'', e2, h2, h3⟩ := counted_proper l (n + 1) hc' (by rw [get_pages]; exact hs) hp.2 (by omega)
    refine ⟨c'', ?_, by rw [List.length_cons, show n + (l.length + 1) = n + 1 + l.length by omega]; exact h2, h3⟩
    rw [countedRun, e1]
    exact e2

/-! ### The text -/

theorem fmtI_nat {x : BitVec 32} {n m : Nat} (h : x.toNat = m ∧ m ≤ n) (hn : n < 2 ^ 31) : fmtI x = Nat.toDigits 10 m := by
  unfold fmtI
  rw [if_pos (by omega), h.1]

theorem fmtL_nat {x : BitVec 64} {n : Nat} (h : x.toNat ≤ n) (hn : n < 2 ^ 31) : fmtL x = Nat.toDigits 10 x.toNat := by
  unfold fmtL
  rw [if_pos (by omega)]

theorem dumpLine_text {n : Nat} (hn : n < 2 ^ 31) {x : Line} (h : x.hits.toNat ≤ n ∧ x.misses.toNat ≤ n) (k : Nat) :
    dumpLine (x, k) = x.row.text k := by
  unfold dumpLine Row.text
  rw [fmtL_nat h.1 hn, fmtL_nat h.2 hn]
  have e : ": ea:".toList = ": ".toList ++ "ea:".toList := by decide
  rw [e]
  simp only [List.append_assoc]
  rfl

theorem lines_text {n : Nat} (hn : n < 2 ^ 31) : ∀ (l : List Line) (k : Nat), (∀ x ∈ l, x.hits.toNat ≤ n ∧ x.misses.toNat ≤ n) →
    (l.zipIdx k).flatMap dumpLine = ((l.map Line.row).zipIdx k).flatMap fun p => p.1.text p.2
  | [], _, _ => rfl
  | x :: l, k, h => by
    rw [List.zipIdx_cons, List.map_cons, List.zipIdx_cons, List.flatMap_cons, List.flatMap_cons, dumpLine_text hn (h x (List.mem_cons_self ..)) k,
      lines_text hn l (k + 1) fun y hy => h y (List.mem_cons_of_mem _ hy)]

/-- **C101**: after any proper history of calls, the report has a line for each page of the cache, in ascending order of the effective addresses,
with the number of uses since the page was inserted and the number of times it was inserted again, and then the numbers of
lookups without result, of all lookups, and of replaced pages. -/
theorem C101_report_partial (history : List Op) (hp : TlbSpec.Proper [] history) (hn : history.length < 2 ^ 31) :
    ∃ c rows, countedRun {} history = some c ∧ rows.Perm (TlbSpec.tally history).rows ∧ rows.Pairwise (fun a b => a.page.ea < b.page.ea) ∧
      (rows.map Row.page).Perm (TlbSpec.pages [] history) ∧
      dump c = TlbSpec.rowsText rows ++ (TlbSpec.tally history).text := by
  have h0 : Counts 0 {} {} := ⟨⟨by simp [Counted.cache], by simp [Counted.cache]⟩, by simp [Counted.cache], .rfl, by simp, ⟨rfl, Nat.le_refl _⟩, ⟨rfl, Nat.le_refl _⟩, ⟨rfl, Nat.le_refl _⟩⟩
  obtain ⟨c, e, hc, hpg⟩ := counted_proper history 0 h0 (s := []) .rfl hp (by omega)
  rw [Nat.zero_add] at hc
  refine ⟨c, c.lines.map Line.row, e, hc.rows, ?_, (hc.rows.map _).trans hpg, ?_⟩
  · rw [List.pairwise_map]
    have := hc.good.apart
    rw [show c.cache.entries = c.lines.map Line.e from rfl, List.pairwise_map] at this
    refine this.imp_of_mem fun {a b} ha hb hab => ?_
    have := (hc.good.valid a.e (List.mem_map_of_mem ha)).pos
    show a.e.ea.toNat < b.e.ea.toNat
    unfold Entry.lo Entry.hi at *
    omega
  · unfold dump
    rw [lines_text hn c.lines 0 hc.most, fmtI_nat hc.failed hn, fmtI_nat hc.lookups hn, fmtI_nat hc.replaced hn]
    unfold TlbSpec.rowsText Tally.text TlbSpec.tally
    simp only [List.append_assoc]

/-- **C101**: counting does not change which calls are accepted, nor what lookups return. -/
theorem C101_same (history : List Op) : (countedRun {} history).map Counted.cache = run {} history ∧
    ∀ c, countedRun {} history = some c → ∀ a flags, (countedGet c a flags).map Prod.fst = raGet c.cache a flags := by
  refine ⟨run_cache history {}, fun c _ a flags => ?_⟩
  have h := congrArg (Option.map Prod.fst) (get_cache c a flags)
  rw [Option.map_map, Option.map_map] at h
  have e : (Prod.fst ∘ fun r : Option (BitVec 64 × BitVec 64) => (r, c.cache)) = id := rfl
  rw [e, Option.map_id] at h
  exact h

/-- A page is inserted, used twice, inserted again, and replaced; another one is used and inserted again; one lookup fails. -/
def exHistory : List Op :=
  [.set 0x11234 1 0xa000 4096, .get 0x11000 1, .get 0x11fff 1, .set 0x11238 1 0xa000 4096, .set 0x50000 1 0x90000 65536, .set 0x11000 1 0xb000 4096,
   .get 0x5ffff 1, .set 0x51234 1 0x91234 65536, .get 0x12000 1, .get 0x11004 1, .get 0x12000 0]

theorem exHistory_proper : TlbSpec.Proper [] exHistory := by
  unfold exHistory
  simp [TlbSpec.Proper, PageSize, pageOf, TlbSpec.insert, Page.Overlaps, Page.Covers]
  refine ⟨?_, ?_, ?_⟩ <;> intros <;> omega

example : TlbSpec.Proper [] exHistory ∧ exHistory.length < 2 ^ 31 ∧ (countedRun {} exHistory).map (fun c => String.ofList (dump c)) = some
    "TLBDUMP 00: ea:0000000000011000 ra:000000000000b000 size:00001000 miss:0 hit:1\nTLBDUMP 01: ea:0000000000050000 ra:0000000000090000 size:00010000 miss:1 hit:2\nTLBDUMP no translation: 1 of 5\nTLBDUMP replaced translations: 1\n" :=
  ⟨exHistory_proper, by decide, by decide +kernel⟩

/-- Lookups in the empty cache. -/
theorem run_misses : ∀ (n : Nat) (c : Counted), c.lines = [] → countedRun c (List.replicate n (.get 0 1)) =
    some { c with translations := c.translations + BitVec.ofNat 32 n, noTranslation := c.noTranslation + BitVec.ofNat 32 n }
  | 0, c, _ => by
    rw [List.replicate_zero, BitVec.add_zero, BitVec.add_zero]
    rfl
  | n + 1, c, h => by
    have e : countedGet c 0 1 = some (none, { c with translations := c.translations + 1, noTranslation := c.noTranslation + 1 }) := by
      unfold countedGet
      rw [if_neg (by decide)]
      dsimp only
      rw [show search (Counted.cache { c with translations := c.translations + 1 }).entries 0 0 = some none by simp only [Counted.cache, h]; rfl]
    rw [List.replicate_succ, show countedRun c (.get 0 1 :: List.replicate n (.get 0 1)) =
      (countedGet c 0 1).bind fun r => countedRun r.2 (List.replicate n (.get 0 1)) from rfl, e, Option.bind_some]
    dsimp only
    rw [run_misses n { c with translations := c.translations + 1, noTranslation := c.noTranslation + 1 } h]
    have e (x : BitVec 32) : x + 1 + BitVec.ofNat 32 n = x + BitVec.ofNat 32 (n + 1) := by
      rw [BitVec.add_assoc, Nat.add_comm n 1, BitVec.ofNat_add]
      rfl
    dsimp only
    rw [e, e]

theorem proper_misses : ∀ (n : Nat), TlbSpec.Proper [] (List.replicate n (.get 0 1))
  | 0 => trivial
  | n + 1 => ⟨.inr ⟨rfl, by intro p hp; cases hp⟩, proper_misses n⟩

theorem tally_misses : ∀ (n : Nat) (t : TlbSpec.Tally), t.rows = [] → (List.replicate n (Op.get 0 1)).foldl TlbSpec.Tally.step t =
    { t with lookups := t.lookups + n, failed := t.failed + n }
  | 0, _, _ => rfl
  | n + 1, t, h => by
    have e : t.step (.get 0 1) = { t with lookups := t.lookups + 1, failed := t.failed + 1 } := by
      simp [TlbSpec.Tally.step, TlbSpec.Tally.has, h]
    rw [List.replicate_succ, List.foldl_cons, e, tally_misses n { t with lookups := t.lookups + 1, failed := t.failed + 1 } h]
    dsimp only
    rw [Nat.add_assoc, Nat.add_assoc, Nat.add_comm 1 n]

/-- The counters of the cache are of 31 bits: after as many lookups that failed the number is reported as negative (in C the
overflow is undefined). -/
theorem C101_overflow_refuted : ∃ history, TlbSpec.Proper [] history ∧ (TlbSpec.tally history).failed = 2 ^ 31 ∧ (TlbSpec.tally history).lookups = 2 ^ 31 ∧
    (countedRun {} history).map dump = some "TLBDUMP no translation: -2147483648 of -2147483648\nTLBDUMP replaced translations: 0\n".toList := by
  refine ⟨List.replicate (2 ^ 31) (.get 0 1), proper_misses _, ?_, ?_, ?_⟩
  · unfold TlbSpec.tally
    rw [tally_misses _ _ rfl]
  · unfold TlbSpec.tally
    rw [tally_misses _ _ rfl]
  · rw [run_misses _ _ rfl]
    decide

end Htm.Tlb
