import Verif.Htm.PropsTlbDump
import Verif.Htm.PropsGuestSummary
import Verif.Htm.SpecReport
import Verif.Htm.Report
/-! C101: what `htmdecode -d` says about the translation cache. -/
namespace Htm
open Htm.Spec
open Htm.TlbSpec (Page pageOf PageSize Tally Row)

/-- The pages of the addresses that were seen, where they were last. -/
structure Held (t : Layout) (seen : List (Nat × Nat)) (s : List Page) : Prop where
  known : ∀ p ∈ s, ∃ b f, t.latest b seen = some f ∧ p = pageAt t b f
  all : ∀ b f, t.latest b seen = some f → pageAt t b f ∈ s
  last : ∀ b f, t.latest b seen = some f → NotLast t b

theorem Held.empty (t : Layout) : Held t [] [] := ⟨(by intro p hp; cases hp), (by intro b f hp; cases hp), (by intro b f hp; cases hp)⟩

theorem pageOf_at {t : Layout} {a ra size f : Nat} (hra : ra = f + a % 2 ^ t.size a) (hal : f % 2 ^ t.size a = 0) (hsize : size = 2 ^ t.size a) :
    pageOf a ra size = pageAt t a f := by
  unfold pageOf pageAt
  subst hra hsize
  have hm : (f + a % 2 ^ t.size a) % 2 ^ t.size a = a % 2 ^ t.size a := by
    rw [Nat.add_mod, hal, Nat.zero_add, Nat.mod_mod, Nat.mod_mod]
  rw [hm]
  have hd := Nat.div_add_mod a (2 ^ t.size a)
  rw [Nat.mul_comm] at hd
  have e1 : a - a % 2 ^ t.size a = a / 2 ^ t.size a * 2 ^ t.size a := by omega
  rw [e1, Nat.add_sub_cancel]

theorem Held.insert {t : Layout} {seen : List (Nat × Nat)} {s : List Page} (h : Held t seen s) {a f : Nat} (hlast : NotLast t a) :
    Held t ((a, f) :: seen) (pageAt t a f :: s.filter fun p => decide (¬ p.Covers a)) := by
  obtain ⟨h1, h2, hl⟩ := h
  have hnew : ∀ b, t.SamePage b a → t.latest b ((a, f) :: seen) = some f := fun b hb => if_pos hb
  have hold : ∀ b, ¬ t.SamePage b a → t.latest b ((a, f) :: seen) = t.latest b seen := fun b hb => if_neg hb
  refine ⟨?_, ?_, ?_⟩
  · intro p hp
    rcases List.mem_cons.1 hp with rfl | hp
    · exact ⟨_, f, hnew _ rfl, rfl⟩
    · obtain ⟨hp, hc⟩ := List.mem_filter.1 hp
      obtain ⟨b, g, hb, rfl⟩ := h1 p hp
      refine ⟨b, g, ?_, rfl⟩
      rw [hold, hb]
      intro hs
      simp [(pageAt_covers t b g _).2 hs] at hc
  · intro b g hb
    by_cases hs : t.SamePage b a
    · rw [hnew b hs] at hb
      obtain rfl := Option.some.inj hb
      rw [pageAt_same hs]
      exact List.mem_cons_self ..
    · rw [hold b hs] at hb
      exact List.mem_cons_of_mem _ (List.mem_filter.2 ⟨h2 b g hb, by simpa using fun hc => hs ((pageAt_covers t b g _).1 hc)⟩)
  · intro b g hb
    by_cases hs : t.SamePage b a
    · exact hlast.same (samePage_symm hs)
    · rw [hold b hs] at hb
      exact hl b g hb

theorem Held.again {t : Layout} {seen : List (Nat × Nat)} {s : List Page} (h : Held t seen s) {a f : Nat} (ha : t.latest a seen = some f) :
    Held t ((a, f) :: seen) s := by
  have e : ∀ b, t.latest b ((a, f) :: seen) = t.latest b seen := by
    intro b
    by_cases hs : t.SamePage b a
    · rw [Layout.latest, if_pos hs, ← latest_same hs, ha]
    · rw [Layout.latest, if_neg hs]
  refine ⟨fun p hp => ?_, fun b g hb => h.all b g (by rw [← e]; exact hb), fun b g hb => h.last b g (by rw [← e]; exact hb)⟩
  obtain ⟨b, g, hb, hp⟩ := h.known p hp
  exact ⟨b, g, by rw [e]; exact hb, hp⟩

theorem Held.covers {t : Layout} {seen : List (Nat × Nat)} {s : List Page} (h : Held t seen s) (a : Nat) :
    (∃ p ∈ s, p.Covers a) ↔ ∃ f, t.latest a seen = some f := by
  constructor
  · rintro ⟨p, hp, hc⟩
    obtain ⟨b, g, hb, rfl⟩ := h.known p hp
    exact ⟨g, by rw [latest_same ((pageAt_covers t b g a).1 hc)]; exact hb⟩
  · rintro ⟨f, hf⟩
    exact ⟨_, h.all a f hf, (pageAt_covers t a f a).2 rfl⟩

theorem Held.exact {t : Layout} {seen : List (Nat × Nat)} {s : List Page} (h : Held t seen s) (a f : Nat) :
    pageAt t a f ∈ s ↔ t.latest a seen = some f := by
  constructor
  · intro hp
    obtain ⟨b, g, hb, he⟩ := h.known _ hp
    have hc : (pageAt t b g).Covers a := by rw [← he]; exact (pageAt_covers t a f a).2 rfl
    rw [latest_same ((pageAt_covers t b g a).1 hc), hb]
    exact congrArg some (congrArg Page.ra he).symm
  · exact h.all a f

/-- What the cache is asked for an instruction. -/
theorem asks_cases {t : Layout} {i : Item9r} {prev : BitVec 64} (hf : i.Format) (hw : i.Within t prev) (seen : List (Nat × Nat)) :
    (∃ o, i.asks prev = o ∧ (o = [] ∨ o = [.get (i.addr prev) 0] ∨ ∃ ra size, o = [.set (i.addr prev) 0 ra size]) ∧ i.seen seen prev = seen ∧ ¬ i.Translated) ∨
    (i.asks prev = [.get (i.addr prev) 1] ∧ i.seen seen prev = seen ∧ i.Translated ∧ i.ira = none) ∨
    (∃ v ra size, i.ira = some v ∧ i.asks prev = [.set (i.addr prev) 1 ra size] ∧ i.Translated ∧ i.seen seen prev = ((i.addr prev).toNat, irFrame v) :: seen ∧
      PageSize size.toNat ∧ pageOf (i.addr prev).toNat ra.toNat size.toNat = pageAt t (i.addr prev).toNat (irFrame v) ∧ NotLast t (i.addr prev).toNat) := by
  by_cases ht : i.Translated
  · cases hr : i.ira with
    | none =>
      right; left
      obtain ⟨u, hu, -⟩ := id ht
      refine ⟨?_, ?_, ht, rfl⟩
      · unfold Item9r.asks
        rw [hr, hu]
        dsimp only
        rw [if_pos ht]
      · unfold Item9r.seen
        rw [hr]
    | some v =>
      right; right
      have hs := hw.page ht v hr
      have hp := hf.ipage v hr
      have hsz := t.sizes (i.addr prev).toNat
      have hlt : irFrame v < 2 ^ 62 := by
        unfold irFrame
        have : Spec.fld v 0 37 < 2 ^ 38 := fld_lt v 0 37
        omega
      have hm : (i.addr prev).toNat % 2 ^ irSize v < 2 ^ 24 := and_low_lt _ _ (by rw [hs]; exact hsz)
      have h1 : (BitVec.ofNat 64 (irFrame v + (i.addr prev).toNat % 2 ^ irSize v)).toNat = irFrame v + (i.addr prev).toNat % 2 ^ irSize v := by
        rw [BitVec.toNat_ofNat, Nat.mod_eq_of_lt (by omega)]
      have h2 : (BitVec.ofNat 64 (2 ^ irSize v)).toNat = 2 ^ t.size (i.addr prev).toNat := by
        rw [BitVec.toNat_ofNat, Nat.mod_eq_of_lt (Nat.pow_lt_pow_right (by decide) (by omega)), hs]
      refine ⟨v, BitVec.ofNat 64 (irFrame v + (i.addr prev).toNat % 2 ^ irSize v), BitVec.ofNat 64 (2 ^ irSize v), rfl, ?_, ht, ?_, ?_, ?_, hw.top ht⟩
      · unfold Item9r.asks
        rw [hr]
        dsimp only
        rw [if_pos ht]
      · unfold Item9r.seen
        rw [hr]
        dsimp only
        rw [if_pos ht]
      · rw [h2]; exact pow_size hsz
      · exact pageOf_at (by rw [h1, hs]) (by rw [← hs]; exact hp.2.2) h2
  · left
    refine ⟨_, rfl, ?_, ?_, ht⟩
    · unfold Item9r.asks
      cases i.ira with
      | some v => right; right; dsimp only; rw [if_neg ht]; exact ⟨_, _, rfl⟩
      | none =>
        cases i.iea with
        | none => left; rfl
        | some u => right; left; dsimp only; rw [if_neg ht]
    · unfold Item9r.seen
      cases i.ira with
      | none => rfl
      | some v => dsimp only; rw [if_neg ht]

/-- The decoder uses the cache properly. -/
theorem proper_asks {t : Layout} : ∀ (items : List Item9r) (prev : BitVec 64) (seen : List (Nat × Nat)) (s : List Page), Held t seen s → Trace9 t prev items →
    TlbSpec.Proper s (allAsks prev items)
  | [], _, _, _, _, _ => trivial
  | i :: l, prev, seen, s, hs, ht => by
    obtain ⟨hf, hw, ht⟩ := ht
    unfold allAsks
    rcases asks_cases hf hw seen with ⟨o, ho, hc, -, -⟩ | ⟨ho, -, htr, -⟩ | ⟨v, ra, size, hv, ho, htr, hsn, hps, hpg, hlast⟩
    · have ih := proper_asks l (i.addr prev) seen s hs ht
      rw [ho]
      rcases hc with rfl | rfl | ⟨ra, size, rfl⟩
      · exact ih
      · exact ⟨.inl rfl, ih⟩
      · exact .inl ⟨rfl, ih⟩
    · have ih := proper_asks l (i.addr prev) seen s hs ht
      rw [ho]
      refine ⟨.inr ⟨rfl, fun p hp hc => ?_⟩, ih⟩
      obtain ⟨b, g, hb, rfl⟩ := hs.known p hp
      have := hs.last b g hb
      unfold NotLast at this
      rw [Nat.add_mul, Nat.one_mul] at this
      exact this
    · rw [ho]
      refine .inr ⟨rfl, hps, ?_, ?_⟩
      · intro p hp hov
        rw [hpg] at hov
        obtain ⟨x, hx1, hx2⟩ := hov
        obtain ⟨b, g, hb, rfl⟩ := hs.known p hp
        exact (pageAt_covers t _ _ _).2 (samePage_trans ((pageAt_covers t b g x).1 hx1) (samePage_symm ((pageAt_covers t _ _ x).1 hx2)))
      · refine proper_asks l (i.addr prev) (((i.addr prev).toNat, irFrame v) :: seen) _ ?_ ht
        unfold TlbSpec.insert
        rw [hpg]
        exact hs.insert hlast

theorem asks_length (i : Item9r) (prev : BitVec 64) : (i.asks prev).length ≤ 1 := by
  unfold Item9r.asks
  cases i.ira <;> cases i.iea <;> simp

theorem allAsks_length : ∀ (items : List Item9r) (prev : BitVec 64), (allAsks prev items).length ≤ items.length
  | [], _ => Nat.le_refl _
  | i :: l, prev => by
    have h1 := asks_length i prev
    have h2 := allAsks_length l (i.addr prev)
    unfold allAsks
    rw [List.length_append, List.length_cons]
    omega

theorem Tally.has_iff {t : Layout} {seen : List (Nat × Nat)} {T : Tally} (h : Held t seen (T.rows.map Row.page)) (a : Nat) :
    T.has a = (t.latest a seen).isSome := by
  rw [Bool.eq_iff_iff, Option.isSome_iff_exists, ← h.covers a]
  unfold Tally.has
  rw [List.any_eq_true]
  constructor
  · rintro ⟨r, hr, hc⟩
    exact ⟨r.page, List.mem_map_of_mem hr, of_decide_eq_true hc⟩
  · rintro ⟨p, hp, hc⟩
    obtain ⟨r, hr, rfl⟩ := List.mem_map.1 hp
    exact ⟨r, hr, decide_eq_true hc⟩

/-- What is counted for the instructions of a dump. -/
theorem tally_asks {t : Layout} : ∀ (items : List Item9r) (prev : BitVec 64) (seen : List (Nat × Nat)) (T : Tally), Held t seen (T.rows.map Row.page) → Trace9 t prev items →
    ((allAsks prev items).foldl Tally.step T).lookups = T.lookups + asked9 items ∧
    ((allAsks prev items).foldl Tally.step T).failed = T.failed + failed9 t seen prev items ∧
    ((allAsks prev items).foldl Tally.step T).replaced = T.replaced + moves9 t seen prev items
  | [], _, _, _, _, _ => ⟨rfl, rfl, rfl⟩
  | i :: l, prev, seen, T, hs, ht => by
    obtain ⟨hf, hw, ht⟩ := ht
    unfold allAsks
    rw [List.foldl_append]
    have hnum : asked9 (i :: l) = (if i.ira = none ∧ i.Translated then 1 else 0) + asked9 l := by
      unfold asked9
      rw [List.countP_cons, Nat.add_comm]
      congr 1
      by_cases h : i.ira = none ∧ i.Translated
      · rw [if_pos h, if_pos (decide_eq_true h)]
      · rw [if_neg h, if_neg (by simpa using h)]
    rw [hnum, failed9, moves9]
    rcases asks_cases hf hw seen with ⟨o, ho, hc, hsn, htr⟩ | ⟨ho, hsn, htr, hr⟩ | ⟨v, ra, size, hv, ho, htr, hsn, hps, hpg, hlast⟩
    · have hT : (i.asks prev).foldl Tally.step T = T := by
        rw [ho]
        rcases hc with rfl | rfl | ⟨ra, size, rfl⟩
        · rfl
        · show T.step (.get (i.addr prev) 0) = T
          unfold Tally.step
          dsimp only
          rw [if_neg (by decide)]
        · show T.step (.set (i.addr prev) 0 ra size) = T
          unfold Tally.step
          dsimp only
          rw [if_neg (by decide)]
      rw [hT, if_neg (fun h => htr h.2), if_neg (fun h => htr h.2.1), if_neg (fun h => htr h.1), hsn, Nat.zero_add, Nat.zero_add, Nat.zero_add]
      exact tally_asks l (i.addr prev) seen T hs ht
    · have hpages : (T.step (.get (i.addr prev) 1)).rows.map Row.page = T.rows.map Row.page := by
        unfold Tally.step
        dsimp only
        rw [if_pos rfl]
        dsimp only
        rw [List.map_map]
        refine List.map_congr_left fun r _ => ?_
        show Row.page (if _ then _ else _) = _
        split <;> rfl
      rw [ho]
      obtain ⟨a1, a2, a3⟩ := tally_asks l (i.addr prev) seen (T.step (.get (i.addr prev) 1)) (by rw [hpages]; exact hs) ht
      have b1 : (T.step (.get (i.addr prev) 1)).lookups = T.lookups + 1 := by unfold Tally.step; dsimp only; rw [if_pos rfl]
      have b2 : (T.step (.get (i.addr prev) 1)).failed = T.failed + if t.latest (i.addr prev).toNat seen = none then 1 else 0 := by
        unfold Tally.step
        dsimp only
        rw [if_pos rfl]
        dsimp only
        rw [Tally.has_iff hs]
        cases t.latest (i.addr prev).toNat seen <;> rfl
      have b3 : (T.step (.get (i.addr prev) 1)).replaced = T.replaced := by unfold Tally.step; dsimp only; rw [if_pos rfl]
      rw [if_pos ⟨hr, htr⟩, hsn, if_neg (show ¬ i.Moves t seen prev from fun ⟨_, v, _, hv, _⟩ => by rw [hr] at hv; cases hv)]
      refine ⟨?_, ?_, ?_⟩
      · show (List.foldl Tally.step (T.step (.get (i.addr prev) 1)) _).lookups = _
        rw [a1, b1]; omega
      · show (List.foldl Tally.step (T.step (.get (i.addr prev) 1)) _).failed = _
        rw [a2, b2]
        by_cases h : t.latest (i.addr prev).toNat seen = none
        · rw [if_pos h, if_pos ⟨hr, htr, h⟩]; omega
        · rw [if_neg h, if_neg (fun g => h g.2.2)]; omega
      · show (List.foldl Tally.step (T.step (.get (i.addr prev) 1)) _).replaced = _
        rw [a3, b3]; omega
    · have hmem : (T.rows.any fun r => decide (r.page = pageAt t (i.addr prev).toNat (irFrame v))) = decide (t.latest (i.addr prev).toNat seen = some (irFrame v)) := by
        rw [Bool.eq_iff_iff, List.any_eq_true, decide_eq_true_eq, ← hs.exact]
        constructor
        · rintro ⟨r, hr, hc⟩
          rw [← of_decide_eq_true hc]
          exact List.mem_map_of_mem hr
        · intro hp
          obtain ⟨r, hr, he⟩ := List.mem_map.1 hp
          exact ⟨r, hr, decide_eq_true he⟩
      have hstep : (T.step (.set (i.addr prev) 1 ra size)).lookups = T.lookups ∧ (T.step (.set (i.addr prev) 1 ra size)).failed = T.failed ∧
          (T.step (.set (i.addr prev) 1 ra size)).replaced = T.replaced + (if i.Moves t seen prev then 1 else 0) ∧
          Held t (((i.addr prev).toNat, irFrame v) :: seen) ((T.step (.set (i.addr prev) 1 ra size)).rows.map Row.page) := by
        unfold Tally.step
        dsimp only
        rw [if_pos rfl, hpg, hmem]
        by_cases h : t.latest (i.addr prev).toNat seen = some (irFrame v)
        · rw [if_pos (decide_eq_true h)]
          refine ⟨rfl, rfl, ?_, ?_⟩
          · rw [if_neg]
            · rfl
            · rintro ⟨_, w, f, hw, hf, hne⟩
              rw [hv] at hw
              cases hw
              rw [h] at hf
              exact hne (Option.some.inj hf).symm
          · dsimp only
            have e : (T.rows.map fun r => if r.page = pageAt t (i.addr prev).toNat (irFrame v) then { r with uses := r.uses + 1, again := r.again + 1 } else r).map Row.page = T.rows.map Row.page := by
              rw [List.map_map]
              refine List.map_congr_left fun r _ => ?_
              show Row.page (if _ then _ else _) = _
              split <;> rfl
            rw [e]
            exact hs.again h
        · rw [if_neg (by simpa using h)]
          refine ⟨rfl, rfl, ?_, ?_⟩
          · dsimp only
            rw [Tally.has_iff hs]
            cases hl : t.latest (i.addr prev).toNat seen with
            | none =>
              rw [if_neg (show ¬ i.Moves t seen prev from fun ⟨_, w, f, _, hf, _⟩ => by rw [hl] at hf; cases hf)]
              rfl
            | some f =>
              rw [if_pos (show i.Moves t seen prev from ⟨htr, v, f, hv, hl, fun g => h (by rw [hl, g])⟩)]
              rfl
          · dsimp only
            rw [List.map_cons]
            have e : (T.rows.filter fun r => decide (¬ r.page.Covers (i.addr prev).toNat)).map Row.page = (T.rows.map Row.page).filter fun p => decide (¬ p.Covers (i.addr prev).toNat) := by
              rw [List.filter_map]; rfl
            rw [e]
            exact hs.insert hlast
      rw [ho, if_neg (fun h => by rw [hv] at h; cases h.1), if_neg (fun h => by rw [hv] at h; cases h.1), hsn]
      obtain ⟨b1, b2, b3, b4⟩ := hstep
      obtain ⟨a1, a2, a3⟩ := tally_asks l (i.addr prev) _ (T.step (.set (i.addr prev) 1 ra size)) b4 ht
      refine ⟨?_, ?_, ?_⟩
      · show (List.foldl Tally.step (T.step (.set (i.addr prev) 1 ra size)) _).lookups = _
        rw [a1, b1]; omega
      · show (List.foldl Tally.step (T.step (.set (i.addr prev) 1 ra size)) _).failed = _
        rw [a2, b2]; omega
      · show (List.foldl Tally.step (T.step (.set (i.addr prev) 1 ra size)) _).replaced = _
        rw [a3, b3]; omega

theorem lookups_insnEvents (l : List Ev) : lookups (insnEvents l) = lookups l := by
  induction l with
  | nil => rfl
  | cons e l ih =>
    have h : ∀ (b : Bool), ofInsn e = b → lookups (insnEvents (e :: l)) = lookups (e :: l) := by
      intro b hb
      cases b with
      | true =>
        rw [show insnEvents (e :: l) = e :: insnEvents l from List.filter_cons_of_pos hb]
        rw [show e :: insnEvents l = [e] ++ insnEvents l from rfl, lookups_append, ih, ← lookups_append]
        rfl
      | false =>
        rw [show insnEvents (e :: l) = insnEvents l from List.filter_cons_of_neg (by rw [hb]; decide), ih]
        cases e with
        | tlb o => cases hb
        | _ => rfl
    exact h _ rfl

theorem printStat_append (r : Rd) (text : List Char) : printStat r text = printStat r [] ++ text := by
  unfold printStat
  rw [List.append_nil]

/-- **C101**, POWER9: after the summary of C99, `htmdecode -d` lists the pages that the dump had, in ascending order, each with the number of
times it was used and was told again since it was last moved, and says how many of the translated instructions without a page in the dump
were in no page that the dump had before, and how often a page had moved. -/
theorem C101_power9_partial (t : Layout) (c : Conf) (hc : c.full = true) {eof failing : Bool} {bytes : List (BitVec 8)} {fill phantom : BitVec 64} (items : List Item9r)
    (tail : List (BitVec 64)) (hk : AllKnown (stream bytes failing eof fill phantom)) (hi : Trace9 t 0 items)
    (hw : plain (stream bytes failing eof fill phantom) = items.flatMap Item9r.words ++ tail) (htail : ∀ v ∈ tail, Other v) (hn : items.length < 2 ^ 31) :
    ∃ summary rows, printed c eof bytes failing fill phantom [] = some summary ∧
      printedAll c eof bytes failing fill phantom = some (summary ++ (TlbSpec.rowsText rows ++ (TlbSpec.tally (allAsks 0 items)).text)) ∧
      rows.Perm (TlbSpec.tally (allAsks 0 items)).rows ∧ rows.Pairwise (fun a b => a.page.ea < b.page.ea) ∧
      (TlbSpec.tally (allAsks 0 items)).lookups = asked9 items ∧ (TlbSpec.tally (allAsks 0 items)).failed = failed9 t [] 0 items ∧
      (TlbSpec.tally (allAsks 0 items)).replaced = moves9 t [] 0 items := by
  obtain ⟨s, es, h1, -, -, -, -, -, h2, -⟩ := loop9r hc htail items ((items.flatMap Item9r.words ++ tail).length + 1) 0 {} [] (Cached.empty t) hi (Nat.lt_succ_self _)
  have h3 := decode_pure c eof bytes failing fill phantom hk
  rw [hw, h1] at h3
  obtain ⟨r, h4, h5⟩ := h3
  have h6 : lookups r.out = allAsks 0 items := by rw [← lookups_insnEvents, h5, lookups_insnEvents, h2]
  obtain ⟨cc, rows, e1, e2, e3, -, e5⟩ := Tlb.C101_report_partial (allAsks 0 items) (proper_asks items 0 [] [] (Held.empty t) hi)
    (Nat.lt_of_le_of_lt (allAsks_length items 0) hn)
  obtain ⟨n1, n2, n3⟩ := tally_asks (t := t) items 0 [] {} (Held.empty t) hi
  refine ⟨printStat r [], rows, ?_, ?_, e2, e3, ?_, ?_, ?_⟩
  · unfold printed
    rw [h4]
  · unfold printedAll
    rw [h4]
    dsimp only
    rw [h6, e1, Option.map_some, printStat_append, e5]
  · exact n1.trans (Nat.zero_add _)
  · exact n2.trans (Nat.zero_add _)
  · exact n3.trans (Nat.zero_add _)

/-- The report if the cache was not used. -/
def unused : List Char := "TLBDUMP no translation: 0 of 0\nTLBDUMP replaced translations: 0\n".toList

theorem printed_unused {c : Conf} {eof failing : Bool} {bytes : List (BitVec 8)} {fill phantom : BitVec 64} {s : Dec} {r : Rd}
    (hd : decode c eof bytes failing fill phantom = .ok (s, r)) (h : lookups r.out = []) :
    ∃ summary, printed c eof bytes failing fill phantom [] = some summary ∧ printedAll c eof bytes failing fill phantom = some (summary ++ unused) := by
  refine ⟨printStat r [], ?_, ?_⟩
  · unfold printed
    rw [hd]
  · unfold printedAll
    rw [hd]
    dsimp only
    rw [h]
    show some (printStat r (Tlb.dump {})) = _
    rw [printStat_append]
    rfl

/-- **C101**, POWER10: dumps without page-table walks do not use this cache. -/
theorem C101_power10 (c : Conf) (hc : c.full = true) {eof failing : Bool} {bytes : List (BitVec 8)} {fill phantom : BitVec 64} (items : List Item10)
    (tail : List (BitVec 64)) (hk : AllKnown (stream bytes failing eof fill phantom)) (hi : Trace10 0 items)
    (hw : plain (stream bytes failing eof fill phantom) = items.flatMap Item10.words ++ tail) (htail : ∀ v ∈ tail, Other v) :
    ∃ summary, printed c eof bytes failing fill phantom [] = some summary ∧ printedAll c eof bytes failing fill phantom = some (summary ++ unused) := by
  obtain ⟨s, es, h1, -, -, -, h2⟩ := loop10 hc htail items ((items.flatMap Item10.words ++ tail).length + 1) 0 {} ⟨rfl, rfl, rfl⟩ hi (Nat.lt_succ_self _)
  have h3 := decode_pure c eof bytes failing fill phantom hk
  rw [hw, h1] at h3
  obtain ⟨r, h4, h5⟩ := h3
  exact printed_unused h4 (by rw [← lookups_insnEvents, h5, lookups_insnEvents, h2])

/-- **C101**, POWER10: nor do dumps with page-table walks. -/
theorem Guest.C101_guest (P : Space) (hS : P.tables.Ok) (c : Conf) (hc : c.full = true) {eof failing : Bool} {bytes : List (BitVec 8)} {fill phantom : BitVec 64} (items : List Item)
    (tail : List (BitVec 64)) (hk : AllKnown (stream bytes failing eof fill phantom)) (hi : Trace P {} items)
    (hw : plain (stream bytes failing eof fill phantom) = items.flatMap Item.words ++ tail) (htail : ∀ v ∈ tail, Other v) :
    ∃ summary, printed c eof bytes failing fill phantom [] = some summary ∧ printedAll c eof bytes failing fill phantom = some (summary ++ unused) := by
  obtain ⟨s, es, h1, -, -, -, h2⟩ := loop_ok hS hc htail items ((items.flatMap Item.words ++ tail).length + 1) 0 {} {}
    ⟨Caches.init P, rfl, ⟨fun _ => ⟨rfl, fun h => h⟩, fun h => (by cases h)⟩, ⟨⟨{ ok := false }, Or.inr ⟨fun h => h, rfl, rfl⟩, rfl, rfl, rfl⟩, fun h => h.elim⟩⟩ hi (Nat.lt_succ_self _)
  have h3 := decode_pure c eof bytes failing fill phantom hk
  rw [hw, h1] at h3
  obtain ⟨r, h4, h5⟩ := h3
  exact printed_unused h4 (by rw [← lookups_insnEvents, h5, lookups_insnEvents, h2])

/-! ### Examples -/

/-- A page that moves and is used where it is then, one that is told twice, and one that is not known. -/
def exReport : List Item9r := moved9 ++
  [{ info := 0x600000000abcdee0, iea := some 0xc000000000001001, ira := some 0x0000014003000000, dea := none, dra := none },
   { info := 0x600000000abcdee0, iea := some 0xc000000000f00005, ira := some 0x0000014003000000, dea := none, dra := none },
   { info := 0x600000000abcdec0, iea := some 0x0000000020000001, ira := none, dea := none, dra := none },
   { info := 0x600000000abcdec0, iea := some 0x0000000000001000, ira := none, dea := none, dra := none }]

example : Trace9 layout9 0 exReport ∧ plain (stream (bytes9 exReport) false false 0 0) = exReport.flatMap Item9r.words ++ [0] ∧
    (asked9 exReport, failed9 layout9 [] 0 exReport, moves9 layout9 [] 0 exReport) = (2, 1, 1) ∧
    (printedAll { fn := true, private_ := true, junk := {} } false (bytes9 exReport) false 0 0).map (fun t => ((textLines t).drop 46).map String.ofList) =
      some ["TLBDUMP 00: ea:0000000010000000 ra:0000000010008000 size:00001000 miss:0 hit:1",
        "TLBDUMP 01: ea:c000000000000000 ra:0000000005000000 size:01000000 miss:1 hit:1",
        "TLBDUMP no translation: 1 of 2", "TLBDUMP replaced translations: 1"] := by
  refine ⟨⟨format_of ?_ ?_ ?_ ?_ ?_ ?_ ?_, within_of ?_ ?_, format_of ?_ ?_ ?_ ?_ ?_ ?_ ?_, within_of ?_ ?_, format_of ?_ ?_ ?_ ?_ ?_ ?_ ?_, within_of ?_ ?_,
    format_of ?_ ?_ ?_ ?_ ?_ ?_ ?_, within_of ?_ ?_, format_of ?_ ?_ ?_ ?_ ?_ ?_ ?_, within_of ?_ ?_, format_of ?_ ?_ ?_ ?_ ?_ ?_ ?_, within_of ?_ ?_,
    format_of ?_ ?_ ?_ ?_ ?_ ?_ ?_, within_of ?_ ?_, trivial⟩, ?_, ?_, ?_⟩
  all_goals decide +kernel

example : ∃ summary, printedAll { fn := true, private_ := true, junk := {} } false file10 false 0 0 = some (summary ++ unused) ∧ (textLines summary).length = 46 :=
  ⟨(printed { fn := true, private_ := true, junk := {} } false file10 false 0 0 []).getD [], by decide +kernel, by decide +kernel⟩

end Htm
