import Verif.Bbv.VerboseTables
import Verif.Bbv.PropsOutput
/-!
C111 with the option `-v`: the basic blocks, the matrix, and the clusterings with the costs on the way to them.
-/
namespace Bbv
open BbvText Spec

theorem sheet_unlines (f : Nat → Nat → BitVec 64) (C R : Nat) : sheet f C R = unlines ((List.range R).map fun r => cells (f r) C) := by
  unfold sheet unlines
  rw [List.map_map]; rfl

theorem cells_not_title (f : Nat → BitVec 64) (C : Nat) : ("Testing K=".toList.isPrefixOf (cells f C)) = false := by
  unfold cells
  cases C with
  | zero => rfl
  | succ n =>
    rw [List.range_succ_eq_map, List.map_cons, List.flatten_cons, List.append_assoc]
    exact ld_not_title (f 0) (c := 'T') (t := "esting K=".toList) (by decide)

theorem takeWhile_all {α : Type} {p : α → Bool} {a b : List α} (h : ∀ y ∈ a, p y = true) (hb : ∀ x l, b = x :: l → p x = false) :
    (a ++ b).takeWhile p = a ∧ (a ++ b).dropWhile p = b := by
  cases b with
  | nil =>
    rw [List.append_nil]
    have t := List.takeWhile_append_of_pos (l₂ := []) h
    have d := List.dropWhile_append_of_pos (l₂ := []) h
    simpa using And.intro t d
  | cons x l => exact takeWhile_stop h (hb x l rfl)

/-- The whole text is read. -/
theorem told_lines (bs : List Block) (f : Nat → Nat → BitVec 64) (C R : Nat) (ss : List Search) (tail : List (List Char))
    (ht : ∀ l ∈ tail, "Testing K=".toList.isPrefixOf l = true ∧ ∀ c ∈ l, c ≠ '\n') :
    told (unlines (blockRows bs) ++ ("Matrix:".toList ++ '\n' :: (sheet f C R ++ unlines (searchRows ss ++ tail)))) =
      some { blocks := bs.map fun b => (b.start.toNat, (BitVec.ofNat 32 b.length).toInt),
             matrix := (List.range R).map fun r => (List.range C).map fun c => (f r c).toInt,
             tables := ss.map fun s => (s.1.shown, s.2.map BitVec.toInt) } := by
  have e : unlines (blockRows bs) ++ ("Matrix:".toList ++ '\n' :: (sheet f C R ++ unlines (searchRows ss ++ tail))) =
      unlines (blockRows bs ++ "Matrix:".toList :: (((List.range R).map fun r => cells (f r) C) ++ (searchRows ss ++ tail))) := by
    rw [unlines_append (blockRows bs), unlines_cons, unlines_append _ (searchRows ss ++ tail), sheet_unlines]
  have hin : ∀ l ∈ blockRows bs ++ "Matrix:".toList :: (((List.range R).map fun r => cells (f r) C) ++ (searchRows ss ++ tail)), ∀ c ∈ l, c ≠ '\n' := by
    intro l hl
    simp only [List.mem_append, List.mem_cons, blockRows, List.mem_map, searchRows, List.mem_flatten] at hl
    rcases hl with ⟨b, -, rfl⟩ | rfl | ⟨r, -, rfl⟩ | ⟨x, ⟨s, -, rfl⟩, hl⟩ | hl
    · exact blockRow_inner _ _
    · decide
    · exact cells_inner _ _
    · rcases List.mem_append.mp hl with hl | hl
      · exact reportRows_inner _ _ l hl
      · rw [List.mem_singleton] at hl
        subst hl
        intro c hc; cases hc
    · exact (ht l hl).2
  have hnil : ∀ l ∈ tail, l ≠ [] := by
    intro l hl h
    have := (ht l hl).1
    rw [h] at this
    exact absurd this (by decide)
  have h1 := takeWhile_stop (p := fun l => l != "Matrix:".toList) (a := blockRows bs) (x := "Matrix:".toList)
    (b := ((List.range R).map fun r => cells (f r) C) ++ (searchRows ss ++ tail)) (by
      intro y hy
      obtain ⟨b, -, rfl⟩ := List.mem_map.mp hy
      exact bne_iff_ne.mpr (blockRow_ne _ _)) (by decide)
  have h2 := takeWhile_all (p := fun l => !("Testing K=".toList.isPrefixOf l)) (a := (List.range R).map fun r => cells (f r) C) (b := searchRows ss ++ tail) (by
      intro y hy
      obtain ⟨r, -, rfl⟩ := List.mem_map.mp hy
      rw [cells_not_title]; rfl) (by
      intro x l hx
      cases ss with
      | nil =>
        have : tail = x :: l := hx
        have := (ht x (by rw [this]; exact List.mem_cons_self)).1
        rw [this]; rfl
      | cons s ss =>
        have : x = "Testing K=".toList ++ ld (BitVec.ofNat 64 s.1.k) := by
          simp only [searchRows, List.map_cons, List.flatten_cons, reportRows, List.cons_append, List.append_assoc] at hx
          exact (List.cons.inj hx).1.symm
        rw [this]; simp)
  unfold told
  rw [e, split_unlines _ hin]
  dsimp only
  rw [h1.1, h1.2, List.drop_one, List.tail_cons, h2.1, h2.2, search_read ss tail hnil]
  have h3 : every BbvText.block (blockRows bs) = some (bs.map fun b => (b.start.toNat, (BitVec.ofNat 32 b.length).toInt)) :=
    every_map BbvText.block (fun b : Block => blockRow b.start b.length) _ bs fun b _ => block_row b.start b.length
  have h4 : every (fun l => every whole (split '\t' [] l)) ((List.range R).map fun r => cells (f r) C) =
      some ((List.range R).map fun r => (List.range C).map fun c => (f r c).toInt) := by
    refine every_map _ (fun r => cells (f r) C) _ (List.range R) fun r _ => ?_
    have := split_cells (f r) (List.range C) []
    rw [List.append_nil] at this
    unfold cells
    rw [this]
    simp only [split, List.append_nil]
    exact every_map whole (fun c => ld (f r c)) _ (List.range C) fun c _ => whole_ld _
  rw [h3, h4]

/-- The matrix that is clustered has entries in all its places. -/
theorem reduced_holds {e : Env} (he : e.Good) {recs : List Rec} (hf : Fits e recs) (coin : Nat → Bool) (dims : BitVec 32) (hs : Sized e recs dims.toNat) {s : St} {m b : Matrix}
    (h1 : parse e recs = .ok s) (h2 : vectors e s = .ok m) (h3 : reduced e.heap coin m dims = .ok b) : ∃ R C f, Holds b R C f := by
  obtain ⟨s', m', f, g1, g2, g3, g4⟩ := C36_vectors_partial he hf
  rw [h1] at g1
  cases g1
  rw [h2] at g2
  cases g2
  unfold reduced at h3
  by_cases hz : dims = 0
  · rw [if_neg (fun h => h hz)] at h3
    cases h3
    exact ⟨_, _, _, g3⟩
  · rw [if_pos hz] at h3
    have hdl : (dims.setWidth 64).toNat = dims.toNat := by
      rw [BitVec.toNat_setWidth, Nat.mod_eq_of_lt]
      have := dims.isLt
      omega
    obtain ⟨b', h5, h6⟩ := projection_holds he.memory coin g3 (dims.setWidth 64) (by rw [hdl]; exact hs.projected) (by rw [hdl]; exact hs.result)
    rw [h3] at h5
    cases h5
    exact ⟨_, _, _, h6⟩

/-- The costs that are printed before a table go down, to the cost of the table unless that is zero. -/
structure Down (t : Shown) (costs : List Int) : Prop where
  order : costs.Pairwise fun a b => b < a
  above : ∀ c ∈ costs, t.cost ≤ c
  last : ∀ c, costs.getLast? = some c → t.cost = c ∨ t.cost = 0

theorem falls_down {s : Search} (hs : s.Good) (hc : s.1.cost.toNat < 2 ^ 63) : Down s.1.shown (s.2.map BitVec.toInt) := by
  obtain ⟨first, h0, h⟩ := hs
  have e : ∀ c ∈ s.2, c.toInt = c.toNat := fun c hc => small_toInt (by have := h.below c hc; omega)
  have ec : s.1.shown.cost = s.1.cost.toNat := small_toInt hc
  refine ⟨?_, ?_, ?_⟩
  · rw [List.pairwise_map]
    refine List.Pairwise.imp_of_mem ?_ h.order
    intro a b ha hb hab
    rw [e a ha, e b hb]; omega
  · intro c hc
    obtain ⟨x, hx, rfl⟩ := List.mem_map.mp hc
    rw [ec, e x hx]
    have := h.above x hx
    omega
  · intro c hc
    rw [List.getLast?_map] at hc
    obtain ⟨x, hx, rfl⟩ := Option.map_eq_some_iff.mp hc
    rw [ec, e x (List.mem_of_getLast? hx)]
    rcases h.final x hx with h | h
    · left; omega
    · right; omega

/-- **C111**, with the option `-v`: for a trace with at least one complete interval the output is read as the basic blocks of the trace in their order, each with its address and
its length (a signed number of 32 bits), the rows of the matrix that is clustered, and the same tables as without the option.  Before every table come costs that go down to the
one of the table; the last of them is this cost, unless it is zero. -/
theorem C111_verbose_partial {e : Env} (he : e.Good) {recs : List Rec} (hf : Fits e recs) (hp : e.period ≠ 0) (h1 : e.length ≤ recs.length)
    (coin : Nat → Bool) (dims : BitVec 32) (hs : Sized e recs dims.toNat) :
    ∃ points tables, IsPoints e.length recs (fun d j => coin (j * dims.toNat + d)) dims.toNat points ∧
      told (summariseV e recs coin dims 0).1 = some {
        blocks := (cut recs recs.length).blocks.map fun b => (b.start.toNat, (BitVec.ofNat 32 b.length).toInt),
        matrix := points.map (·.map BitVec.toInt), tables := tables } ∧
      (summariseV e recs coin dims 0).2 = .done ∧
      BbvText.clusterings (printed 0 (summarise e recs coin dims 0)) = some (tables.map (·.1)) ∧
      ∀ t ∈ tables, Down t.1 t.2 := by
  obtain ⟨s, m, b, h2, h3, h4, h5, h6⟩ := points_of_trace he hf coin dims hs
  obtain ⟨R, C, f, hb⟩ := reduced_holds he hf coin dims hs h2 h3 h4
  obtain ⟨s', p1, p2⟩ := parseV_rows he hf
  rw [h2] at p1
  cases p1
  have hn : 0 < (rowsOf b).length := by
    rw [h5.length]
    exact Nat.div_pos h1 e.length_pos
  obtain ⟨reports, h7, h8, h9⟩ := sweep_describes (length_period hp) e.length_pos h6 (intervals_fit hf h5.length) 32 1 (by omega) (different_pos hn)
  have h10 : summarise e recs coin dims 0 = (reports, .done) := by
    rw [summarise_eq h2 h3 h4]
    unfold clusterings
    rw [if_neg (fun h => h rfl)]
    exact h7
  obtain ⟨ss, q1, q2, q3⟩ := sweepV_rows h6 32 1 reports (by omega) h7
  have hV : summariseV e recs coin dims 0 =
      (unlines (blockRows (cut recs recs.length).blocks) ++ ("Matrix:".toList ++ '\n' :: (sheet f C R ++ unlines (searchRows ss ++ []))), .done) := by
    unfold summariseV
    rw [p2]
    dsimp only
    unfold doPamV
    simp only [h3, h4, print_holds hb]
    unfold clusteringsV
    rw [if_neg (fun h => h rfl), q3, List.append_nil]
  refine ⟨rowsOf b, ss.map fun s => (s.1.shown, s.2.map BitVec.toInt), h5, ?_, by rw [hV], ?_, ?_⟩
  · rw [hV]
    dsimp only
    rw [told_lines _ f C R ss [] (fun l hl => by cases hl), rowsOf_holds hb]
    simp only [List.map_map, Function.comp_def]
  · rw [h10]
    unfold printed
    rw [if_pos rfl, text_read reports, ← q1]
    simp only [List.map_map, Function.comp_def]
  · intro t ht
    obtain ⟨x, hx, rfl⟩ := List.mem_map.mp ht
    refine falls_down (q2 x hx) ?_
    have hr : x.1 ∈ reports := by rw [← q1]; exact List.mem_map_of_mem hx
    obtain ⟨i, hi, hi'⟩ := List.mem_iff_getElem.mp hr
    obtain ⟨hk, ⟨ms, hd⟩, _⟩ := h9 i x.1 (by rw [List.getElem?_eq_getElem hi, hi'])
    have hne : ms ≠ [] := by
      intro h
      have := hd.k
      rw [h, List.length_nil] at this
      omega
    rw [hd.cost]
    exact small_spread h6 hne hd.input

/-- **C111**, with the options `-v` and `-k`. -/
theorem C111_verbose_chosen_partial {e : Env} (he : e.Good) {recs : List Rec} (hf : Fits e recs) (hp : e.period ≠ 0)
    (coin : Nat → Bool) (dims k : BitVec 32) (hk : k ≠ 0) (hs : Sized e recs dims.toNat) :
    ∃ points tables, IsPoints e.length recs (fun d j => coin (j * dims.toNat + d)) dims.toNat points ∧
      told (summariseV e recs coin dims k).1 = some {
        blocks := (cut recs recs.length).blocks.map fun b => (b.start.toNat, (BitVec.ofNat 32 b.length).toInt),
        matrix := points.map (·.map BitVec.toInt), tables := tables } ∧
      (summariseV e recs coin dims k).2 = (summarise e recs coin dims k).2 ∧
      BbvText.clusterings (printed k (summarise e recs coin dims k)) = some (tables.map (·.1)) ∧
      ∀ t ∈ tables, Down t.1 t.2 := by
  obtain ⟨s, m, b, h2, h3, h4, h5, h6⟩ := points_of_trace he hf coin dims hs
  obtain ⟨R, C, f, hb⟩ := reduced_holds he hf coin dims hs h2 h3 h4
  obtain ⟨s', p1, p2⟩ := parseV_rows he hf
  rw [h2] at p1
  cases p1
  have hk0 : 0 < k.toNat := Nat.pos_of_ne_zero fun h => hk (BitVec.eq_of_toNat_eq h)
  have hV : summariseV e recs coin dims k =
      (unlines (blockRows (cut recs recs.length).blocks) ++ ("Matrix:".toList ++ '\n' :: (sheet f C R ++ (clusteringsV e.period (rowsOf b) k).1)),
        (clusteringsV e.period (rowsOf b) k).2) := by
    unfold summariseV
    rw [p2]
    dsimp only
    unfold doPamV
    simp only [h3, h4, print_holds hb]
  by_cases hd : k.toNat ≤ different (rowsOf b)
  · obtain ⟨r, ms, h7, h8, h9, _⟩ := onePam_describes (length_period hp) e.length_pos h6 (intervals_fit hf h5.length) hk0 hd
    have hne : ms ≠ [] := by
      intro h
      have := h9.k
      rw [h, List.length_nil] at this
      omega
    have h10 : summarise e recs coin dims k = ([r], .done) := by
      rw [summarise_eq h2 h3 h4]
      unfold clusterings
      rw [if_pos hk, h7]
    obtain ⟨costs, first, q1, q2, q3⟩ := onePamV_ok h6 hk0 h7
    have hc : clusteringsV e.period (rowsOf b) k = (unlines (searchRows [(r, costs)] ++ []), .done) := by
      unfold clusteringsV
      have e1 : onePamV e.period (rowsOf b) k.toNat = (unlines (reportRows r costs ++ [[]]), .ok r) := Prod.ext q1 (by rw [onePamV_snd, h7])
      rw [if_pos hk, e1]
      simp [searchRows]
    rw [hc] at hV
    refine ⟨rowsOf b, [(r.shown, costs.map BitVec.toInt)], h5, ?_, by rw [hV, h10], ?_, ?_⟩
    · rw [hV]
      dsimp only
      rw [told_lines _ f C R [(r, costs)] [] (fun l hl => by cases hl), rowsOf_holds hb]
      simp only [List.map_map, Function.comp_def, List.map_cons, List.map_nil]
    · rw [h10]
      unfold printed
      rw [if_pos rfl, text_read [r]]
      rfl
    · intro t ht
      rw [List.mem_singleton] at ht
      subst ht
      exact falls_down (s := (r, costs)) ⟨first, q2, q3⟩ (by show r.cost.toNat < _; rw [h9.cost]; exact small_spread h6 hne h9.input)
  · have h7 := onePam_fails (period := e.period) h6 (k := k.toNat) (by omega)
    have h10 : summarise e recs coin dims k = ([], .exit) := by
      rw [summarise_eq h2 h3 h4]
      unfold clusterings
      rw [if_pos hk, h7]
    have hc : clusteringsV e.period (rowsOf b) k = (unlines (searchRows [] ++ ["Testing K=".toList ++ ld (BitVec.ofNat 64 k.toNat)]), .exit) := by
      unfold clusteringsV
      rw [if_pos hk, onePamV_exit h7]
      refine Prod.ext ?_ rfl
      show head k.toNat = unlines ["Testing K=".toList ++ ld (BitVec.ofNat 64 k.toNat)]
      rw [unlines_one, List.append_assoc]
      rfl
    rw [hc] at hV
    refine ⟨rowsOf b, [], h5, ?_, by rw [hV, h10], ?_, fun t ht => by cases ht⟩
    · rw [hV]
      dsimp only
      rw [told_lines _ f C R [] _ (fun l hl => ?_), rowsOf_holds hb]
      · simp only [List.map_map, Function.comp_def, List.map_nil]
      · rw [List.mem_singleton] at hl
        subst hl
        exact ⟨by simp, title_inner _ (by decide)⟩
    · rw [h10]
      unfold printed
      rw [if_neg (by decide)]
      exact begun_read [] _

/-- **C111**, with the option `-v` and without a complete interval: the blocks are shown, the matrix is empty, there is no table and the status is 1. -/
theorem C111_verbose_short_partial {e : Env} (he : e.Good) {recs : List Rec} (hf : Fits e recs) (h1 : recs.length < e.length)
    (coin : Nat → Bool) (dims : BitVec 32) (hs : Sized e recs dims.toNat) :
    told (summariseV e recs coin dims 0).1 = some {
        blocks := (cut recs recs.length).blocks.map fun b => (b.start.toNat, (BitVec.ofNat 32 b.length).toInt),
        matrix := [], tables := [] } ∧
      (summariseV e recs coin dims 0).2 = .exit := by
  obtain ⟨s, m, b, h2, h3, h4, h5, h6⟩ := points_of_trace he hf coin dims hs
  obtain ⟨R, C, f, hb⟩ := reduced_holds he hf coin dims hs h2 h3 h4
  obtain ⟨s', p1, p2⟩ := parseV_rows he hf
  rw [h2] at p1
  cases p1
  have hn : rowsOf b = [] := by
    apply List.eq_nil_of_length_eq_zero
    rw [h5.length]
    exact Nat.div_eq_of_lt h1
  have hV : summariseV e recs coin dims 0 =
      (unlines (blockRows (cut recs recs.length).blocks) ++ ("Matrix:".toList ++ '\n' :: (sheet f C R ++ (clusteringsV e.period (rowsOf b) 0).1)),
        (clusteringsV e.period (rowsOf b) 0).2) := by
    unfold summariseV
    rw [p2]
    dsimp only
    unfold doPamV
    simp only [h3, h4, print_holds hb]
  have h7 := onePam_fails (period := e.period) h6 (k := 1) (by rw [hn]; decide)
  have hc : clusteringsV e.period (rowsOf b) 0 = (unlines (searchRows [] ++ ["Testing K=".toList ++ ld (BitVec.ofNat 64 1)]), .exit) := by
    unfold clusteringsV
    rw [if_neg (fun h => h rfl), sweepV, onePamV_exit h7]
    refine Prod.ext ?_ rfl
    show head 1 = unlines ["Testing K=".toList ++ ld (BitVec.ofNat 64 1)]
    rw [unlines_one, List.append_assoc]
    rfl
  rw [hc] at hV
  rw [hV]
  refine ⟨?_, rfl⟩
  dsimp only
  have hz : ([] : List (List Int)) = (rowsOf b).map (·.map BitVec.toInt) := by rw [hn]; rfl
  rw [hz, told_lines _ f C R [] _ (fun l hl => ?_), rowsOf_holds hb]
  · simp only [List.map_map, Function.comp_def, List.map_nil]
  · rw [List.mem_singleton] at hl
    subst hl
    exact ⟨by simp, title_inner _ (by decide)⟩

/-- The trace of ten instructions in intervals of twenty. -/
example (coin : Nat → Bool) : (summariseV (plenty 20) sample coin 0 0).2 = .exit := by
  have h1 : sample.length / (plenty 20).length = 0 := by decide +kernel
  have h2 : (starts (cut sample sample.length).blocks).length = 3 := by decide +kernel
  exact (C111_verbose_short_partial (plenty_good 20)
    ⟨by decide, by decide +kernel, by decide +kernel, by decide, by rw [h1, h2]; decide, fun i hi => by rw [h1] at hi; omega⟩ (by decide) coin 0
    ⟨by rw [h1]; decide, by rw [h2]; decide, by rw [h1]; decide⟩).2

/-- The trace of ten instructions in intervals of four. -/
example (coin : Nat → Bool) : ∃ t, told (summariseV (plenty 4) sample coin 0 0).1 = some t ∧ t.blocks.length = (cut sample sample.length).blocks.length :=
  let ⟨_, _, _, h, _⟩ := C111_verbose_partial (plenty_good 4) sample_fits (by decide) (by decide) coin 0 (sample_sized 0 (by decide))
  ⟨_, h, by simp⟩

/-- The text for two points, with one cost on the way. -/
example : String.ofList (clusteringsV 4 [[9], [3], [4], [0]] 1).1 = "Testing K=1\n10\nCost: 10\nMedoids:\n4-7\t4\n\n" := by decide +kernel

end Bbv
