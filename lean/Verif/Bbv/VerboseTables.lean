import Verif.Bbv.VerboseLemmas
/-!
The clusterings of the option `-v` as lines.
-/
namespace Bbv
open BbvText Spec

/-- The lines of a clustering without the empty line at the end. -/
def reportRows (r : Report) (costs : List (BitVec 64)) : List (List Char) :=
  ("Testing K=".toList ++ ld (BitVec.ofNat 64 r.k)) :: (costs.map ld ++ ("Cost: ".toList ++ ld r.cost) :: "Medoids:".toList :: r.lines.map Line.row)

theorem unlines_nil : unlines [] = [] := rfl

theorem costs_unlines (costs : List (BitVec 64)) : (costs.map costText).flatten = unlines (costs.map ld) := by
  unfold unlines costText
  rw [List.map_map]; rfl

theorem table_unlines (ls : List Line) : (ls.map Line.text).flatten = unlines (ls.map Line.row) := by
  unfold unlines
  rw [List.map_map]
  congr 1
  apply List.map_congr_left
  intro l _
  exact l.text_row

theorem report_unlines (r : Report) (costs : List (BitVec 64)) :
    head r.k ++ ((costs.map costText).flatten ++ foot r) = unlines (reportRows r costs ++ [[]]) := by
  unfold head foot reportRows
  rw [costs_unlines, table_unlines]
  simp only [List.cons_append, unlines_cons, List.append_assoc, unlines_append, unlines_nil, List.nil_append]

theorem onePamV_snd (period : BitVec 64) (points : List Row) (k : Nat) : (onePamV period points k).2 = onePam period points k := by
  unfold onePamV onePam
  cases h1 : initialise points k with
  | none => rfl
  | some x =>
    cases x with
    | none => rfl
    | some p =>
      dsimp only
      have h2 := iterateV_snd (p.cost.toNat + 1) p
      rw [← h2]
      cases h3 : iterateV (p.cost.toNat + 1) p with
      | mk costs y =>
        cases y with
        | none => rfl
        | some y =>
          cases y with
          | none => rfl
          | some q =>
            dsimp only
            cases h4 : weights q <;> rfl

/-- The text of a clustering that succeeds. -/
theorem onePamV_ok {period : BitVec 64} {points : List Row} (hsm : Small points) {k : Nat} (hk : 0 < k) {r : Report} (h : onePam period points k = .ok r) :
    ∃ costs first, (onePamV period points k).1 = unlines (reportRows r costs ++ [[]]) ∧ first < 2 ^ 63 ∧ Falls first r.cost.toNat costs := by
  rcases C34_start hsm hk with ⟨p, h1, h2⟩ | ⟨h1, -⟩
  · obtain ⟨p', g1, g2, -, -⟩ := iterateV_falls hsm hk (p.cost.toNat + 1) p h2 (by omega)
    have g3 := iterateV_snd (p.cost.toNat + 1) p
    rw [g1] at g3
    unfold onePam at h
    rw [h1] at h
    simp only [g1] at h
    cases hw : weights p' with
    | none => rw [hw] at h; cases h
    | some ws =>
      rw [hw] at h
      simp only [Except.ok.injEq] at h
      refine ⟨(iterateV (p.cost.toNat + 1) p).1, p.cost.toNat, ?_, ?_, ?_⟩
      · rw [← report_unlines]
        unfold onePamV
        rw [h1]
        dsimp only
        cases hq : iterateV (p.cost.toNat + 1) p with
        | mk cs y =>
          rw [hq] at g3
          dsimp only at g3
          subst g3
          simp only [hw]
          rw [← h]
      · rw [h2.cost]
        have hne : p.medoids ≠ [] := by
          intro hx
          have := h2.length
          rw [hx, List.length_nil] at this
          omega
        have hsp := hsm.cost hne h2.input
        obtain ⟨c, hc1, hc2⟩ := hsp
        obtain ⟨D, d1, d2⟩ := hsm.bound
        have : ∀ l : List Row, (∀ p ∈ l, p ∈ points) → (l.map (nearest p.medoids)).sum ≤ D * l.length := by
          intro l
          induction l with
          | nil => intro _; simp
          | cons q l ih =>
            intro hl
            have hq := hl q List.mem_cons_self
            obtain ⟨m, hmm⟩ := List.exists_mem_of_ne_nil p.medoids hne
            have h3 := (nearest_spec hne q).2 m hmm
            have h4 := d1 q hq m (h2.input m hmm)
            have h5 := ih fun x hx => hl x (List.mem_cons_of_mem _ hx)
            rw [List.map_cons, List.sum_cons, List.length_cons, Nat.mul_add, Nat.mul_one]
            omega
        have h3 := this points fun p hp => hp
        rw [Nat.mul_add, Nat.mul_one] at d2
        unfold spread
        omega
      · rw [← h]; exact g2
  · unfold onePam at h
    rw [h1] at h
    cases h

theorem onePamV_exit {period : BitVec 64} {points : List Row} {k : Nat} (h : onePam period points k = .error .exit) : (onePamV period points k) = (head k, .error .exit) := by
  unfold onePam at h
  unfold onePamV
  cases h1 : initialise points k with
  | none => rw [h1] at h; cases h
  | some x =>
    cases x with
    | none => rfl
    | some p =>
      rw [h1] at h
      dsimp only at h
      cases h2 : iterate (p.cost.toNat + 1) p with
      | none => rw [h2] at h; cases h
      | some y =>
        cases y with
        | none => rw [h2] at h; cases h
        | some q =>
          rw [h2] at h
          dsimp only at h
          cases h3 : weights q <;> rw [h3] at h <;> cases h

/-- A table, and the costs before it. -/
abbrev Search := Report × List (BitVec 64)

/-- The lines of some clusterings. -/
def searchRows (ss : List Search) : List (List Char) := (ss.map fun s => reportRows s.1 s.2 ++ [[]]).flatten

/-- The costs of a clustering go down to the one of its table. -/
def Search.Good (s : Search) : Prop := ∃ first, first < 2 ^ 63 ∧ Falls first s.1.cost.toNat s.2

theorem sweepV_rows {period : BitVec 64} {points : List Row} (hsm : Small points) : ∀ (n k : Nat) (reports : List Report), 0 < k → sweep period points n k = (reports, .done) →
    ∃ ss : List Search, ss.map (·.1) = reports ∧ (∀ s ∈ ss, s.Good) ∧ sweepV period points n k = (unlines (searchRows ss), .done)
  | 0, k, reports, _, h => by
    unfold sweep at h
    cases h
    exact ⟨[], rfl, fun s hs => (by cases hs), rfl⟩
  | n + 1, k, reports, hk, h => by
    rw [sweep] at h
    rw [sweepV]
    cases h1 : onePam period points k with
    | error e =>
      rw [h1] at h
      have h2 := onePamV_snd period points k
      cases h3 : onePamV period points k with
      | mk t y =>
        simp only [Prod.mk.injEq] at h
        obtain ⟨e1, e2⟩ := h
        subst e1 e2
        rw [h3, h1] at h2
        -- a failure does not end with `done`
        exfalso
        unfold onePam at h1
        cases h4 : initialise points k with
        | none => rw [h4] at h1; cases h1
        | some x =>
          cases x with
          | none => rw [h4] at h1; cases h1
          | some p =>
            rw [h4] at h1
            dsimp only at h1
            cases h5 : iterate (p.cost.toNat + 1) p with
            | none => rw [h5] at h1; cases h1
            | some y =>
              cases y with
              | none => rw [h5] at h1; cases h1
              | some q =>
                rw [h5] at h1
                dsimp only at h1
                cases h6 : weights q <;> rw [h6] at h1 <;> cases h1
    | ok r =>
      rw [h1] at h
      obtain ⟨costs, first, g1, g2, g3⟩ := onePamV_ok hsm hk h1
      have e : onePamV period points k = (unlines (reportRows r costs ++ [[]]), .ok r) := Prod.ext g1 (by rw [onePamV_snd, h1])
      rw [e]
      dsimp only at h ⊢
      by_cases hc : r.cost = 0
      · rw [if_pos hc] at h ⊢
        cases h
        refine ⟨[(r, costs)], rfl, ?_, ?_⟩
        · intro s hs
          rw [List.mem_singleton] at hs
          subst hs
          exact ⟨first, g2, g3⟩
        · simp [searchRows]
      · rw [if_neg hc] at h ⊢
        simp only [Prod.mk.injEq] at h
        obtain ⟨ss, s1, s2, s3⟩ := sweepV_rows hsm n (k + 1) (sweep period points n (k + 1)).1 (by omega) (Prod.ext rfl h.2)
        refine ⟨(r, costs) :: ss, by rw [List.map_cons, s1]; exact h.1, ?_, ?_⟩
        · intro s hs
          rcases List.mem_cons.mp hs with rfl | hs
          · exact ⟨first, g2, g3⟩
          · exact s2 s hs
        · rw [s3]
          refine Prod.ext ?_ rfl
          show _ = unlines (searchRows ((r, costs) :: ss))
          rw [show searchRows ((r, costs) :: ss) = (reportRows r costs ++ [[]]) ++ searchRows ss from rfl]
          exact (unlines_append _ _).symm

/-! Reading. -/

theorem ld_not_title (v : BitVec 64) {c : Char} {t l : List Char} (hc : c.isDigit = false ∧ c ≠ '-') : (c :: t).isPrefixOf (ld v ++ l) = false := by
  have hne := ld_ne v
  cases h : ld v with
  | nil => exact absurd h hne
  | cons d ds =>
    have hd := ld_chars v d (by rw [h]; exact List.mem_cons_self)
    have : (c == d) = false := by
      rw [beq_eq_false_iff_ne]
      rintro rfl
      rcases hd with hd | hd
      · rw [hc.1] at hd; cases hd
      · exact hc.2 hd
    simp [List.isPrefixOf, this]

theorem takeWhile_stop {α : Type} {p : α → Bool} {a : List α} {x : α} {b : List α} (h : ∀ y ∈ a, p y = true) (hx : p x = false) :
    (a ++ x :: b).takeWhile p = a ∧ (a ++ x :: b).dropWhile p = x :: b := by
  constructor
  · rw [List.takeWhile_append_of_pos h]; simp [hx]
  · rw [List.dropWhile_append_of_pos h]; simp [hx]

theorem searched_rows (r : Report) (costs : List (BitVec 64)) : searched (reportRows r costs) = some (r.shown, costs.map BitVec.toInt) := by
  unfold reportRows searched
  have h1 : ∀ y ∈ costs.map ld, (!("Cost: ".toList.isPrefixOf y)) = true := by
    intro y hy
    obtain ⟨v, -, rfl⟩ := List.mem_map.mp hy
    have := ld_not_title v (c := 'C') (t := "ost: ".toList) (l := []) (by decide)
    rw [List.append_nil] at this
    show (!(('C' :: "ost: ".toList).isPrefixOf (ld v))) = true
    rw [this]; rfl
  have h2 : (!("Cost: ".toList.isPrefixOf ("Cost: ".toList ++ ld r.cost))) = false := by simp
  obtain ⟨e1, e2⟩ := takeWhile_stop (b := "Medoids:".toList :: r.lines.map Line.row) h1 h2
  dsimp only
  rw [e1, e2]
  have h3 := clustering_rows r
  unfold Report.rows at h3
  rw [h3, every_map whole ld BitVec.toInt costs fun a _ => whole_ld a]

theorem reportRows_ne (r : Report) (costs : List (BitVec 64)) : ∀ l ∈ reportRows r costs, l ≠ [] := by
  intro l hl
  unfold reportRows at hl
  simp only [List.mem_cons, List.mem_append, List.mem_map] at hl
  rcases hl with rfl | ⟨v, -, rfl⟩ | rfl | rfl | ⟨x, _, rfl⟩
  · intro h; exact absurd (List.append_eq_nil_iff.mp h).1 (by decide)
  · exact ld_ne v
  · intro h; exact absurd (List.append_eq_nil_iff.mp h).1 (by decide)
  · decide
  · exact row_ne x

theorem reportRows_inner (r : Report) (costs : List (BitVec 64)) : ∀ l ∈ reportRows r costs, ∀ c ∈ l, c ≠ '\n' := by
  intro l hl
  unfold reportRows at hl
  simp only [List.mem_cons, List.mem_append, List.mem_map] at hl
  rcases hl with rfl | ⟨v, -, rfl⟩ | rfl | rfl | ⟨x, _, rfl⟩
  · exact title_inner _ (by decide)
  · exact fun c hc => (ld_inner v c hc).1
  · exact title_inner _ (by decide)
  · decide
  · exact row_inner x

theorem search_paragraphs (tail : List (List Char)) (ht : ∀ l ∈ tail, l ≠ []) : ∀ ss : List Search, paragraphs [] (searchRows ss ++ tail) = ss.map fun s => reportRows s.1 s.2
  | [] => by
    have : ∀ (tail part : List (List Char)), (∀ l ∈ tail, l ≠ []) → paragraphs part tail = [] := by
      intro tail
      induction tail with
      | nil => intro _ _; rfl
      | cons a t ih => intro part h; rw [paragraphs, if_neg (h a List.mem_cons_self), ih _ fun x hx => h x (List.mem_cons_of_mem _ hx)]
    exact this tail [] ht
  | s :: ss => by
    rw [show searchRows (s :: ss) ++ tail = reportRows s.1 s.2 ++ [] :: (searchRows ss ++ tail) by simp [searchRows], paragraph_part _ _ _ (reportRows_ne s.1 s.2),
      search_paragraphs tail ht ss]
    rfl

/-- The tables are read. -/
theorem search_read (ss : List Search) (tail : List (List Char)) (ht : ∀ l ∈ tail, l ≠ []) :
    every searched (paragraphs [] (searchRows ss ++ tail)) = some (ss.map fun s => (s.1.shown, s.2.map BitVec.toInt)) := by
  rw [search_paragraphs tail ht]
  exact every_map searched (fun s : Search => reportRows s.1 s.2) _ ss fun s _ => searched_rows s.1 s.2

end Bbv
