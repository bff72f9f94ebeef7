import Verif.Bbv.PamLemmas
/-!
C33, C34: clustering around medoids.
-/
namespace Bbv

/-- The state of a clustering of `points` around `k` medoids: the medoids are `k` different points of the input, and the recorded cost is
the sum of the distances of all points to their nearest medoid. -/
structure Clustering (points : List Row) (k : Nat) (p : Pam) : Prop where
  pts : p.points = points
  length : p.medoids.length = k
  nodup : p.medoids.Nodup
  input : ∀ m ∈ p.medoids, m ∈ points
  cost : p.cost.toNat = spread points p.medoids

/-- No replacement of one medoid by a point lowers the cost. -/
def LocalOptimum (points medoids : List Row) : Prop :=
  ∀ j, j < medoids.length → ∀ p ∈ points, spread points medoids ≤ spread points (medoids.set j p)

/-! ### Without bounds on distances -/

theorem trySwap_cost {points : List Row} {m : Nat} {p : Row} {s s' : Swap} (h : totalCost points s.medoids = some s.cost) (ht : trySwap points m p s = some s') :
    totalCost points s'.medoids = some s'.cost ∧ (s' = s ∨ s'.cost < s.cost ∧ s'.progress = true) := by
  unfold trySwap at ht
  cases hc : totalCost points (s.medoids.set m p) with
  | none => rw [hc] at ht; cases ht
  | some c =>
    rw [hc] at ht
    cases ht
    by_cases hlt : c < s.cost
    · rw [if_pos hlt]; exact ⟨hc, Or.inr ⟨hlt, rfl⟩⟩
    · rw [if_neg hlt]; exact ⟨h, Or.inl rfl⟩

theorem swapPoints_cost {points : List Row} {m : Nat} : ∀ (l : List Row) {s s' : Swap} {r : Bool}, totalCost points s.medoids = some s.cost →
    swapPoints points m l s = some (s', r) → totalCost points s'.medoids = some s'.cost ∧ (s' = s ∨ s'.cost < s.cost ∧ s'.progress = true)
  | [], s, s', r, h, hs => by cases hs; exact ⟨h, Or.inl rfl⟩
  | p :: l, s, s', r, h, hs => by
    rw [swapPoints] at hs
    cases hm : isMedoid p s.medoids with
    | none => rw [hm] at hs; cases hs
    | some b =>
      rw [hm] at hs
      cases b with
      | true => exact swapPoints_cost l h hs
      | false =>
        dsimp only at hs
        cases ht : trySwap points m p s with
        | none => rw [ht] at hs; cases hs
        | some s1 =>
          rw [ht] at hs
          dsimp only at hs
          obtain ⟨h1, h2⟩ := trySwap_cost h ht
          by_cases hz : s1.cost = 0
          · rw [if_pos hz] at hs; cases hs; exact ⟨h1, h2⟩
          · rw [if_neg hz] at hs
            obtain ⟨h3, h4⟩ := swapPoints_cost l h1 hs
            refine ⟨h3, ?_⟩
            rcases h4 with rfl | h4
            · exact h2
            · rcases h2 with rfl | h2
              · exact Or.inr h4
              · exact Or.inr ⟨BitVec.lt_trans h4.1 h2.1, h4.2⟩

theorem swapMedoids_cost {points : List Row} : ∀ (n m : Nat) {s s' : Swap} {r : Bool}, totalCost points s.medoids = some s.cost →
    swapMedoids points n m s = some (s', r) → totalCost points s'.medoids = some s'.cost ∧ (s' = s ∨ s'.cost < s.cost ∧ s'.progress = true)
  | 0, m, s, s', r, h, hs => by cases hs; exact ⟨h, Or.inl rfl⟩
  | n + 1, m, s, s', r, h, hs => by
    rw [swapMedoids] at hs
    cases hp : swapPoints points m points s with
    | none => rw [hp] at hs; cases hs
    | some q =>
      obtain ⟨s1, r1⟩ := q
      rw [hp] at hs
      obtain ⟨h1, h2⟩ := swapPoints_cost points h hp
      cases r1 with
      | true => cases hs; exact ⟨h1, h2⟩
      | false =>
        obtain ⟨h3, h4⟩ := swapMedoids_cost n (m + 1) h1 hs
        refine ⟨h3, ?_⟩
        rcases h4 with rfl | h4
        · exact h2
        · rcases h2 with rfl | h2
          · exact Or.inr h4
          · exact Or.inr ⟨BitVec.lt_trans h4.1 h2.1, h4.2⟩

/-- **C33**, without any bound on the distances: if the recorded cost is what the program calculates as the cost of the medoids, it is
so after an iteration, and an iteration that reports progress has lowered it.  An iteration that reports none has not raised it. -/
theorem C33_iteration_partial {p p' : Pam} {b : Bool} (h : totalCost p.points p.medoids = some p.cost) (hi : iteration p = some (p', b)) :
    p'.points = p.points ∧ totalCost p'.points p'.medoids = some p'.cost ∧ (b = true → p'.cost < p.cost) ∧ p'.cost ≤ p.cost := by
  unfold iteration at hi
  cases hs : swapMedoids p.points p.medoids.length 0 { medoids := p.medoids, cost := p.cost, progress := false } with
  | none => rw [hs] at hi; cases hi
  | some q =>
    obtain ⟨s, r⟩ := q
    rw [hs] at hi
    cases hi
    obtain ⟨h1, h2⟩ := swapMedoids_cost _ _ h hs
    refine ⟨rfl, h1, fun hb => ?_, ?_⟩
    · rcases h2 with rfl | h2
      · rw [Bool.and_false] at hb; cases hb
      · exact h2.1
    · rcases h2 with rfl | h2
      · exact BitVec.le_refl _
      · exact BitVec.le_of_lt h2.1

/-- **C33**: the recorded cost of a new clustering is the calculated one. -/
theorem C33_start {points : List Row} {k : Nat} {p : Pam} (h : initialise points k = some (some p)) : p.points = points ∧ totalCost p.points p.medoids = some p.cost := by
  unfold initialise at h
  split at h
  · cases h
  · split at h
    · cases h
    · split at h
      · cases h
      · split at h
        · cases h
        · rename_i hc
          cases h
          exact ⟨rfl, hc⟩

/-- **C33**: iterating ends, within as many iterations as the cost tells, unless distances are undefined. -/
theorem C33_terminates_partial : ∀ (n : Nat) (p : Pam), totalCost p.points p.medoids = some p.cost → p.cost.toNat < n → iterate n p ≠ some none
  | 0, p, _, h => absurd h (by omega)
  | n + 1, p, hc, hn => by
    rw [iterate]
    cases hi : iteration p with
    | none => intro h; cases h
    | some q =>
      obtain ⟨p', b⟩ := q
      cases b with
      | false => intro h; cases h
      | true =>
        obtain ⟨_, h2, h3, _⟩ := C33_iteration_partial hc hi
        have h4 := h3 rfl
        rw [BitVec.lt_def] at h4
        exact C33_terminates_partial n p' h2 (by omega)

/-! ### Distances that fit -/

theorem Small.bounded {points : List Row} (h : Small points) : ∃ D, ∀ ms : List Row, (∀ m ∈ ms, m ∈ points) → Bounded points ms D := by
  obtain ⟨D, h1, h2⟩ := h.bound
  exact ⟨D, fun ms hm => ⟨fun p hp m hx => h1 p hp m (hm m hx), h2⟩⟩

theorem Small.cost {points : List Row} (h : Small points) {ms : List Row} (hne : ms ≠ []) (hm : ∀ m ∈ ms, m ∈ points) :
    ∃ c, totalCost points ms = some c ∧ c.toNat = spread points ms := by
  obtain ⟨D, hb⟩ := h.bounded
  exact totalCost_spread hne (hb ms hm)

theorem Small.isMedoid {points : List Row} (h : Small points) {ms : List Row} (hm : ∀ m ∈ ms, m ∈ points) {p : Row} (hp : p ∈ points) :
    Bbv.isMedoid p ms = some (decide (p ∈ ms)) := by
  obtain ⟨D, hb⟩ := h.bounded
  obtain ⟨n, hn⟩ := h.length
  refine isMedoid_mem ms fun m hx => ⟨?_, by rw [hn p hp, hn m (hm m hx)]⟩
  exact Nat.lt_of_le_of_lt ((hb ms hm).bound p hp m hx) (hb ms hm).lt

/-- The state inside an iteration. -/
structure Inv (points : List Row) (k : Nat) (s : Swap) : Prop where
  length : s.medoids.length = k
  nodup : s.medoids.Nodup
  input : ∀ m ∈ s.medoids, m ∈ points
  cost : s.cost.toNat = spread points s.medoids

theorem nodup_set {α : Type} {x : α} : ∀ {l : List α} {j : Nat}, l.Nodup → x ∉ l → (l.set j x).Nodup
  | [], _, _, _ => List.nodup_nil
  | y :: l, 0, h, hx => by
    rw [List.set_cons_zero, List.nodup_cons]
    exact ⟨fun h1 => hx (List.mem_cons_of_mem _ h1), (List.nodup_cons.1 h).2⟩
  | y :: l, j + 1, h, hx => by
    rw [List.set_cons_succ, List.nodup_cons]
    rw [List.nodup_cons] at h
    refine ⟨fun h1 => ?_, nodup_set h.2 (fun h1 => hx (List.mem_cons_of_mem _ h1))⟩
    rcases List.mem_or_eq_of_mem_set h1 with h2 | rfl
    · exact h.1 h2
    · exact hx (List.mem_cons_self ..)

theorem ne_nil_of_length {α : Type} {l : List α} {k : Nat} (h : l.length = k) (hk : 0 < k) : l ≠ [] := by
  rintro rfl
  rw [List.length_nil] at h
  omega

theorem set_mem {points ms : List Row} {j : Nat} {p : Row} (hm : ∀ m ∈ ms, m ∈ points) (hp : p ∈ points) : ∀ m ∈ ms.set j p, m ∈ points := by
  intro m h
  rcases List.mem_or_eq_of_mem_set h with h | rfl
  · exact hm m h
  · exact hp

/-- What is known after some of the swaps were tried, for the number `m` of a medoid and the points `l`. -/
def Tried (points : List Row) (ms : List Row) (m : Nat) (l : List Row) : Prop := ∀ p ∈ l, p ∉ ms → spread points ms ≤ spread points (ms.set m p)

theorem trySwap_inv {points : List Row} (hsm : Small points) {k m : Nat} (hk : 0 < k) {p : Row} (hp : p ∈ points) {s : Swap} (hs : Inv points k s) (hn : p ∉ s.medoids) :
    ∃ s', trySwap points m p s = some s' ∧ Inv points k s' ∧
      (s' = s ∧ spread points s.medoids ≤ spread points (s.medoids.set m p) ∨ s'.progress = true) := by
  obtain ⟨c, h1, h2⟩ := hsm.cost (ms := s.medoids.set m p) (ne_nil_of_length (k := k) (by rw [List.length_set, hs.length]) hk) (set_mem hs.input hp)
  unfold trySwap
  rw [h1]
  refine ⟨_, rfl, ?_⟩
  by_cases hlt : c < s.cost
  · rw [if_pos hlt]
    exact ⟨⟨by rw [List.length_set, hs.length], nodup_set hs.nodup hn, set_mem hs.input hp, h2⟩, Or.inr rfl⟩
  · rw [if_neg hlt]
    refine ⟨hs, Or.inl ⟨rfl, ?_⟩⟩
    rw [BitVec.lt_def, h2, hs.cost] at hlt
    omega

theorem swapPoints_inv {points : List Row} (hsm : Small points) {k m : Nat} (hk : 0 < k) : ∀ (l : List Row) (s : Swap), (∀ p ∈ l, p ∈ points) → Inv points k s →
    ∃ s' r, swapPoints points m l s = some (s', r) ∧ Inv points k s' ∧ (r = true → s'.cost = 0) ∧
      (r = false → s'.progress = false → s' = s ∧ Tried points s.medoids m l) ∧ (s.progress = true → s'.progress = true)
  | [], s, _, hs => ⟨s, false, rfl, hs, fun h => (by cases h), fun _ _ => ⟨rfl, fun p hp => by cases hp⟩, fun h => h⟩
  | p :: l, s, hl, hs => by
    have hp := hl p (List.mem_cons_self ..)
    have hl' : ∀ p ∈ l, p ∈ points := fun q hq => hl q (List.mem_cons_of_mem _ hq)
    rw [swapPoints, hsm.isMedoid hs.input hp]
    by_cases hx : p ∈ s.medoids
    · rw [decide_eq_true hx]
      obtain ⟨s', r, h1, h2, h3, h4, h5⟩ := swapPoints_inv hsm (m := m) hk l s hl' hs
      refine ⟨s', r, h1, h2, h3, fun h6 h7 => ⟨(h4 h6 h7).1, fun q hq hn => ?_⟩, h5⟩
      rcases List.mem_cons.1 hq with rfl | hq
      · exact absurd hx hn
      · exact (h4 h6 h7).2 q hq hn
    · rw [decide_eq_false hx]
      dsimp only
      obtain ⟨s1, h1, h2, h3⟩ := trySwap_inv hsm (m := m) hk hp hs hx
      rw [h1]
      dsimp only
      by_cases hz : s1.cost = 0
      · rw [if_pos hz]
        refine ⟨s1, true, rfl, h2, fun _ => hz, fun h => (by cases h), fun h => ?_⟩
        rcases h3 with ⟨rfl, _⟩ | h3
        · exact h
        · exact h3
      · rw [if_neg hz]
        obtain ⟨s', r, h4, h5, h6, h7, h8⟩ := swapPoints_inv hsm (m := m) hk l s1 hl' h2
        refine ⟨s', r, h4, h5, h6, fun h9 h10 => ?_, fun h => ?_⟩
        · rcases h3 with ⟨rfl, h3⟩ | h3
          · obtain ⟨h11, h12⟩ := h7 h9 h10
            refine ⟨h11, fun q hq hn => ?_⟩
            rcases List.mem_cons.1 hq with rfl | hq
            · exact h3
            · exact h12 q hq hn
          · rw [h8 h3] at h10; cases h10
        · apply h8
          rcases h3 with ⟨rfl, _⟩ | h3
          · exact h
          · exact h3

theorem swapMedoids_inv {points : List Row} (hsm : Small points) {k : Nat} (hk : 0 < k) : ∀ (n m : Nat) (s : Swap), Inv points k s →
    ∃ s' r, swapMedoids points n m s = some (s', r) ∧ Inv points k s' ∧ (r = true → s'.cost = 0) ∧
      (r = false → s'.progress = false → s' = s ∧ ∀ j, m ≤ j → j < m + n → Tried points s.medoids j points) ∧ (s.progress = true → s'.progress = true)
  | 0, m, s, hs => ⟨s, false, rfl, hs, fun h => (by cases h), fun _ _ => ⟨rfl, fun j h1 h2 => absurd h2 (by omega)⟩, fun h => h⟩
  | n + 1, m, s, hs => by
    obtain ⟨s1, r1, h1, h2, h3, h4, h5⟩ := swapPoints_inv hsm (m := m) hk points s (fun _ h => h) hs
    rw [swapMedoids, h1]
    cases r1 with
    | true => exact ⟨s1, true, rfl, h2, fun _ => h3 rfl, fun h => (by cases h), h5⟩
    | false =>
      obtain ⟨s', r, h6, h7, h8, h9, h10⟩ := swapMedoids_inv hsm hk n (m + 1) s1 h2
      refine ⟨s', r, h6, h7, h8, fun h11 h12 => ?_, fun h => h10 (h5 h)⟩
      have hp : s1.progress = false := by
        cases hpr : s1.progress with
        | false => rfl
        | true => rw [h10 hpr] at h12; cases h12
      obtain ⟨rfl, h13⟩ := h4 rfl hp
      obtain ⟨h14, h15⟩ := h9 h11 h12
      refine ⟨h14, fun j h16 h17 => ?_⟩
      by_cases hj : j = m
      · rw [hj]; exact h13
      · exact h15 j (by omega) (by omega)

theorem spread_mono {points ms ns : List Row} (hne : ms ≠ []) (hs : ∀ m ∈ ms, m ∈ ns) : spread points ns ≤ spread points ms := by
  unfold spread
  induction points with
  | nil => exact Nat.le_refl _
  | cons p l ih =>
    rw [List.map_cons, List.map_cons, List.sum_cons, List.sum_cons]
    have := nearest_mono hne hs p
    omega

/-- A swap with a point that is a medoid already does not lower the cost. -/
theorem optimum_of_tried {points ms : List Row} (h : ∀ j, j < ms.length → Tried points ms j points) : LocalOptimum points ms := by
  intro j hj p hp
  by_cases hx : p ∈ ms
  · refine spread_mono (List.ne_nil_of_length_pos (by rw [List.length_set]; omega)) fun m hm => ?_
    rcases List.mem_or_eq_of_mem_set hm with h1 | rfl
    · exact h1
    · exact hx
  · exact h j hj p hp hx

/-- **C33** and **C34**: if distances fit, an iteration from a clustering gives a clustering; if it reports progress, the sum of the
distances is less than before; if not, no replacement of a medoid by a point lowers the sum. -/
theorem C34_iteration {points : List Row} (hsm : Small points) {k : Nat} (hk : 0 < k) {p : Pam} (hp : Clustering points k p) :
    ∃ p' b, iteration p = some (p', b) ∧ Clustering points k p' ∧ (b = true → spread points p'.medoids < spread points p.medoids) ∧
      (b = false → LocalOptimum points p'.medoids) := by
  obtain ⟨pts, ms, c⟩ := p
  obtain ⟨hpt, h1, h2, h3, h4⟩ := hp
  cases hpt
  have hinv : Inv pts k { medoids := ms, cost := c, progress := false } := ⟨h1, h2, h3, h4⟩
  obtain ⟨s, r, h5, h6, h7, h8, _⟩ := swapMedoids_inv hsm hk ms.length 0 _ hinv
  have hi : iteration { points := pts, medoids := ms, cost := c } = some ({ points := pts, medoids := s.medoids, cost := s.cost }, !r && s.progress) := by
    unfold iteration
    dsimp only
    rw [h5]
  have hc0 : totalCost pts ms = some c := by
    obtain ⟨d, h9, h10⟩ := hsm.cost (ne_nil_of_length h1 hk) h3
    rw [h9, BitVec.eq_of_toNat_eq (h10.trans h4.symm)]
  refine ⟨_, _, hi, ⟨rfl, h6.length, h6.nodup, h6.input, h6.cost⟩, fun hb => ?_, fun hb => ?_⟩
  · have := (C33_iteration_partial hc0 hi).2.2.1 hb
    rw [BitVec.lt_def] at this
    rw [← h6.cost, ← h4]
    exact this
  · cases hr : r with
    | true =>
      have h9 : spread pts s.medoids = 0 := by rw [← h6.cost, h7 hr]; rfl
      intro j _ q _
      show spread pts s.medoids ≤ _
      omega
    | false =>
      rw [hr, Bool.not_false, Bool.true_and] at hb
      obtain ⟨rfl, h10⟩ := h8 hr hb
      exact optimum_of_tried fun j hj => h10 j (Nat.zero_le _) (by rw [Nat.zero_add]; exact hj)

/-- **C34**: if distances fit, iterating ends in a clustering whose medoids are `k` different points of the input, and no replacement of a
medoid by a point lowers the sum of the distances. -/
theorem C34_optimum_partial {points : List Row} (hsm : Small points) {k : Nat} (hk : 0 < k) : ∀ (n : Nat) (p : Pam), Clustering points k p → p.cost.toNat < n →
    ∃ p', iterate n p = some (some p') ∧ Clustering points k p' ∧ LocalOptimum points p'.medoids ∧ spread points p'.medoids ≤ spread points p.medoids
  | 0, p, _, h => absurd h (by omega)
  | n + 1, p, hp, hn => by
    obtain ⟨p1, b, h1, h2, h3, h4⟩ := C34_iteration hsm hk hp
    rw [iterate, h1]
    cases b with
    | false =>
      refine ⟨p1, rfl, h2, h4 rfl, ?_⟩
      have hc0 : totalCost p.points p.medoids = some p.cost := by
        obtain ⟨d, h9, h10⟩ := hsm.cost (ne_nil_of_length hp.length hk) hp.input
        rw [hp.pts, h9, BitVec.eq_of_toNat_eq (h10.trans hp.cost.symm)]
      have := (C33_iteration_partial hc0 h1).2.2.2
      rw [BitVec.le_def] at this
      rw [← h2.cost, ← hp.cost]
      exact this
    | true =>
      have h5 := h3 rfl
      obtain ⟨p2, h6, h7, h8, h9⟩ := C34_optimum_partial hsm hk n p1 h2 (by rw [h2.cost]; rw [hp.cost] at hn; omega)
      exact ⟨p2, h6, h7, h8, by omega⟩

/-! ### The first medoids -/

theorem firstPoints_inv {points : List Row} (hsm : Small points) {k : Nat} : ∀ (l ms : List Row), (∀ p ∈ l, p ∈ points) → (∀ m ∈ ms, m ∈ points) → ms.Nodup →
    ms.length < k → ∃ ns, firstPoints k l ms = some ns ∧ ns.Nodup ∧ (∀ m ∈ ns, m ∈ points) ∧ ns.length ≤ k ∧
      (ns.length < k → (∀ p ∈ l, p ∈ ns) ∧ ∀ m ∈ ms, m ∈ ns)
  | [], ms, _, hm, hn, hk => ⟨ms, rfl, hn, hm, by omega, fun _ => ⟨fun p hp => (by cases hp), fun m h => h⟩⟩
  | p :: l, ms, hl, hm, hn, hk => by
    have hp := hl p (List.mem_cons_self ..)
    have hl' : ∀ p ∈ l, p ∈ points := fun q hq => hl q (List.mem_cons_of_mem _ hq)
    rw [firstPoints, hsm.isMedoid hm hp]
    by_cases hx : p ∈ ms
    · rw [decide_eq_true hx]
      obtain ⟨ns, h1, h2, h3, h4, h5⟩ := firstPoints_inv hsm l ms hl' hm hn hk
      refine ⟨ns, h1, h2, h3, h4, fun h => ⟨fun q hq => ?_, (h5 h).2⟩⟩
      rcases List.mem_cons.1 hq with rfl | hq
      · exact (h5 h).2 _ hx
      · exact (h5 h).1 q hq
    · rw [decide_eq_false hx]
      dsimp only
      have hm' : ∀ m ∈ ms ++ [p], m ∈ points := by
        intro m h
        rcases List.mem_append.1 h with h | h
        · exact hm m h
        · rw [List.mem_singleton.1 h]; exact hp
      have hn' : (ms ++ [p]).Nodup := by
        rw [List.nodup_append]
        refine ⟨hn, by simp, fun a ha b hb => ?_⟩
        rw [List.mem_singleton.1 hb]
        rintro rfl
        exact hx ha
      by_cases hlen : (ms ++ [p]).length = k
      · rw [if_pos hlen]
        exact ⟨_, rfl, hn', hm', by omega, fun h => absurd h (by omega)⟩
      · rw [if_neg hlen]
        have hlt : (ms ++ [p]).length < k := by rw [List.length_append, List.length_singleton] at hlen ⊢; omega
        obtain ⟨ns, h1, h2, h3, h4, h5⟩ := firstPoints_inv hsm l (ms ++ [p]) hl' hm' hn' hlt
        refine ⟨ns, h1, h2, h3, h4, fun h => ⟨fun q hq => ?_, fun m h6 => (h5 h).2 m (List.mem_append_left _ h6)⟩⟩
        rcases List.mem_cons.1 hq with rfl | hq
        · exact (h5 h).2 _ (List.mem_append_right _ (List.mem_singleton_self _))
        · exact (h5 h).1 q hq

theorem length_le_of_nodup : ∀ (a b : List Row), a.Nodup → (∀ m ∈ a, m ∈ b) → a.length ≤ b.length
  | [], _, _, _ => Nat.zero_le _
  | x :: a, b, h, hs => by
    rw [List.nodup_cons] at h
    have hx := hs x (List.mem_cons_self ..)
    have := length_le_of_nodup a (b.erase x) h.2 fun m hm => by
      rw [List.mem_erase_of_ne (fun he => h.1 (by rw [← he]; exact hm))]
      exact hs m (List.mem_cons_of_mem _ hm)
    rw [List.length_erase_of_mem hx] at this
    have hp := List.length_pos_of_mem hx
    rw [List.length_cons]
    omega

/-- **C34**: if distances fit, a clustering around `k` medoids is set up exactly if the input has `k` different points. -/
theorem C34_start {points : List Row} (hsm : Small points) {k : Nat} (hk : 0 < k) :
    (∃ p, initialise points k = some (some p) ∧ Clustering points k p) ∨
    (initialise points k = some none ∧ ¬ ∃ ms : List Row, ms.Nodup ∧ ms.length = k ∧ ∀ m ∈ ms, m ∈ points) := by
  obtain ⟨ns, h1, h2, h3, h4, h5⟩ := firstPoints_inv hsm points [] (fun _ h => h) (fun m h => by cases h) List.nodup_nil hk
  unfold initialise
  rw [if_neg (by omega), h1]
  dsimp only
  by_cases hlt : k > ns.length
  · right
    rw [if_pos hlt]
    refine ⟨rfl, ?_⟩
    rintro ⟨ms, h6, h7, h8⟩
    have : ms.length ≤ ns.length := by
      exact length_le_of_nodup ms ns h6 (fun m hm => (h5 hlt).1 m (h8 m hm))
    omega
  · left
    rw [if_neg hlt]
    have hlen : ns.length = k := by omega
    obtain ⟨c, h6, h7⟩ := hsm.cost (ne_nil_of_length hlen hk) h3
    rw [h6]
    exact ⟨_, rfl, rfl, hlen, h2, h3, h7⟩

/-- **C34**, all of it: for points whose distances fit, of which at least `k` are different, `pam_initialise` and `pam_iteration` until it
returns false end, with `k` different points of the input as medoids, such that no replacement of one of them by a point lowers the sum of the distances
of all points to their nearest medoid, and the recorded cost is that sum. -/
theorem C34_clustering_partial {points : List Row} (hsm : Small points) {k : Nat} (hk : 0 < k)
    (hd : ∃ ms : List Row, ms.Nodup ∧ ms.length = k ∧ ∀ m ∈ ms, m ∈ points) :
    ∃ p n p', initialise points k = some (some p) ∧ iterate n p = some (some p') ∧ p'.medoids.length = k ∧ p'.medoids.Nodup ∧
      (∀ m ∈ p'.medoids, m ∈ points) ∧ p'.cost.toNat = spread points p'.medoids ∧ LocalOptimum points p'.medoids := by
  rcases C34_start hsm hk with ⟨p, h1, h2⟩ | ⟨_, h2⟩
  · obtain ⟨p', h3, h4, h5, _⟩ := C34_optimum_partial hsm hk (p.cost.toNat + 1) p h2 (Nat.lt_succ_self _)
    exact ⟨p, _, p', h1, h3, h4.length, h4.nodup, h4.input, h4.cost, h5⟩
  · exact absurd hd h2

/-- Five points on a line, two of them equal: their distances fit, and two medoids are found. -/
example : Small [[0], [1], [10], [11], [11]] ∧
    ((initialise [[0], [1], [10], [11], [11]] 2).bind fun o => o.bind fun p => (iterate 10 p).map fun o => o.map fun p => (p.medoids, p.cost)) =
      some (some ([[11], [1]], 2)) := by
  refine ⟨⟨⟨1, by decide⟩, ⟨11, by decide, by decide⟩⟩, by decide +kernel⟩

/-- **C34 is refuted without the bound**: two different points at a distance of 2^64 are taken for the same, and there is no clustering around
two medoids, although the input has two different points. -/
theorem C34_refuted :
    let a : Row := [0, 0, 0, 0]
    let b : Row := [0x4000000000000000, 0x4000000000000000, 0x4000000000000000, 0x4000000000000000]
    a ≠ b ∧ initialise [a, b] 2 = some none := by
  decide +kernel

/-- **C33 is refuted without the bound**: the absolute value of the difference is undefined. -/
theorem C33_refuted : initialise [[0], [0x8000000000000000]] 1 = none := by decide +kernel

end Bbv
