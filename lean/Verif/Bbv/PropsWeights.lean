import Verif.Bbv.PropsPam
/-!
C55: the table of medoids and weights.
-/
namespace Bbv

/-- The table after some points: for each medoid, what was found and how many points it has. -/
structure Table (points medoids : List Row) (n : Nat) (ws : List Weight) : Prop where
  length : ws.length = medoids.length
  count : (ws.map (·.count)).sum = n
  found : ∀ (j : Nat) (w : Weight) (m : Row), ws[j]? = some w → medoids[j]? = some m → (w.found = true → points[w.offset]? = some m) ∧
    (w.found = false → ∀ i, i < n → points[i]? ≠ some m)

theorem sum_set (f : Weight → Nat) : ∀ (l : List Weight) (j : Nat) (w v : Weight), l[j]? = some w → ((l.set j v).map f).sum + f w = (l.map f).sum + f v
  | [], j, w, v, h => by simp at h
  | x :: l, 0, w, v, h => by
    have : x = w := by simpa using h
    subst this
    simp only [List.set_cons_zero, List.map_cons, List.sum_cons]
    omega
  | x :: l, j + 1, w, v, h => by
    have := sum_set f l j w v (by simpa using h)
    simp only [List.set_cons_succ, List.map_cons, List.sum_cons]
    omega

theorem nodup_index {ms : List Row} (h : ms.Nodup) {i j : Nat} {m : Row} (hi : ms[i]? = some m) (hj : ms[j]? = some m) : i = j := by
  exact (List.getElem?_inj (List.getElem?_eq_some_iff.1 hi).1 h).1 (hi.trans hj.symm)

/-- One point. -/
theorem weigh_table {points : List Row} (hsm : Small points) {ms : List Row} (hne : ms ≠ []) (hnd : ms.Nodup) (hin : ∀ m ∈ ms, m ∈ points) {n : Nat} {x : Row}
    (hx : points[n]? = some x) {ws : List Weight} (ht : Table points ms n ws) :
    ∃ j c w, findMedoid ms x = some (some j, c) ∧ ws[j]? = some w ∧ Table points ms (n + 1) (ws.set j (weigh w n c)) := by
  obtain ⟨D, hb⟩ := hsm.bounded
  obtain ⟨len, hlen⟩ := hsm.length
  have hxm := List.mem_of_getElem? hx
  have hb' := hb ms hin
  obtain ⟨j, c, m, h1, h2, h3, h4⟩ := findMedoid_nearest hne (p := x) (fun m hm => Nat.lt_of_le_of_lt (hb'.bound x hxm m hm) hb'.lt)
  have hj : j < ws.length := by rw [ht.length]; exact (List.getElem?_eq_some_iff.1 h2).1
  obtain ⟨w, hw⟩ : ∃ w, ws[j]? = some w := ⟨ws[j], List.getElem?_eq_getElem hj⟩
  refine ⟨j, c, w, h1, hw, by rw [List.length_set]; exact ht.length, ?_, ?_⟩
  · have h5 := sum_set (·.count) ws j w (weigh w n c) hw
    have h6 : (weigh w n c).count = w.count + 1 := by
      unfold weigh
      dsimp only
      split <;> rfl
    rw [h6, ht.count] at h5
    omega
  · -- the point is a medoid if it is at distance 0 of the nearest
    have hzero : c = 0 ↔ x = m := by
      rw [← apart_zero (by rw [hlen x hxm, hlen m (hin m (List.mem_of_getElem? h2))]), h4, ← h3]
      exact ⟨fun h => by rw [h]; rfl, fun h => BitVec.eq_of_toNat_eq h⟩
    intro i v m' hv hm'
    rw [List.getElem?_set] at hv
    by_cases hij : j = i
    · subst hij
      rw [if_pos rfl, if_pos hj] at hv
      have hmm : m' = m := by rw [h2] at hm'; exact (Option.some.inj hm').symm
      subst hmm
      obtain ⟨hf1, hf2⟩ := ht.found j w m' hw hm'
      cases hv
      unfold weigh
      dsimp only
      by_cases hc : (decide (c = 0) && !w.found) = true
      · rw [if_pos hc]
        refine ⟨fun _ => ?_, fun h => (by cases h)⟩
        simp at hc
        rw [← hzero.1 hc.1]; exact hx
      · rw [if_neg hc]
        refine ⟨hf1, fun hnf k hk => ?_⟩
        have hnf : w.found = false := hnf
        by_cases hkn : k = n
        · rw [hkn, hx]
          intro he
          have : c = 0 := hzero.2 (Option.some.inj he)
          rw [hnf, this] at hc
          exact hc rfl
        · exact hf2 hnf k (by omega)
    · rw [if_neg hij] at hv
      obtain ⟨hf1, hf2⟩ := ht.found i v m' hv hm'
      refine ⟨hf1, fun hnf k hk => ?_⟩
      by_cases hkn : k = n
      · rw [hkn, hx]
        intro he
        have he := Option.some.inj he
        -- the medoid itself is nearest to itself
        have h5 : apart x m' = 0 := (apart_zero (by rw [he])).2 he
        have h6 := (nearest_spec hne x).2 m' (List.mem_of_getElem? hm')
        have h7 : x = m := hzero.1 (BitVec.eq_of_toNat_eq (by rw [h3]; show nearest ms x = 0; omega))
        refine hij (nodup_index hnd h2 ?_)
        rw [hm', ← he, h7]
      · exact hf2 hnf k (by omega)

theorem weighPoints_table {points : List Row} (hsm : Small points) {ms : List Row} (hne : ms ≠ []) (hnd : ms.Nodup) (hin : ∀ m ∈ ms, m ∈ points) :
    ∀ (l : List Row) (n : Nat) (ws : List Weight), points.drop n = l → Table points ms n ws →
    ∃ ws', weighPoints ms l n ws = some ws' ∧ Table points ms (n + l.length) ws'
  | [], n, ws, _, ht => ⟨ws, rfl, ht⟩
  | x :: l, n, ws, hl, ht => by
    have hx : points[n]? = some x := by
      have := congrArg (·[0]?) hl
      rw [show (points.drop n)[0]? = points[n + 0]? from List.getElem?_drop] at this
      simpa using this
    obtain ⟨j, c, w, h1, h2, h3⟩ := weigh_table hsm hne hnd hin hx ht
    have hl' : points.drop (n + 1) = l := by
      rw [← List.drop_drop, hl]; rfl
    obtain ⟨ws', h4, h5⟩ := weighPoints_table hsm hne hnd hin l (n + 1) _ hl' h3
    refine ⟨ws', ?_, by rw [List.length_cons, show n + (l.length + 1) = n + 1 + l.length from by omega]; exact h5⟩
    rw [weighPoints, h1]
    dsimp only
    rw [h2]
    exact h4

/-- **C55**: for a clustering of points whose distances fit, the printed table has an interval of the trace for every medoid, whose basic-block
vector is that of the medoid, and the weights add up to the number of intervals. -/
theorem C55_weights_partial {points : List Row} (hsm : Small points) {k : Nat} (hk : 0 < k) {p : Pam} (hp : Clustering points k p) :
    ∃ ws, weights p = some ws ∧ ws.length = k ∧ (ws.map (·.count)).sum = points.length ∧
      ∀ (j : Nat) (m : Row), p.medoids[j]? = some m → ∃ w : Weight, ws[j]? = some w ∧ w.found = true ∧ points[w.offset]? = some m := by
  have h0 : Table points p.medoids 0 (List.replicate p.medoids.length {}) := by
    refine ⟨List.length_replicate, by simp, fun j w m hw hm => ⟨fun h => ?_, fun _ i hi => absurd hi (by omega)⟩⟩
    rw [List.getElem?_replicate] at hw
    split at hw
    · cases hw; cases h
    · cases hw
  obtain ⟨ws, h1, h2⟩ := weighPoints_table hsm (ne_nil_of_length hp.length hk) hp.nodup hp.input points 0 _ rfl h0
  rw [Nat.zero_add] at h2
  refine ⟨ws, by unfold weights; rw [hp.pts]; exact h1, by rw [h2.length, hp.length], h2.count, fun j m hm => ?_⟩
  have hj : j < ws.length := by rw [h2.length]; exact (List.getElem?_eq_some_iff.1 hm).1
  obtain ⟨w, hw⟩ : ∃ w, ws[j]? = some w := ⟨ws[j], List.getElem?_eq_getElem hj⟩
  obtain ⟨h3, h4⟩ := h2.found j w m hw hm
  cases hf : w.found with
  | true => exact ⟨w, hw, hf, h3 hf⟩
  | false =>
    exfalso
    obtain ⟨i, hi, he⟩ := List.getElem_of_mem (hp.input m (List.mem_of_getElem? hm))
    exact h4 hf i hi (by rw [List.getElem?_eq_getElem hi, he])

/-- The medoids 11 and 1 of the points 0, 1, 10, 11, 11 are printed as the points 3 and 1. -/
example : weights { points := [[0], [1], [10], [11], [11]], medoids := [[11], [1]], cost := 2 } =
    some [{ found := true, offset := 3, count := 3 }, { found := true, offset := 1, count := 2 }] := by decide +kernel

/-- **C55 is refuted without the bound**: if all distances are the greatest number, an entry before the table is written. -/
theorem C55_refuted : weights { points := [[0, 0, 0]], medoids := [[0x7fffffffffffffff, 0x7fffffffffffffff, 1]], cost := 0 } = none := by decide +kernel

end Bbv
