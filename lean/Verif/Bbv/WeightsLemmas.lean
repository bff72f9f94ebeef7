import Verif.Bbv.SweepLemmas
/-!
Which points the table of medoids counts where.
-/
namespace Bbv

theorem idxOf_first {x : Nat} : ∀ {l : List Nat} {j : Nat}, l[j]? = some x → (∀ i < j, l[i]? ≠ some x) → l.idxOf x = j
  | [], j, h, _ => by simp at h
  | y :: l, 0, h, _ => by
    have : y = x := by simpa using h
    rw [this, List.idxOf_cons_self]
  | y :: l, j + 1, h, hn => by
    have h0 : y ≠ x := fun he => hn 0 (by omega) (by simp [he])
    rw [List.idxOf_cons, show (y == x) = false from by simpa using h0, cond_false, idxOf_first (l := l) (by simpa using h) fun i hi => by simpa using hn (i + 1) (by omega)]

theorem findFrom_first {point : Row} : ∀ (l : List Row) (i : Nat) (ret : Option Nat) (cost : BitVec 64), (∀ m ∈ l, apart point m < 2 ^ 63) →
    ∃ r c, findFrom point l i ret cost = some (r, c) ∧ c.toNat ≤ cost.toNat ∧
      (r = ret ∧ c = cost ∨ ∃ j m, r = some (i + j) ∧ l[j]? = some m ∧ apart point m = c.toNat ∧ c.toNat < cost.toNat ∧
        ∀ x < j, ∀ m', l[x]? = some m' → c.toNat < apart point m')
  | [], i, ret, cost, _ => ⟨ret, cost, rfl, Nat.le_refl _, Or.inl ⟨rfl, rfl⟩⟩
  | m :: l, i, ret, cost, h => by
    obtain ⟨s, h1, h2⟩ := distance_apart (h m (List.mem_cons_self ..))
    rw [findFrom, h1]
    dsimp only
    by_cases hs : s < cost
    · obtain ⟨r, c, h3, h4, h5⟩ := findFrom_first l (i + 1) (some i) s (fun x hx => h x (List.mem_cons_of_mem _ hx))
      rw [if_pos hs]
      rw [BitVec.lt_def] at hs
      refine ⟨r, c, h3, by omega, Or.inr ?_⟩
      rcases h5 with ⟨rfl, rfl⟩ | ⟨j, x, rfl, h6, h7, h8, h9⟩
      · exact ⟨0, m, rfl, rfl, h2.symm, hs, fun x hx => absurd hx (Nat.not_lt_zero x)⟩
      · refine ⟨j + 1, x, by rw [show i + 1 + j = i + (j + 1) from by omega], h6, h7, by omega, fun y hy m' hm' => ?_⟩
        cases y with
        | zero =>
          have : m = m' := by simpa using hm'
          rw [← this]; omega
        | succ y => exact h9 y (by omega) m' (by simpa using hm')
    · obtain ⟨r, c, h3, h4, h5⟩ := findFrom_first l (i + 1) ret cost (fun x hx => h x (List.mem_cons_of_mem _ hx))
      rw [if_neg hs]
      rw [BitVec.lt_def] at hs
      refine ⟨r, c, h3, h4, ?_⟩
      rcases h5 with h5 | ⟨j, x, rfl, h6, h7, h8, h9⟩
      · exact Or.inl h5
      · refine Or.inr ⟨j + 1, x, by rw [show i + 1 + j = i + (j + 1) from by omega], h6, h7, h8, fun y hy m' hm' => ?_⟩
        cases y with
        | zero =>
          have : m = m' := by simpa using hm'
          rw [← this]; omega
        | succ y => exact h9 y (by omega) m' (by simpa using hm')

theorem findMedoid_assigned {ms : List Row} {p : Row} (h : ∀ m ∈ ms, apart p m < 2 ^ 63) {j : Nat} {c : BitVec 64} (hf : findMedoid ms p = some (some j, c))
    (hne : ms ≠ []) : j = assigned ms p := by
  obtain ⟨j', c', m', h1, _, h3, _⟩ := findMedoid_nearest hne h
  rw [hf] at h1
  obtain ⟨h4, h5⟩ := Prod.mk.inj (Option.some.inj h1)
  obtain ⟨r, d, h6, _, h7⟩ := findFrom_first ms 0 none 0xffffffffffffffff h
  unfold findMedoid at hf
  rw [hf] at h6
  obtain ⟨h8, h9⟩ := Prod.mk.inj (Option.some.inj h6)
  rcases h7 with ⟨h7, _⟩ | ⟨x, m, h10, h11, h12, _, h14⟩
  · rw [h7] at h8; cases h8
  · rw [h10, Nat.zero_add] at h8
    have hx : j = x := Option.some.inj h8
    subst hx
    have hc : c = d := h9
    subst hc
    rw [← h5] at h3
    unfold assigned
    rw [idxOf_first (l := ms.map (apart p))]
    · rw [List.getElem?_map, h11]
      show some (apart p m) = _
      rw [h12, h3]
    · intro i hi hx
      rw [List.getElem?_map] at hx
      cases hm : ms[i]? with
      | none => rw [hm] at hx; cases hx
      | some m' =>
        rw [hm] at hx
        have := h14 i hi m' hm
        have h15 : apart p m' = nearest ms p := Option.some.inj hx
        omega

/-- The table after some points, with the points of every medoid. -/
structure FullTable (points medoids : List Row) (n : Nat) (ws : List Weight) : Prop where
  table : Table points medoids n ws
  counts : ∀ (j : Nat) (w : Weight), ws[j]? = some w → w.count = members (points.take n) medoids j
  first : ∀ (j : Nat) (w : Weight) (m : Row), ws[j]? = some w → medoids[j]? = some m → w.found = true → FirstAt points m w.offset

theorem weigh_full {points : List Row} (hsm : Small points) {ms : List Row} (hne : ms ≠ []) (hnd : ms.Nodup) (hin : ∀ m ∈ ms, m ∈ points) {n : Nat} {x : Row}
    (hx : points[n]? = some x) {ws : List Weight} (ht : FullTable points ms n ws) :
    ∃ j c w, findMedoid ms x = some (some j, c) ∧ ws[j]? = some w ∧ FullTable points ms (n + 1) (ws.set j (weigh w n c)) := by
  obtain ⟨j, c, w, h1, h2, h3⟩ := weigh_table hsm hne hnd hin hx ht.table
  obtain ⟨D, hb⟩ := hsm.bounded
  have hxm := List.mem_of_getElem? hx
  have hb' := hb ms hin
  have hj := findMedoid_assigned (p := x) (fun m hm => Nat.lt_of_le_of_lt (hb'.bound x hxm m hm) hb'.lt) h1 hne
  have hjl : j < ws.length := (List.getElem?_eq_some_iff.1 h2).1
  refine ⟨j, c, w, h1, h2, h3, fun i v hv => ?_, fun i v m hv hm hfd => ?_⟩
  · have htake : points.take (n + 1) = points.take n ++ [x] := by rw [List.take_add_one, hx]; rfl
    have hmem : members (points.take (n + 1)) ms i = members (points.take n) ms i + if assigned ms x = i then 1 else 0 := by
      unfold members
      rw [htake, List.filter_append, List.length_append]
      congr 1
      by_cases he : assigned ms x = i
      · rw [if_pos he, List.filter_cons_of_pos (by simpa using he)]; rfl
      · rw [if_neg he, List.filter_cons_of_neg (by simpa using he)]; rfl
    rw [hmem, ← hj]
    rw [List.getElem?_set] at hv
    by_cases hij : j = i
    · subst hij
      rw [if_pos rfl, if_pos hjl] at hv
      rw [if_pos rfl, ← ht.counts j w h2]
      cases hv
      unfold weigh
      dsimp only
      split <;> rfl
    · rw [if_neg hij] at hv
      rw [if_neg hij, ht.counts i v hv, Nat.add_zero]
  · have hold := h3.found i v m hv hm
    rw [List.getElem?_set] at hv
    by_cases hij : j = i
    · subst hij
      rw [if_pos rfl, if_pos hjl] at hv
      cases hw : w.found with
      | true =>
        have := ht.first j w m h2 hm hw
        cases hv
        unfold weigh
        rw [hw]
        simp only [Bool.not_true, Bool.and_false, Bool.false_eq_true, if_false]
        exact this
      | false =>
        have hno := (ht.table.found j w m h2 hm).2 hw
        have hoff : v.offset = n := by
          cases hv
          unfold weigh at hfd ⊢
          by_cases hc : c = 0
          · rw [hw, hc]; rfl
          · exfalso
            rw [hw, decide_eq_false hc] at hfd
            rw [show (if (false && !false) = true then { w with found := true, offset := n } else w) = w from rfl] at hfd
            have : w.found = true := hfd
            rw [hw] at this; cases this
        refine ⟨hold.1 hfd, ?_⟩
        rw [hoff]
        exact hno
    · rw [if_neg hij] at hv
      exact ht.first i v m hv hm hfd

theorem weighPoints_full {points : List Row} (hsm : Small points) {ms : List Row} (hne : ms ≠ []) (hnd : ms.Nodup) (hin : ∀ m ∈ ms, m ∈ points) :
    ∀ (l : List Row) (n : Nat) (ws : List Weight), points.drop n = l → FullTable points ms n ws →
    ∃ ws', weighPoints ms l n ws = some ws' ∧ FullTable points ms (n + l.length) ws'
  | [], n, ws, _, ht => ⟨ws, rfl, ht⟩
  | x :: l, n, ws, hl, ht => by
    have hx : points[n]? = some x := by
      have := congrArg (·[0]?) hl
      rw [show (points.drop n)[0]? = points[n + 0]? from List.getElem?_drop] at this
      simpa using this
    obtain ⟨j, c, w, h1, h2, h3⟩ := weigh_full hsm hne hnd hin hx ht
    have hl' : points.drop (n + 1) = l := by
      rw [← List.drop_drop, hl]; rfl
    obtain ⟨ws', h4, h5⟩ := weighPoints_full hsm hne hnd hin l (n + 1) _ hl' h3
    refine ⟨ws', ?_, by rw [List.length_cons, show n + (l.length + 1) = n + 1 + l.length from by omega]; exact h5⟩
    rw [weighPoints, h1]
    dsimp only
    rw [h2]
    exact h4

theorem weights_full {points : List Row} (hsm : Small points) {k : Nat} (hk : 0 < k) {p : Pam} (hp : Clustering points k p) :
    ∃ ws, weights p = some ws ∧ ws.length = k ∧ (ws.map (·.count)).sum = points.length ∧ ∀ (j : Nat) (w : Weight) (m : Row), ws[j]? = some w → p.medoids[j]? = some m →
      FirstAt points m w.offset ∧ w.count = members points p.medoids j := by
  obtain ⟨ws, h1, h2, hsum, h4⟩ := C55_weights_partial hsm hk hp
  have h0 : FullTable points p.medoids 0 (List.replicate p.medoids.length {}) := by
    refine ⟨⟨List.length_replicate, by simp, fun j w m hw hm => ⟨fun h => ?_, fun _ i hi => absurd hi (by omega)⟩⟩, fun j w hw => ?_, fun j w m hw hm h => ?_⟩
    all_goals
      rw [List.getElem?_replicate] at hw
      split at hw
      · cases hw
        first | (cases h; done) | rfl
      · cases hw
  obtain ⟨ws', h5, h6⟩ := weighPoints_full hsm (ne_nil_of_length hp.length hk) hp.nodup hp.input points 0 _ rfl h0
  have he : ws' = ws := by
    unfold weights at h1
    rw [hp.pts, h5] at h1
    exact Option.some.inj h1
  subst he
  refine ⟨ws', h1, h2, hsum, fun j w m hw hm => ?_⟩
  obtain ⟨w', h7, h8, _⟩ := h4 j m hm
  rw [hw] at h7
  cases h7
  refine ⟨h6.first j w m hw hm h8, ?_⟩
  rw [h6.counts j w hw, Nat.zero_add, List.take_length]

end Bbv
