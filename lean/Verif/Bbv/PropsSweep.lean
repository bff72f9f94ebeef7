import Verif.Bbv.WeightsLemmas
import Verif.Bbv.PropsVectorsCases
/-!
C84: the summary of a trace that qtrace-bbv prints.
-/
namespace Bbv
open Spec

/-! ### Numbers of different points -/

theorem different_spec (points : List Row) : ∃ l : List Row, l.Nodup ∧ l.length = different points ∧ ∀ p, p ∈ l ↔ p ∈ points := by
  induction points with
  | nil => exact ⟨[], List.nodup_nil, rfl, fun p => Iff.rfl⟩
  | cons q t ih =>
    obtain ⟨l, h1, h2, h3⟩ := ih
    rw [different]
    by_cases hq : q ∈ t
    · rw [if_pos hq]
      refine ⟨l, h1, h2, fun p => ?_⟩
      rw [h3, List.mem_cons]
      exact ⟨Or.inr, fun h => h.elim (fun he => he ▸ hq) id⟩
    · rw [if_neg hq]
      refine ⟨q :: l, List.nodup_cons.2 ⟨fun h => hq ((h3 q).1 h), h1⟩, by rw [List.length_cons, h2], fun p => ?_⟩
      rw [List.mem_cons, List.mem_cons, h3]

theorem different_of_nodup {points ms : List Row} (hn : ms.Nodup) (hm : ∀ m ∈ ms, m ∈ points) : ms.length ≤ different points := by
  obtain ⟨l, h1, h2, h3⟩ := different_spec points
  rw [← h2]
  exact length_le_of_nodup ms l hn fun m h => (h3 m).2 (hm m h)

theorem different_le_of_cover {points ms : List Row} (h : ∀ p ∈ points, p ∈ ms) : different points ≤ ms.length := by
  obtain ⟨l, h1, h2, h3⟩ := different_spec points
  rw [← h2]
  exact length_le_of_nodup l ms h1 fun m hm => h m ((h3 m).1 hm)

/-- As many different points as there are: all of them. -/
theorem cover_of_different : ∀ (ms l : List Row), ms.Nodup → (∀ m ∈ ms, m ∈ l) → l.length ≤ ms.length → ∀ p ∈ l, p ∈ ms
  | [], l, _, _, hl, p, hp => by
    have := List.length_pos_of_mem hp
    rw [List.length_nil] at hl
    omega
  | x :: ms, l, hn, hm, hl, p, hp => by
    rw [List.nodup_cons] at hn
    have hx := hm x (List.mem_cons_self ..)
    by_cases he : p = x
    · rw [he]; exact List.mem_cons_self ..
    · have hpos := List.length_pos_of_mem hx
      refine List.mem_cons_of_mem _ (cover_of_different ms (l.erase x) hn.2 (fun m h => ?_) ?_ p ((List.mem_erase_of_ne he).2 hp))
      · rw [List.mem_erase_of_ne (fun hh => hn.1 (by rw [← hh]; exact h))]
        exact hm m (List.mem_cons_of_mem _ h)
      · rw [List.length_erase_of_mem hx]
        rw [List.length_cons] at hl
        omega

theorem spread_zero {points ms : List Row} (hsm : Small points) (hne : ms ≠ []) (hm : ∀ m ∈ ms, m ∈ points) : spread points ms = 0 ↔ ∀ p ∈ points, p ∈ ms := by
  obtain ⟨n, hlen⟩ := hsm.length
  unfold spread
  rw [List.sum_eq_zero_iff_forall_eq_nat]
  constructor
  · intro h p hp
    have h1 := h _ (List.mem_map_of_mem hp)
    obtain ⟨⟨m, h2, h3⟩, _⟩ := nearest_spec hne p
    rw [h1] at h3
    rw [(apart_zero (by rw [hlen p hp, hlen m (hm m h2)])).1 h3.symm]
    exact h2
  · intro h x hx
    obtain ⟨p, hp, rfl⟩ := List.mem_map.1 hx
    have := (nearest_spec hne p).2 p (h p hp)
    rw [(apart_zero rfl).2 rfl] at this
    omega

/-! ### One clustering -/

/-- **C55**: the line of a medoid has the first interval with its vector, and counts exactly the intervals it is the first of the nearest medoids of. -/
theorem C55_counts_partial {points : List Row} (hsm : Small points) {k : Nat} (hk : 0 < k) {p : Pam} (hp : Clustering points k p) :
    ∃ ws, weights p = some ws ∧ ws.length = k ∧ ∀ (j : Nat) (w : Weight) (m : Row), ws[j]? = some w → p.medoids[j]? = some m →
      FirstAt points m w.offset ∧ w.count = members points p.medoids j :=
  let ⟨ws, h1, h2, _, h4⟩ := weights_full hsm hk hp
  ⟨ws, h1, h2, h4⟩

theorem line_toNat {period : BitVec 64} {P : Nat} (hP : period.toNat = P) (h0 : 0 < P) {o : Nat} {w : Weight} (hw : w.offset = o) (h : (o + 1) * P < 2 ^ 64) :
    (line period w).first.toNat = o * P ∧ (line period w).last.toNat = o * P + (P - 1) := by
  have h1 : (o + 1) * P = o * P + P := Nat.succ_mul o P
  have h2 : o ≤ o * P := Nat.le_mul_of_pos_right o h0
  have hp : period = BitVec.ofNat 64 P := by rw [← hP, BitVec.ofNat_toNat, BitVec.setWidth_eq]
  unfold line
  rw [hw, hp, ofNat64_succ]
  constructor
  · show (BitVec.ofNat 64 o * BitVec.ofNat 64 P).toNat = _
    rw [← BitVec.ofNat_mul, ofNat_toNat_lt (by omega)]
  · show (BitVec.ofNat 64 (o + 1) * BitVec.ofNat 64 P - 1).toNat = _
    rw [← BitVec.ofNat_mul, BitVec.toNat_sub, ofNat_toNat_lt h]
    show (2 ^ 64 - 1 + (o + 1) * P) % 2 ^ 64 = _
    omega

/-- `do_one_pam`, if there are enough different points. -/
theorem onePam_describes {period : BitVec 64} {P : Nat} (hP : period.toNat = P) (h0 : 0 < P) {points : List Row} (hsm : Small points) (hlen : points.length * P < 2 ^ 64)
    {k : Nat} (hk : 0 < k) (hd : k ≤ different points) :
    ∃ r ms, onePam period points k = .ok r ∧ r.k = k ∧ r.Describes P points ms ∧ (r.cost = 0 ↔ k = different points) := by
  obtain ⟨l, hl1, hl2, hl3⟩ := different_spec points
  rcases C34_start hsm hk with ⟨p, h1, h2⟩ | ⟨_, h2⟩
  · obtain ⟨p', h3, h4, h5, _⟩ := C34_optimum_partial hsm hk (p.cost.toNat + 1) p h2 (Nat.lt_succ_self _)
    obtain ⟨ws, h6, h7, hsum, h8⟩ := weights_full hsm hk h4
    refine ⟨{ k := k, cost := p'.cost, lines := ws.map (line period) }, p'.medoids, ?_, rfl,
      ⟨h4.length, h4.nodup, h4.input, h5, h4.cost, by show (ws.map (line period)).length = _; rw [List.length_map, h7, h4.length], by
        show ((ws.map (line period)).map (·.count)).sum = _
        rw [List.map_map]; exact hsum, ?_⟩, ?_⟩
    · unfold onePam
      rw [h1]
      dsimp only
      rw [h3]
      dsimp only
      rw [h6]
    · intro j ln m hln hm
      have hln : (ws.map (line period))[j]? = some ln := hln
      rw [List.getElem?_map] at hln
      cases hw : ws[j]? with
      | none => rw [hw] at hln; cases hln
      | some w =>
        rw [hw] at hln
        cases hln
        obtain ⟨h9, h10⟩ := h8 j w m hw hm
        have ho : w.offset < points.length := (List.getElem?_eq_some_iff.1 h9.1).1
        obtain ⟨h11, h12⟩ := line_toNat hP h0 (w := w) rfl (Nat.lt_of_le_of_lt (Nat.mul_le_mul_right P ho) hlen)
        exact ⟨w.offset, h9, h11, h12, h10⟩
    · have hz := spread_zero hsm (ne_nil_of_length h4.length hk) h4.input
      have hc : p'.cost = 0 ↔ spread points p'.medoids = 0 := by
        rw [← h4.cost]
        exact ⟨fun h => by rw [h]; rfl, fun h => BitVec.eq_of_toNat_eq h⟩
      show p'.cost = 0 ↔ _
      rw [hc, hz]
      constructor
      · intro h
        have := different_le_of_cover h
        rw [h4.length] at this
        omega
      · intro h q hq
        exact cover_of_different p'.medoids l h4.nodup (fun m hm => (hl3 m).2 (h4.input m hm)) (by rw [hl2, h4.length]; omega) q ((hl3 q).2 hq)
  · refine absurd ⟨l.take k, (List.take_sublist k l).nodup hl1, ?_, fun m hm => (hl3 m).1 (List.mem_of_mem_take hm)⟩ h2
    rw [List.length_take]; omega

theorem onePam_fails {period : BitVec 64} {points : List Row} (hsm : Small points) {k : Nat} (hk : different points < k) : onePam period points k = .error .exit := by
  rcases C34_start hsm (k := k) (by omega) with ⟨p, h1, h2⟩ | ⟨h1, _⟩
  · have := different_of_nodup h2.nodup h2.input
    rw [h2.length] at this
    omega
  · unfold onePam
    rw [h1]

/-! ### The sweep -/

theorem sweep_describes {period : BitVec 64} {P : Nat} (hP : period.toNat = P) (h0 : 0 < P) {points : List Row} (hsm : Small points) (hlen : points.length * P < 2 ^ 64) :
    ∀ (n k : Nat), 0 < k → k ≤ different points → ∃ reports, sweep period points n k = (reports, .done) ∧ reports.length = min n (different points + 1 - k) ∧
      ∀ (i : Nat) (r : Report), reports[i]? = some r → r.k = k + i ∧ (∃ ms, r.Describes P points ms) ∧ (r.cost = 0 ↔ k + i = different points)
  | 0, k, _, _ => ⟨[], rfl, by simp, fun i r h => by simp at h⟩
  | n + 1, k, hk, hd => by
    obtain ⟨r, ms, h1, h2, h3, h4⟩ := onePam_describes hP h0 hsm hlen hk hd
    by_cases hz : r.cost = 0
    · refine ⟨[r], by rw [sweep, h1]; dsimp only; rw [if_pos hz], ?_, fun i x hx => ?_⟩
      · have := h4.1 hz
        rw [List.length_singleton]; omega
      · cases i with
        | zero =>
          have : r = x := by simpa using hx
          rw [← this]
          exact ⟨h2, ⟨ms, h3⟩, h4⟩
        | succ i => simp at hx
    · have hlt : k < different points := Nat.lt_of_le_of_ne hd (fun h => hz (h4.2 h))
      obtain ⟨rest, h5, h6, h7⟩ := sweep_describes hP h0 hsm hlen n (k + 1) (by omega) (by omega)
      refine ⟨r :: rest, by rw [sweep, h1]; dsimp only; rw [if_neg hz, h5], ?_, fun i x hx => ?_⟩
      · rw [List.length_cons, h6]; omega
      · cases i with
        | zero =>
          have : r = x := by simpa using hx
          rw [← this]
          exact ⟨h2, ⟨ms, h3⟩, h4⟩
        | succ i =>
          have h8 := h7 i x (by simpa using hx)
          rw [show k + 1 + i = k + (i + 1) from by omega] at h8
          exact h8

/-! ### The points of a trace -/

/-- What is asked of the size of a trace: distances of intervals do not overflow, and the projected matrix fits. -/
structure Sized (e : Env) (recs : List Rec) (dims : Nat) : Prop where
  distances : 2 * max 1 dims * recs.length * (recs.length / e.length + 1) < 2 ^ 63
  projected : ((starts (cut recs recs.length).blocks).length + 1) * dims * 8 < 2 ^ 64
  result : recs.length / e.length * dims * 8 < 2 ^ 64

theorem toInt_small {x : BitVec 64} {n : Nat} (h : x.toNat = n) (hn : n < 2 ^ 63) : x.toInt = n := by
  rw [BitVec.toInt_eq_toNat_of_lt (by omega), h]

theorem points_get {R C : Nat} {f : Nat → Nat → BitVec 64} {i : Nat} {row : Row} (h : ((List.range R).map fun r => (List.range C).map (f r))[i]? = some row) :
    i < R ∧ row = (List.range C).map (f i) := by
  rw [List.getElem?_map] at h
  by_cases hi : i < R
  · rw [List.getElem?_range hi] at h
    exact ⟨hi, (Option.some.inj h).symm⟩
  · rw [List.getElem?_eq_none (by rw [List.length_range]; omega)] at h; cases h

theorem row_get {C : Nat} {f : Nat → BitVec 64} {j : Nat} {x : BitVec 64} (h : ((List.range C).map f)[j]? = some x) : j < C ∧ x = f j := by
  rw [List.getElem?_map] at h
  by_cases hi : j < C
  · rw [List.getElem?_range hi] at h
    exact ⟨hi, (Option.some.inj h).symm⟩
  · rw [List.getElem?_eq_none (by rw [List.length_range]; omega)] at h; cases h

theorem small_of_bound {R C D : Nat} {f : Nat → Nat → BitVec 64} (h : ∀ i j, i < R → j < R → apart ((List.range C).map (f i)) ((List.range C).map (f j)) ≤ D)
    (hD : D * (R + 1) < 2 ^ 63) : Small ((List.range R).map fun r => (List.range C).map (f r)) := by
  have key : ∀ a, a ∈ ((List.range R).map fun r => (List.range C).map (f r)) → ∃ i, i < R ∧ a = (List.range C).map (f i) := by
    intro a ha
    obtain ⟨i, hi, rfl⟩ := List.mem_map.1 ha
    exact ⟨i, List.mem_range.1 hi, rfl⟩
  refine ⟨⟨C, fun a ha => ?_⟩, D, fun a ha b hb => ?_, by rw [List.length_map, List.length_range]; exact hD⟩
  · obtain ⟨i, _, rfl⟩ := key a ha
    rw [List.length_map, List.length_range]
  · obtain ⟨i, hi, rfl⟩ := key a ha
    obtain ⟨j, hj, rfl⟩ := key b hb
    exact h i j hi hj

/-- The points that are clustered are those of the trace, and their distances fit. -/
theorem points_of_trace {e : Env} (he : e.Good) {recs : List Rec} (hf : Fits e recs) (coin : Nat → Bool) (dims : BitVec 32) (hs : Sized e recs dims.toNat) :
    ∃ s m b, parse e recs = .ok s ∧ vectors e s = .ok m ∧ reduced e.heap coin m dims = .ok b ∧
      IsPoints e.length recs (fun d j => coin (j * dims.toNat + d)) dims.toNat (rowsOf b) ∧ Small (rowsOf b) := by
  obtain ⟨s, m, f, h1, h2, h3, h4⟩ := C36_vectors_partial he hf
  have hP := e.length_pos
  have hd63 := hs.distances
  have hsum : ∀ i, ((List.range ((starts (cut recs recs.length).blocks).length + 1)).map (vector e.length (cut recs recs.length).blocks i)).sum ≤ recs.length :=
    fun i => row_total e.length recs hP i _ (Nat.le_succ _)
  have hsum0 : ∀ i, ((List.range ((starts (cut recs recs.length).blocks).length)).map (vector e.length (cut recs recs.length).blocks i)).sum ≤ recs.length :=
    fun i => row_total e.length recs hP i _ (Nat.le_refl _)
  have hbig : recs.length < 2 ^ 63 := by
    refine Nat.lt_of_le_of_lt ?_ hd63
    rw [Nat.mul_comm (2 * max 1 dims.toNat), Nat.mul_assoc]
    apply Nat.le_mul_of_pos_right
    exact Nat.mul_pos (by omega) (Nat.succ_pos _)
  have hvle := vector_le e.length recs
  by_cases hz : dims = 0
  · have hz0 : dims.toNat = 0 := by rw [hz]; rfl
    refine ⟨s, m, m, h1, h2, by unfold reduced; rw [if_neg (fun h => h hz)], ?_, ?_⟩
    · rw [rowsOf_holds h3]
      refine ⟨by rw [List.length_map, List.length_range], fun _ i row hrow => ?_, fun h => absurd hz0 h⟩
      obtain ⟨hi, rfl⟩ := points_get hrow
      refine ⟨by rw [List.length_map, List.length_range], fun j x hx => ?_⟩
      obtain ⟨_, rfl⟩ := row_get hx
      exact h4 i j hi
    · rw [rowsOf_holds h3]
      refine small_of_bound (D := 2 * recs.length) (fun i j hi hj => ?_) ?_
      · rw [apart_range]
        refine Nat.le_trans (sum_range_le (g := fun c => vector e.length (cut recs recs.length).blocks i c + vector e.length (cut recs recs.length).blocks j c) fun c hc => ?_) ?_
        · unfold gap
          have := hvle i c
          have := hvle j c
          rw [toInt_small (h4 i c hi) (by omega), toInt_small (h4 j c hj) (by omega)]
          omega
        · rw [sum_add]
          rw [Nat.two_mul]
          exact Nat.add_le_add (hsum i) (hsum j)
      · rw [hz0] at hd63
        exact hd63
  · have hz0 : dims.toNat ≠ 0 := fun h => hz (BitVec.eq_of_toNat_eq h)
    have hdl : (dims.setWidth 64).toNat = dims.toNat := by
      rw [BitVec.toNat_setWidth, Nat.mod_eq_of_lt]
      have := dims.isLt
      omega
    obtain ⟨b, h5, h6⟩ := projection_holds he.memory coin h3 (dims.setWidth 64) (by rw [hdl]; exact hs.projected) (by rw [hdl]; exact hs.result)
    rw [hdl] at h6
    have hent : ∀ i d, i < recs.length / e.length → (product ((starts (cut recs recs.length).blocks).length + 1) f (fun r c => if signAt coin dims.toNat r c then -1 else 1) i d).toInt =
        signed (fun j => coin (j * dims.toNat + d)) (vector e.length (cut recs recs.length).blocks i) (starts (cut recs recs.length).blocks).length := by
      intro i d hi
      have := hsum i
      rw [product_signed f _ (fun j => coin (j * dims.toNat + d)) (vector e.length (cut recs recs.length).blocks i) i d _ (by omega) (fun j _ => h4 i j hi) (fun j _ => rfl),
        signed_succ, vector_outside _ _ _ _ (Nat.le_refl _)]
      split <;> simp
    refine ⟨s, m, b, h1, h2, by unfold reduced; rw [if_pos hz]; exact h5, ?_, ?_⟩
    · rw [rowsOf_holds h6]
      refine ⟨by rw [List.length_map, List.length_range], fun h => absurd h hz0, fun _ i row hrow => ?_⟩
      obtain ⟨hi, rfl⟩ := points_get hrow
      refine ⟨by rw [List.length_map, List.length_range], fun d x hx => ?_⟩
      obtain ⟨_, rfl⟩ := row_get hx
      exact hent i d hi
    · rw [rowsOf_holds h6]
      refine small_of_bound (D := dims.toNat * (2 * recs.length)) (fun i j hi hj => ?_) ?_
      · rw [apart_range]
        refine Nat.le_trans (sum_range_le (g := fun _ => 2 * recs.length) fun c hc => ?_) (Nat.le_of_eq (sum_range_const _ _))
        unfold gap
        rw [hent i c hi, hent j c hj]
        have := signed_bound (fun j => coin (j * dims.toNat + c)) (vector e.length (cut recs recs.length).blocks i) (starts (cut recs recs.length).blocks).length
        have := signed_bound (fun j => coin (j * dims.toNat + c)) (vector e.length (cut recs recs.length).blocks j) (starts (cut recs recs.length).blocks).length
        have := hsum0 i
        have := hsum0 j
        omega
      · have : dims.toNat * (2 * recs.length) = 2 * max 1 dims.toNat * recs.length := by
          rw [Nat.max_eq_right (by omega), Nat.mul_comm 2 dims.toNat, Nat.mul_assoc]
        rw [this]
        exact hd63

/-! ### The summary -/

theorem summarise_eq {e : Env} {recs : List Rec} {coin : Nat → Bool} {dims k : BitVec 32} {s : St} {m b : Matrix} (h1 : parse e recs = .ok s) (h2 : vectors e s = .ok m)
    (h3 : reduced e.heap coin m dims = .ok b) : summarise e recs coin dims k = clusterings e.period (rowsOf b) k := by
  unfold summarise
  rw [h1]
  dsimp only
  unfold doPam
  rw [h2]
  dsimp only
  rw [h3]

theorem length_period {e : Env} (hp : e.period ≠ 0) : e.period.toNat = e.length := by
  unfold Env.length
  have : e.period.toNat ≠ 0 := fun h => hp (BitVec.eq_of_toNat_eq h)
  omega

theorem intervals_fit {e : Env} {recs : List Rec} (hf : Fits e recs) {n : Nat} (h : n = recs.length / e.length) : n * e.length < 2 ^ 64 := by
  rw [h]
  exact Nat.lt_of_le_of_lt (Nat.div_mul_le_self _ _) hf.length

theorem different_pos {points : List Row} (h : 0 < points.length) : 1 ≤ different points := by
  cases points with
  | nil => cases h
  | cons p l =>
    refine different_of_nodup (ms := [p]) (by simp) fun m hm => ?_
    rw [List.mem_singleton.1 hm]
    exact List.mem_cons_self ..

/-- **C84**: for a trace with at least one complete interval, the program tries one medoid, then two, and so on, prints a table for each, and ends with
status 0 after the table for as many medoids as there are different points, or for 32.  Every table describes medoids of the points of the intervals, and the cost is 0
exactly for as many medoids as there are different points. -/
theorem C84_sweep_partial {e : Env} (he : e.Good) {recs : List Rec} (hf : Fits e recs) (hp : e.period ≠ 0) (h1 : e.length ≤ recs.length) (coin : Nat → Bool) (dims : BitVec 32)
    (hs : Sized e recs dims.toNat) :
    ∃ points reports, IsPoints e.length recs (fun d j => coin (j * dims.toNat + d)) dims.toNat points ∧ summarise e recs coin dims 0 = (reports, .done) ∧
      reports.length = min 32 (different points) ∧
      ∀ (i : Nat) (r : Report), reports[i]? = some r → r.k = 1 + i ∧ (∃ ms, r.Describes e.length points ms) ∧ (r.cost = 0 ↔ 1 + i = different points) := by
  obtain ⟨s, m, b, h2, h3, h4, h5, h6⟩ := points_of_trace he hf coin dims hs
  have hn : 0 < (rowsOf b).length := by
    rw [h5.length]
    exact Nat.div_pos h1 e.length_pos
  obtain ⟨reports, h7, h8, h9⟩ := sweep_describes (length_period hp) e.length_pos h6 (intervals_fit hf h5.length) 32 1 (by omega) (different_pos hn)
  refine ⟨rowsOf b, reports, h5, ?_, by rw [h8]; omega, h9⟩
  rw [summarise_eq h2 h3 h4]
  unfold clusterings
  rw [if_neg (fun h => h rfl)]
  exact h7

/-- **C84**: with the option `-k`, one table is printed if there are that many different points; if not, the program ends with status 1 and prints none. -/
theorem C84_chosen_partial {e : Env} (he : e.Good) {recs : List Rec} (hf : Fits e recs) (hp : e.period ≠ 0) (coin : Nat → Bool) (dims k : BitVec 32) (hk : k ≠ 0)
    (hs : Sized e recs dims.toNat) :
    ∃ points, IsPoints e.length recs (fun d j => coin (j * dims.toNat + d)) dims.toNat points ∧
      (k.toNat ≤ different points → ∃ r ms, summarise e recs coin dims k = ([r], .done) ∧ r.k = k.toNat ∧ r.Describes e.length points ms) ∧
      (different points < k.toNat → summarise e recs coin dims k = ([], .exit)) := by
  obtain ⟨s, m, b, h2, h3, h4, h5, h6⟩ := points_of_trace he hf coin dims hs
  have hk0 : 0 < k.toNat := Nat.pos_of_ne_zero fun h => hk (BitVec.eq_of_toNat_eq h)
  refine ⟨rowsOf b, h5, fun hd => ?_, fun hd => ?_⟩
  · obtain ⟨r, ms, h7, h8, h9, _⟩ := onePam_describes (length_period hp) e.length_pos h6 (intervals_fit hf h5.length) hk0 hd
    refine ⟨r, ms, ?_, h8, h9⟩
    rw [summarise_eq h2 h3 h4]
    unfold clusterings
    rw [if_pos hk, h7]
  · rw [summarise_eq h2 h3 h4]
    unfold clusterings
    rw [if_pos hk, onePam_fails h6 hd]

/-- **C84**: in a table with cost 0, the weight of a line is the number of intervals with the same point as the interval of the line. -/
theorem C84_exact {P : Nat} {points ms : List Row} (hsm : Small points) {r : Report} (hr : r.Describes P points ms) (hk : 0 < r.k) (hc : r.cost = 0)
    {j : Nat} {l : Line} (hl : r.lines[j]? = some l) :
    ∃ o m, points[o]? = some m ∧ l.first.toNat = o * P ∧ l.count = points.count m := by
  have hj : j < ms.length := by rw [← hr.length]; exact (List.getElem?_eq_some_iff.1 hl).1
  have hm : ms[j]? = some ms[j] := List.getElem?_eq_getElem hj
  obtain ⟨o, h1, h2, _, h4⟩ := hr.lines j l _ hl hm
  refine ⟨o, ms[j], h1.1, h2, ?_⟩
  have hne : ms ≠ [] := List.ne_nil_of_length_pos (by rw [hr.k]; exact hk)
  have hcov := (spread_zero hsm hne hr.input).1 (by rw [← hr.cost, hc]; rfl)
  obtain ⟨n, hlen⟩ := hsm.length
  rw [h4]
  unfold members
  rw [← List.countP_eq_length_filter]
  unfold List.count
  apply List.countP_congr
  intro p hp
  -- a point is its own nearest medoid
  have hpm := hcov p hp
  have hz : nearest ms p = 0 := by
    have := (nearest_spec hne p).2 p hpm
    rw [(apart_zero rfl).2 rfl] at this
    omega
  obtain ⟨x, hx, hxe⟩ := List.getElem_of_mem hpm
  have hidx : assigned ms p = x := by
    unfold assigned
    rw [hz]
    apply idxOf_first
    · rw [List.getElem?_map, List.getElem?_eq_getElem hx, hxe]
      show some (apart p p) = _
      rw [(apart_zero rfl).2 rfl]
    · intro y hy hcon
      have hy' : y < ms.length := by omega
      rw [List.getElem?_map, List.getElem?_eq_getElem hy'] at hcon
      have h5 : apart p ms[y] = 0 := Option.some.inj hcon
      have h6 := (apart_zero (by rw [hlen p hp, hlen _ (hr.input _ (List.getElem_mem hy'))])).1 h5
      have := nodup_index hr.nodup (i := y) (j := x) (m := p) (by rw [List.getElem?_eq_getElem hy', ← h6]) (by rw [List.getElem?_eq_getElem hx, hxe])
      omega
  rw [hidx, beq_iff_eq, beq_iff_eq]
  constructor
  · rintro rfl; exact hxe.symm
  · intro h
    exact nodup_index hr.nodup (m := p) (by rw [List.getElem?_eq_getElem hx, hxe]) (by rw [hm, h])

/-- **C84 is refuted for short traces**: if there is no complete interval, the program prints no table and ends with status 1. -/
theorem C84_short_refuted {e : Env} (he : e.Good) {recs : List Rec} (hf : Fits e recs) (h1 : recs.length < e.length) (coin : Nat → Bool) (dims k : BitVec 32)
    (hs : Sized e recs dims.toNat) : summarise e recs coin dims k = ([], .exit) := by
  obtain ⟨s, m, b, h2, h3, h4, h5, h6⟩ := points_of_trace he hf coin dims hs
  have hn : rowsOf b = [] := by
    apply List.eq_nil_of_length_eq_zero
    rw [h5.length]
    exact Nat.div_eq_of_lt h1
  rw [hn] at h6
  rw [summarise_eq h2 h3 h4, hn]
  unfold clusterings
  by_cases hk : k = 0
  · rw [if_neg (fun h => h hk), sweep, onePam_fails h6 (show different [] < 1 by decide)]
  · rw [if_pos hk, onePam_fails h6]
    exact Nat.pos_of_ne_zero fun h => hk (BitVec.eq_of_toNat_eq h)

/-! ### A trace -/

theorem sample_sized (dims : BitVec 32) (h : dims.toNat ≤ 127) : Sized (plenty 4) sample dims.toNat := by
  have h1 : sample.length / (plenty 4).length = 2 := by decide +kernel
  have h2 : (starts (cut sample sample.length).blocks).length = 3 := by decide +kernel
  have h3 : sample.length = 10 := rfl
  refine ⟨?_, ?_, ?_⟩
  · rw [h1, h3]; omega
  · rw [h2]; omega
  · rw [h1]; omega

/-- The ten instructions of `sample`, in intervals of four: the points are [3, 1, 0, 0] and [3, 0, 0, 0].  Two tables are printed. -/
example (coin : Nat → Bool) : ∃ points reports, IsPoints 4 sample (fun d j => coin (j * 0 + d)) 0 points ∧ summarise (plenty 4) sample coin 0 0 = (reports, .done) ∧
    reports.length = min 32 (different points) :=
  let ⟨p, r, h1, h2, h3, _⟩ := C84_sweep_partial (plenty_good 4) sample_fits (by decide) (by decide) coin 0 (sample_sized 0 (by decide))
  ⟨p, r, h1, h2, h3⟩

/-- What is printed for these points. -/
example : clusterings 4 [[3, 1, 0, 0], [3, 0, 0, 0]] 0 =
    ([{ k := 1, cost := 1, lines := [{ first := 0, last := 3, count := 2 }] },
      { k := 2, cost := 0, lines := [{ first := 0, last := 3, count := 1 }, { first := 4, last := 7, count := 1 }] }], .done) := by decide +kernel

/-- A projection of the points with the signs +, - / -, + / +, + / -, -. -/
example : (projection { grants := fun _ => true, junk := 7 } (fun n => n = 1 || n = 2 || n = 6 || n = 7) { rows := 2, cols := 4, data := [3, 1, 0, 0, 3, 0, 0, 0] } 2).toOption =
    some { rows := 2, cols := 2, data := [2, -2, 3, -3] } := by decide +kernel

/-- The same trace, with intervals of 20 instructions: nothing is printed. -/
example (coin : Nat → Bool) : summarise (plenty 20) sample coin 0 0 = ([], .exit) := by
  have h1 : sample.length / (plenty 20).length = 0 := by decide +kernel
  have h2 : (starts (cut sample sample.length).blocks).length = 3 := by decide +kernel
  refine C84_short_refuted (plenty_good 20) ⟨by decide, by decide +kernel, by decide +kernel, by decide, by rw [h1, h2]; decide, fun i hi => by rw [h1] at hi; omega⟩ (by decide) coin 0 0
    ⟨by rw [h1]; decide, by rw [h2]; decide, by rw [h1]; decide⟩

/-- The last of the tables above: two lines of weight 1. -/
example : ∃ r ms, onePam 4 [[3, 1, 0, 0], [3, 0, 0, 0]] 2 = .ok r ∧ r.Describes 4 [[3, 1, 0, 0], [3, 0, 0, 0]] ms ∧ r.cost = 0 := by
  obtain ⟨r, ms, h1, _, h3, h4⟩ := onePam_describes (period := 4) rfl (by decide) (points := [[3, 1, 0, 0], [3, 0, 0, 0]])
    ⟨⟨4, by decide⟩, 1, by decide +kernel, by decide⟩ (by decide) (k := 2) (by decide) (by decide)
  exact ⟨r, ms, h1, h3, h4.2 (by decide)⟩

/-- **C84 is refuted for a period of 0**: the intervals have one instruction, but all lines have the same interval, from 0 to -1. -/
theorem C84_period_refuted : clusterings 0 [[1, 0], [0, 1]] 2 =
    ([{ k := 2, cost := 0, lines := [{ first := 0, last := -1, count := 1 }, { first := 0, last := -1, count := 1 }] }], .done) := by decide +kernel

end Bbv
