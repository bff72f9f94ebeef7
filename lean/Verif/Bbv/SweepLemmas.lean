import Verif.Bbv.SpecSweep
import Verif.Bbv.PropsWeights
import Verif.Bbv.PropsMatrix
import Verif.Bbv.PropsVectors
/-!
Points, projections and tables of medoids.
-/
namespace Bbv
open Spec

/-! ### The rows of a matrix -/

theorem rowsOf_holds {m : Matrix} {R C : Nat} {f : Nat → Nat → BitVec 64} (h : Holds m R C f) :
    rowsOf m = (List.range R).map fun r => (List.range C).map (f r) := by
  unfold rowsOf
  rw [h.rows, h.cols]
  apply List.map_congr_left
  intro r hr
  have hr := List.mem_range.1 hr
  by_cases hC : C = 0
  · subst hC
    rw [List.take_zero]; rfl
  have he : m.entry (BitVec.ofNat 64 r) 0 = r * C := by
    have := h.index (c := 0) hr (by omega)
    exact this
  rw [he]
  apply List.ext_getElem?
  intro c
  rw [List.getElem?_take]
  by_cases hc : c < C
  · rw [if_pos hc, List.getElem?_drop, h.entry r c hr hc, List.getElem?_map, List.getElem?_range hc]
    rfl
  · rw [if_neg hc, List.getElem?_eq_none]
    rw [List.length_map, List.length_range]; omega

/-! ### Sums -/

theorem sum_range_le {f g : Nat → Nat} {n : Nat} (h : ∀ x < n, f x ≤ g x) : ((List.range n).map f).sum ≤ ((List.range n).map g).sum := by
  induction n with
  | zero => exact Nat.le_refl _
  | succ n ih =>
    have := ih fun x hx => h x (by omega)
    have := h n (by omega)
    rw [List.range_succ, List.map_append, List.map_append, List.sum_append, List.sum_append, List.map_singleton, List.map_singleton, List.sum_singleton, List.sum_singleton]
    omega

theorem sum_range_const (c n : Nat) : ((List.range n).map fun _ => c).sum = n * c := by
  induction n with
  | zero => rw [Nat.zero_mul]; rfl
  | succ n ih =>
    rw [List.range_succ, List.map_append, List.sum_append, ih, List.map_singleton, List.sum_singleton, Nat.succ_mul]

theorem apart_range (f g : Nat → BitVec 64) (C : Nat) : apart ((List.range C).map f) ((List.range C).map g) = ((List.range C).map fun c => gap (f c) (g c)).sum := by
  unfold apart
  congr 1
  induction C with
  | zero => rfl
  | succ n ih =>
    rw [List.range_succ, List.map_append, List.map_append, List.zip_append (by rw [List.length_map, List.length_map]), List.map_append, ih, List.map_append]
    rfl

/-- The instructions of an interval. -/
theorem row_total (P : Nat) (recs : List Rec) (hP : 0 < P) (i K : Nat) (hK : (starts (cut recs recs.length).blocks).length ≤ K) :
    ((List.range K).map fun j => vector P (cut recs recs.length).blocks i j).sum ≤ recs.length := by
  have h1 := vector_total P (i + 1) hP (cut recs recs.length).blocks K hK
  rw [List.range_succ, List.map_append, List.sum_append, List.map_singleton, List.sum_singleton] at h1
  have h2 := sum_le_filter (fun b => decide (b.last < (i + 1) * P)) (cut recs recs.length).blocks
  have h3 := C35_blocks recs
  omega

theorem vector_outside (P : Nat) (l : List Block) (i j : Nat) (h : (starts l).length ≤ j) : vector P l i j = 0 := by
  unfold vector
  rw [List.getElem?_eq_none h]

/-! ### Projections -/

theorem signed_succ (s : Nat → Bool) (v : Nat → Nat) (K : Nat) : signed s v (K + 1) = signed s v K + (if s K then -(v K : Int) else v K) := by
  unfold signed
  rw [List.range_succ, List.map_append, List.sum_append, List.map_singleton, List.sum_singleton]

theorem signed_bound (s : Nat → Bool) (v : Nat → Nat) (K : Nat) : (signed s v K).natAbs ≤ ((List.range K).map v).sum := by
  induction K with
  | zero => exact Nat.le_refl _
  | succ n ih =>
    rw [signed_succ, List.range_succ, List.map_append, List.sum_append, List.map_singleton, List.sum_singleton]
    split <;> omega

/-- A sum of products with 1 and -1. -/
theorem product_signed (f g : Nat → Nat → BitVec 64) (s : Nat → Bool) (v : Nat → Nat) (r c : Nat) : ∀ (K : Nat), ((List.range K).map v).sum < 2 ^ 63 →
    (∀ j < K, (f r j).toNat = v j) → (∀ j < K, g j c = if s j then -1 else 1) → (product K f g r c).toInt = signed s v K
  | 0, _, _, _ => by
    have : product 0 f g r c = 0 := rfl
    rw [this]; rfl
  | K + 1, hs, hf, hg => by
    have hs' := hs
    rw [List.range_succ, List.map_append, List.sum_append, List.map_singleton, List.sum_singleton] at hs'
    have ih := product_signed f g s v r c K (by omega) (fun j hj => hf j (by omega)) (fun j hj => hg j (by omega))
    have hv : (f r K).toInt = v K := by
      rw [BitVec.toInt_eq_toNat_of_lt (by rw [hf K (by omega)]; omega), hf K (by omega)]
    have hb := signed_bound s v (K + 1)
    have hb0 := signed_bound s v K
    rw [signed_succ] at hb ⊢
    rw [product_succ, BitVec.toInt_add, ih, hg K (by omega)]
    have hm : (f r K * (if s K then -1 else 1)).toInt = if s K then -(v K : Int) else v K := by
      cases s K with
      | false =>
        rw [if_neg (by decide), if_neg (by decide), show (1 : BitVec 64) = 1#64 from rfl, BitVec.mul_one, hv]
      | true =>
        rw [if_pos rfl, if_pos rfl, BitVec.mul_neg, show (1 : BitVec 64) = 1#64 from rfl, BitVec.mul_one, BitVec.toInt_neg, hv]
        rw [Int.bmod_eq_of_le (by omega) (by omega)]
    rw [hm]
    have : ((List.range (K + 1)).map v).sum < 2 ^ 63 := hs
    apply Int.bmod_eq_of_le <;> omega

/-- The sign of an entry: the numbers are drawn row by row. -/
def signAt (coin : Nat → Bool) (C r c : Nat) : Bool := coin (r * C + c)

theorem putOne_holds {coin : Nat → Bool} {m : Matrix} {R C : Nat} {f : Nat → Nat → BitVec 64} (h : Holds m R C f) {r c : Nat} (hr : r < R) (hc : c < C) :
    ∃ m', putOne coin (BitVec.ofNat 64 r) (m, r * C + c) (BitVec.ofNat 64 c) = .ok (m', r * C + (c + 1)) ∧
      Holds m' R C (fun r' c' => if r' = r ∧ c' = c then (if signAt coin C r c then -1 else 1) else f r' c') := by
  obtain ⟨m1, h1, h2⟩ := h.store hr hc 1
  unfold putOne signAt
  dsimp only
  rw [h1]
  dsimp only
  cases coin (r * C + c) with
  | false =>
    rw [if_neg (by decide)]
    exact ⟨m1, rfl, h2.congr fun r' c' _ _ => rfl⟩
  | true =>
    obtain ⟨m2, h3, h4⟩ := h2.store hr hc (-1)
    rw [if_pos rfl, h3]
    refine ⟨m2, rfl, h4.congr fun r' c' _ _ => ?_⟩
    rw [if_pos rfl]
    by_cases hx : r' = r ∧ c' = c
    · rw [if_pos hx, if_pos hx]
    · rw [if_neg hx, if_neg hx, if_neg hx]

theorem randomOnes_holds {coin : Nat → Bool} {m : Matrix} {R C : Nat} {f : Nat → Nat → BitVec 64} (h : Holds m R C f) :
    ∃ m', randomOnes coin m = .ok m' ∧ Holds m' R C (fun r c => if signAt coin C r c then -1 else 1) := by
  have hout := loop_inv (fun i (s : Matrix × Nat) => s.2 = i * C ∧
      Holds s.1 R C (fun r c => if r < i then (if signAt coin C r c then -1 else 1) else f r c)) (n := m.rows) (s := (m, 0))
    (body := fun s row => loop m.cols s (putOne coin row))
    ⟨by rw [Nat.zero_mul], h.congr fun r c _ _ => by rw [if_neg (Nat.not_lt_zero r)]⟩ (by
      intro i hi s hs
      rw [h.rows] at hi
      obtain ⟨s1, s2⟩ := s
      obtain ⟨hs1, hs2⟩ := hs
      dsimp only at hs1 hs2
      have hin := loop_inv (fun j (t : Matrix × Nat) => t.2 = i * C + j ∧
          Holds t.1 R C (fun r c => if r < i ∨ r = i ∧ c < j then (if signAt coin C r c then -1 else 1) else f r c)) (n := m.cols) (s := (s1, s2))
        (body := putOne coin (BitVec.ofNat 64 i)) ⟨by dsimp only; rw [hs1, Nat.add_zero], hs2.congr fun r c _ _ => by
          by_cases hx : r < i
          · rw [if_pos hx, if_pos (Or.inl hx)]
          · rw [if_neg hx, if_neg (by omega)]⟩ (by
          intro j hj t ht
          rw [h.cols] at hj
          obtain ⟨t1, t2⟩ := t
          obtain ⟨ht1, ht2⟩ := ht
          dsimp only at ht1 ht2
          subst ht1
          obtain ⟨m', h1, h2⟩ := putOne_holds (coin := coin) ht2 hi hj
          refine ⟨_, h1, rfl, h2.congr fun r c _ _ => ?_⟩
          by_cases hx : r = i ∧ c = j
          · rw [if_pos hx, if_pos (Or.inr ⟨hx.1, by omega⟩), hx.1, hx.2]
          · rw [if_neg hx]
            by_cases hy : r < i ∨ r = i ∧ c < j
            · rw [if_pos hy, if_pos (show r < i ∨ r = i ∧ c < j + 1 from by omega)]
            · rw [if_neg hy, if_neg (by omega)])
      obtain ⟨t, h1, h2, h3⟩ := hin
      rw [h.cols] at h2 h3
      refine ⟨t, h1, by rw [h2, Nat.succ_mul], h3.congr fun r c _ hc => ?_⟩
      by_cases hx : r < i ∨ r = i ∧ c < C
      · rw [if_pos hx, if_pos (show r < i + 1 from by omega)]
      · rw [if_neg hx, if_neg (by omega)])
  obtain ⟨s, h1, _, h2⟩ := hout
  rw [h.rows] at h2
  refine ⟨s.1, by unfold randomOnes; rw [h1], h2.congr fun r c hr _ => by rw [if_pos hr]⟩

theorem projection_holds {h : Heap} (hg : ∀ n, h.grants n = true) (coin : Nat → Bool) {a : Matrix} {R K : Nat} {f : Nat → Nat → BitVec 64} (ha : Holds a R K f) (dims : BitVec 64)
    (h1 : K * dims.toNat * 8 < 2 ^ 64) (h2 : R * dims.toNat * 8 < 2 ^ 64) :
    ∃ c, projection h coin a dims = .ok c ∧ Holds c R dims.toNat (product K f (fun r c => if signAt coin dims.toNat r c then -1 else 1)) := by
  obtain ⟨b, h3, h4⟩ := C31_create_partial h a.cols dims (by rw [ha.cols]; exact h1) (hg _)
  obtain ⟨c, h5, h6⟩ := C31_create_partial h a.rows dims (by rw [ha.rows]; exact h2) (hg _)
  rw [ha.cols] at h4
  rw [ha.rows] at h6
  obtain ⟨b', h7, h8⟩ := randomOnes_holds (coin := coin) h4
  obtain ⟨c', h9, h10⟩ := C32_product ha h8 h6
  refine ⟨c', ?_, h10⟩
  unfold projection
  rw [h3]
  dsimp only
  rw [h5]
  dsimp only
  rw [h7]
  dsimp only
  rw [h9]

end Bbv
