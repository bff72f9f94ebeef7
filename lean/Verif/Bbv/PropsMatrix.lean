import Verif.Bbv.MatrixLemmas
/-!
C31, C32: the matrices of `qtrace-bbv`.
-/
namespace Bbv

/-- `matrix_create` makes a matrix of zeros. -/
theorem C31_create_partial (h : Heap) (rows cols : BitVec 64) (hf : rows.toNat * cols.toNat * 8 < 2 ^ 64) (hg : h.grants (size rows cols) = true) :
    ∃ m, Matrix.create h true rows cols = .ok m ∧ Holds m rows.toNat cols.toNat (fun _ _ => 0) := by
  refine ⟨_, ?_, zeroed_holds hf⟩
  unfold Matrix.create
  rw [if_neg (by decide), if_neg (by rw [hg]; decide)]

theorem resizeRows_holds {h : Heap} {m : Matrix} {R C : Nat} {f : Nat → Nat → BitVec 64} (hm : Holds m R C f) {rows : BitVec 64}
    (hf : rows.toNat * C * 8 < 2 ^ 64) (hg : h.grants (size rows m.cols) = true) :
    ∃ m', m.resizeRows h rows = .ok m' ∧ Holds m' rows.toNat C (fun r c => if r < R ∧ c < C then f r c else 0) := by
  unfold Matrix.resizeRows
  dsimp only
  rw [if_neg (by rw [hg]; decide)]
  have hold := size_toNat hm.rows hm.cols hm.fits
  have hnew := size_toNat (rows := rows) rfl hm.cols hf
  have hlen := hm.length
  refine ⟨_, rfl, rfl, hm.cols, hf, ?_, fun r c hr hc => ?_⟩
  · dsimp only
    split
    · rename_i hgt
      have hlt : R * C * 8 < rows.toNat * C * 8 := by rw [gt_iff_lt, BitVec.lt_def, hold, hnew] at hgt; exact hgt
      rw [List.length_append, List.length_take, List.length_append, List.length_take, List.length_replicate, List.length_replicate,
        BitVec.toNat_sub_of_le (BitVec.le_of_lt hgt), hold, hnew, hlen]
      omega
    · rename_i hgt
      have hlt : rows.toNat * C * 8 ≤ R * C * 8 := by rw [gt_iff_lt, BitVec.lt_def, hold, hnew] at hgt; omega
      rw [List.length_append, List.length_take, List.length_replicate, hnew, hlen]
      omega
  · dsimp only
    have hi := index_lt hr hc
    split
    · rename_i hgt
      have hlt : R * C * 8 < rows.toNat * C * 8 := by rw [gt_iff_lt, BitVec.lt_def, hold, hnew] at hgt; exact hgt
      rw [hold, hnew, show R * C * 8 / 8 = R * C from by omega, show rows.toNat * C * 8 / 8 = rows.toNat * C from by omega,
        List.take_of_length_le (l := m.data) (by rw [hlen]; omega), List.take_left' hlen]
      by_cases hx : r < R
      · rw [List.getElem?_append_left (by rw [hlen]; exact index_lt hx hc), hm.entry r c hx hc, if_pos ⟨hx, hc⟩]
      · have : R * C ≤ r * C := Nat.mul_le_mul_right C (by omega)
        rw [List.getElem?_append_right (by rw [hlen]; omega), List.getElem?_replicate, if_pos, if_neg (fun h => hx h.1)]
        rw [BitVec.toNat_sub_of_le (BitVec.le_of_lt hgt), hold, hnew, hlen]
        omega
    · rename_i hgt
      have hlt : rows.toNat * C * 8 ≤ R * C * 8 := by rw [gt_iff_lt, BitVec.lt_def, hold, hnew] at hgt; omega
      have hx : r < R := by
        refine Nat.lt_of_not_le fun hle => ?_
        have : R * C ≤ r * C := Nat.mul_le_mul_right C hle
        omega
      rw [hnew, show rows.toNat * C * 8 / 8 = rows.toNat * C from by omega, List.getElem?_append_left (by rw [List.length_take, hlen]; omega),
        List.getElem?_take_of_lt hi, hm.entry r c hx hc, if_pos ⟨hx, hc⟩]

/-- **C31**: resizing a matrix keeps the entries that are within the old and the new dimensions; all other entries are 0.  The new
matrix must have less than 2^64 bytes, and the allocation must succeed. -/
theorem C31_resize_partial (h : Heap) {m : Matrix} {R C : Nat} {f : Nat → Nat → BitVec 64} (hm : Holds m R C f) (rows cols : BitVec 64)
    (hf : rows.toNat * cols.toNat * 8 < 2 ^ 64) (hg : h.grants (size rows cols) = true) :
    ∃ m', m.resize h rows cols = .ok m' ∧ Holds m' rows.toNat cols.toNat (fun r c => if r < R ∧ c < C then f r c else 0) := by
  unfold Matrix.resize
  by_cases hc : cols = m.cols
  · have hC : cols.toNat = C := by rw [hc]; exact hm.cols
    rw [if_pos hc, hC]
    exact resizeRows_holds hm (by rwa [hC] at hf) (by rwa [hc] at hg)
  · rw [if_neg hc, if_neg (by rw [hg]; decide)]
    have hR : (least m.rows rows).toNat = min R rows.toNat := by rw [least_toNat, hm.rows]
    have hC : (least m.cols cols).toNat = min C cols.toNat := by rw [least_toNat, hm.cols]
    obtain ⟨m', h1, h2⟩ := (zeroed_holds hf).fill (a := least m.rows rows) (n := least m.cols cols) (by rw [hR]; omega) (by rw [hC]; omega)
      (body := transfer m) (v := f) (by
          intro r c hr hc m' g hg
          unfold transfer
          rw [hm.load (by rw [hR] at hr; omega) (by rw [hC] at hc; omega)]
          exact hg.store (by rw [hR] at hr; omega) (by rw [hC] at hc; omega) _)
    refine ⟨m', h1, h2.congr ?_⟩
    intro r c hr hc
    rw [hR, hC]
    by_cases hx : r < R ∧ c < C
    · rw [if_pos hx, if_pos (by omega)]
    · rw [if_neg hx, if_neg (by omega)]

/-- A matrix, made wider and longer, and then made shorter. -/
example :
    let h : Heap := { grants := fun _ => true, junk := 7 }
    let m : Matrix := { rows := 2, cols := 2, data := [1, 2, 3, 4] }
    Holds m 2 2 (fun r c => BitVec.ofNat 64 (2 * r + c + 1)) ∧
    (m.resize h 3 3).toOption = some { rows := 3, cols := 3, data := [1, 2, 0, 3, 4, 0, 0, 0, 0] } ∧
    (m.resize h 3 2).toOption = some { rows := 3, cols := 2, data := [1, 2, 3, 4, 0, 0] } ∧
    (m.resize h 1 2).toOption = some { rows := 1, cols := 2, data := [1, 2] } := by
  refine ⟨⟨by decide, by decide, by decide, by decide, ?_⟩, by decide +kernel, by decide +kernel, by decide +kernel⟩
  intro r c hr hc
  have : ∀ r : Fin 2, ∀ c : Fin 2, ([1, 2, 3, 4] : List (BitVec 64))[r.val * 2 + c.val]? = some (BitVec.ofNat 64 (2 * r.val + c.val + 1)) := by decide
  exact this ⟨r, hr⟩ ⟨c, hc⟩

/-- **C31 is refuted for matrices with 2^64 bytes or more**: the size wraps, the call succeeds, and an entry within the new dimensions
is outside the memory. -/
theorem C31_refuted :
    let h : Heap := { grants := fun _ => true, junk := 7 }
    let m : Matrix := { rows := 1, cols := 8, data := [1, 2, 3, 4, 5, 6, 7, 8] }
    ∃ m', (m.resize h (2 ^ 58 + 1) 8).toOption = some m' ∧ (1 : BitVec 64) < m'.rows ∧ (0 : BitVec 64) < m'.cols ∧ (m'.load 1 0).toOption = none := by
  exact ⟨{ rows := 2 ^ 58 + 1, cols := 8, data := [1, 2, 3, 4, 5, 6, 7, 8] }, by decide +kernel, by decide, by decide, by decide +kernel⟩

/-- Resizing to no rows ends the program when the C library returns no memory for a size of 0. -/
theorem C31_empty (h : Heap) (m : Matrix) (hg : h.grants 0 = false) : m.resize h 0 m.cols = .error .exit := by
  unfold Matrix.resize
  rw [if_pos rfl]
  unfold Matrix.resizeRows
  have : size 0 m.cols = 0 := by unfold size; simp
  dsimp only
  rw [this, if_pos hg]


theorem compareCols_eq {a b : Matrix} {R C : Nat} {f g : Nat → Nat → BitVec 64} (ha : Holds a R C f) (hb : Holds b R C g) {r : Nat} (hr : r < R) :
    ∀ n col, col + n = C → ∃ x, a.compareCols b (BitVec.ofNat 64 r) n col = .ok x ∧ (x = true ↔ ∀ c, col ≤ c → c < C → f r c = g r c)
  | 0, col, h => ⟨true, rfl, by simp; intro c h1 h2; omega⟩
  | n + 1, col, h => by
    rw [Matrix.compareCols, ha.load hr (by omega), hb.load hr (by omega)]
    dsimp only
    by_cases he : f r col = g r col
    · obtain ⟨x, h1, h2⟩ := compareCols_eq ha hb hr n (col + 1) (by omega)
      refine ⟨x, by rw [if_neg (fun hx => hx he)]; exact h1, h2.trans ⟨fun hx c h3 h4 => ?_, fun hx c h3 h4 => hx c (by omega) h4⟩⟩
      by_cases hc : c = col
      · rw [hc]; exact he
      · exact hx c (by omega) h4
    · refine ⟨false, by rw [if_pos he], by simp; exact ⟨col, Nat.le_refl _, by omega, he⟩⟩

theorem compareRows_eq {a b : Matrix} {R C : Nat} {f g : Nat → Nat → BitVec 64} (ha : Holds a R C f) (hb : Holds b R C g) :
    ∀ n row, row + n = R → ∃ x, a.compareRows b n row = .ok x ∧ (x = true ↔ ∀ r c, row ≤ r → r < R → c < C → f r c = g r c)
  | 0, row, h => ⟨true, rfl, by simp; intro r c h1 h2; omega⟩
  | n + 1, row, h => by
    obtain ⟨x, h1, h2⟩ := compareCols_eq ha hb (r := row) (by omega) a.cols.toNat 0 (by rw [ha.cols]; omega)
    rw [Matrix.compareRows, h1]
    cases x with
    | false =>
      refine ⟨false, rfl, ⟨fun h => (by cases h), fun hx => ?_⟩⟩
      exact h2.2 fun c _ hc => hx row c (Nat.le_refl _) (by omega) hc
    | true =>
      obtain ⟨y, h3, h4⟩ := compareRows_eq ha hb n (row + 1) (by omega)
      refine ⟨y, h3, h4.trans ⟨fun hx r c h5 h6 h7 => ?_, fun hx r c h5 h6 h7 => hx r c (by omega) h6 h7⟩⟩
      by_cases hr : r = row
      · rw [hr]; exact h2.1 rfl c (Nat.zero_le _) h7
      · exact hx r c (by omega) h6 h7

/-- **C31**, comparison: `matrix_compare` returns whether the matrices have the same dimensions and the same entries. -/
theorem C31_compare {a b : Matrix} {R C R' C' : Nat} {f g : Nat → Nat → BitVec 64} (ha : Holds a R C f) (hb : Holds b R' C' g) :
    ∃ x, a.compare b = .ok x ∧ (x = true ↔ R = R' ∧ C = C' ∧ ∀ r c, r < R → c < C → f r c = g r c) := by
  unfold Matrix.compare
  by_cases h : a.rows ≠ b.rows ∨ a.cols ≠ b.cols
  · refine ⟨false, by rw [if_pos h], ⟨fun h => (by cases h), ?_⟩⟩
    rintro ⟨rfl, rfl, _⟩
    exfalso
    rcases h with h | h
    · exact h (BitVec.eq_of_toNat_eq (by rw [ha.rows, hb.rows]))
    · exact h (BitVec.eq_of_toNat_eq (by rw [ha.cols, hb.cols]))
  · rw [if_neg h]
    have h1 : a.rows = b.rows := Classical.byContradiction fun hx => h (Or.inl hx)
    have h2 : a.cols = b.cols := Classical.byContradiction fun hx => h (Or.inr hx)
    have e1 : R = R' := by rw [← ha.rows, ← hb.rows, h1]
    have e2 : C = C' := by rw [← ha.cols, ← hb.cols, h2]
    subst e1 e2
    obtain ⟨x, h3, h4⟩ := compareRows_eq ha hb a.rows.toNat 0 (by rw [ha.rows]; omega)
    exact ⟨x, h3, h4.trans ⟨fun hx => ⟨rfl, rfl, fun r c hr hc => hx r c (Nat.zero_le _) hr hc⟩, fun hx r c _ hr hc => hx.2.2 r c hr hc⟩⟩

/-- **C31**, copies: `matrix_copy` makes the matrices equal if they have the same dimensions; otherwise it returns false and changes
nothing. -/
theorem C31_copy {a b : Matrix} {R C R' C' : Nat} {f g : Nat → Nat → BitVec 64} (ha : Holds a R C f) (hb : Holds b R' C' g) :
    (R = R' ∧ C = C' → ∃ a', a.copy b = .ok (a', true) ∧ Holds a' R C g) ∧ (¬ (R = R' ∧ C = C') → a.copy b = .ok (a, false)) := by
  unfold Matrix.copy
  constructor
  · rintro ⟨rfl, rfl⟩
    rw [if_neg (by
      rintro (h | h)
      · exact h (BitVec.eq_of_toNat_eq (by rw [ha.rows, hb.rows]))
      · exact h (BitVec.eq_of_toNat_eq (by rw [ha.cols, hb.cols])))]
    obtain ⟨a', h1, h2⟩ := ha.fill (a := a.rows) (n := a.cols) (by rw [ha.rows]; exact Nat.le_refl _) (by rw [ha.cols]; exact Nat.le_refl _)
      (body := transfer b) (v := g) (by
          intro r c hr hc m' k hk
          rw [ha.rows] at hr
          rw [ha.cols] at hc
          unfold transfer
          rw [hb.load hr hc]
          exact hk.store hr hc _)
    refine ⟨a', by rw [h1], h2.congr ?_⟩
    intro r c hr hc
    rw [if_pos ⟨by rw [ha.rows]; exact hr, by rw [ha.cols]; exact hc⟩]
  · intro h
    rw [if_pos]
    refine Classical.byContradiction fun hx => h ?_
    have h1 : a.rows = b.rows := Classical.byContradiction fun hy => hx (Or.inl hy)
    have h2 : a.cols = b.cols := Classical.byContradiction fun hy => hx (Or.inr hy)
    exact ⟨by rw [← ha.rows, ← hb.rows, h1], by rw [← ha.cols, ← hb.cols, h2]⟩

/-! ### Products -/

theorem product_succ (K : Nat) (f g : Nat → Nat → BitVec 64) (r c : Nat) :
    product (K + 1) f g r c = product K f g r c + f r K * g K c := by
  unfold product
  rw [List.range_succ, List.map_append, List.sum_append, List.map_singleton, List.sum_singleton, BitVec.ofNat_add, BitVec.ofNat_mul,
    BitVec.ofNat_toNat, BitVec.ofNat_toNat, BitVec.setWidth_eq, BitVec.setWidth_eq]

/-- The inner loop. -/
theorem dot_holds {a b m : Matrix} {R K C : Nat} {f g k : Nat → Nat → BitVec 64} (ha : Holds a R K f) (hb : Holds b K C g) (hm : Holds m R C k)
    {r c : Nat} (hr : r < R) (hc : c < C) :
    ∃ m', dot a b (BitVec.ofNat 64 r) m (BitVec.ofNat 64 c) = .ok m' ∧
      Holds m' R C (fun r' c' => if r' = r ∧ c' = c then product K f g r c else k r' c') := by
  obtain ⟨m1, h1, h2⟩ := hm.store hr hc 0
  unfold dot
  rw [h1]
  dsimp only
  have := loop_inv (fun i m => Holds m R C (fun r' c' => if r' = r ∧ c' = c then product i f g r c else k r' c')) (n := a.cols)
    (body := addProduct a b (BitVec.ofNat 64 r) (BitVec.ofNat 64 c)) h2 (by
      intro i hi s hs
      rw [ha.cols] at hi
      have hl := hs.load hr hc
      rw [if_pos ⟨rfl, rfl⟩] at hl
      unfold addProduct
      rw [ha.load hr hi, hb.load hi hc, hl]
      dsimp only
      obtain ⟨s', h3, h4⟩ := hs.store hr hc (product i f g r c + f r i * g i c)
      refine ⟨s', h3, h4.congr ?_⟩
      intro r' c' _ _
      by_cases hx : r' = r ∧ c' = c
      · rw [if_pos hx, if_pos hx, product_succ]
      · rw [if_neg hx, if_neg hx, if_neg hx])
  rwa [ha.cols] at this

/-- **C32**: for matrices whose shapes fit, `matrix_multiply` returns true, and every entry of the result is the sum of the products
of a row and a column, modulo 2^64, whatever the result matrix contained before. -/
theorem C32_product {a b c : Matrix} {R K C : Nat} {f g k : Nat → Nat → BitVec 64} (ha : Holds a R K f) (hb : Holds b K C g) (hc : Holds c R C k) :
    ∃ c', multiply false false c a b = .ok (c', true) ∧ Holds c' R C (product K f g) := by
  unfold multiply
  rw [if_neg (fun h => h (BitVec.eq_of_toNat_eq (by rw [ha.cols, hb.rows]))), if_neg (fun h => h (BitVec.eq_of_toNat_eq (by rw [ha.rows, hc.rows]))),
    if_neg (fun h => h (BitVec.eq_of_toNat_eq (by rw [hb.cols, hc.cols]))), if_neg (by decide)]
  obtain ⟨c', h1, h2⟩ := hc.fill (a := a.rows) (n := b.cols) (by rw [ha.rows]; exact Nat.le_refl _) (by rw [hb.cols]; exact Nat.le_refl _)
    (body := dot a b) (v := product K f g) (by
        intro r col hr hcol m h hm
        rw [ha.rows] at hr
        rw [hb.cols] at hcol
        exact dot_holds ha hb hm hr hcol)
  refine ⟨c', by rw [h1], h2.congr ?_⟩
  intro r col hr hcol
  rw [if_pos ⟨by rw [ha.rows]; exact hr, by rw [hb.cols]; exact hcol⟩]

/-- **C32**: if the shapes do not fit, or if the result is one of the factors, `matrix_multiply` returns false and changes nothing. -/
theorem C32_rejected {a b c : Matrix} {R K K' C R' C' : Nat} {f g k : Nat → Nat → BitVec 64} (ha : Holds a R K f) (hb : Holds b K' C g) (hc : Holds c R' C' k)
    (ac bc : Bool) (h : ¬ (K = K' ∧ R = R' ∧ C = C') ∨ ac = true ∨ bc = true) : multiply ac bc c a b = .ok (c, false) := by
  unfold multiply
  by_cases h1 : a.cols ≠ b.rows
  · rw [if_pos h1]
  · rw [if_neg h1]
    by_cases h2 : a.rows ≠ c.rows
    · rw [if_pos h2]
    · rw [if_neg h2]
      by_cases h3 : b.cols ≠ c.cols
      · rw [if_pos h3]
      · rw [if_neg h3, if_pos]
        rcases h with h | h | h
        · exfalso
          refine h ⟨?_, ?_, ?_⟩
          · rw [← ha.cols, ← hb.rows, Classical.not_not.1 h1]
          · rw [← ha.rows, ← hc.rows, Classical.not_not.1 h2]
          · rw [← hb.cols, ← hc.cols, Classical.not_not.1 h3]
        · rw [h]; rfl
        · rw [h, Bool.or_true]

/-- A product of a 2 by 2 and a 2 by 1 matrix with an entry of -1. -/
example :
    let a : Matrix := { rows := 2, cols := 2, data := [1, 2, 3, 4] }
    let b : Matrix := { rows := 2, cols := 1, data := [5, -1] }
    let c : Matrix := { rows := 2, cols := 1, data := [9, 9] }
    (multiply false false c a b).toOption = some ({ rows := 2, cols := 1, data := [3, 11] }, true) ∧
    (multiply false false c b a).toOption = some (c, false) := by
  decide +kernel

end Bbv
