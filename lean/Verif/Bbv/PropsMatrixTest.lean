import Verif.Bbv.MatrixTest
import Verif.Bbv.MatrixAlgebra
import Verif.Bbv.PropsMatrix
/-!
C110: the laws of the matrices of `qtrace-bbv`, and the self-test of matrix.c.
-/
namespace Bbv

theorem Holds.eq_compare {a b : Matrix} {R C : Nat} {f g : Nat → Nat → BitVec 64} (ha : Holds a R C f) (hb : Holds b R C g)
    (h : ∀ r c, r < R → c < C → f r c = g r c) : a.compare b = .ok true := by
  obtain ⟨x, h1, h2⟩ := C31_compare ha hb
  rw [h1, h2.mpr ⟨rfl, rfl, h⟩]

/-- **C110**, associativity: for all matrices a, b, c whose shapes fit, and all matrices for the results, the four products are made,
and (ab)c and a(bc) compare equal. -/
theorem C110_associative {a b c u v x y : Matrix} {R K L C : Nat} {f g h fu fv fx fy : Nat → Nat → BitVec 64} (ha : Holds a R K f) (hb : Holds b K L g)
    (hc : Holds c L C h) (hu : Holds u R L fu) (hv : Holds v K C fv) (hx : Holds x R C fx) (hy : Holds y R C fy) :
    ∃ ab abc bc abc', multiply false false u a b = .ok (ab, true) ∧ multiply false false x ab c = .ok (abc, true) ∧
      multiply false false v b c = .ok (bc, true) ∧ multiply false false y a bc = .ok (abc', true) ∧ abc.compare abc' = .ok true := by
  obtain ⟨ab, h1, h1'⟩ := C32_product ha hb hu
  obtain ⟨abc, h2, h2'⟩ := C32_product h1' hc hx
  obtain ⟨bc, h3, h3'⟩ := C32_product hb hc hv
  obtain ⟨abc', h4, h4'⟩ := C32_product ha h3' hy
  exact ⟨ab, abc, bc, abc', h1, h2, h3, h4, h2'.eq_compare h4' fun r c _ _ => product_assoc K L f g h r c⟩

/-- **C110**, identity: a matrix multiplied with a matrix of ones on the diagonal and zeros elsewhere, from the right and from the left,
compares equal to the matrix itself. -/
theorem C110_identity {a i j b c : Matrix} {R C : Nat} {f fb fc : Nat → Nat → BitVec 64} (ha : Holds a R C f)
    (hi : Holds i C C fun r c => if r = c then 1 else 0) (hj : Holds j R R fun r c => if r = c then 1 else 0) (hb : Holds b R C fb) (hc : Holds c R C fc) :
    ∃ ai ja, multiply false false b a i = .ok (ai, true) ∧ multiply false false c j a = .ok (ja, true) ∧ ai.compare a = .ok true ∧ ja.compare a = .ok true := by
  obtain ⟨ai, h1, h1'⟩ := C32_product ha hi hb
  obtain ⟨ja, h2, h2'⟩ := C32_product hj ha hc
  exact ⟨ai, ja, h1, h2, h1'.eq_compare ha fun r c _ hc => product_one_right C f r c hc, h2'.eq_compare ha fun r c hr _ => product_one_left R f r c hr⟩

/-- **C110**, sizes: a matrix that is made larger, by any number of rows and columns, and brought back to its size compares equal to
what it was. -/
theorem C110_resize_back (h : Heap) {m : Matrix} {R C : Nat} {f : Nat → Nat → BitVec 64} (hm : Holds m R C f) (rows cols : BitVec 64)
    (hr : R ≤ rows.toNat) (hc : C ≤ cols.toNat) (hf : rows.toNat * cols.toNat * 8 < 2 ^ 64) (hg : h.grants (size rows cols) = true)
    (hg' : h.grants (size m.rows m.cols) = true) :
    ∃ big back, m.resize h rows cols = .ok big ∧ big.resize h m.rows m.cols = .ok back ∧ back.compare m = .ok true := by
  obtain ⟨big, h1, h1'⟩ := C31_resize_partial h hm rows cols hf hg
  obtain ⟨back, h2, h2'⟩ := C31_resize_partial h h1' m.rows m.cols (by rw [hm.rows, hm.cols]; exact hm.fits) hg'
  rw [hm.rows, hm.cols] at h2'
  refine ⟨big, back, h1, h2, h2'.eq_compare hm fun r c h3 h4 => ?_⟩
  rw [if_pos ⟨by omega, by omega⟩, if_pos ⟨h3, h4⟩]

/-- The first entry of the identity with 2 rows is 1, of a product with it that of the other matrix. -/
example : Holds { rows := 2, cols := 2, data := [1, 0, 0, 1] } 2 2 (fun r c => if r = c then 1 else 0) ∧
    Holds { rows := 2, cols := 3, data := [1, 2, 3, 4, 5, -1] } 2 3 (fun r c => if r = 1 ∧ c = 2 then -1 else BitVec.ofNat 64 (3 * r + c + 1)) := by
  refine ⟨⟨rfl, rfl, by decide, rfl, fun r c hr hc => ?_⟩, ⟨rfl, rfl, by decide, rfl, fun r c hr hc => ?_⟩⟩
  · match r, c, hr, hc with
    | 0, 0, _, _ => rfl
    | 0, 1, _, _ => rfl
    | 1, 0, _, _ => rfl
    | 1, 1, _, _ => rfl
  · match r, c, hr, hc with
    | 0, 0, _, _ => rfl
    | 0, 1, _, _ => rfl
    | 0, 2, _, _ => rfl
    | 1, 0, _, _ => rfl
    | 1, 1, _, _ => rfl
    | 1, 2, _, _ => rfl

theorem randomRow {m : Matrix} {R C : Nat} {f : Nat → Nat → BitVec 64} (h : Holds m R C f) (src : Nat → BitVec 64) (n : Nat) {r : Nat} (hr : r < R) {cols : BitVec 64}
    (hc : cols.toNat = C) :
    ∃ s, loop cols (m, n) (randomEntry src (BitVec.ofNat 64 r)) = .ok s ∧ s.2 = n + C ∧
      Holds s.1 R C fun r' c' => if r' = r then src (n + c') else f r' c' := by
  have := loop_inv (fun j (s : Matrix × Nat) => s.2 = n + j ∧ Holds s.1 R C fun r' c' => if r' = r ∧ c' < j then src (n + c') else f r' c') (n := cols) (s := (m, n))
    (body := randomEntry src (BitVec.ofNat 64 r)) ⟨rfl, h.congr fun r' c' _ _ => by rw [if_neg (by omega)]⟩ (by
      rintro j hj s ⟨h1, h2⟩
      rw [hc] at hj
      obtain ⟨m', h3, h4⟩ := h2.store hr hj (src s.2)
      unfold randomEntry
      rw [h3]
      refine ⟨_, rfl, by simp only [h1]; omega, h4.congr fun r' c' _ _ => ?_⟩
      by_cases e : r' = r ∧ c' = j
      · rw [if_pos e, if_pos ⟨e.1, by omega⟩, h1, e.2]
      · rw [if_neg e]
        by_cases e' : r' = r ∧ c' < j
        · rw [if_pos e', if_pos ⟨e'.1, by omega⟩]
        · rw [if_neg e', if_neg (by omega)])
  obtain ⟨s, h1, h2, h3⟩ := this
  rw [hc] at h2 h3
  refine ⟨s, h1, h2, h3.congr fun r' c' _ hc' => ?_⟩
  by_cases e : r' = r
  · rw [if_pos ⟨e, hc'⟩, if_pos e]
  · rw [if_neg (fun h => e h.1), if_neg e]

/-- **C110**, random matrices: `matrix_random` gives the entries, one row after the other, the next results of `random()`, each once. -/
theorem C110_random {m : Matrix} {R C : Nat} {f : Nat → Nat → BitVec 64} (h : Holds m R C f) (src : Nat → BitVec 64) (n : Nat) :
    ∃ s, m.random src n = .ok s ∧ s.2 = n + R * C ∧ Holds s.1 R C fun r c => src (n + r * C + c) := by
  have := loop_inv (fun i (s : Matrix × Nat) => s.2 = n + i * C ∧ Holds s.1 R C fun r' c' => if r' < i then src (n + r' * C + c') else f r' c') (n := m.rows) (s := (m, n))
    (body := fun s row => loop m.cols s (randomEntry src row)) ⟨by simp, h.congr fun r' c' _ _ => by rw [if_neg (by omega)]⟩ (by
      rintro i hi s ⟨h1, h2⟩
      rw [h.rows] at hi
      obtain ⟨t, h3, h4, h5⟩ := randomRow h2 src s.2 hi h.cols
      refine ⟨t, h3, by rw [h4, h1, Nat.add_mul]; omega, h5.congr fun r' c' _ _ => ?_⟩
      by_cases e : r' = i
      · rw [if_pos e, if_pos (by omega), h1, e]
      · rw [if_neg e]
        by_cases e' : r' < i
        · rw [if_pos e', if_pos (by omega)]
        · rw [if_neg e', if_neg (by omega)])
  obtain ⟨s, h1, h2, h3⟩ := this
  rw [h.rows] at h2 h3
  exact ⟨s, h1, h2, h3.congr fun r' c' hr _ => by rw [if_pos hr]⟩

/-- A matrix of two rows. -/
example : ((Matrix.random (fun k => BitVec.ofNat 64 (k * k)) 3 { rows := 2, cols := 2, data := [0, 0, 0, 0] }).toOption) =
    some ({ rows := 2, cols := 2, data := [9, 16, 25, 36] }, 7) := by decide +kernel

theorem Holds.random {m : Matrix} {R C : Nat} {f : Nat → Nat → BitVec 64} (h : Holds m R C f) (src : Nat → BitVec 64) (n : Nat) :
    ∃ s, m.random src n = .ok s ∧ ∃ g, Holds s.1 R C g :=
  let ⟨s, h1, _, h3⟩ := C110_random h src n
  ⟨s, h1, _, h3⟩

theorem diagonal_holds {m : Matrix} (h : Holds m 128 128 fun _ _ => 0) : ∃ m', diagonal m = .ok m' ∧ Holds m' 128 128 one := by
  have := loop_inv (fun i m => Holds m 128 128 fun r c => if r = c ∧ r < i then 1 else 0) (n := ROWA) (s := m) (body := fun m row => m.store row row 1)
    (h.congr fun r c _ _ => by rw [if_neg (by omega)]) (by
      intro i hi s hs
      have hi : i < 128 := hi
      obtain ⟨m', h1, h2⟩ := hs.store hi hi 1
      refine ⟨m', h1, h2.congr fun r c _ _ => ?_⟩
      by_cases h3 : r = i ∧ c = i
      · rw [if_pos h3, if_pos ⟨by omega, by omega⟩]
      · rw [if_neg h3]
        by_cases h4 : r = c ∧ r < i
        · rw [if_pos h4, if_pos ⟨h4.1, by omega⟩]
        · rw [if_neg h4, if_neg (by omega)])
  obtain ⟨m', h1, h2⟩ := this
  refine ⟨m', h1, h2.congr fun r c hr _ => ?_⟩
  have hr : r < ROWA.toNat := hr
  unfold one
  by_cases h3 : r = c
  · rw [if_pos ⟨h3, hr⟩, if_pos h3]
  · rw [if_neg (fun h => h3 h.1), if_neg h3]

theorem pattern_holds {m : Matrix} (h : Holds m 128 32 fun _ _ => 0) : ∃ m' f, pattern m = .ok m' ∧ Holds m' 128 32 f := by
  obtain ⟨m', h1, h2⟩ := h.fill (a := ROWA) (n := COLA) (by decide) (by decide) (body := fun row m col => m.store row col ((row <<< 16) + col))
    (v := fun r c => (BitVec.ofNat 64 r <<< 16) + BitVec.ofNat 64 c) (by
      intro r c hr hc m g hm
      exact hm.store hr hc _)
  exact ⟨m', _, h1, h2⟩

theorem identityTest_ok (h : Heap) (hg : ∀ n, h.grants n = true) (src : Nat → BitVec 64) (n : Nat) : ∃ k, identityTest h src n = .ok k := by
  obtain ⟨a, a1, a2⟩ := C31_create_partial h ROWA ROWA (by decide) (hg _)
  obtain ⟨i, i1, i2⟩ := diagonal_holds a2
  obtain ⟨s, s1, f, s2⟩ := Holds.random a2 src n
  obtain ⟨b, b1, b2⟩ := C32_product s2 i2 a2
  obtain ⟨c, c1, c2⟩ := C32_product i2 s2 a2
  have e := b2.eq_compare c2 fun r c hr hc => (product_one_right _ f r c hc).trans (product_one_left _ f r c hr).symm
  refine ⟨s.2, ?_⟩
  simp only [identityTest, a1, run, i1, s1, b1, c1, e, expect, require, bind, Except.bind, if_true]

theorem associativeTest_ok (h : Heap) (hg : ∀ n, h.grants n = true) (src : Nat → BitVec 64) (n : Nat) : associativeTest h src n = .ok () := by
  obtain ⟨a, a1, a2⟩ := C31_create_partial h ROWA ROWA (by decide) (hg _)
  obtain ⟨s, s1, f, s2⟩ := Holds.random a2 src n
  obtain ⟨t, t1, g, t2⟩ := Holds.random a2 src s.2
  obtain ⟨u, u1, k, u2⟩ := Holds.random a2 src t.2
  obtain ⟨ab, abc, bc, abc', h1, h2, h3, h4, _⟩ := C110_associative s2 t2 u2 a2 a2 a2 a2
  simp only [associativeTest, a1, run, s1, t1, u1, h1, h2, h3, h4, expect, bind, Except.bind, if_true]

/-- **C110**, self-test: all assertions of the self-test of matrix.c hold, no access is out of bounds, and it ends, whatever numbers
`random()` returns and whatever new memory contains, as long as memory is granted. -/
theorem C110_selftest (h : Heap) (hg : ∀ n, h.grants n = true) (src : Nat → BitVec 64) : selftest h src = .ok () := by
  obtain ⟨a, a1, a2⟩ := C31_create_partial h ROWA COLA (by decide) (hg _)
  obtain ⟨b, b1, b2⟩ := C31_create_partial h COLA COLB (by decide) (hg _)
  obtain ⟨c, c1, c2⟩ := C31_create_partial h ROWA COLB (by decide) (hg _)
  obtain ⟨p, f, p1, p2⟩ := pattern_holds a2
  obtain ⟨d, d1, d2⟩ := C32_product p2 b2 c2
  have r1 := C32_rejected p2 p2 d2 false false (Or.inl (by decide))
  obtain ⟨aa, aa1, aa2⟩ := (C31_copy a2 p2).1 ⟨rfl, rfl⟩
  obtain ⟨x, x1, x2⟩ := C31_resize_partial h p2 (ROWA + 1000) (COLA + 0) (by decide) (hg _)
  obtain ⟨y, y1, y2⟩ := C31_resize_partial h x2 (ROWA + 1000) (COLA + 1000) (by decide) (hg _)
  obtain ⟨z, z1, z2⟩ := C31_resize_partial h y2 (ROWA + 2000) (COLA + 2000) (by decide) (hg _)
  obtain ⟨w, w1, w2⟩ := C31_resize_partial h z2 ROWA COLA (by decide) (hg _)
  have e := w2.eq_compare aa2 fun r c hr hc => by
    have hr : r < 128 := hr
    have hc : c < 32 := hc
    have q1 : (ROWA + 1000).toNat = 1128 := by decide
    have q2 : (COLA + 0).toNat = 32 := by decide
    have q3 : (COLA + 1000).toNat = 1032 := by decide
    have q4 : (ROWA + 2000).toNat = 2128 := by decide
    have q5 : (COLA + 2000).toNat = 2032 := by decide
    simp only [q1, q2, q3, q4, q5]
    rw [if_pos ⟨by omega, by omega⟩, if_pos ⟨by omega, by omega⟩, if_pos ⟨by omega, by omega⟩, if_pos ⟨hr, hc⟩]
  have r2 := (C31_copy w2 d2).2 (by decide)
  have same {u v : BitVec 64} (h : u.toNat = v.toNat) : (u == v) = true := by rw [beq_iff_eq]; exact BitVec.eq_of_toNat_eq h
  have n1 := same x2.rows
  have n2 := same x2.cols
  have n3 := same y2.rows
  have n4 := same y2.cols
  have n5 := same z2.rows
  have n6 := same z2.cols
  obtain ⟨k, hk⟩ := identityTest_ok h hg src 0
  simp only [selftest, a1, b1, c1, run, p1, d1, r1, aa1, x1, y1, z1, w1, e, r2, n1, n2, n3, n4, n5, n6, expect, require, bind, Except.bind, if_true, hk]
  exact associativeTest_ok h hg src k

end Bbv
