import Verif.Bbv.SpecMatrix
/-!
Loops over matrices.
-/
namespace Bbv

theorem foldlM_inv {α : Type} (P : Nat → α → Prop) (body : α → Nat → Except Stop α) : ∀ (n k : Nat) (s : α), P k s →
    (∀ i, k ≤ i → i < k + n → ∀ s, P i s → ∃ s', body s i = .ok s' ∧ P (i + 1) s') →
    ∃ s', (List.range' k n).foldlM body s = .ok s' ∧ P (k + n) s'
  | 0, k, s, h, _ => ⟨s, rfl, h⟩
  | n + 1, k, s, h, hs => by
    obtain ⟨s1, h1, h2⟩ := hs k (Nat.le_refl k) (by omega) s h
    obtain ⟨s2, h3, h4⟩ := foldlM_inv P body n (k + 1) s1 h2 (fun i hi hk => hs i (by omega) (by omega))
    refine ⟨s2, ?_, by rw [show k + (n + 1) = k + 1 + n from by omega]; exact h4⟩
    rw [List.range'_succ, List.foldlM_cons, h1]
    exact h3

theorem loop_inv {α : Type} (P : Nat → α → Prop) {body : α → BitVec 64 → Except Stop α} {n : BitVec 64} {s : α} (h0 : P 0 s)
    (hs : ∀ i, i < n.toNat → ∀ s, P i s → ∃ s', body s (BitVec.ofNat 64 i) = .ok s' ∧ P (i + 1) s') :
    ∃ s', loop n s body = .ok s' ∧ P n.toNat s' := by
  unfold loop
  rw [List.range_eq_range']
  obtain ⟨s', h1, h2⟩ := foldlM_inv P (fun s i => body s (BitVec.ofNat 64 i)) n.toNat 0 s h0 (fun i _ hi => hs i (by omega))
  exact ⟨s', h1, by rwa [Nat.zero_add] at h2⟩

theorem Holds.congr {m : Matrix} {R C : Nat} {f g : Nat → Nat → BitVec 64} (h : Holds m R C f) (he : ∀ r c, r < R → c < C → f r c = g r c) : Holds m R C g :=
  ⟨h.rows, h.cols, h.fits, h.length, fun r c hr hc => by rw [h.entry r c hr hc, he r c hr hc]⟩

theorem index_lt {r c R C : Nat} (hr : r < R) (hc : c < C) : r * C + c < R * C := by
  have h1 : (r + 1) * C ≤ R * C := Nat.mul_le_mul_right C hr
  have h2 : (r + 1) * C = r * C + C := Nat.succ_mul r C
  omega

theorem index_inj {r c r' c' C : Nat} (hc : c < C) (hc' : c' < C) (h : r * C + c = r' * C + c') : r = r' ∧ c = c' := by
  have hC : 0 < C := by omega
  have h1 : (r * C + c) / C = r := by
    rw [Nat.mul_comm, Nat.mul_add_div hC, Nat.div_eq_of_lt hc, Nat.add_zero]
  have h2 : (r' * C + c') / C = r' := by
    rw [Nat.mul_comm, Nat.mul_add_div hC, Nat.div_eq_of_lt hc', Nat.add_zero]
  have : r = r' := by rw [← h1, ← h2, h]
  subst this
  exact ⟨rfl, by omega⟩

theorem Holds.index {m : Matrix} {R C : Nat} {f : Nat → Nat → BitVec 64} (h : Holds m R C f) {r c : Nat} (hr : r < R) (hc : c < C) :
    m.entry (BitVec.ofNat 64 r) (BitVec.ofNat 64 c) = r * C + c := by
  have h1 := index_lt hr hc
  have h2 := h.fits
  unfold Matrix.entry
  have hcols : m.cols = BitVec.ofNat 64 C := by
    apply BitVec.eq_of_toNat_eq
    rw [h.cols, BitVec.toNat_ofNat, Nat.mod_eq_of_lt]
    rw [← h.cols]; exact m.cols.isLt
  rw [hcols, ← BitVec.ofNat_mul, ← BitVec.ofNat_add, BitVec.toNat_ofNat]
  apply Nat.mod_eq_of_lt
  omega

theorem Holds.load {m : Matrix} {R C : Nat} {f : Nat → Nat → BitVec 64} (h : Holds m R C f) {r c : Nat} (hr : r < R) (hc : c < C) :
    m.load (BitVec.ofNat 64 r) (BitVec.ofNat 64 c) = .ok (f r c) := by
  unfold Matrix.load
  rw [h.index hr hc, h.entry r c hr hc]

theorem Holds.store {m : Matrix} {R C : Nat} {f : Nat → Nat → BitVec 64} (h : Holds m R C f) {r c : Nat} (hr : r < R) (hc : c < C) (v : BitVec 64) :
    ∃ m', m.store (BitVec.ofNat 64 r) (BitVec.ofNat 64 c) v = .ok m' ∧ Holds m' R C (fun r' c' => if r' = r ∧ c' = c then v else f r' c') := by
  unfold Matrix.store
  rw [h.index hr hc, if_pos (by rw [h.length]; exact index_lt hr hc)]
  refine ⟨_, rfl, h.rows, h.cols, h.fits, by rw [List.length_set]; exact h.length, fun r' c' hr' hc' => ?_⟩
  show (m.data.set (r * C + c) v)[r' * C + c']? = _
  rw [List.getElem?_set]
  by_cases he : r * C + c = r' * C + c'
  · obtain ⟨h1, h2⟩ := index_inj hc hc' he
    rw [if_pos he, if_pos (by rw [h.length]; exact index_lt hr hc), if_pos ⟨h1.symm, h2.symm⟩]
  · rw [if_neg he, h.entry r' c' hr' hc', if_neg]
    rintro ⟨rfl, rfl⟩
    exact he rfl

/-- A loop that assigns entries of a row. -/
theorem Holds.row {m : Matrix} {R C : Nat} {f : Nat → Nat → BitVec 64} (h : Holds m R C f) {r : Nat} (hr : r < R) {n : BitVec 64} (hn : n.toNat ≤ C)
    {body : Matrix → BitVec 64 → Except Stop Matrix} {v : Nat → BitVec 64}
    (hb : ∀ c, c < n.toNat → ∀ m g, Holds m R C g → ∃ m', body m (BitVec.ofNat 64 c) = .ok m' ∧ Holds m' R C (fun r' c' => if r' = r ∧ c' = c then v c else g r' c')) :
    ∃ m', loop n m body = .ok m' ∧ Holds m' R C (fun r' c' => if r' = r ∧ c' < n.toNat then v c' else f r' c') := by
  refine loop_inv (fun i m => Holds m R C (fun r' c' => if r' = r ∧ c' < i then v c' else f r' c')) (h.congr ?_) ?_
  · intro r' c' _ _
    rw [if_neg (fun hx => Nat.not_lt_zero _ hx.2)]
  · intro i hi s hs
    obtain ⟨m', h1, h2⟩ := hb i hi s _ hs
    refine ⟨m', h1, h2.congr ?_⟩
    intro r' c' _ _
    by_cases hx : r' = r
    · by_cases hy : c' = i
      · subst hy; rw [if_pos ⟨hx, rfl⟩, if_pos ⟨hx, by omega⟩]
      · rw [if_neg (fun h => hy h.2)]
        by_cases hz : c' < i
        · rw [if_pos ⟨hx, hz⟩, if_pos ⟨hx, by omega⟩]
        · rw [if_neg (fun h => hz h.2), if_neg (fun h => by omega)]
    · rw [if_neg (fun h => hx h.1), if_neg (fun h => hx h.1), if_neg (fun h => hx h.1)]

/-- A loop over rows and columns that assigns entries. -/
theorem Holds.fill {m : Matrix} {R C : Nat} {f : Nat → Nat → BitVec 64} (h : Holds m R C f) {a n : BitVec 64} (ha : a.toNat ≤ R) (hn : n.toNat ≤ C)
    {body : BitVec 64 → Matrix → BitVec 64 → Except Stop Matrix} {v : Nat → Nat → BitVec 64}
    (hb : ∀ r c, r < a.toNat → c < n.toNat → ∀ m g, Holds m R C g →
      ∃ m', body (BitVec.ofNat 64 r) m (BitVec.ofNat 64 c) = .ok m' ∧ Holds m' R C (fun r' c' => if r' = r ∧ c' = c then v r c else g r' c')) :
    ∃ m', (loop a m fun m row => loop n m (body row)) = .ok m' ∧ Holds m' R C (fun r' c' => if r' < a.toNat ∧ c' < n.toNat then v r' c' else f r' c') := by
  refine loop_inv (fun i m => Holds m R C (fun r' c' => if r' < i ∧ c' < n.toNat then v r' c' else f r' c')) (h.congr ?_) ?_
  · intro r' c' _ _
    rw [if_neg (fun hx => Nat.not_lt_zero _ hx.1)]
  · intro i hi s hs
    obtain ⟨m', h1, h2⟩ := hs.row (r := i) (by omega) hn (body := body (BitVec.ofNat 64 i)) (v := v i) (fun c hc m g hg => hb i c hi hc m g hg)
    refine ⟨m', h1, h2.congr ?_⟩
    intro r' c' _ _
    by_cases hx : c' < n.toNat
    · by_cases hy : r' = i
      · subst hy; rw [if_pos ⟨rfl, hx⟩, if_pos ⟨by omega, hx⟩]
      · rw [if_neg (fun h => hy h.1)]
        by_cases hz : r' < i
        · rw [if_pos ⟨hz, hx⟩, if_pos ⟨by omega, hx⟩]
        · rw [if_neg (fun h => hz h.1), if_neg (fun h => by omega)]
    · rw [if_neg (fun h => hx h.2), if_neg (fun h => hx h.2), if_neg (fun h => hx h.2)]

theorem least_toNat (x y : BitVec 64) : (least x y).toNat = min x.toNat y.toNat := by
  unfold least
  split
  · rename_i h; rw [BitVec.lt_def] at h; omega
  · rename_i h; rw [BitVec.lt_def] at h; omega

theorem size_toNat {rows cols : BitVec 64} {R C : Nat} (hr : rows.toNat = R) (hc : cols.toNat = C) (h : R * C * 8 < 2 ^ 64) : (size rows cols).toNat = R * C * 8 := by
  unfold size
  have h1 : rows = BitVec.ofNat 64 R := by rw [← hr, BitVec.ofNat_toNat, BitVec.setWidth_eq]
  have h2 : cols = BitVec.ofNat 64 C := by rw [← hc, BitVec.ofNat_toNat, BitVec.setWidth_eq]
  rw [h1, h2, ← BitVec.ofNat_mul, show (8 : BitVec 64) = BitVec.ofNat 64 8 from rfl, ← BitVec.ofNat_mul, BitVec.toNat_ofNat]
  exact Nat.mod_eq_of_lt h

theorem zeroed_holds {rows cols : BitVec 64} (h : rows.toNat * cols.toNat * 8 < 2 ^ 64) :
    Holds { rows := rows, cols := cols, data := zeroed (size rows cols) } rows.toNat cols.toNat (fun _ _ => 0) := by
  have hl : (zeroed (size rows cols)).length = rows.toNat * cols.toNat := by
    unfold zeroed
    rw [List.length_replicate, size_toNat rfl rfl h, Nat.mul_div_cancel _ (by decide)]
  refine ⟨rfl, rfl, h, hl, fun r c hr hc => ?_⟩
  show (zeroed (size rows cols))[_]? = _
  have hi := index_lt hr hc
  rw [← hl] at hi
  unfold zeroed at hi ⊢
  rw [List.getElem?_replicate, if_pos (by rwa [List.length_replicate] at hi)]

end Bbv
