import Verif.Opc.Special

/-! Register numbers of the short forms, counts that start at one, the mask of mfcr and mtcrf. -/
namespace Opc

variable {i v d w : W} {inv : Int} {e : Bool}

theorem sub_add (v c : W) : v - c + c = v := by
  rw [BitVec.sub_add_cancel]

theorem rtArx (hi : i &&& 0xf#64 = 0#64) (h : insertArx i v d = some (w, false)) : extractArx w d inv = (v, inv) := by
  unfold insertArx at h
  by_cases a : v.toInt < -2 ^ 63 + 8
  · rw [if_pos a] at h; cases h
  · rw [if_neg a] at h
    by_cases b : (v - 8#64).toInt < 0 ∨ 16 ≤ (v - 8#64).toInt
    · simp only [if_pos b, Option.some.injEq, Prod.mk.injEq, reduceCtorEq, and_false] at h
    · simp only [if_neg b, Option.some.injEq, Prod.mk.injEq, and_true] at h
      have hv : (v - 8#64) &&& ~~~0xf#64 = 0#64 := toInt_bits (t := 4) (by omega) (by omega)
      have e1 : w &&& 0xf#64 = v - 8#64 := by
        subst h
        generalize v - 8#64 = x at hv
        exact lin_eq 0xf#64 0xf#64 (by decide +kernel) hi hv
      simp only [extractArx, e1, sub_add]

theorem frArx (h : insertArx i v d = some (w, e)) : w &&& ~~~0xf#64 = i &&& ~~~0xf#64 ∧ i &&& ~~~w = 0#64 := by
  unfold insertArx at h
  by_cases a : v.toInt < -2 ^ 63 + 8
  · rw [if_pos a] at h; cases h
  · rw [if_neg a] at h
    by_cases b : (v - 8#64).toInt < 0 ∨ 16 ≤ (v - 8#64).toInt
    · simp only [if_pos b, Option.some.injEq, Prod.mk.injEq] at h
      rw [← h.1]
      exact ⟨lin_eq_all (i := i) (v := v) (by decide +kernel), and_not_or _ _⟩
    · simp only [if_neg b, Option.some.injEq, Prod.mk.injEq] at h
      have hv : (v - 8#64) &&& ~~~0xf#64 = 0#64 := toInt_bits (t := 4) (by omega) (by omega)
      rw [← h.1]
      generalize v - 8#64 = x at hv
      exact ⟨lin_eq (i := i) (v := x) 0#64 0xf#64 (by decide +kernel) (by simp) hv, and_not_or _ _⟩

theorem add_sub8 (x : W) : x + 8#64 - 8#64 = x := BitVec.add_sub_cancel x 8#64

theorem arx_range {x : W} (h : x &&& ~~~0xf#64 = 0#64) : ¬(x + 8#64).toInt < -2 ^ 63 + 8 ∧ ¬(x.toInt < 0 ∨ 16 ≤ x.toInt) := by
  have hs := toInt_small (t := 4) (by omega) h
  have : (x + 8#64).toNat = x.toNat + 8 := by rw [BitVec.toNat_add]; simp; omega
  have h2 : (x + 8#64).toInt = (x + 8#64).toNat := BitVec.toInt_eq_toNat_of_lt (by omega)
  omega

theorem bkArx : insertArx (i &&& ~~~0xf#64) (extractArx i d inv).1 d = some (i, false) := by
  have hr := arx_range (and_not_self i 0xf#64)
  simp only [extractArx, insertArx, if_neg hr.1, add_sub8, if_neg hr.2, Option.some.injEq, Prod.mk.injEq, and_true]
  exact lin_eq_all (i := i) (v := i) (by decide +kernel)

theorem rtAry (hi : i &&& 0xf0#64 = 0#64) (h : insertAry i v d = some (w, false)) : extractAry w d inv = (v, inv) := by
  unfold insertAry at h
  by_cases a : v.toInt < -2 ^ 63 + 8
  · rw [if_pos a] at h; cases h
  · rw [if_neg a] at h
    by_cases b : (v - 8#64).toInt < 0 ∨ 16 ≤ (v - 8#64).toInt
    · simp only [if_pos b, Option.some.injEq, Prod.mk.injEq, reduceCtorEq, and_false] at h
    · simp only [if_neg b, Option.some.injEq, Prod.mk.injEq, and_true] at h
      have hv : (v - 8#64) &&& ~~~0xf#64 = 0#64 := toInt_bits (t := 4) (by omega) (by omega)
      have e1 : (w >>> 4) &&& 0xf#64 = v - 8#64 := by
        subst h
        generalize v - 8#64 = x at hv
        exact lin_eq 0xf0#64 0xf#64 (by decide +kernel) hi hv
      simp only [extractAry, e1, sub_add]

theorem frAry (h : insertAry i v d = some (w, e)) : w &&& ~~~0xf0#64 = i &&& ~~~0xf0#64 ∧ i &&& ~~~w = 0#64 := by
  unfold insertAry at h
  by_cases a : v.toInt < -2 ^ 63 + 8
  · rw [if_pos a] at h; cases h
  · rw [if_neg a] at h
    by_cases b : (v - 8#64).toInt < 0 ∨ 16 ≤ (v - 8#64).toInt
    · simp only [if_pos b, Option.some.injEq, Prod.mk.injEq] at h
      rw [← h.1]
      exact ⟨lin_eq_all (i := i) (v := v) (by decide +kernel), and_not_or _ _⟩
    · simp only [if_neg b, Option.some.injEq, Prod.mk.injEq] at h
      have hv : (v - 8#64) &&& ~~~0xf#64 = 0#64 := toInt_bits (t := 4) (by omega) (by omega)
      rw [← h.1]
      generalize v - 8#64 = x at hv
      exact ⟨lin_eq (i := i) (v := x) 0#64 0xf#64 (by decide +kernel) (by simp) hv, and_not_or _ _⟩

theorem bkAry : insertAry (i &&& ~~~0xf0#64) (extractAry i d inv).1 d = some (i, false) := by
  have hr := arx_range (and_not_self (i >>> 4) 0xf#64)
  simp only [extractAry, insertAry, if_neg hr.1, add_sub8, if_neg hr.2, Option.some.injEq, Prod.mk.injEq, and_true]
  exact lin_eq_all (i := i) (v := i) (by decide +kernel)

/-- The four bits for a register of the short forms. -/
theorem rx_code (h : (0 ≤ v.toInt ∧ v.toInt < 8) ∨ (24 ≤ v.toInt ∧ v.toInt ≤ 31)) :
    ∃ x : W, x &&& ~~~0xf#64 = 0#64 ∧ (if 0 ≤ v.toInt ∧ v.toInt < 8 then v else v - 16#64) = x ∧
      (if 0 ≤ x.toInt ∧ x.toInt < 8 then x else x + 16#64) = v := by
  rcases h with h | h
  · exact ⟨v, toInt_bits (t := 4) (by omega) (by omega), if_pos h, if_pos h⟩
  · have e1 : v.toInt = v.toNat := by
      have := v.isLt
      rw [BitVec.toInt_eq_toNat_cond] at h ⊢
      by_cases c : 2 * v.toNat < 2 ^ 64
      · rw [if_pos c]
      · rw [if_neg c] at h; omega
    have e2 : (v - 16#64).toNat = v.toNat - 16 := by rw [BitVec.toNat_sub]; simp; omega
    have e3 : (v - 16#64).toInt = (v - 16#64).toNat := BitVec.toInt_eq_toNat_of_lt (by omega)
    exact ⟨v - 16#64, toInt_bits (t := 4) (by omega) (by omega), if_neg (by omega), by rw [if_neg (by omega), BitVec.sub_add_cancel]⟩

theorem insertRx_eq : insertRx i v d =
    if (0 ≤ v.toInt ∧ v.toInt < 8) ∨ (24 ≤ v.toInt ∧ v.toInt ≤ 31) then
      some (i ||| (if 0 ≤ v.toInt ∧ v.toInt < 8 then v else v - 16#64), false) else some (i ||| 0xf#64, true) := by
  unfold insertRx
  by_cases a : 0 ≤ v.toInt ∧ v.toInt < 8
  · rw [if_pos a, if_pos (.inl a), if_pos a]
  · rw [if_neg a]
    by_cases b : 24 ≤ v.toInt ∧ v.toInt ≤ 31
    · rw [if_pos b, if_pos (.inr b), if_neg a]
    · rw [if_neg b, if_neg (by exact fun h => h.elim a b)]

theorem insertRy_eq : insertRy i v d =
    if (0 ≤ v.toInt ∧ v.toInt < 8) ∨ (24 ≤ v.toInt ∧ v.toInt ≤ 31) then
      some (i ||| ((if 0 ≤ v.toInt ∧ v.toInt < 8 then v else v - 16#64) <<< 4), false) else some (i ||| (0xf#64 <<< 4), true) := by
  unfold insertRy
  by_cases a : 0 ≤ v.toInt ∧ v.toInt < 8
  · rw [if_pos a, if_pos (.inl a), if_pos a]
  · rw [if_neg a]
    by_cases b : 24 ≤ v.toInt ∧ v.toInt ≤ 31
    · rw [if_pos b, if_pos (.inr b), if_neg a]
    · rw [if_neg b, if_neg (by exact fun h => h.elim a b)]

theorem extractRx_eq : extractRx i d inv = (if 0 ≤ (i &&& 0xf#64).toInt ∧ (i &&& 0xf#64).toInt < 8 then i &&& 0xf#64 else (i &&& 0xf#64) + 16#64, inv) := by
  simp only [extractRx]
  split <;> rfl

theorem extractRy_eq : extractRy i d inv =
    (if (0 : Int) ≤ BitVec.toInt ((i >>> 4) &&& 0xf#64) ∧ BitVec.toInt ((i >>> 4) &&& 0xf#64) < 8 then (i >>> 4) &&& 0xf#64 else ((i >>> 4) &&& 0xf#64) + 16#64, inv) := by
  simp only [extractRy]
  split <;> rfl

theorem rtRx (hi : i &&& 0xf#64 = 0#64) (h : insertRx i v d = some (w, false)) : extractRx w d inv = (v, inv) := by
  rw [insertRx_eq] at h
  by_cases a : (0 ≤ v.toInt ∧ v.toInt < 8) ∨ (24 ≤ v.toInt ∧ v.toInt ≤ 31)
  · obtain ⟨x, hx, e1, e2⟩ := rx_code a
    rw [if_pos a, e1] at h
    simp only [Option.some.injEq, Prod.mk.injEq, and_true] at h
    have e3 : w &&& 0xf#64 = x := by subst h; exact lin_eq 0xf#64 0xf#64 (by decide +kernel) hi hx
    rw [extractRx_eq, e3, e2]
  · rw [if_neg a] at h; simp at h

theorem rtRy (hi : i &&& 0xf0#64 = 0#64) (h : insertRy i v d = some (w, false)) : extractRy w d inv = (v, inv) := by
  rw [insertRy_eq] at h
  by_cases a : (0 ≤ v.toInt ∧ v.toInt < 8) ∨ (24 ≤ v.toInt ∧ v.toInt ≤ 31)
  · obtain ⟨x, hx, e1, e2⟩ := rx_code a
    rw [if_pos a, e1] at h
    simp only [Option.some.injEq, Prod.mk.injEq, and_true] at h
    have e3 : (w >>> 4) &&& 0xf#64 = x := by subst h; exact lin_eq 0xf0#64 0xf#64 (by decide +kernel) hi hx
    rw [extractRy_eq, e3, e2]
  · rw [if_neg a] at h; simp at h

theorem frRx (h : insertRx i v d = some (w, e)) : w &&& ~~~0xf#64 = i &&& ~~~0xf#64 ∧ i &&& ~~~w = 0#64 := by
  rw [insertRx_eq] at h
  by_cases a : (0 ≤ v.toInt ∧ v.toInt < 8) ∨ (24 ≤ v.toInt ∧ v.toInt ≤ 31)
  · obtain ⟨x, hx, e1, e2⟩ := rx_code a
    rw [if_pos a, e1] at h
    simp only [Option.some.injEq, Prod.mk.injEq] at h
    rw [← h.1]
    exact ⟨lin_eq (i := i) (v := x) 0#64 0xf#64 (by decide +kernel) (by simp) hx, and_not_or _ _⟩
  · rw [if_neg a] at h
    simp only [Option.some.injEq, Prod.mk.injEq] at h
    rw [← h.1]
    exact ⟨lin_eq_all (i := i) (v := v) (by decide +kernel), and_not_or _ _⟩

theorem frRy (h : insertRy i v d = some (w, e)) : w &&& ~~~0xf0#64 = i &&& ~~~0xf0#64 ∧ i &&& ~~~w = 0#64 := by
  rw [insertRy_eq] at h
  by_cases a : (0 ≤ v.toInt ∧ v.toInt < 8) ∨ (24 ≤ v.toInt ∧ v.toInt ≤ 31)
  · obtain ⟨x, hx, e1, e2⟩ := rx_code a
    rw [if_pos a, e1] at h
    simp only [Option.some.injEq, Prod.mk.injEq] at h
    rw [← h.1]
    exact ⟨lin_eq (i := i) (v := x) 0#64 0xf#64 (by decide +kernel) (by simp) hx, and_not_or _ _⟩
  · rw [if_neg a] at h
    simp only [Option.some.injEq, Prod.mk.injEq] at h
    rw [← h.1]
    exact ⟨lin_eq_all (i := i) (v := v) (by decide +kernel), and_not_or _ _⟩

theorem rx_back {x : W} (h : x &&& ~~~0xf#64 = 0#64) :
    ∃ y : W, (if 0 ≤ x.toInt ∧ x.toInt < 8 then x else x + 16#64) = y ∧ ((0 ≤ y.toInt ∧ y.toInt < 8) ∨ (24 ≤ y.toInt ∧ y.toInt ≤ 31)) ∧
      (if 0 ≤ y.toInt ∧ y.toInt < 8 then y else y - 16#64) = x := by
  have hs := toInt_small (t := 4) (by omega) h
  by_cases a : 0 ≤ x.toInt ∧ x.toInt < 8
  · exact ⟨x, if_pos a, .inl a, if_pos a⟩
  · have e1 : (x + 16#64).toNat = x.toNat + 16 := by rw [BitVec.toNat_add]; simp; omega
    have e2 : (x + 16#64).toInt = (x + 16#64).toNat := BitVec.toInt_eq_toNat_of_lt (by omega)
    exact ⟨x + 16#64, if_neg a, .inr (by omega), by rw [if_neg (by omega)]; exact BitVec.add_sub_cancel x 16#64⟩

theorem bkRx : insertRx (i &&& ~~~0xf#64) (extractRx i d inv).1 d = some (i, false) := by
  obtain ⟨y, e1, a, e2⟩ := rx_back (and_not_self i 0xf#64)
  rw [extractRx_eq, e1, insertRx_eq, if_pos a, e2]
  exact congrArg (fun x => some (x, false)) (lin_eq_all (i := i) (v := i) (by decide +kernel))

theorem bkRy : insertRy (i &&& ~~~0xf0#64) (extractRy i d inv).1 d = some (i, false) := by
  obtain ⟨y, e1, a, e2⟩ := rx_back (and_not_self (i >>> 4) 0xf#64)
  rw [extractRy_eq, e1, insertRy_eq, if_pos a, e2]
  exact congrArg (fun x => some (x, false)) (lin_eq_all (i := i) (v := i) (by decide +kernel))

/-! Counts from 1 to 32. -/

theorem count_bits (h1 : v.toNat ≤ 32) (h0 : v ≠ 0#64) : (if v &&& 0x1f#64 = 0#64 then 32#64 else v &&& 0x1f#64) = v := by
  have hn : v.toNat ≠ 0 := fun h => h0 (BitVec.eq_of_toNat_eq h)
  by_cases a : v.toNat = 32
  · have : v = 32#64 := BitVec.eq_of_toNat_eq a
    subst this
    decide
  · have hv : v &&& ~~~0x1f#64 = 0#64 := toNat_bits (t := 5) (by omega) (by omega)
    rw [and_self_of hv, if_neg h0]

theorem rtNbi (hi : i &&& 0xf800#64 = 0#64) (h1 : v.toNat ≤ 32) (h0 : v ≠ 0#64) (h : insertNbi i v d = some (w, false)) :
    extractNb w d inv = (v, inv) := by
  unfold insertNbi at h
  simp only [if_neg h0] at h
  by_cases a : 2 ^ 63 - 3 ≤ v.toInt
  · rw [if_pos a] at h; cases h
  · simp only [if_neg a, Option.some.injEq, Prod.mk.injEq] at h
    have e1 : (w >>> 11) &&& 0x1f#64 = v &&& 0x1f#64 := by
      rw [← h.1]; exact lin_eq_any (i := i) (v := v) 0xf800#64 (by decide +kernel) hi
    simp only [extractNb, e1, count_bits h1 h0]

theorem frNbi (h : insertNbi i v d = some (w, e)) : w &&& ~~~0xf800#64 = i &&& ~~~0xf800#64 ∧ i &&& ~~~w = 0#64 := by
  unfold insertNbi at h
  simp only at h
  generalize (if v = 0#64 then 32#64 else v) = x at h
  by_cases a : 2 ^ 63 - 3 ≤ x.toInt
  · rw [if_pos a] at h; cases h
  · simp only [if_neg a, Option.some.injEq, Prod.mk.injEq] at h
    rw [← h.1]
    exact ⟨lin_eq_all (i := i) (v := x) (by decide +kernel), and_not_or _ _⟩

theorem rtOimm (hi : i &&& 0x1f0#64 = 0#64) (h1 : v.toNat ≤ 32) (h0 : v ≠ 0#64) (h : insertOimm i v d = some (w, false)) :
    extractOimm w d inv = (v, inv) := by
  unfold insertOimm at h
  have hn : v.toNat ≠ 0 := fun h => h0 (BitVec.eq_of_toNat_eq h)
  rw [if_neg (by rintro rfl; revert h1; decide)] at h
  simp only [Option.some.injEq, Prod.mk.injEq, and_true] at h
  have e2 : (v - 1#64).toNat = v.toNat - 1 := by rw [BitVec.toNat_sub]; simp; omega
  have hv : (v - 1#64) &&& ~~~0x1f#64 = 0#64 := toNat_bits (t := 5) (by omega) (by omega)
  have e1 : (w >>> 4) &&& 0x1f#64 = v - 1#64 := by
    subst h
    generalize v - 1#64 = x at hv
    exact lin_eq (i := i) (v := x) 0x1f0#64 0x1f#64 (by decide +kernel) hi hv
  simp only [extractOimm, e1, sub_add]

theorem frOimm (h : insertOimm i v d = some (w, e)) : w &&& ~~~0x1f0#64 = i &&& ~~~0x1f0#64 ∧ i &&& ~~~w = 0#64 := by
  unfold insertOimm at h
  split at h
  · cases h
  · simp only [Option.some.injEq, Prod.mk.injEq] at h
    rw [← h.1]
    generalize v - 1#64 = x
    exact ⟨lin_eq_all (i := i) (v := x) (by decide +kernel), and_not_or _ _⟩

theorem bkOimm : insertOimm (i &&& ~~~0x1f0#64) (extractOimm i d inv).1 d = some (i, false) := by
  have hs := toInt_small (t := 5) (by omega) (and_not_self (i >>> 4) 0x1f#64)
  have e1 : (((i >>> 4) &&& 0x1f#64) + 1#64).toNat = ((i >>> 4) &&& 0x1f#64).toNat + 1 := by rw [BitVec.toNat_add]; simp at hs ⊢; omega
  have hne : ((i >>> 4) &&& 0x1f#64) + 1#64 ≠ 0x8000000000000000#64 := by
    intro h
    have := congrArg BitVec.toNat h
    rw [e1] at this
    simp at this hs
    omega
  simp only [extractOimm, insertOimm, if_neg hne, Option.some.injEq, Prod.mk.injEq, and_true, BitVec.add_sub_cancel]
  exact lin_eq_all (i := i) (v := i) (by decide +kernel)

/-! The mask of mfcr and mtcrf. -/

theorem rtFxm (hn : 0 ≤ inv) (hi : i &&& 0xff000#64 = 0#64) (hv : v &&& ~~~0xff#64 = 0#64) (h : insertFxm i v d = some (w, false)) :
    extractFxm w d inv = (v, inv) := by
  have hneg : v ≠ -1#64 := by rintro rfl; revert hv; decide
  have key (j : W) (hj : j &&& 0xff000#64 = 0#64) (h : j ||| ((v &&& 0xff#64) <<< 12) = w) :
      (w >>> 12) &&& 0xff#64 = v ∧ w &&& (1#64 <<< 20) = j &&& (1#64 <<< 20) ∧ w &&& (0x3ff#64 <<< 1) = j &&& (0x3ff#64 <<< 1) := by
    subst h
    exact ⟨lin_eq 0xff000#64 0xff#64 (by decide +kernel) hj hv, lin_eq_all (i := j) (v := v) (by decide +kernel),
      lin_eq_all (i := j) (v := v) (by decide +kernel)⟩
  unfold insertFxm at h
  unfold extractFxm
  rw [if_neg (show ¬inv < 0 by omega)]
  by_cases a : i &&& (1#64 <<< 20) ≠ 0#64
  · rw [if_pos a] at h
    split at h
    · cases h
    · split at h
      · simp at h
      · next hz =>
        simp only [Option.some.injEq, Prod.mk.injEq, and_true] at h
        obtain ⟨k1, k2, k3⟩ := key i hi h
        simp only [k1, k2, if_pos a, if_neg hz]
  · rw [if_neg a] at h
    split at h
    · next hz =>
      simp only [Option.some.injEq, Prod.mk.injEq, and_true] at h
      have hj : (i ||| (1#64 <<< 20)) &&& 0xff000#64 = 0#64 := by
        rw [← hi]; exact lin_eq_all (i := i) (v := v) (by decide +kernel)
      obtain ⟨k1, k2, k3⟩ := key _ hj h
      have h20 : (i ||| (1#64 <<< 20)) &&& (1#64 <<< 20) ≠ 0#64 := by
        have : (i ||| (1#64 <<< 20)) &&& (1#64 <<< 20) = 1#64 <<< 20 ||| (i &&& (1#64 <<< 20)) := lin_eq_all (i := i) (v := v) (by decide +kernel)
        rw [this, Classical.not_not.mp a]; decide
      have h0 : ¬(v = 0#64 ∨ v &&& -v ≠ v) := by
        rintro (h | h)
        · rw [h] at hz; exact absurd hz.1 (by decide)
        · exact h hz.2.1
      simp only [k1, k2, if_pos h20, if_neg h0]
    · split at h
      · simp only [Option.some.injEq, Prod.mk.injEq, decide_eq_false_iff_not] at h
        exact absurd (Classical.not_not.mp h.2) hneg
      · next hm =>
        simp only [Option.some.injEq, Prod.mk.injEq, and_true] at h
        obtain ⟨k1, k2, k3⟩ := key i hi h
        have hm' : ¬isMfcr w = true := by unfold isMfcr at hm ⊢; rw [k3]; exact hm
        simp only [k1, k2, if_neg a, if_neg hm']

theorem frFxm (h : insertFxm i v d = some (w, e)) : w &&& ~~~0x1ff000#64 = i &&& ~~~0x1ff000#64 ∧ i &&& ~~~w = 0#64 := by
  unfold insertFxm at h
  have key (x : W) : (i ||| ((x &&& 0xff#64) <<< 12)) &&& ~~~0x1ff000#64 = i &&& ~~~0x1ff000#64 ∧ i &&& ~~~(i ||| ((x &&& 0xff#64) <<< 12)) = 0#64 :=
    ⟨lin_eq_all (i := i) (v := x) (by decide +kernel), and_not_or _ _⟩
  split at h
  · split at h
    · cases h
    · split at h
      · simp only [Option.some.injEq, Prod.mk.injEq] at h; rw [← h.1]; exact key _
      · simp only [Option.some.injEq, Prod.mk.injEq] at h; rw [← h.1]; exact key _
  · split at h
    · simp only [Option.some.injEq, Prod.mk.injEq] at h
      rw [← h.1]
      exact ⟨lin_eq_all (i := i) (v := v) (by decide +kernel), by rw [BitVec.or_assoc]; exact and_not_or _ _⟩
    · split at h
      · simp only [Option.some.injEq, Prod.mk.injEq] at h; rw [← h.1]; exact key _
      · simp only [Option.some.injEq, Prod.mk.injEq] at h; rw [← h.1]; exact key _

end Opc
