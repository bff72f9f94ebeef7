import Verif.Opc.Registers

/-! Operands with a condition on the value: immediate values and special registers. -/
namespace Opc

variable {i v d w : W} {inv : Int} {e : Bool}

theorem toInt_small {t : Nat} (ht : t < 64) (h : v &&& ~~~BitVec.ofNat 64 (2 ^ t - 1) = 0#64) : v.toNat < 2 ^ t ∧ v.toInt = v.toNat := by
  have h1 := and_mask_small (by omega) h
  have h2 : 2 ^ t ≤ 2 ^ 63 := Nat.pow_le_pow_right (by omega) (by omega)
  exact ⟨h1, BitVec.toInt_eq_toNat_of_lt (by omega)⟩

theorem toInt_bits {t : Nat} (h0 : 0 ≤ v.toInt) (h1 : v.toInt < 2 ^ t) : v &&& ~~~BitVec.ofNat 64 (2 ^ t - 1) = 0#64 := by
  have := unsigned_bits (lo := 0) h0 h1 (by simp)
  rwa [BitVec.ofInt_toInt] at this

theorem toNat_bits {t : Nat} (h1 : v.toNat < 2 ^ t) (ht : t < 64) : v &&& ~~~BitVec.ofNat 64 (2 ^ t - 1) = 0#64 := by
  have h2 : 2 ^ t ≤ 2 ^ 63 := Nat.pow_le_pow_right (by omega) (by omega)
  have e : v.toInt = v.toNat := BitVec.toInt_eq_toNat_of_lt (by omega)
  apply toInt_bits
  · omega
  · rw [e]; exact_mod_cast h1

theorem and_le (x c : W) : (x &&& c).toNat ≤ c.toNat := by rw [BitVec.toNat_and]; exact Nat.and_le_right

theorem and_self_of {m : W} (h : v &&& ~~~m = 0#64) : v &&& m = v := by
  apply BitVec.eq_of_getLsbD_eq
  intro k hk
  have := congrArg (fun w => w.getLsbD k) h
  simp only [BitVec.getLsbD_and, BitVec.getLsbD_not, hk, decide_true, Bool.true_and, BitVec.getLsbD_zero] at this
  rw [BitVec.getLsbD_and]
  cases hv : v.getLsbD k <;> simp_all

theorem and_not_self (x m : W) : x &&& m &&& ~~~m = 0#64 := by
  rw [BitVec.and_assoc]; simp

theorem ne_zero_of_toInt (h : ¬(v.toInt ≤ 0 ∨ w.toInt < v.toInt)) : v ≠ 0#64 := by
  rintro rfl
  exact h (.inl (by decide))

/-! Fields that may not be zero. -/

theorem rtEvuimm1Ex0 (hi : i &&& 0xf800#64 = 0#64) (hv : v &&& ~~~0x1f#64 = 0#64) (h : insertEvuimm1Ex0 i v d = some (w, false)) :
    extractEvuimm1Ex0 w d inv = (v, inv) := by
  simp only [insertEvuimm1Ex0, Option.some.injEq, Prod.mk.injEq] at h
  obtain ⟨h, hc⟩ := h
  have hc := ite_false hc
  have e1 : (w >>> 11) &&& 0x1f#64 = v := by subst h; exact lin_eq 0xf800#64 0x1f#64 (by decide +kernel) hi hv
  have hz : v ≠ 0#64 := by
    rintro rfl
    exact hc (.inl (by decide))
  simp only [extractEvuimm1Ex0, e1, if_neg hz]

theorem frEvuimm1Ex0 (h : insertEvuimm1Ex0 i v d = some (w, e)) : w &&& ~~~0xf800#64 = i &&& ~~~0xf800#64 ∧ i &&& ~~~w = 0#64 := by
  simp only [insertEvuimm1Ex0, Option.some.injEq, Prod.mk.injEq] at h
  obtain ⟨rfl, -⟩ := h
  exact ⟨lin_eq_all (i := i) (v := v) (by decide +kernel), by (try simp only [BitVec.or_assoc]); exact and_not_or _ _⟩

theorem bkEvuimm1Ex0 (h : (extractEvuimm1Ex0 i d 0).2 = 0) : insertEvuimm1Ex0 (i &&& ~~~0xf800#64) (extractEvuimm1Ex0 i d 0).1 d = some (i, false) := by
  simp only [extractEvuimm1Ex0] at h
  have hc := ite_one h
  have hle := and_le (i >>> 11) 0x1f#64
  have hp : 0 < ((i >>> 11) &&& 0x1f#64).toNat := by
    rcases Nat.eq_zero_or_pos ((i >>> 11) &&& 0x1f#64).toNat with h | h
    · exact absurd (BitVec.eq_of_toNat_eq h) hc
    · exact h
  have hint : ((i >>> 11) &&& 0x1f#64).toInt = ((i >>> 11) &&& 0x1f#64).toNat := BitVec.toInt_eq_toNat_of_lt (by simp at hle ⊢; omega)
  simp only [extractEvuimm1Ex0, insertEvuimm1Ex0, Option.some.injEq, Prod.mk.injEq]
  refine ⟨lin_eq_all (i := i) (v := i) (by decide +kernel), if_neg ?_⟩
  rw [hint]
  simp at hle
  simp at hp ⊢
  omega

theorem rtEvuimm2Ex0 (hi : i &&& 0xf800#64 = 0#64) (hv : v &&& ~~~0x3e#64 = 0#64) (h : insertEvuimm2Ex0 i v d = some (w, false)) :
    extractEvuimm2Ex0 w d inv = (v, inv) := by
  simp only [insertEvuimm2Ex0, Option.some.injEq, Prod.mk.injEq] at h
  obtain ⟨h, hc⟩ := h
  have hc := ite_false hc
  have e1 : (w >>> 10) &&& 0x3e#64 = v := by subst h; exact lin_eq 0xf800#64 0x3e#64 (by decide +kernel) hi hv
  have hz : v ≠ 0#64 := by
    rintro rfl
    exact hc (.inl (by decide))
  simp only [extractEvuimm2Ex0, e1, if_neg hz]

theorem frEvuimm2Ex0 (h : insertEvuimm2Ex0 i v d = some (w, e)) : w &&& ~~~0xf800#64 = i &&& ~~~0xf800#64 ∧ i &&& ~~~w = 0#64 := by
  simp only [insertEvuimm2Ex0, Option.some.injEq, Prod.mk.injEq] at h
  obtain ⟨rfl, -⟩ := h
  exact ⟨lin_eq_all (i := i) (v := v) (by decide +kernel), by (try simp only [BitVec.or_assoc]); exact and_not_or _ _⟩

theorem bkEvuimm2Ex0 (h : (extractEvuimm2Ex0 i d 0).2 = 0) : insertEvuimm2Ex0 (i &&& ~~~0xf800#64) (extractEvuimm2Ex0 i d 0).1 d = some (i, false) := by
  simp only [extractEvuimm2Ex0] at h
  have hc := ite_one h
  have hle := and_le (i >>> 10) 0x3e#64
  have hp : 0 < ((i >>> 10) &&& 0x3e#64).toNat := by
    rcases Nat.eq_zero_or_pos ((i >>> 10) &&& 0x3e#64).toNat with h | h
    · exact absurd (BitVec.eq_of_toNat_eq h) hc
    · exact h
  have hint : ((i >>> 10) &&& 0x3e#64).toInt = ((i >>> 10) &&& 0x3e#64).toNat := BitVec.toInt_eq_toNat_of_lt (by simp at hle ⊢; omega)
  simp only [extractEvuimm2Ex0, insertEvuimm2Ex0, Option.some.injEq, Prod.mk.injEq]
  refine ⟨lin_eq_all (i := i) (v := i) (by decide +kernel), if_neg ?_⟩
  rw [hint]
  simp at hle
  simp at hp ⊢
  omega

theorem rtEvuimm4Ex0 (hi : i &&& 0xf800#64 = 0#64) (hv : v &&& ~~~0x7c#64 = 0#64) (h : insertEvuimm4Ex0 i v d = some (w, false)) :
    extractEvuimm4Ex0 w d inv = (v, inv) := by
  simp only [insertEvuimm4Ex0, Option.some.injEq, Prod.mk.injEq] at h
  obtain ⟨h, hc⟩ := h
  have hc := ite_false hc
  have e1 : (w >>> 9) &&& 0x7c#64 = v := by subst h; exact lin_eq 0xf800#64 0x7c#64 (by decide +kernel) hi hv
  have hz : v ≠ 0#64 := by
    rintro rfl
    exact hc (.inl (by decide))
  simp only [extractEvuimm4Ex0, e1, if_neg hz]

theorem frEvuimm4Ex0 (h : insertEvuimm4Ex0 i v d = some (w, e)) : w &&& ~~~0xf800#64 = i &&& ~~~0xf800#64 ∧ i &&& ~~~w = 0#64 := by
  simp only [insertEvuimm4Ex0, Option.some.injEq, Prod.mk.injEq] at h
  obtain ⟨rfl, -⟩ := h
  exact ⟨lin_eq_all (i := i) (v := v) (by decide +kernel), by (try simp only [BitVec.or_assoc]); exact and_not_or _ _⟩

theorem bkEvuimm4Ex0 (h : (extractEvuimm4Ex0 i d 0).2 = 0) : insertEvuimm4Ex0 (i &&& ~~~0xf800#64) (extractEvuimm4Ex0 i d 0).1 d = some (i, false) := by
  simp only [extractEvuimm4Ex0] at h
  have hc := ite_one h
  have hle := and_le (i >>> 9) 0x7c#64
  have hp : 0 < ((i >>> 9) &&& 0x7c#64).toNat := by
    rcases Nat.eq_zero_or_pos ((i >>> 9) &&& 0x7c#64).toNat with h | h
    · exact absurd (BitVec.eq_of_toNat_eq h) hc
    · exact h
  have hint : ((i >>> 9) &&& 0x7c#64).toInt = ((i >>> 9) &&& 0x7c#64).toNat := BitVec.toInt_eq_toNat_of_lt (by simp at hle ⊢; omega)
  simp only [extractEvuimm4Ex0, insertEvuimm4Ex0, Option.some.injEq, Prod.mk.injEq]
  refine ⟨lin_eq_all (i := i) (v := i) (by decide +kernel), if_neg ?_⟩
  rw [hint]
  simp at hle
  simp at hp ⊢
  omega

theorem rtEvuimm8Ex0 (hi : i &&& 0xf800#64 = 0#64) (hv : v &&& ~~~0xf8#64 = 0#64) (h : insertEvuimm8Ex0 i v d = some (w, false)) :
    extractEvuimm8Ex0 w d inv = (v, inv) := by
  simp only [insertEvuimm8Ex0, Option.some.injEq, Prod.mk.injEq] at h
  obtain ⟨h, hc⟩ := h
  have hc := ite_false hc
  have e1 : (w >>> 8) &&& 0xf8#64 = v := by subst h; exact lin_eq 0xf800#64 0xf8#64 (by decide +kernel) hi hv
  have hz : v ≠ 0#64 := by
    rintro rfl
    exact hc (.inl (by decide))
  simp only [extractEvuimm8Ex0, e1, if_neg hz]

theorem frEvuimm8Ex0 (h : insertEvuimm8Ex0 i v d = some (w, e)) : w &&& ~~~0xf800#64 = i &&& ~~~0xf800#64 ∧ i &&& ~~~w = 0#64 := by
  simp only [insertEvuimm8Ex0, Option.some.injEq, Prod.mk.injEq] at h
  obtain ⟨rfl, -⟩ := h
  exact ⟨lin_eq_all (i := i) (v := v) (by decide +kernel), by (try simp only [BitVec.or_assoc]); exact and_not_or _ _⟩

theorem bkEvuimm8Ex0 (h : (extractEvuimm8Ex0 i d 0).2 = 0) : insertEvuimm8Ex0 (i &&& ~~~0xf800#64) (extractEvuimm8Ex0 i d 0).1 d = some (i, false) := by
  simp only [extractEvuimm8Ex0] at h
  have hc := ite_one h
  have hle := and_le (i >>> 8) 0xf8#64
  have hp : 0 < ((i >>> 8) &&& 0xf8#64).toNat := by
    rcases Nat.eq_zero_or_pos ((i >>> 8) &&& 0xf8#64).toNat with h | h
    · exact absurd (BitVec.eq_of_toNat_eq h) hc
    · exact h
  have hint : ((i >>> 8) &&& 0xf8#64).toInt = ((i >>> 8) &&& 0xf8#64).toNat := BitVec.toInt_eq_toNat_of_lt (by simp at hle ⊢; omega)
  simp only [extractEvuimm8Ex0, insertEvuimm8Ex0, Option.some.injEq, Prod.mk.injEq]
  refine ⟨lin_eq_all (i := i) (v := i) (by decide +kernel), if_neg ?_⟩
  rw [hint]
  simp at hle
  simp at hp ⊢
  omega

theorem rtOffLsp (hi : i &&& 0x3#64 = 0#64) (hv : v &&& ~~~0x3#64 = 0#64) (h : insertOffLsp i v d = some (w, false)) :
    extractOffLsp w d inv = (v, inv) := by
  simp only [insertOffLsp, Option.some.injEq, Prod.mk.injEq] at h
  obtain ⟨h, hc⟩ := h
  have hc := ite_false hc
  have e1 : w &&& 0x3#64 = v := by subst h; exact lin_eq 0x3#64 0x3#64 (by decide +kernel) hi hv
  have hz : v ≠ 0#64 := by
    rintro rfl
    exact hc (.inl (by decide))
  simp only [extractOffLsp, e1, if_neg hz]

theorem frOffLsp (h : insertOffLsp i v d = some (w, e)) : w &&& ~~~0x3#64 = i &&& ~~~0x3#64 ∧ i &&& ~~~w = 0#64 := by
  simp only [insertOffLsp, Option.some.injEq, Prod.mk.injEq] at h
  obtain ⟨rfl, -⟩ := h
  exact ⟨lin_eq_all (i := i) (v := v) (by decide +kernel), by (try simp only [BitVec.or_assoc]); exact and_not_or _ _⟩

theorem bkOffLsp (h : (extractOffLsp i d 0).2 = 0) : insertOffLsp (i &&& ~~~0x3#64) (extractOffLsp i d 0).1 d = some (i, false) := by
  simp only [extractOffLsp] at h
  have hc := ite_one h
  have hle := and_le (i) 0x3#64
  have hp : 0 < (i &&& 0x3#64).toNat := by
    rcases Nat.eq_zero_or_pos (i &&& 0x3#64).toNat with h | h
    · exact absurd (BitVec.eq_of_toNat_eq h) hc
    · exact h
  have hint : (i &&& 0x3#64).toInt = (i &&& 0x3#64).toNat := BitVec.toInt_eq_toNat_of_lt (by simp at hle ⊢; omega)
  simp only [extractOffLsp, insertOffLsp, Option.some.injEq, Prod.mk.injEq]
  refine ⟨lin_eq_all (i := i) (v := i) (by decide +kernel), if_neg ?_⟩
  rw [hint]
  simp at hle
  simp at hp ⊢
  omega

theorem rtOffSpe2 (hi : i &&& 0x7#64 = 0#64) (hv : v &&& ~~~0x7#64 = 0#64) (h : insertOffSpe2 i v d = some (w, false)) :
    extractOffSpe2 w d inv = (v, inv) := by
  simp only [insertOffSpe2, Option.some.injEq, Prod.mk.injEq] at h
  obtain ⟨h, hc⟩ := h
  have hc := ite_false hc
  have e1 : w &&& 0x7#64 = v := by subst h; exact lin_eq 0x7#64 0x7#64 (by decide +kernel) hi hv
  have hz : v ≠ 0#64 := by
    rintro rfl
    exact hc (.inl (by decide))
  simp only [extractOffSpe2, e1, if_neg hz]

theorem frOffSpe2 (h : insertOffSpe2 i v d = some (w, e)) : w &&& ~~~0x7#64 = i &&& ~~~0x7#64 ∧ i &&& ~~~w = 0#64 := by
  simp only [insertOffSpe2, Option.some.injEq, Prod.mk.injEq] at h
  obtain ⟨rfl, -⟩ := h
  exact ⟨lin_eq_all (i := i) (v := v) (by decide +kernel), by (try simp only [BitVec.or_assoc]); exact and_not_or _ _⟩

theorem bkOffSpe2 (h : (extractOffSpe2 i d 0).2 = 0) : insertOffSpe2 (i &&& ~~~0x7#64) (extractOffSpe2 i d 0).1 d = some (i, false) := by
  simp only [extractOffSpe2] at h
  have hc := ite_one h
  have hle := and_le (i) 0x7#64
  have hp : 0 < (i &&& 0x7#64).toNat := by
    rcases Nat.eq_zero_or_pos (i &&& 0x7#64).toNat with h | h
    · exact absurd (BitVec.eq_of_toNat_eq h) hc
    · exact h
  have hint : (i &&& 0x7#64).toInt = (i &&& 0x7#64).toNat := BitVec.toInt_eq_toNat_of_lt (by simp at hle ⊢; omega)
  simp only [extractOffSpe2, insertOffSpe2, Option.some.injEq, Prod.mk.injEq]
  refine ⟨lin_eq_all (i := i) (v := i) (by decide +kernel), if_neg ?_⟩
  rw [hint]
  simp at hle
  simp at hp ⊢
  omega

/-! Fields with a smaller range than their bits. -/

theorem rtEvuimmLt8 (hi : i &&& 0xf800#64 = 0#64) (h : insertEvuimmLt8 i v d = some (w, false)) : extractEvuimmLt8 w d inv = (v, inv) := by
  simp only [insertEvuimmLt8, Option.some.injEq, Prod.mk.injEq] at h
  obtain ⟨h, hc⟩ := h
  have hc := ite_false hc
  have hv : v &&& ~~~0x7#64 = 0#64 := toInt_bits (t := 3) (by omega) (by omega)
  have e1 : (w >>> 11) &&& 0x1f#64 = v := by subst h; exact lin_eq 0xf800#64 0x7#64 (by decide +kernel) hi hv
  simp only [extractEvuimmLt8, e1]
  rw [if_neg (by omega)]

theorem frEvuimmLt8 (h : insertEvuimmLt8 i v d = some (w, e)) : w &&& ~~~0xf800#64 = i &&& ~~~0xf800#64 ∧ i &&& ~~~w = 0#64 := by
  simp only [insertEvuimmLt8, Option.some.injEq, Prod.mk.injEq] at h
  obtain ⟨rfl, -⟩ := h
  exact ⟨lin_eq_all (i := i) (v := v) (by decide +kernel), by (try simp only [BitVec.or_assoc]); exact and_not_or _ _⟩

theorem bkEvuimmLt8 (h : (extractEvuimmLt8 i d 0).2 = 0) : insertEvuimmLt8 (i &&& ~~~0xf800#64) (extractEvuimmLt8 i d 0).1 d = some (i, false) := by
  simp only [extractEvuimmLt8] at h
  have hc := ite_one h
  have hs := toInt_small (t := 5) (by omega) (and_not_self (i >>> 11) 0x1f#64)
  have hv : ((i >>> 11) &&& 0x1f#64) &&& ~~~0x7#64 = 0#64 := toInt_bits (t := 3) (by omega) (by omega)
  simp only [extractEvuimmLt8, insertEvuimmLt8, Option.some.injEq, Prod.mk.injEq, and_self_of hv]
  exact ⟨lin_eq_all (i := i) (v := i) (by decide +kernel), if_neg (by omega)⟩

theorem rtEvuimmLt16 (hi : i &&& 0xf800#64 = 0#64) (h : insertEvuimmLt16 i v d = some (w, false)) : extractEvuimmLt16 w d inv = (v, inv) := by
  simp only [insertEvuimmLt16, Option.some.injEq, Prod.mk.injEq] at h
  obtain ⟨h, hc⟩ := h
  have hc := ite_false hc
  have hv : v &&& ~~~0xf#64 = 0#64 := toInt_bits (t := 4) (by omega) (by omega)
  have e1 : (w >>> 11) &&& 0x1f#64 = v := by subst h; exact lin_eq 0xf800#64 0xf#64 (by decide +kernel) hi hv
  simp only [extractEvuimmLt16, e1]
  rw [if_neg (by omega)]

theorem frEvuimmLt16 (h : insertEvuimmLt16 i v d = some (w, e)) : w &&& ~~~0xf800#64 = i &&& ~~~0xf800#64 ∧ i &&& ~~~w = 0#64 := by
  simp only [insertEvuimmLt16, Option.some.injEq, Prod.mk.injEq] at h
  obtain ⟨rfl, -⟩ := h
  exact ⟨lin_eq_all (i := i) (v := v) (by decide +kernel), by (try simp only [BitVec.or_assoc]); exact and_not_or _ _⟩

theorem bkEvuimmLt16 (h : (extractEvuimmLt16 i d 0).2 = 0) : insertEvuimmLt16 (i &&& ~~~0xf800#64) (extractEvuimmLt16 i d 0).1 d = some (i, false) := by
  simp only [extractEvuimmLt16] at h
  have hc := ite_one h
  have hs := toInt_small (t := 5) (by omega) (and_not_self (i >>> 11) 0x1f#64)
  have hv : ((i >>> 11) &&& 0x1f#64) &&& ~~~0xf#64 = 0#64 := toInt_bits (t := 4) (by omega) (by omega)
  simp only [extractEvuimmLt16, insertEvuimmLt16, Option.some.injEq, Prod.mk.injEq, and_self_of hv]
  exact ⟨lin_eq_all (i := i) (v := i) (by decide +kernel), if_neg (by omega)⟩

theorem rtDdd (hi : i &&& 0x1801#64 = 0#64) (hv : v &&& ~~~0x7#64 = 0#64) (h : insertDdd i v d = some (w, false)) :
    extractDdd w d inv = (v, inv) := by
  simp only [insertDdd, Option.some.injEq, Prod.mk.injEq] at h
  obtain ⟨rfl, -⟩ := h
  simp only [extractDdd, Prod.mk.injEq, and_true]
  exact lin_eq 0x1801#64 0x7#64 (by decide +kernel) hi hv

theorem frDdd (h : insertDdd i v d = some (w, e)) : w &&& ~~~0x1801#64 = i &&& ~~~0x1801#64 ∧ i &&& ~~~w = 0#64 := by
  simp only [insertDdd, Option.some.injEq, Prod.mk.injEq] at h
  obtain ⟨rfl, -⟩ := h
  exact ⟨lin_eq_all (i := i) (v := v) (by decide +kernel), by (try simp only [BitVec.or_assoc]); exact and_not_or _ _⟩

theorem bkDdd : insertDdd (i &&& ~~~0x1801#64) (extractDdd i d 0).1 d = some (i, false) := by
  have hv : (((i >>> 11) &&& 0x3#64) ||| ((i <<< 2) &&& 0x4#64)) &&& ~~~0x7#64 = 0#64 := lin_eq_all (i := i) (v := i) (by decide +kernel)
  have hs := toInt_small (t := 3) (by omega) hv
  simp only [extractDdd, insertDdd, Option.some.injEq, Prod.mk.injEq]
  exact ⟨lin_eq_all (i := i) (v := i) (by decide +kernel), if_neg (by omega)⟩

theorem rtSxl (hn : 0 ≤ inv) (hi : i &&& 0x800#64 = 0#64) (hv : v &&& ~~~0x1#64 = 0#64) (h : insertSxl i v d = some (w, false)) :
    extractSxl w d inv = (v, inv) := by
  simp only [insertSxl, Option.some.injEq, Prod.mk.injEq, and_true] at h
  subst h
  simp only [extractSxl, if_neg (show ¬inv < 0 by omega), Prod.mk.injEq, and_true]
  exact lin_eq 0x800#64 0x1#64 (by decide +kernel) hi hv

theorem frSxl (h : insertSxl i v d = some (w, e)) : w &&& ~~~0x800#64 = i &&& ~~~0x800#64 ∧ i &&& ~~~w = 0#64 := by
  simp only [insertSxl, Option.some.injEq, Prod.mk.injEq] at h
  obtain ⟨rfl, -⟩ := h
  exact ⟨lin_eq_all (i := i) (v := v) (by decide +kernel), by (try simp only [BitVec.or_assoc]); exact and_not_or _ _⟩

theorem bkSxl : insertSxl (i &&& ~~~0x800#64) (extractSxl i d 0).1 d = some (i, false) := by
  simp only [extractSxl, insertSxl, if_neg (show ¬(0 : Int) < 0 by omega), Option.some.injEq, Prod.mk.injEq, and_true]
  exact lin_eq_all (i := i) (v := i) (by decide +kernel)

theorem rtTbr (hn : 0 ≤ inv) (hi : i &&& 0x1ff800#64 = 0#64) (hv : v &&& ~~~0x3ff#64 = 0#64) (h : insertTbr i v d = some (w, false)) :
    extractTbr w d inv = (v, inv) := by
  simp only [insertTbr, Option.some.injEq, Prod.mk.injEq] at h
  obtain ⟨h, hc⟩ := h
  have hc := ite_false hc
  have e1 : ((w >>> 16) &&& 0x1f#64) ||| ((w >>> 6) &&& 0x3e0#64) = v := by
    subst h; exact lin_eq 0x1ff800#64 0x3ff#64 (by decide +kernel) hi hv
  simp only [extractTbr, if_neg (show ¬inv < 0 by omega), e1, if_neg hc]

theorem frTbr (h : insertTbr i v d = some (w, e)) : w &&& ~~~0x1ff800#64 = i &&& ~~~0x1ff800#64 ∧ i &&& ~~~w = 0#64 := by
  simp only [insertTbr, Option.some.injEq, Prod.mk.injEq] at h
  obtain ⟨rfl, -⟩ := h
  exact ⟨lin_eq_all (i := i) (v := v) (by decide +kernel), by (try simp only [BitVec.or_assoc]); exact and_not_or _ _⟩

theorem bkTbr (h : (extractTbr i d 0).2 = 0) : insertTbr (i &&& ~~~0x1ff800#64) (extractTbr i d 0).1 d = some (i, false) := by
  simp only [extractTbr, if_neg (show ¬(0 : Int) < 0 by omega)] at h
  have hc := ite_one h
  simp only [extractTbr, insertTbr, if_neg (show ¬(0 : Int) < 0 by omega), Option.some.injEq, Prod.mk.injEq]
  exact ⟨lin_eq_all (i := i) (v := i) (by decide +kernel), if_neg hc⟩

theorem rtEven (hi : i &&& 0x3e00000#64 = 0#64) (hv : v &&& ~~~0x1f#64 = 0#64) (h : insertEven i v d = some (w, false)) :
    extractEven w d inv = (v, inv) := by
  simp only [insertEven, Option.some.injEq, Prod.mk.injEq] at h
  obtain ⟨h, hc⟩ := h
  have hc := Classical.not_not.mp (ite_false hc)
  have hv' : v &&& ~~~0x1e#64 = 0#64 := by
    have : v &&& ~~~0x1e#64 = (v &&& ~~~0x1f#64) ||| (v &&& 0x1#64) := lin_eq_all (i := v) (v := v) (by decide +kernel)
    rw [this, hv, hc]; rfl
  have e1 : (w >>> 21) &&& 0x1f#64 = v := by subst h; exact lin_eq 0x3e00000#64 0x1e#64 (by decide +kernel) hi hv'
  simp only [extractEven, e1, hc]
  rfl

theorem frEven (h : insertEven i v d = some (w, e)) : w &&& ~~~0x3e00000#64 = i &&& ~~~0x3e00000#64 ∧ i &&& ~~~w = 0#64 := by
  simp only [insertEven, Option.some.injEq, Prod.mk.injEq] at h
  obtain ⟨rfl, -⟩ := h
  exact ⟨lin_eq_all (i := i) (v := v) (by decide +kernel), by (try simp only [BitVec.or_assoc]); exact and_not_or _ _⟩

theorem bkEven (h : (extractEven i d 0).2 = 0) : insertEven (i &&& ~~~0x3e00000#64) (extractEven i d 0).1 d = some (i, false) := by
  simp only [extractEven] at h
  have hc := Classical.not_not.mp (ite_one h)
  have hv : ((i >>> 21) &&& 0x1f#64) &&& ~~~0x1e#64 = 0#64 := by
    have : ((i >>> 21) &&& 0x1f#64) &&& ~~~0x1e#64 = ((i >>> 21) &&& 0x1f#64) &&& 0x1#64 := lin_eq_all (i := i) (v := i) (by decide +kernel)
    rw [this, hc]
  simp only [extractEven, insertEven, Option.some.injEq, Prod.mk.injEq, and_self_of hv, hc]
  exact ⟨lin_eq_all (i := i) (v := i) (by decide +kernel), rfl⟩

theorem rtDm (hi : i &&& 0x300#64 = 0#64) (h : insertDm i v d = some (w, false)) : extractDm w d inv = (v, inv) := by
  simp only [insertDm, Option.some.injEq, Prod.mk.injEq] at h
  obtain ⟨h, hc⟩ := h
  have hc := ite_false hc
  by_cases h0 : v = 0#64
  · subst h0
    have e1 : (w >>> 8) &&& 3#64 = 0#64 := by
      subst h; exact lin_eq_any (i := i) (v := 7#64) (x := ((i ||| (0#64 <<< 8)) >>> 8) &&& 3#64) 0x300#64 (by decide +kernel) hi
    simp only [extractDm, e1]
    rfl
  · have h1 : v = 1#64 := Classical.not_not.mp (fun h1 => hc ⟨h0, h1⟩)
    subst h1
    have e1 : (w >>> 8) &&& 3#64 = 3#64 := by
      subst h; exact lin_eq_any (i := i) (v := 0#64) (x := ((i ||| (3#64 <<< 8)) >>> 8) &&& 3#64) 0x300#64 (by decide +kernel) hi
    simp only [extractDm, e1]
    rfl

theorem frDm (h : insertDm i v d = some (w, e)) : w &&& ~~~0x300#64 = i &&& ~~~0x300#64 ∧ i &&& ~~~w = 0#64 := by
  simp only [insertDm, Option.some.injEq, Prod.mk.injEq] at h
  obtain ⟨rfl, -⟩ := h
  refine ⟨?_, and_not_or _ _⟩
  by_cases h0 : v = 0#64
  · rw [if_neg (fun h => h h0)]; exact lin_eq_all (i := i) (v := i) (by decide +kernel)
  · rw [if_pos h0]; exact lin_eq_all (i := i) (v := i) (by decide +kernel)

theorem bkDm (h : (extractDm i d 0).2 = 0) : insertDm (i &&& ~~~0x300#64) (extractDm i d 0).1 d = some (i, false) := by
  simp only [extractDm] at h
  have hc := ite_one h
  have e : (i &&& ~~~0x300#64) ||| (((i >>> 8) &&& 3#64) <<< 8) = i := lin_eq_all (i := i) (v := i) (by decide +kernel)
  by_cases h0 : (i >>> 8) &&& 3#64 = 0#64
  · simp only [extractDm, insertDm, h0]
    rw [h0] at e
    exact congrArg (fun x => some (x, false)) e
  · have h1 : (i >>> 8) &&& 3#64 = 3#64 := Classical.not_not.mp (fun h1 => hc ⟨h0, h1⟩)
    simp only [extractDm, insertDm, h1]
    rw [h1] at e
    exact congrArg (fun x => some (x, false)) e

end Opc
