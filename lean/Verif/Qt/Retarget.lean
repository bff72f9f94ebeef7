import Verif.Qt.Branches
/-! Helper lemmas: encoding and decoding of branch displacements (C14). -/
namespace Qt

theorem nat_or_add (a b i : Nat) (h : b < 2 ^ i) : (2 ^ i * a) ||| b = 2 ^ i * a + b :=
  (Nat.two_pow_add_eq_or_of_lt h a).symm

/-- Masking out a field at an offset. -/
theorem nat_and_field (x i k : Nat) : x &&& ((2 ^ k - 1) * 2 ^ i) = 2 ^ i * (x / 2 ^ i % 2 ^ k) := by
  apply Nat.eq_of_testBit_eq
  intro j
  rw [Nat.testBit_and, ← Nat.shiftLeft_eq, Nat.testBit_shiftLeft, Nat.testBit_two_pow_sub_one, Nat.mul_comm (2 ^ i),
    ← Nat.shiftLeft_eq, Nat.testBit_shiftLeft, Nat.testBit_mod_two_pow, Nat.testBit_div_two_pow]
  by_cases h : j ≥ i
  · simp only [h, decide_true, Bool.true_and]
    rw [Nat.sub_add_cancel h, Bool.and_comm]
  · simp [h]

theorem createBranch_toNat {pc t : BitVec 64} {f : BitVec 32} (o : BitVec 64) (ho : o.toNat % 4 = 0) :
    (0x48000000#32 ||| (f &&& 3#32) ||| (o.setWidth 32 &&& 0x03FFFFFC#32)).toNat =
      18 * 2 ^ 26 + o.toNat % 2 ^ 26 + f.toNat % 4 := by
  rw [BitVec.toNat_or, BitVec.toNat_or, BitVec.toNat_and, BitVec.toNat_and, BitVec.toNat_setWidth]
  have e1 : f.toNat &&& (3#32).toNat = f.toNat % 4 := Nat.and_two_pow_sub_one_eq_mod _ 2
  have e2 : (o.toNat % 2 ^ 32) &&& (0x03FFFFFC#32).toNat = 2 ^ 2 * (o.toNat % 2 ^ 32 / 2 ^ 2 % 2 ^ 24) := nat_and_field _ 2 24
  rw [e1, e2, Nat.or_assoc, Nat.or_comm (f.toNat % 4), nat_or_add _ _ 2 (by omega)]
  have e3 : (0x48000000#32).toNat = 2 ^ 26 * 18 := rfl
  rw [e3, nat_or_add _ _ 26 (by omega)]
  omega

theorem createCond_toNat {pc t : BitVec 64} {f : BitVec 32} (o : BitVec 64) (ho : o.toNat % 4 = 0) :
    (0x40000000#32 ||| (f &&& 0x3FF0003#32) ||| (o.setWidth 32 &&& 0xFFFC#32)).toNat =
      16 * 2 ^ 26 + f.toNat / 2 ^ 16 % 2 ^ 10 * 2 ^ 16 + o.toNat % 2 ^ 16 + f.toNat % 4 := by
  rw [BitVec.toNat_or, BitVec.toNat_or, BitVec.toNat_and, BitVec.toNat_and, BitVec.toNat_setWidth]
  have e1 : f.toNat &&& (0x3FF0003#32).toNat = 2 ^ 16 * (f.toNat / 2 ^ 16 % 2 ^ 10) + f.toNat % 4 := by
    rw [← nat_or_add _ _ 16 (by omega), ← nat_and_field, ← Nat.and_two_pow_sub_one_eq_mod f.toNat 2, ← Nat.and_or_distrib_left]
    rfl
  have e2 : (o.toNat % 2 ^ 32) &&& (0xFFFC#32).toNat = 2 ^ 2 * (o.toNat % 2 ^ 32 / 2 ^ 2 % 2 ^ 14) := nat_and_field _ 2 14
  rw [e1, e2, ← nat_or_add _ _ 16 (by omega), Nat.or_assoc, Nat.or_assoc, Nat.or_comm (f.toNat % 4), nat_or_add _ _ 2 (by omega),
    nat_or_add _ _ 16 (by omega)]
  have e3 : (0x40000000#32).toNat = 2 ^ 26 * 16 := rfl
  rw [e3, nat_or_add _ _ 26 (by omega)]
  omega

theorem iform_iff (w : BitVec 32) : isIform w = true ↔ Spec.kind w.toNat = .b := by
  have h : (branchOpcode w).toNat = Spec.primary w.toNat := by
    have := field_toNat w 26 6 (by omega)
    unfold branchOpcode
    rw [show ((0x3F : BitVec 32)) = BitVec.ofNat 32 (2 ^ 6 - 1) from rfl, this]
    unfold Spec.primary
    have := w.isLt
    omega
  have h2 : isIform w = true ↔ Spec.primary w.toNat = 18 := by
    unfold isIform; rw [beq_iff_eq, ← h]; exact bv32_eq_iff (n := 18) (by omega)
  rw [h2]
  unfold Spec.kind
  constructor
  · intro h; simp [h]
  · intro h
    split at h
    · assumption
    · repeat' (split at h)
      all_goals cases h

theorem bform_iff (w : BitVec 32) : isBform w = true ↔ Spec.kind w.toNat = .bc := by
  have h : (branchOpcode w).toNat = Spec.primary w.toNat := by
    have := field_toNat w 26 6 (by omega)
    unfold branchOpcode
    rw [show ((0x3F : BitVec 32)) = BitVec.ofNat 32 (2 ^ 6 - 1) from rfl, this]
    unfold Spec.primary
    have := w.isLt
    omega
  have h2 : isBform w = true ↔ Spec.primary w.toNat = 16 := by
    unfold isBform; rw [beq_iff_eq, ← h]; exact bv32_eq_iff (n := 16) (by omega)
  rw [h2]
  unfold Spec.kind
  constructor
  · intro h; simp [h]
  · intro h
    split at h
    · cases h
    · split at h
      · assumption
      · repeat' (split at h)
        all_goals cases h

theorem aa_iff (w : BitVec 32) : (w &&& 2 == 0) = true ↔ ¬ Spec.aa w.toNat = 1 := by
  rw [beq_iff_eq, ← BitVec.toNat_inj, BitVec.toNat_and]
  have : w.toNat &&& 2 = 2 ^ 1 * (w.toNat / 2 ^ 1 % 2 ^ 1) := nat_and_field _ 1 1
  show w.toNat &&& 2 = 0 ↔ _
  unfold Spec.aa
  omega

theorem and3_iff (o : BitVec 64) : (o &&& 3 == 0) = true ↔ o.toInt % 4 = 0 := by
  rw [beq_iff_eq, ← BitVec.toNat_inj, BitVec.toNat_and]
  have : o.toNat &&& 3 = o.toNat % 4 := Nat.and_two_pow_sub_one_eq_mod _ 2
  show o.toNat &&& 3 = 0 ↔ _
  rw [BitVec.toInt_eq_toNat_cond]
  have := o.isLt
  split <;> omega

theorem toNat_mod4 {o : BitVec 64} (h : o.toInt % 4 = 0) : o.toNat % 4 = 0 := by
  have hl := o.isLt
  rw [BitVec.toInt_eq_toNat_cond] at h
  split at h <;> omega

theorem primary_sum (a : Nat) (b : Nat) (h : b < 2 ^ 26) : Spec.primary (a * 2 ^ 26 + b) = a := by
  unfold Spec.primary; omega

/-- The displacement that comes back out of a field is the distance that went in. -/
theorem ofInt_signed (o : BitVec 64) (n : Nat) (hn : n = 24 ∨ n = 14) (h4 : o.toInt % 4 = 0) (h1 : -2 ^ (n + 1) ≤ o.toInt)
    (h2 : o.toInt < 2 ^ (n + 1)) :
    BitVec.ofInt 64 (4 * Spec.signed n (o.toNat % 2 ^ (n + 2) / 4)) = o := by
  have e : 4 * Spec.signed n (o.toNat % 2 ^ (n + 2) / 4) = o.toInt := by
    have hl := o.isLt
    rw [BitVec.toInt_eq_toNat_cond] at *
    unfold Spec.signed
    rcases hn with rfl | rfl
    · split at h4 <;> split <;> simp at * <;> omega
    · split at h4 <;> split <;> simp at * <;> omega
  rw [e, BitVec.ofInt_toInt]

theorem kind_b_primary {w : Nat} (h : Spec.kind w = .b) : Spec.primary w = 18 := by
  unfold Spec.kind at h
  split at h
  · assumption
  · repeat' (split at h)
    all_goals cases h

theorem kind_of_18 {w : Nat} (h : Spec.primary w = 18) : Spec.kind w = .b := by simp [Spec.kind, h]
theorem kind_of_16 {w : Nat} (h : Spec.primary w = 16) : Spec.kind w = .bc := by simp [Spec.kind, h]

/-- What `create_branch` makes of a reachable distance. -/
theorem createBranch_ok (w : BitVec 32) (pc t o : BitVec 64) (ho : o = if Spec.aa w.toNat = 1 then t else t - pc)
    (h4 : o.toInt % 4 = 0) (h1 : -2 ^ 25 ≤ o.toInt) (h2 : o.toInt < 2 ^ 25) :
    (createBranch pc t w).toNat = 18 * 2 ^ 26 + o.toNat % 2 ^ 26 + w.toNat % 4 ∧
    Spec.target (createBranch pc t w).toNat pc = t := by
  have hn : o.toNat % 4 = 0 := by
    have hl := o.isLt
    rw [BitVec.toInt_eq_toNat_cond] at h4
    split at h4 <;> omega
  have he : (if w &&& 2 == 0 then t - pc else t) = o := by
    rw [ho]
    by_cases ha : Spec.aa w.toNat = 1
    · rw [if_pos ha, if_neg (fun h => (aa_iff w).1 h ha)]
    · rw [if_neg ha, if_pos ((aa_iff w).2 ha)]
  have hr : isOffsetInBranchRange o = true := by
    unfold isOffsetInBranchRange
    rw [(and3_iff o).2 h4]
    simp
    omega
  have hv : (createBranch pc t w).toNat = 18 * 2 ^ 26 + o.toNat % 2 ^ 26 + w.toNat % 4 := by
    unfold createBranch
    simp only
    rw [he, if_pos hr]
    exact createBranch_toNat (pc := pc) (t := t) o hn
  refine ⟨hv, ?_⟩
  have hk : Spec.kind (createBranch pc t w).toNat = .b := by
    apply kind_of_18; rw [hv, Nat.add_assoc]; exact primary_sum _ _ (by omega)
  have haa : Spec.aa (createBranch pc t w).toNat = Spec.aa w.toNat := by
    rw [hv]; unfold Spec.aa; omega
  have hli : Spec.li (createBranch pc t w).toNat = o.toNat % 2 ^ (24 + 2) / 4 := by
    rw [hv]; unfold Spec.li; omega
  unfold Spec.target Spec.displacement
  rw [if_pos hk, haa, hli, ofInt_signed o 24 (.inl rfl) h4 h1 h2, ho]
  by_cases ha : Spec.aa w.toNat = 1
  · rw [if_pos ha, if_pos ha]; exact BitVec.add_zero _
  · rw [if_neg ha, if_neg ha]; exact BitVec.sub_add_cancel _ _

theorem createCond_ok (w : BitVec 32) (pc t o : BitVec 64) (ho : o = if Spec.aa w.toNat = 1 then t else t - pc)
    (h4 : o.toInt % 4 = 0) (h1 : -2 ^ 15 ≤ o.toInt) (h2 : o.toInt < 2 ^ 15) :
    (createCondBranch pc t w).toNat =
      16 * 2 ^ 26 + w.toNat / 2 ^ 16 % 2 ^ 10 * 2 ^ 16 + o.toNat % 2 ^ 16 + w.toNat % 4 ∧
    Spec.target (createCondBranch pc t w).toNat pc = t := by
  have hn : o.toNat % 4 = 0 := by
    have hl := o.isLt
    rw [BitVec.toInt_eq_toNat_cond] at h4
    split at h4 <;> omega
  have he : (if w &&& 2 == 0 then t - pc else t) = o := by
    rw [ho]
    by_cases ha : Spec.aa w.toNat = 1
    · rw [if_pos ha, if_neg (fun h => (aa_iff w).1 h ha)]
    · rw [if_neg ha, if_pos ((aa_iff w).2 ha)]
  have hr : ¬ (decide (o.toInt < -0x8000) || decide (o.toInt > 0x7FFF) || (o &&& 3 != 0)) = true := by
    have h3 := (and3_iff o).2 h4
    rw [bne, h3]
    simp
    omega
  have hv : (createCondBranch pc t w).toNat =
      16 * 2 ^ 26 + w.toNat / 2 ^ 16 % 2 ^ 10 * 2 ^ 16 + o.toNat % 2 ^ 16 + w.toNat % 4 := by
    unfold createCondBranch
    simp only
    rw [he, if_neg hr]
    exact createCond_toNat (pc := pc) (t := t) o hn
  refine ⟨hv, ?_⟩
  have hk : Spec.kind (createCondBranch pc t w).toNat = .bc := by
    apply kind_of_16; rw [hv, Nat.add_assoc, Nat.add_assoc]; exact primary_sum _ _ (by omega)
  have haa : Spec.aa (createCondBranch pc t w).toNat = Spec.aa w.toNat := by
    rw [hv]; unfold Spec.aa; omega
  have hli : Spec.bd (createCondBranch pc t w).toNat = o.toNat % 2 ^ (14 + 2) / 4 := by
    rw [hv]; unfold Spec.bd; omega
  unfold Spec.target Spec.displacement
  rw [if_neg (by rw [hk]; decide), haa, hli, ofInt_signed o 14 (.inr rfl) h4 h1 h2, ho]
  by_cases ha : Spec.aa w.toNat = 1
  · rw [if_pos ha, if_pos ha]; exact BitVec.add_zero _
  · rw [if_neg ha, if_neg ha]; exact BitVec.sub_add_cancel _ _

theorem offset_eq (w : BitVec 32) (pc t : BitVec 64) : (if w &&& 2 == 0 then t - pc else t) =
    if Spec.aa w.toNat = 1 then t else t - pc := by
  by_cases ha : Spec.aa w.toNat = 1
  · rw [if_pos ha, if_neg (fun h => (aa_iff w).1 h ha)]
  · rw [if_neg ha, if_pos ((aa_iff w).2 ha)]

/-- The code's decoder of displacements. -/
theorem iformTarget_eq (w : BitVec 32) : branchIformTarget w = BitVec.ofInt 64 (4 * Spec.signed 24 (Spec.li w.toNat)) := by
  have e0 : w.toNat &&& 0x3FFFFFC = 2 ^ 2 * (w.toNat / 2 ^ 2 % 2 ^ 24) := nat_and_field _ 2 24
  have e : ((w &&& 0x3FFFFFC).setWidth 64 : BitVec 64).toNat = 4 * Spec.li w.toNat := by
    rw [BitVec.toNat_setWidth, BitVec.toNat_and]
    show (w.toNat &&& 0x3FFFFFC) % 2 ^ 64 = _
    rw [e0]; unfold Spec.li; omega
  have hl : Spec.li w.toNat < 2 ^ 24 := Nat.mod_lt _ (by omega)
  unfold branchIformTarget
  simp only
  have hc : ((w &&& 0x3FFFFFC).setWidth 64 &&& 0x2000000 != 0) = true ↔ ¬ Spec.li w.toNat < 2 ^ 23 := by
    rw [bne_iff_ne, ne_eq, ← BitVec.toNat_inj, BitVec.toNat_and, e]
    have : 4 * Spec.li w.toNat &&& 0x2000000 = 2 ^ 25 * (4 * Spec.li w.toNat / 2 ^ 25 % 2 ^ 1) := nat_and_field _ 25 1
    show ¬ (4 * Spec.li w.toNat &&& 0x2000000 = 0) ↔ _
    omega
  apply BitVec.eq_of_toNat_eq
  rw [BitVec.toNat_ofInt]
  unfold Spec.signed
  by_cases h : Spec.li w.toNat < 2 ^ 23
  · rw [if_neg (fun x => hc.1 x h), if_pos h, e]; omega
  · rw [if_pos (hc.2 h), if_neg h, BitVec.toNat_sub, e]
    show (2 ^ 64 - 0x4000000 + 4 * Spec.li w.toNat) % 2 ^ 64 = _
    omega

theorem bformTarget_eq (w : BitVec 32) : branchBformTarget w = BitVec.ofInt 64 (4 * Spec.signed 14 (Spec.bd w.toNat)) := by
  have e0 : w.toNat &&& 0xFFFC = 2 ^ 2 * (w.toNat / 2 ^ 2 % 2 ^ 14) := nat_and_field _ 2 14
  have e : ((w &&& 0xFFFC).setWidth 64 : BitVec 64).toNat = 4 * Spec.bd w.toNat := by
    rw [BitVec.toNat_setWidth, BitVec.toNat_and]
    show (w.toNat &&& 0xFFFC) % 2 ^ 64 = _
    rw [e0]; unfold Spec.bd; omega
  have hl : Spec.bd w.toNat < 2 ^ 14 := Nat.mod_lt _ (by omega)
  unfold branchBformTarget
  simp only
  have hc : ((w &&& 0xFFFC).setWidth 64 &&& 0x8000 != 0) = true ↔ ¬ Spec.bd w.toNat < 2 ^ 13 := by
    rw [bne_iff_ne, ne_eq, ← BitVec.toNat_inj, BitVec.toNat_and, e]
    have : 4 * Spec.bd w.toNat &&& 0x8000 = 2 ^ 15 * (4 * Spec.bd w.toNat / 2 ^ 15 % 2 ^ 1) := nat_and_field _ 15 1
    show ¬ (4 * Spec.bd w.toNat &&& 0x8000 = 0) ↔ _
    omega
  apply BitVec.eq_of_toNat_eq
  rw [BitVec.toNat_ofInt]
  unfold Spec.signed
  by_cases h : Spec.bd w.toNat < 2 ^ 13
  · rw [if_neg (fun x => hc.1 x h), if_pos h, e]; omega
  · rw [if_pos (hc.2 h), if_neg h, BitVec.toNat_sub, e]
    show (2 ^ 64 - 0x10000 + 4 * Spec.bd w.toNat) % 2 ^ 64 = _
    omega

end Qt
