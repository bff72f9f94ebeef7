import Verif.Htm.PropsRecode
/-!
C24 for POWER9.
-/
namespace Htm

/-! ### The fields of the stored word -/

/-- A word stands for a B-form branch if its type is one, or zero with bit 30 clear. -/
def P9B (op : BitVec 32) : Prop := field op 2 3 = 1 ∨ field op 2 3 = 0 ∧ field op 30 30 = 0
/-- The low target bits of an I-form branch. -/
def p9LowI (op : BitVec 32) : Nat := field op 6 29 * 4
/-- The low target bits of a B-form branch. -/
def p9LowB (op : BitVec 32) : Nat := field op 6 6 * 2 ^ 15 + field op 17 29 * 4
def p9BO (op : BitVec 32) : Nat := field op 7 11
def p9BI (op : BitVec 32) : Nat := field op 12 16

/-! ### Lemmas -/

theorem low_mask (x : BitVec 32) {n : Nat} (hn : n ≤ 32) : (x &&& BitVec.ofNat 32 (2 ^ n - 1)).toNat = x.toNat % 2 ^ n := by
  have h := and_mask x (lo := 0) (hi := n) (Nat.zero_le n) hn
  rw [Nat.sub_zero, show (2 : Nat) ^ 0 = 1 from rfl, Nat.mul_one, Nat.div_one, Nat.mul_one] at h
  exact h

theorem shr_mask {x : BitVec 32} {n : Nat} : (x >>> n).toNat = x.toNat / 2 ^ n := by
  rw [BitVec.toNat_ushiftRight, Nat.shiftRight_eq_div_pow]

theorem typeOf (op : BitVec 32) : ((op >>> 28) &&& 3).toNat = field op 2 3 := by
  rw [show (3 : BitVec 32) = BitVec.ofNat 32 (2 ^ 2 - 1) from rfl, low_mask _ (by omega), shr_mask]
  rfl

theorem modeOf (op : BitVec 32) : ((op >>> 26) &&& 3).toNat = field op 4 5 := by
  rw [show (3 : BitVec 32) = BitVec.ofNat 32 (2 ^ 2 - 1) from rfl, low_mask _ (by omega), shr_mask]
  rfl

theorem bit30 (op : BitVec 32) : op &&& 2 = 0 ↔ field op 30 30 = 0 := by
  have h := and_mask op (lo := 1) (hi := 2) (by omega) (by omega)
  rw [show (2 : BitVec 32) = BitVec.ofNat 32 ((2 ^ (2 - 1) - 1) * 2 ^ 1) from rfl, ← BitVec.toNat_inj, h, fld,
    show (0 : BitVec 32).toNat = 0 from rfl]
  omega

theorem branchType_eq (op : BitVec 32) :
    (branchType op).toNat = if field op 2 3 = 0 ∧ field op 30 30 = 0 then 1 else field op 2 3 := by
  have h0 : ((op >>> 28) &&& 3 = 0) ↔ field op 2 3 = 0 := by
    rw [← BitVec.toNat_inj, typeOf]; rfl
  unfold branchType
  by_cases h : field op 2 3 = 0 ∧ field op 30 30 = 0
  · rw [if_pos ⟨h0.2 h.1, (bit30 op).2 h.2⟩, if_pos h]; rfl
  · rw [if_neg (fun hh => h ⟨h0.1 hh.1, (bit30 op).1 hh.2⟩), if_neg h, typeOf]

theorem isBranchType (op c : BitVec 32) : branchType op = c ↔ (if field op 2 3 = 0 ∧ field op 30 30 = 0 then 1 else field op 2 3) = c.toNat := by
  rw [← branchType_eq, BitVec.toNat_inj]

/-- The link bit. -/
theorem linkMask (op : BitVec 32) : ((op &&& 0x40000000) >>> 30).toNat = field op 1 1 := by
  rw [shr_mask, show (0x40000000 : BitVec 32) = BitVec.ofNat 32 ((2 ^ (31 - 30) - 1) * 2 ^ 30) from rfl, and_mask op (by omega) (by omega), fld]
  omega

theorem relink_low (op : BitVec 32) : (relink op).toNat % 2 ^ 26 = op.toNat % 2 ^ 26 / 2 * 2 + field op 1 1 := by
  have hA : (op &&& 0xbffffffe).toNat % 2 ^ 26 = op.toNat % 2 ^ 26 / 2 * 2 := by
    rw [← low_mask _ (by omega), BitVec.and_assoc,
      show (0xbffffffe : BitVec 32) &&& BitVec.ofNat 32 (2 ^ 26 - 1) = BitVec.ofNat 32 ((2 ^ (26 - 1) - 1) * 2 ^ 1) from rfl,
      and_mask op (by omega) (by omega)]
  have hlk := one_lt op 1
  have h := linkMask op
  have hor : (relink op).toNat = (op &&& 0xbffffffe).toNat + field op 1 1 := by
    unfold relink
    rw [or_add (k := 1) (by omega) (by rw [h]; exact hlk), h]
  rw [hor]
  generalize (op &&& 0xbffffffe).toNat = A at *
  generalize field op 1 1 = l at *
  omega

theorem unshift_low {op : BitVec 32} (h : branchType op ≠ 0) :
    (unshift op).toNat % 2 ^ 26 = field op 7 16 * 2 ^ 16 + field op 6 6 * 2 ^ 15 + op.toNat % 2 ^ 15 ∧
    field (unshift op) 1 1 = field op 1 1 := by
  unfold unshift
  rw [if_pos h]
  have h1 : ((op <<< 1) &&& 0x03ff0000).toNat = field op 7 16 * 2 ^ 16 := by
    rw [show (0x03ff0000 : BitVec 32) = BitVec.ofNat 32 ((2 ^ (26 - 16) - 1) * 2 ^ 16) from rfl, and_mask _ (by omega) (by omega),
      BitVec.toNat_shiftLeft, Nat.shiftLeft_eq, fld]
    omega
  have h2 : ((op >>> 10) &&& 0x00008000).toNat = field op 6 6 * 2 ^ 15 := by
    rw [show (0x00008000 : BitVec 32) = BitVec.ofNat 32 ((2 ^ (16 - 15) - 1) * 2 ^ 15) from rfl, and_mask _ (by omega) (by omega),
      shr_mask, fld]
    omega
  have hl7 := field_lt op 7 16
  have hl6 := one_lt op 6
  simp only [show 16 - 7 + 1 = 10 from rfl] at hl7
  constructor
  · rw [← low_mask _ (by omega), BitVec.and_or_distrib_right, BitVec.and_or_distrib_right]
    have e1 : op &&& (0xfc007fff : BitVec 32) &&& BitVec.ofNat 32 (2 ^ 26 - 1) = op &&& BitVec.ofNat 32 (2 ^ 15 - 1) := by
      rw [BitVec.and_assoc]; rfl
    have e2 : (op <<< 1) &&& (0x03ff0000 : BitVec 32) &&& BitVec.ofNat 32 (2 ^ 26 - 1) = (op <<< 1) &&& 0x03ff0000 := by
      rw [BitVec.and_assoc]; rfl
    have e3 : (op >>> 10) &&& (0x00008000 : BitVec 32) &&& BitVec.ofNat 32 (2 ^ 26 - 1) = (op >>> 10) &&& 0x00008000 := by
      rw [BitVec.and_assoc]; rfl
    rw [e1, e2, e3, BitVec.or_comm (op &&& _), BitVec.or_assoc, BitVec.or_comm (op &&& _)]
    have h3 := low_mask op (n := 15) (by omega)
    have h4 : ((op >>> 10) &&& 0x00008000 ||| op &&& BitVec.ofNat 32 (2 ^ 15 - 1)).toNat = field op 6 6 * 2 ^ 15 + op.toNat % 2 ^ 15 := by
      rw [or_add (k := 15) (by rw [h2]; omega) (by rw [h3]; omega), h2, h3]
    rw [or_add (k := 16) (by rw [h1]; omega) (by rw [h4]; omega), h1, h4]
    omega
  · rw [← linkMask, ← linkMask]
    congr 2
    rw [BitVec.and_or_distrib_right, BitVec.and_or_distrib_right]
    have e1 : op &&& (0xfc007fff : BitVec 32) &&& 0x40000000 = op &&& 0x40000000 := by rw [BitVec.and_assoc]; rfl
    have e2 : (op <<< 1) &&& 0x03ff0000 &&& 0x40000000 = 0 := by
      rw [BitVec.and_assoc, show (0x03ff0000 : BitVec 32) &&& 0x40000000 = 0#32 from rfl, BitVec.and_zero]; rfl
    have e3 : (op >>> 10) &&& 0x00008000 &&& 0x40000000 = 0 := by
      rw [BitVec.and_assoc, show (0x00008000 : BitVec 32) &&& 0x40000000 = 0#32 from rfl, BitVec.and_zero]; rfl
    rw [e1, e2, e3]
    show op &&& 0x40000000 ||| 0#32 ||| 0#32 = _
    rw [BitVec.or_zero, BitVec.or_zero]

theorem unshift_id {op : BitVec 32} (h : branchType op = 0) : unshift op = op := by
  unfold unshift; rw [if_neg (by simp [h])]

/-- The word from which the fields are taken. -/
theorem stored_low {op : BitVec 32} (h : branchType op ≠ 0) :
    (relink (unshift op)).toNat % 2 ^ 26 =
      field op 7 16 * 2 ^ 16 + field op 6 6 * 2 ^ 15 + op.toNat % 2 ^ 15 / 2 * 2 + field op 1 1 := by
  obtain ⟨h1, h2⟩ := unshift_low h
  rw [relink_low, h1, h2]
  have := field_lt op 7 16
  generalize field op 7 16 = a at *
  generalize field op 6 6 = b at *
  omega

theorem mode9_cases {op : BitVec 32} (h : field op 4 5 ≠ 2) :
    (op >>> 26) &&& 3 = 0 ∨ (op >>> 26) &&& 3 = 1 ∨ (op >>> 26) &&& 3 = 3 := by
  rw [← BitVec.toNat_inj, ← BitVec.toNat_inj, ← BitVec.toNat_inj, modeOf]
  have := field_lt op 4 5
  simp only [show 5 - 4 + 1 = 2 from rfl] at this
  show field op 4 5 = 0 ∨ field op 4 5 = 1 ∨ field op 4 5 = 3
  omega

theorem mode9_ne {op : BitVec 32} (h : field op 4 5 ≠ 2) : ¬ (op >>> 26) &&& 3 = 2 := by
  rw [← BitVec.toNat_inj, modeOf]; exact h

theorem mode9_eq {op : BitVec 32} (h : field op 4 5 = 2) : (op >>> 26) &&& 3 = 2 := by
  rw [← BitVec.toNat_inj, modeOf]; exact h

theorem setWidth64 (x : BitVec 32) : (x.setWidth 64 : BitVec 64).toNat = x.toNat := by
  rw [BitVec.toNat_setWidth, Nat.mod_eq_of_lt]; have := x.isLt; omega

/-! ### The theorems -/

/-- POWER9, I-form, relative. -/
theorem C24_p9_i {op : BitVec 32} {iea : BitVec 64} (ht : field op 2 3 = 0) (hb : field op 30 30 = 1) (hm : field op 4 5 ≠ 2)
    (ha : iea.toNat % 4 = 0) (he : Encodable 26 (traced 26 (field op 4 5) (p9LowI op) iea) iea) :
    field (recodeP9 op iea) 0 5 = 18 ∧ field (recodeP9 op iea) 30 30 = 0 ∧ field (recodeP9 op iea) 31 31 = field op 1 1 ∧
    targetI (recodeP9 op iea) iea = traced 26 (field op 4 5) (p9LowI op) iea := by
  have hbt : branchType op = 0 := by rw [isBranchType, if_neg (by omega)]; exact ht
  have hr := relink_low op
  have hlk := one_lt op 1
  have hlow : (relink op &&& 0x03fffffc).toNat = p9LowI op := by
    rw [show (0x03fffffc : BitVec 32) = BitVec.ofNat 32 ((2 ^ (26 - 2) - 1) * 2 ^ 2) from rfl, and_mask _ (by omega) (by omega), hr]
    unfold p9LowI; rw [fld op 6 29]; omega
  have hlast : (relink op &&& 1).toNat = field op 1 1 := by
    rw [show (1 : BitVec 32) = BitVec.ofNat 32 (2 ^ 1 - 1) from rfl, low_mask _ (by omega)]
    generalize field op 1 1 = l at *
    omega
  have hlt : p9LowI op < 2 ^ 26 := by
    have := field_lt op 6 29
    simp only [show 29 - 6 + 1 = 24 from rfl] at this
    unfold p9LowI; omega
  have h4 : p9LowI op % 4 = 0 := by unfold p9LowI; omega
  have htr := traced_eq (n := 26) (by omega) _ (mode9_cases hm) iea (l := (relink op &&& 0x03fffffc).setWidth 64)
    (by rw [setWidth64, hlow]; exact hlt)
  rw [setWidth64, hlow, modeOf] at htr
  have hml := field_lt op 4 5
  simp only [show 5 - 4 + 1 = 2 from rfl] at hml
  have hta : (traced 26 (field op 4 5) (p9LowI op) iea).toNat % 4 = 0 :=
    traced_aligned (by omega) (by omega) hm (by omega) hlt h4 iea
  have hd4 := sub_mod4 hta ha
  have hn : (recodeP9 op iea).toNat = 0x48000000 + (traced 26 (field op 4 5) (p9LowI op) iea - iea).toNat % 2 ^ 26 / 4 * 4 + field op 1 1 := by
    unfold recodeP9
    simp only
    rw [if_pos hbt, if_neg (mode9_ne hm), unshift_id hbt, BitVec.or_comm _ (targetMsb _ _ _), htr]
    generalize traced 26 (field op 4 5) (p9LowI op) iea - iea = d
    have hd := disp26 d
    have hor : ((0x48000000 : BitVec 32) ||| (d &&& 0x03fffffc).setWidth 32).toNat = 0x48000000 + d.toNat % 2 ^ 26 / 4 * 4 := by
      rw [or_add (k := 27) (by rfl) (by rw [hd]; omega), hd]; rfl
    rw [or_add (k := 2) (by rw [hor]; omega) (by rw [hlast]; omega), hor, hlast]
  have haa : field (recodeP9 op iea) 30 30 = 0 := by rw [fld, hn]; omega
  refine ⟨?_, haa, ?_, ?_⟩
  · rw [fld, hn]; omega
  · rw [fld _ 31 31, hn]; omega
  · apply target_relative (by omega) (by omega) haa _ hta ha he
    rw [hn]; omega

/-- POWER9, I-form, absolute. -/
theorem C24_p9_i_absolute {op : BitVec 32} (iea : BitVec 64) (ht : field op 2 3 = 0) (hb : field op 30 30 = 1) (hm : field op 4 5 = 2) :
    field (recodeP9 op iea) 0 5 = 18 ∧ field (recodeP9 op iea) 30 30 = 1 ∧ field (recodeP9 op iea) 31 31 = field op 1 1 ∧
    targetI (recodeP9 op iea) iea = (BitVec.ofNat 26 (p9LowI op)).signExtend 64 := by
  have hbt : branchType op = 0 := by rw [isBranchType, if_neg (by omega)]; exact ht
  have hr := relink_low op
  have hlk := one_lt op 1
  have hn : (recodeP9 op iea).toNat = 0x48000000 + (relink op).toNat % 2 ^ 26 := by
    unfold recodeP9
    simp only
    rw [if_pos hbt, if_pos (mode9_eq hm), unshift_id hbt]
    have hbits : (relink op &&& 0x03ffffff) ||| 2 = relink op &&& 0x03ffffff := by
      have h2 : (relink op &&& 0x03ffffff) &&& 2 = 2 := by
        apply BitVec.eq_of_toNat_eq
        rw [show (2 : BitVec 32) = BitVec.ofNat 32 ((2 ^ (2 - 1) - 1) * 2 ^ 1) from rfl, and_mask _ (by omega) (by omega),
          show (0x03ffffff : BitVec 32) = BitVec.ofNat 32 (2 ^ 26 - 1) from rfl, low_mask _ (by omega), hr]
        rw [fld] at hb
        show _ = 2
        generalize field op 1 1 = l at *
        omega
      apply BitVec.eq_of_getLsbD_eq
      intro i hi
      have := congrArg (fun x => x.getLsbD i) h2
      simp only [BitVec.getLsbD_and, BitVec.getLsbD_or] at this ⊢
      revert this
      generalize (2 : BitVec 32).getLsbD i = p
      generalize (relink op).getLsbD i = q
      generalize (0x03ffffff : BitVec 32).getLsbD i = r
      revert p q r
      decide
    rw [BitVec.or_assoc, hbits]
    have hl : (relink op &&& 0x03ffffff).toNat = (relink op).toNat % 2 ^ 26 := by
      rw [show (0x03ffffff : BitVec 32) = BitVec.ofNat 32 (2 ^ 26 - 1) from rfl, low_mask _ (by omega)]
    rw [or_add (k := 26) (by rfl) (by rw [hl]; omega), hl]; rfl
  have haa : field (recodeP9 op iea) 30 30 = 1 := by rw [fld, hn, hr]; rw [fld] at hb; generalize field op 1 1 = l at *; omega
  refine ⟨?_, haa, ?_, ?_⟩
  · rw [fld, hn]; omega
  · rw [fld _ 31 31, hn, hr]; generalize field op 1 1 = l at *; omega
  · unfold targetI
    rw [target_absolute haa, displacement_absolute (by omega)]
    rw [hn, hr]
    unfold p9LowI
    rw [fld op 6 29]
    generalize field op 1 1 = l at *
    omega

theorem p9b_type {op : BitVec 32} (h : P9B op) : branchType op = 1 := by
  rw [isBranchType]
  rcases h with h | h
  · rw [if_neg (by omega)]; exact h
  · rw [if_pos h]; rfl

/-- POWER9, B-form, relative. -/
theorem C24_p9_b {op : BitVec 32} {iea : BitVec 64} (ht : P9B op) (hm : field op 4 5 ≠ 2)
    (ha : iea.toNat % 4 = 0) (he : Encodable 16 (traced 16 (field op 4 5) (p9LowB op) iea) iea) :
    field (recodeP9 op iea) 0 5 = 16 ∧ field (recodeP9 op iea) 6 10 = p9BO op ∧ field (recodeP9 op iea) 11 15 = p9BI op ∧
    field (recodeP9 op iea) 30 30 = 0 ∧ field (recodeP9 op iea) 31 31 = field op 1 1 ∧
    targetB (recodeP9 op iea) iea = traced 16 (field op 4 5) (p9LowB op) iea := by
  have hbt := p9b_type ht
  have hbt0 : branchType op ≠ 0 := by rw [hbt]; decide
  have hs := stored_low hbt0
  have hlk := one_lt op 1
  have hl6 := one_lt op 6
  have hl7 := field_lt op 7 16
  simp only [show 16 - 7 + 1 = 10 from rfl] at hl7
  have hlow : (relink (unshift op) &&& 0x0000fffc).toNat = p9LowB op := by
    rw [show (0x0000fffc : BitVec 32) = BitVec.ofNat 32 ((2 ^ (16 - 2) - 1) * 2 ^ 2) from rfl, and_mask _ (by omega) (by omega)]
    unfold p9LowB; rw [fld op 17 29]
    generalize field op 1 1 = l at *
    generalize field op 6 6 = b at *
    generalize field op 7 16 = c at *
    omega
  have hrest : (relink (unshift op) &&& 0x03ff0001).toNat = field op 7 16 * 2 ^ 16 + field op 1 1 := by
    rw [show (0x03ff0001 : BitVec 32) = BitVec.ofNat 32 ((2 ^ (26 - 16) - 1) * 2 ^ 16) ||| BitVec.ofNat 32 (2 ^ 1 - 1) from rfl,
      BitVec.and_or_distrib_left]
    have e1 := and_mask (relink (unshift op)) (lo := 16) (hi := 26) (by omega) (by omega)
    have e2 := low_mask (relink (unshift op)) (n := 1) (by omega)
    rw [or_add (k := 16) (by rw [e1]; omega) (by rw [e2]; omega), e1, e2]
    generalize field op 1 1 = l at *
    generalize field op 6 6 = b at *
    generalize field op 7 16 = c at *
    omega
  have hlt : p9LowB op < 2 ^ 16 := by
    have := field_lt op 17 29
    simp only [show 29 - 17 + 1 = 13 from rfl] at this
    unfold p9LowB; omega
  have h4 : p9LowB op % 4 = 0 := by unfold p9LowB; omega
  have htr := traced_eq (n := 16) (by omega) _ (mode9_cases hm) iea (l := (relink (unshift op) &&& 0x0000fffc).setWidth 64)
    (by rw [setWidth64, hlow]; exact hlt)
  rw [setWidth64, hlow, modeOf] at htr
  have hml := field_lt op 4 5
  simp only [show 5 - 4 + 1 = 2 from rfl] at hml
  have hta : (traced 16 (field op 4 5) (p9LowB op) iea).toNat % 4 = 0 :=
    traced_aligned (by omega) (by omega) hm (by omega) hlt h4 iea
  have hd4 := sub_mod4 hta ha
  have hn : (recodeP9 op iea).toNat = 0x40000000 + field op 7 16 * 2 ^ 16 +
      (traced 16 (field op 4 5) (p9LowB op) iea - iea).toNat % 2 ^ 16 / 4 * 4 + field op 1 1 := by
    unfold recodeP9
    simp only
    rw [if_neg hbt0, if_pos hbt, if_neg (mode9_ne hm), BitVec.or_comm _ (targetMsb _ _ _), htr]
    generalize traced 16 (field op 4 5) (p9LowB op) iea - iea = d
    have hd := disp16 d
    have hsplit : relink (unshift op) &&& 0x03ff0001 = (relink (unshift op) &&& 0x03ff0000) ||| (relink (unshift op) &&& 1) := by
      rw [← BitVec.and_or_distrib_left]; rfl
    have e1 : (relink (unshift op) &&& 0x03ff0000).toNat = field op 7 16 * 2 ^ 16 := by
      rw [show (0x03ff0000 : BitVec 32) = BitVec.ofNat 32 ((2 ^ (26 - 16) - 1) * 2 ^ 16) from rfl, and_mask _ (by omega) (by omega)]
      generalize field op 1 1 = l at *
      generalize field op 6 6 = b at *
      generalize field op 7 16 = c at *
      omega
    have e2 : (relink (unshift op) &&& 1).toNat = field op 1 1 := by
      rw [show (1 : BitVec 32) = BitVec.ofNat 32 (2 ^ 1 - 1) from rfl, low_mask _ (by omega)]
      generalize field op 1 1 = l at *
      generalize field op 6 6 = b at *
      generalize field op 7 16 = c at *
      omega
    rw [hsplit, ← BitVec.or_assoc, BitVec.or_assoc (0x40000000 : BitVec 32), BitVec.or_comm ((d &&& _).setWidth 32), ← BitVec.or_assoc]
    have f1 : ((0x40000000 : BitVec 32) ||| (relink (unshift op) &&& 0x03ff0000)).toNat = 0x40000000 + field op 7 16 * 2 ^ 16 := by
      rw [or_add (k := 26) (by rfl) (by rw [e1]; omega), e1]; rfl
    have f2 : ((0x40000000 : BitVec 32) ||| (relink (unshift op) &&& 0x03ff0000) ||| (d &&& 0x0000fffc).setWidth 32).toNat =
        0x40000000 + field op 7 16 * 2 ^ 16 + d.toNat % 2 ^ 16 / 4 * 4 := by
      rw [or_add (k := 16) (by rw [f1]; omega) (by rw [hd]; omega), f1, hd]
    rw [or_add (k := 1) (by rw [f2]; omega) (by rw [e2]; exact hlk), f2, e2]
  have hbo : p9BO op = field op 7 16 / 2 ^ 5 := by unfold p9BO; rw [fld, fld]; omega
  have hbi : p9BI op = field op 7 16 % 2 ^ 5 := by unfold p9BI; rw [fld, fld]; omega
  rw [hbo, hbi]
  clear hbo hbi hlow hrest htr hs hlt h4
  generalize field op 7 16 = c at *
  have haa : field (recodeP9 op iea) 30 30 = 0 := by rw [fld, hn]; omega
  refine ⟨?_, ?_, ?_, haa, ?_, ?_⟩
  · rw [fld, hn]; omega
  · rw [fld, hn]; omega
  · rw [fld, hn]; omega
  · rw [fld _ 31 31, hn]; omega
  · apply target_relative (by omega) (by omega) haa _ hta ha he
    rw [hn]; omega

/-- POWER9, B-form, absolute. -/
theorem C24_p9_b_absolute {op : BitVec 32} (iea : BitVec 64) (ht : P9B op) (hm : field op 4 5 = 2) :
    field (recodeP9 op iea) 0 5 = 16 ∧ field (recodeP9 op iea) 6 10 = p9BO op ∧ field (recodeP9 op iea) 11 15 = p9BI op ∧
    field (recodeP9 op iea) 30 30 = 1 ∧ field (recodeP9 op iea) 31 31 = field op 1 1 ∧
    targetB (recodeP9 op iea) iea = (BitVec.ofNat 16 (p9LowB op)).signExtend 64 := by
  have hbt := p9b_type ht
  have hbt0 : branchType op ≠ 0 := by rw [hbt]; decide
  have hs := stored_low hbt0
  have hlk := one_lt op 1
  have hl6 := one_lt op 6
  have hl7 := field_lt op 7 16
  simp only [show 16 - 7 + 1 = 10 from rfl] at hl7
  have hn : (recodeP9 op iea).toNat = 0x40000000 + field op 7 16 * 2 ^ 16 + field op 6 6 * 2 ^ 15 + op.toNat % 2 ^ 15 / 4 * 4 + 2 + field op 1 1 := by
    unfold recodeP9
    simp only
    rw [if_neg hbt0, if_pos hbt, if_pos (mode9_eq hm)]
    have e1 := low_mask (relink (unshift op)) (n := 26) (by omega)
    have hsplit : (0x40000002 : BitVec 32) ||| (relink (unshift op) &&& 0x03ffffff) =
        (0x40000000 : BitVec 32) ||| ((relink (unshift op) &&& 0x03fffffc) ||| (2 ||| (relink (unshift op) &&& 1))) := by
      apply BitVec.eq_of_getLsbD_eq
      intro i hi
      simp only [BitVec.getLsbD_or, BitVec.getLsbD_and]
      generalize (relink (unshift op)).getLsbD i = q
      revert q
      revert i
      decide
    have g1 : (relink (unshift op) &&& 1).toNat = field op 1 1 := by
      rw [show (1 : BitVec 32) = BitVec.ofNat 32 (2 ^ 1 - 1) from rfl, low_mask _ (by omega)]
      generalize field op 1 1 = l at *
      generalize field op 6 6 = b at *
      generalize field op 7 16 = c at *
      omega
    have g2 : ((2 : BitVec 32) ||| (relink (unshift op) &&& 1)).toNat = 2 + field op 1 1 := by
      rw [or_add (k := 1) (by decide) (by rw [g1]; exact hlk), g1]; rfl
    have g3 : (relink (unshift op) &&& 0x03fffffc).toNat = field op 7 16 * 2 ^ 16 + field op 6 6 * 2 ^ 15 + op.toNat % 2 ^ 15 / 4 * 4 := by
      rw [show (0x03fffffc : BitVec 32) = BitVec.ofNat 32 ((2 ^ (26 - 2) - 1) * 2 ^ 2) from rfl, and_mask _ (by omega) (by omega)]
      generalize field op 1 1 = l at *
      generalize field op 6 6 = b at *
      generalize field op 7 16 = c at *
      omega
    have g4 : ((relink (unshift op) &&& 0x03fffffc) ||| (2 ||| (relink (unshift op) &&& 1))).toNat =
        field op 7 16 * 2 ^ 16 + field op 6 6 * 2 ^ 15 + op.toNat % 2 ^ 15 / 4 * 4 + (2 + field op 1 1) := by
      rw [or_add (k := 2) (by rw [g3]; omega) (by rw [g2]; omega), g3, g2]
    rw [hsplit, or_add (k := 26) (by rfl) (by rw [g4]; omega), g4]
    show 0x40000000 + _ = _
    omega
  have hbo : p9BO op = field op 7 16 / 2 ^ 5 := by unfold p9BO; rw [fld, fld]; omega
  have hbi : p9BI op = field op 7 16 % 2 ^ 5 := by unfold p9BI; rw [fld, fld]; omega
  rw [hbo, hbi]
  clear hbo hbi hs
  unfold p9LowB
  rw [fld op 17 29]
  generalize field op 7 16 = c at *
  generalize field op 6 6 = b at *
  have haa : field (recodeP9 op iea) 30 30 = 1 := by rw [fld, hn]; omega
  refine ⟨?_, ?_, ?_, haa, ?_, ?_⟩
  · rw [fld, hn]; omega
  · rw [fld, hn]; omega
  · rw [fld, hn]; omega
  · rw [fld _ 31 31, hn]; omega
  · unfold targetB
    rw [target_absolute haa, displacement_absolute (by omega)]
    rw [hn]; omega

/-! ### Cases for the theorems -/

/-- A POWER9 branch backwards across a 64 MB boundary. -/
example : field 0x4ffffffa 2 3 = 0 ∧ field 0x4ffffffa 30 30 = 1 ∧ field 0x4ffffffa 4 5 = 3 ∧
    Encodable 26 (traced 26 3 (p9LowI 0x4ffffffa) 0x10000000) 0x10000000 ∧
    traced 26 3 (p9LowI 0x4ffffffa) 0x10000000 = 0xffffff8 ∧ recodeP9 0x4ffffffa 0x10000000 = 0x4bfffff9 := by decide +kernel

/-- A POWER10 branch with link across a 64 MB boundary, and a conditional branch. -/
example : field 0x50000004 11 12 = 0 ∧ field 0x50000004 2 3 = 1 ∧
    Encodable 26 (traced 26 1 (p10LowI 0x50000004) 0x13fffff0) 0x13fffff0 ∧
    traced 26 1 (p10LowI 0x50000004) 0x13fffff0 = 0x14000010 ∧ recodeP10 0x50000004 0x13fffff0 = 0x48000021 := by decide +kernel

example : field 0x050a4010 11 12 = 1 ∧ field 0x050a4010 2 3 = 0 ∧
    Encodable 16 (traced 16 0 (p10LowB 0x050a4010) 0x10000) 0x10000 ∧ p10BO 0x050a4010 = 20 ∧ p10BI 0x050a4010 = 2 ∧
    recodeP10 0x050a4010 0x10000 = 0x42820040 := by decide +kernel

/-- A case for the refutation: the condition bit 18 is lost. -/
example : field 0x21280000 11 12 = 1 ∧ field 0x21280000 2 3 = 2 ∧ p10BI 0x21280000 = 16 ∧
    field (recodeP10 0x21280000 0) 11 15 = 0 := by decide +kernel

end Htm
