import Verif.Htm.PropsStamps
import Verif.Htm.SpecInsn
/-!
Fields of records, and branches are always decoded.
-/
namespace Htm
open Spec

theorem bits_fld {v : BitVec 64} {a b : Nat} (hb : b < 64) (hab : a ≤ b) : (bits v a b).toNat = fld v a b := bits_toNat hb hab

theorem fld_lt (v : BitVec 64) (a b : Nat) : fld v a b < 2 ^ (b - a + 1) := Nat.mod_lt _ (Nat.two_pow_pos _)

theorem u32_fld {v : BitVec 64} {a b : Nat} (hb : b < 64) (hab : a ≤ b) (hw : b - a < 32) : (u32 v a b).toNat = fld v a b := by
  unfold u32
  rw [BitVec.toNat_setWidth, bits_fld hb hab]
  apply Nat.mod_eq_of_lt
  exact Nat.lt_of_lt_of_le (fld_lt v a b) (Nat.pow_le_pow_right (by decide) (by omega))

theorem u32_eq {v : BitVec 64} {a b : Nat} (hb : b < 64) (hab : a ≤ b) (hw : b - a < 32) (k : BitVec 32) : u32 v a b = k ↔ fld v a b = k.toNat := by
  rw [← u32_fld hb hab hw, BitVec.toNat_inj]

theorem bits_eq {v : BitVec 64} {a b : Nat} (hb : b < 64) (hab : a ≤ b) (k : BitVec 64) : bits v a b = k ↔ fld v a b = k.toNat := by
  rw [← bits_fld hb hab, BitVec.toNat_inj]

theorem bit_fld {v : BitVec 64} {n : Nat} (hn : n < 64) : bit v n = decide (fld v n n = 1) := by
  unfold bit
  rw [show (bits v n n == 1) = decide (bits v n n = 1) from rfl]
  apply decide_eq_decide.2
  exact bits_eq hn (Nat.le_refl n) 1

theorem isStamp_iff (v : BitVec 64) : isStamp v = true ↔ IsStamp v := by
  unfold isStamp IsStamp
  rw [beq_iff_eq, u32_eq (by omega) (by omega) (by omega)]; rfl

theorem isStamp_false {v : BitVec 64} (h : ¬ IsStamp v) : isStamp v = false := by
  cases hs : isStamp v with
  | false => rfl
  | true => exact absurd ((isStamp_iff v).1 hs) h

theorem badTag_false {v : BitVec 64} (h : ¬ IsStamp v) (ht : fld v 36 55 ≠ 0xABCDE) : badTag v = false := by
  unfold badTag
  rw [isStamp_false h, Bool.false_or]
  rw [beq_eq_false_iff_ne]
  intro hx
  exact ht ((u32_eq (by omega) (by omega) (by omega) _).1 hx)

/-! ### The recoded word is never the one that stands for a failure -/

/-- The upper bit is clear. -/
def Low (w : BitVec 32) : Prop := w.getLsbD 31 = false

theorem low_or {a b : BitVec 32} (ha : Low a) (hb : Low b) : Low (a ||| b) := by
  unfold Low at *; rw [BitVec.getLsbD_or, ha, hb]; rfl

theorem low_and_right {a b : BitVec 32} (hb : Low b) : Low (a &&& b) := by
  unfold Low at *; rw [BitVec.getLsbD_and, hb, Bool.and_false]

theorem low_and_left {a b : BitVec 32} (hb : Low a) : Low (a &&& b) := by
  unfold Low at *; rw [BitVec.getLsbD_and, hb, Bool.false_and]

theorem low_shift {a : BitVec 32} {n : Nat} (hn : n ≤ 31) (h : a.getLsbD (31 - n) = false) : Low (a <<< n) := by
  unfold Low
  rw [BitVec.getLsbD_shiftLeft, h, Bool.and_false]

theorem bits32_high {v : BitVec 32} {a b i : Nat} (hb : b < 32) (hab : a ≤ b) (hi : b - a < i) : (bits32 v a b).getLsbD i = false := by
  rw [bits32_getLsbD hb hab, decide_eq_false (by omega), Bool.false_and]

theorem shl_get {a : BitVec 32} {n i : Nat} (h : n ≤ i) (ha : a.getLsbD (i - n) = false) : (a <<< n).getLsbD i = false := by
  rw [BitVec.getLsbD_shiftLeft, ha, Bool.and_false]

theorem low_ok {w : BitVec 32} (h : Low w) : demunge w = some w := by
  unfold demunge
  rw [if_neg]
  intro hw
  unfold Low at h
  rw [hw] at h
  revert h; decide

theorem low_set {v m : BitVec 64} (h : m.getLsbD 31 = false) : Low ((v &&& m).setWidth 32) := by
  unfold Low
  rw [BitVec.getLsbD_setWidth, BitVec.getLsbD_and, h, Bool.and_false, Bool.and_false]

theorem low_one (op : BitVec 32) (n : Nat) (hn : n < 32) : Low (bits32 op n n) := bits32_high hn (Nat.le_refl n) (by omega)

theorem low_lowI (op : BitVec 32) : Low (lowI op) := by
  unfold lowI
  apply low_shift (by omega)
  rw [BitVec.getLsbD_or, shl_get (by omega) (bits32_high (by omega) (by omega) (by omega)), bits32_high (by omega) (by omega) (by omega)]; rfl

theorem low_lowB (op : BitVec 32) : Low (lowB op) := by
  unfold lowB
  apply low_shift (by omega)
  rw [BitVec.getLsbD_or, shl_get (by omega) (bits32_high (by omega) (by omega) (by omega)), bits32_high (by omega) (by omega) (by omega)]; rfl

theorem low_boB (op : BitVec 32) : Low (boB op <<< 21) := by
  apply low_shift (by omega)
  unfold boB
  rw [BitVec.getLsbD_or, shl_get (by omega) (bits32_high (by omega) (by omega) (by omega)), bits32_high (by omega) (by omega) (by omega)]; rfl

theorem low_biOf (op : BitVec 32) : Low (biOf op <<< 16) := by
  apply low_shift (by omega)
  unfold biOf
  rw [BitVec.getLsbD_or, shl_get (by omega) (bits32_high (by omega) (by omega) (by omega)), bits32_high (by omega) (by omega) (by omega)]; rfl

theorem low_biAbs (op : BitVec 32) : Low (biAbs op <<< 16) := by
  apply low_shift (by omega)
  unfold biAbs
  rw [BitVec.getLsbD_or, shl_get (by omega) (bits32_high (by omega) (by omega) (by omega)), bits32_high (by omega) (by omega) (by omega)]; rfl

theorem low_boXL (op : BitVec 32) : Low (boXL op <<< 21) := by
  apply low_shift (by omega)
  unfold boXL
  split
  · rw [BitVec.getLsbD_or, shl_get (by omega) (bits32_high (by omega) (by omega) (by omega)), bits32_high (by omega) (by omega) (by omega)]; rfl
  · exact shl_get (by omega) (bits32_high (by omega) (by omega) (by omega))

theorem low_xl {x : BitVec 32} (hx : Low x) (op : BitVec 32) : Low (recodeXL x op) := by
  unfold recodeXL
  refine low_or (low_or (low_or (low_or hx (low_boXL op)) (low_biOf op)) ?_) (low_one op 1 (by omega))
  exact low_shift (by omega) (bits32_high (by omega) (by omega) (by omega))

theorem major_low {op k : BitVec 32} (h : majorOp op = k) (hk : k.getLsbD 5 = false) : Low op := by
  unfold Low
  have : (majorOp op).getLsbD 5 = op.getLsbD 31 := by
    unfold majorOp
    rw [BitVec.getLsbD_and, BitVec.getLsbD_ushiftRight]
    show (op.getLsbD 31 && true) = _
    rw [Bool.and_true]
  rw [← this, h, hk]

theorem low_p10 (op : BitVec 32) (iea : BitVec 64) : Low (recodeP10 op iea) := by
  unfold recodeP10
  split
  · unfold recodeI
    split
    · exact low_or (low_or (low_or (by unfold Low; decide) (low_lowI op)) (by unfold Low; decide)) (low_one op 1 (by omega))
    · exact low_or (low_or (by unfold Low; decide) (low_set (by decide))) (low_one op 1 (by omega))
  · split
    · unfold recodeB
      split
      · exact low_or (low_or (low_or (low_or (low_or (by unfold Low; decide) (by unfold Low; decide)) (low_lowB op)) (low_boB op)) (low_biAbs op)) (low_one op 1 (by omega))
      · exact low_or (low_or (low_or (low_or (by unfold Low; decide) (low_set (by decide))) (low_boB op)) (low_biOf op)) (low_one op 1 (by omega))
    · split
      · exact low_xl (by unfold Low; decide) op
      · unfold recodeOther
        split
        · rename_i h; exact low_and_left (major_low h (by decide))
        · split
          · split
            · rename_i h _; exact low_and_left (major_low h (by decide))
            · unfold Low; decide
          · split
            · rename_i h; exact low_and_left (major_low h (by decide))
            · split
              · exact low_or (low_xl (by unfold Low; decide) op) (by unfold Low; decide)
              · exact low_xl (by unfold Low; decide) op

theorem low_p9 (op : BitVec 32) (iea : BitVec 64) : Low (recodeP9 op iea) := by
  unfold recodeP9
  dsimp only
  split
  · split
    · exact low_or (low_or (by unfold Low; decide) (low_and_right (by unfold Low; decide))) (by unfold Low; decide)
    · exact low_or (low_or (by unfold Low; decide) (low_set (by decide))) (low_and_right (by unfold Low; decide))
  · split
    · split
      · exact low_or (by unfold Low; decide) (low_and_right (by unfold Low; decide))
      · exact low_or (low_or (by unfold Low; decide) (low_set (by decide))) (low_and_right (by unfold Low; decide))
    · split
      · exact low_or (by unfold Low; decide) (low_and_right (by unfold Low; decide))
      · split
        · exact low_or (low_or (by unfold Low; decide) (low_and_right (by unfold Low; decide))) (by unfold Low; decide)
        · exact low_or (by unfold Low; decide) (low_and_right (by unfold Low; decide))

theorem wordOf_some {branch : Bool} {op w : BitVec 32} (h : Low w) : ∃ x, wordOf branch op w = some x := by
  unfold wordOf
  split
  · rw [low_ok h]; exact ⟨_, rfl⟩
  · exact ⟨_, rfl⟩

/-- An instruction that is stored as it is. -/
theorem wordOf_stored {op w x k : BitVec 32} {branch : Bool} (h : wordOf branch op w = some x)
    (hs : stored (if branch then 1 else 0) op.toNat = some k) : x = k := by
  cases branch with
  | true =>
    unfold stored at hs
    rw [if_neg (by intro h; exact absurd h.1 (by decide))] at hs
    cases hs
  | false =>
    unfold stored at hs
    by_cases hc : (if false = true then 1 else 0) = 0 ∧ op.toNat / 2 ^ 26 ≠ 19
    · rw [if_pos hc] at hs
      unfold wordOf clearHint at h
      rw [Bool.false_and, if_neg (show ¬ (false = true) by decide)] at h
      have hm : isBlr op = false := by
        have : majorOp op ≠ 19 := by
          intro hm
          apply hc.2
          have := congrArg BitVec.toNat hm
          unfold majorOp at this
          rw [BitVec.toNat_and, BitVec.toNat_ushiftRight, Nat.shiftRight_eq_div_pow] at this
          have h2 := op.isLt
          rw [show (0x3f : BitVec 32).toNat = 2 ^ 6 - 1 from rfl, Nat.and_two_pow_sub_one_eq_mod] at this
          rw [show (19 : BitVec 32).toNat = 19 from rfl] at this
          omega
        unfold isBlr
        have : (majorOp op == 19) = false := beq_eq_false_iff_ne.2 this
        rw [this]; rfl
      rw [Option.map_some, hm] at h
      rw [if_neg (by decide)] at h
      cases h; cases hs
      simp
    · rw [if_neg hc] at hs; cases hs

/-! ### When the word is zero -/

theorem get_ne {w : BitVec 32} (i : Nat) (h : w.getLsbD i = true) : w ≠ 0 := by
  intro h0; rw [h0] at h; simp at h

theorem or_get_left {a b : BitVec 32} {i : Nat} (h : a.getLsbD i = true) : (a ||| b).getLsbD i = true := by
  rw [BitVec.getLsbD_or, h, Bool.true_or]

theorem xl_get {x op : BitVec 32} {i : Nat} (h : x.getLsbD i = true) : (recodeXL x op).getLsbD i = true := by
  unfold recodeXL
  exact or_get_left (or_get_left (or_get_left (or_get_left h)))

theorem masked_ne {op k : BitVec 32} (h : majorOp op = k) (hk : k ≠ 0) : op &&& ~~~ 0x1e0000 ≠ 0 := by
  intro h0
  apply hk
  rw [← h]
  have : majorOp (op &&& ~~~ 0x1e0000) = majorOp op := by
    unfold majorOp
    apply BitVec.eq_of_getLsbD_eq
    intro i hi
    rw [BitVec.getLsbD_and, BitVec.getLsbD_and, BitVec.getLsbD_ushiftRight, BitVec.getLsbD_ushiftRight, BitVec.getLsbD_and]
    by_cases h6 : i < 6
    · have hm : ∀ i : Fin 6, (~~~ 0x1e0000 : BitVec 32).getLsbD (26 + i.val) = true := by decide
      rw [hm ⟨i, h6⟩, Bool.and_true]
    · have : (0x3f : BitVec 32).getLsbD i = false := by
        have hm : ∀ i : Fin 32, 6 ≤ i.val → (0x3f : BitVec 32).getLsbD i.val = false := by decide
        exact hm ⟨i, hi⟩ (Nat.le_of_not_lt h6)
      rw [this, Bool.and_false, Bool.and_false]
  rw [← this, h0]; rfl

theorem majorOp_toNat (op : BitVec 32) : (majorOp op).toNat = op.toNat / 2 ^ 26 := by
  unfold majorOp
  rw [BitVec.toNat_and, BitVec.toNat_ushiftRight, Nat.shiftRight_eq_div_pow, show (0x3f : BitVec 32).toNat = 2 ^ 6 - 1 from rfl,
    Nat.and_two_pow_sub_one_eq_mod]
  have := op.isLt
  omega

theorem minorOp_toNat (op : BitVec 32) : (minorOp op).toNat = op.toNat / 2 % 32 := by
  unfold minorOp
  rw [BitVec.toNat_and, BitVec.toNat_ushiftRight, Nat.shiftRight_eq_div_pow, show (0x1f : BitVec 32).toNat = 2 ^ 5 - 1 from rfl,
    Nat.and_two_pow_sub_one_eq_mod]

theorem kind_toNat (op : BitVec 32) : (bits32 op 11 12).toNat = op.toNat / 2 ^ 19 % 4 := by
  rw [bits32_toNat (by omega) (by omega)]

theorem ne_p10 (op : BitVec 32) (iea : BitVec 64) (h : ¬ (op.toNat / 2 ^ 19 % 4 = 3 ∧ op.toNat / 2 ^ 26 = 19 ∧ op.toNat / 2 % 32 ≠ 18)) :
    recodeP10 op iea ≠ 0 := by
  unfold recodeP10
  split
  · apply get_ne 30
    unfold recodeI
    split
    · exact or_get_left (or_get_left (or_get_left (by decide)))
    · exact or_get_left (or_get_left (by decide))
  · split
    · apply get_ne 30
      unfold recodeB
      split
      · exact or_get_left (or_get_left (or_get_left (or_get_left (or_get_left (by decide)))))
      · exact or_get_left (or_get_left (or_get_left (or_get_left (by decide))))
    · split
      · exact get_ne 30 (xl_get (by decide))
      · rename_i h0 h1 h2
        unfold recodeOther
        split
        · rename_i hm; exact masked_ne hm (by decide)
        · split
          · rename_i hm
            split
            · exact masked_ne hm (by decide)
            · rename_i hn
              refine absurd ⟨?_, ?_, ?_⟩ h
              · rw [← kind_toNat]
                have e0 : (bits32 op 11 12).toNat ≠ 0 := fun e => h0 (BitVec.eq_of_toNat_eq e)
                have e1 : (bits32 op 11 12).toNat ≠ 1 := fun e => h1 (BitVec.eq_of_toNat_eq e)
                have e2 : (bits32 op 11 12).toNat ≠ 2 := fun e => h2 (BitVec.eq_of_toNat_eq e)
                have := kind_toNat op
                omega
              · rw [← majorOp_toNat, hm]; rfl
              · rw [← minorOp_toNat]; exact fun e => hn (BitVec.eq_of_toNat_eq e)
          · split
            · rename_i hm; exact masked_ne hm (by decide)
            · split
              · exact get_ne 30 (or_get_left (xl_get (by decide)))
              · exact get_ne 30 (xl_get (by decide))

theorem ne_p9 (op : BitVec 32) (iea : BitVec 64) : recodeP9 op iea ≠ 0 := by
  apply get_ne 30
  unfold recodeP9
  dsimp only
  split
  · split
    · exact or_get_left (or_get_left (by decide))
    · exact or_get_left (or_get_left (by decide))
  · split
    · split
      · exact or_get_left (by decide)
      · exact or_get_left (or_get_left (by decide))
    · split
      · exact or_get_left (by decide)
      · split
        · exact or_get_left (or_get_left (by decide))
        · exact or_get_left (by decide)

theorem clearHint_ne {w : BitVec 32} (h : w ≠ 0) : clearHint w ≠ 0 := by
  unfold clearHint
  split
  · rename_i hb
    have hm : majorOp w = 19 := by
      unfold isBlr at hb
      simp only [Bool.or_eq_true, Bool.and_eq_true, beq_iff_eq] at hb
      rcases hb with hb | hb <;> exact hb.1
    apply get_ne 26
    rw [BitVec.getLsbD_and]
    have h26 : w.getLsbD 26 = true := by
      have : (majorOp w).getLsbD 0 = true := by rw [hm]; decide
      unfold majorOp at this
      rw [BitVec.getLsbD_and, BitVec.getLsbD_ushiftRight, Bool.and_eq_true] at this
      exact this.1
    rw [h26]; decide
  · exact h

theorem wordOf_ne {branch : Bool} {op w x : BitVec 32} (h : wordOf branch op w = some x) (h1 : branch = true → w ≠ 0) (h2 : op ≠ 0) : x ≠ 0 := by
  unfold wordOf at h
  split at h
  · rename_i hb
    unfold demunge at h
    split at h
    · cases h
    · cases h
      refine clearHint_ne (h1 ?_)
      cases branch with
      | true => rfl
      | false => cases hb
  · cases h; exact clearHint_ne h2

end Htm
