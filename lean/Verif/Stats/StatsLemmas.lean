import Verif.Stats.SpecStats
import Verif.Htm.PropsRecode
/-!
The masks and comparisons of `ppcstats.c`.
-/
namespace Stats
open Spec

theorem ge_iff {x : BitVec 64} {n : BitVec 64} : x ≥ n ↔ n.toNat ≤ x.toNat := by rw [ge_iff_le, BitVec.le_def]

theorem isSystem_iff (ea : BitVec 64) : isSystem ea = true ↔ region ea = .kernel := by
  unfold isSystem region
  rw [decide_eq_true_iff, ge_iff]
  show 0xc000000000000000 ≤ _ ↔ _
  by_cases h : ea.toNat ≥ 0xc000000000000000
  · rw [if_pos h]; exact ⟨fun _ => rfl, fun _ => h⟩
  · rw [if_neg h]
    constructor
    · intro h'; exact absurd h' h
    · intro h'
      split at h'
      · cases h'
      · split at h' <;> cases h'

theorem firmware_mask (ea : BitVec 64) : ea &&& 0xFFFFFFFFFF000000 = 0x0000000030000000 ↔ 0x30000000 ≤ ea.toNat ∧ ea.toNat < 0x31000000 := by
  have h := Htm.and_mask ea (lo := 24) (hi := 64) (by decide) (by decide)
  have hm : BitVec.ofNat 64 ((2 ^ (64 - 24) - 1) * 2 ^ 24) = 0xFFFFFFFFFF000000 := by decide
  rw [hm] at h
  rw [← BitVec.toNat_inj, h]
  have := ea.isLt
  show _ = 0x30000000 ↔ _
  omega

theorem isOpal_iff (ea : BitVec 64) : isOpal ea = true ↔ region ea = .firmware := by
  unfold isOpal region
  rw [Bool.and_eq_true, beq_iff_eq, firmware_mask, Bool.not_eq_true']
  have h1 : isSystem ea = false ↔ ¬ ea.toNat ≥ 0xc000000000000000 := by
    unfold isSystem
    rw [decide_eq_false_iff_not, ge_iff]
    rfl
  rw [h1]
  by_cases h : ea.toNat ≥ 0xc000000000000000
  · rw [if_pos h]
    exact ⟨fun hx => absurd h hx.1, fun hx => by cases hx⟩
  · rw [if_neg h]
    by_cases h2 : 0x30000000 ≤ ea.toNat ∧ ea.toNat < 0x31000000
    · rw [if_pos h2]; exact ⟨fun _ => rfl, fun _ => ⟨h, h2⟩⟩
    · rw [if_neg h2]
      constructor
      · intro hx; exact absurd hx.2 h2
      · intro hx; split at hx <;> cases hx

theorem li_mask (w : BitVec 32) (c : BitVec 32) (k : Nat) (hc : c.toNat = k * 65536) : w &&& 0xffff0000 = c ↔ w.toNat / 65536 = k := by
  have h := Htm.and_mask w (lo := 16) (hi := 32) (by decide) (by decide)
  have hm : BitVec.ofNat 32 ((2 ^ (32 - 16) - 1) * 2 ^ 16) = 0xffff0000 := by decide
  rw [hm] at h
  rw [← BitVec.toNat_inj, h, hc]
  have := w.isLt
  omega

theorem imm_mask (w : BitVec 32) : (w &&& 0x0000ffff).setWidth 64 = BitVec.ofNat 64 (w.toNat % 65536) := by
  have h := Htm.and_mask w (lo := 0) (hi := 16) (by decide) (by decide)
  have hm : BitVec.ofNat 32 ((2 ^ (16 - 0) - 1) * 2 ^ 0) = 0x0000ffff := by decide
  rw [hm] at h
  apply BitVec.eq_of_toNat_eq
  rw [BitVec.toNat_setWidth, h, BitVec.toNat_ofNat]
  omega

theorem vector_mask (ea : BitVec 64) : (ea &&& 0xfffffffffffff01f).toNat = ea.toNat / 4096 * 4096 + ea.toNat % 32 := by
  have h1 := Htm.and_mask ea (lo := 12) (hi := 64) (by decide) (by decide)
  have h2 := Htm.and_mask ea (lo := 0) (hi := 5) (by decide) (by decide)
  have hm1 : BitVec.ofNat 64 ((2 ^ (64 - 12) - 1) * 2 ^ 12) = 0xfffffffffffff000 := by decide
  have hm2 : BitVec.ofNat 64 ((2 ^ (5 - 0) - 1) * 2 ^ 0) = 0x1f := by decide
  rw [hm1] at h1
  rw [hm2] at h2
  have h3 : (0xfffffffffffff01f : BitVec 64) = 0xfffffffffffff000 ||| 0x1f := by decide
  have h4 : ea &&& (0xfffffffffffff01f : BitVec 64) = (ea &&& 0xfffffffffffff000) ||| (ea &&& 0x1f) := by
    rw [h3]
    apply BitVec.eq_of_getLsbD_eq
    intro i hi
    rw [BitVec.getLsbD_and, BitVec.getLsbD_or, BitVec.getLsbD_or, BitVec.getLsbD_and, BitVec.getLsbD_and]
    cases ea.getLsbD i <;> rfl
  rw [h4, BitVec.toNat_or, h1, h2]
  have := ea.isLt
  have h5 : ea.toNat % 2 ^ 64 / 2 ^ 12 * 2 ^ 12 = 2 ^ 12 * (ea.toNat / 4096) := by omega
  rw [h5, show ea.toNat % 2 ^ 5 / 2 ^ 0 * 2 ^ 0 = ea.toNat % 32 from by omega, ← Nat.two_pow_add_eq_or_of_lt (by omega)]
  omega

theorem low_mask (ea : BitVec 64) : (ea &&& 0xfff).toNat = ea.toNat % 4096 := by
  have h := Htm.and_mask ea (lo := 0) (hi := 12) (by decide) (by decide)
  have hm : BitVec.ofNat 64 ((2 ^ (12 - 0) - 1) * 2 ^ 0) = 0xfff := by decide
  rw [hm] at h
  rw [h]; omega

theorem isVector_iff {v ea : BitVec 64} (hv : v.toNat < 4096 ∧ v.toNat % 32 = 0) (w : BitVec 32) :
    isVector v ⟨ea, w⟩ = true ↔
      ¬ (ea &&& 0xfffffffffffff01f ≠ 0xc000000000004000 ∧ ea &&& 0xfffffffffffff01f ≠ 0) ∧ ea &&& 0xfff = v := by
  unfold isVector
  dsimp only
  rw [Bool.or_eq_true, beq_iff_eq, beq_iff_eq, ← BitVec.toNat_inj, ← BitVec.toNat_inj, ← BitVec.toNat_inj, ne_eq, ne_eq, ← BitVec.toNat_inj, ← BitVec.toNat_inj,
    vector_mask, low_mask, BitVec.toNat_add, show (0xc000000000004000 : BitVec 64).toNat = 0xc000000000004000 from rfl, show (0 : BitVec 64).toNat = 0 from rfl]
  have := ea.isLt
  omega

theorem mfspr_mask (w : BitVec 32) : w &&& 0xfe1fffff = 0x7c0042a6 ↔ ∃ t, t < 16 ∧ w.toNat = 0x7c0042a6 + t * 2 ^ 21 := by
  have h1 := Htm.and_mask w (lo := 25) (hi := 32) (by decide) (by decide)
  have h2 := Htm.and_mask w (lo := 0) (hi := 21) (by decide) (by decide)
  have hm1 : BitVec.ofNat 32 ((2 ^ (32 - 25) - 1) * 2 ^ 25) = 0xfe000000 := by decide
  have hm2 : BitVec.ofNat 32 ((2 ^ (21 - 0) - 1) * 2 ^ 0) = 0x1fffff := by decide
  rw [hm1] at h1
  rw [hm2] at h2
  have h3 : (0xfe1fffff : BitVec 32) = 0xfe000000 ||| 0x1fffff := by decide
  have h4 : w &&& (0xfe1fffff : BitVec 32) = (w &&& 0xfe000000) ||| (w &&& 0x1fffff) := by
    rw [h3]
    apply BitVec.eq_of_getLsbD_eq
    intro i hi
    rw [BitVec.getLsbD_and, BitVec.getLsbD_or, BitVec.getLsbD_or, BitVec.getLsbD_and, BitVec.getLsbD_and]
    cases w.getLsbD i <;> rfl
  have := w.isLt
  have h5 : w.toNat % 2 ^ 32 / 2 ^ 25 * 2 ^ 25 = 2 ^ 25 * (w.toNat / 2 ^ 25) := by omega
  have h6 : w.toNat % 2 ^ 21 / 2 ^ 0 * 2 ^ 0 = w.toNat % 2 ^ 21 := by omega
  rw [← BitVec.toNat_inj, h4, BitVec.toNat_or, h1, h2, h5, h6, ← Nat.two_pow_add_eq_or_of_lt (by omega)]
  show _ = 0x7c0042a6 ↔ _
  constructor
  · intro h
    exact ⟨w.toNat / 2 ^ 21 % 16, by omega, by omega⟩
  · rintro ⟨t, ht, hw⟩
    omega

theorem mftb_mask (w : BitVec 32) : w &&& 0xfc1fffff = 0x7c0c42a6 ↔ ∃ t, t < 32 ∧ w.toNat = 0x7c0c42a6 + t * 2 ^ 21 := by
  have h1 := Htm.and_mask w (lo := 26) (hi := 32) (by decide) (by decide)
  have h2 := Htm.and_mask w (lo := 0) (hi := 21) (by decide) (by decide)
  have hm1 : BitVec.ofNat 32 ((2 ^ (32 - 26) - 1) * 2 ^ 26) = 0xfc000000 := by decide
  have hm2 : BitVec.ofNat 32 ((2 ^ (21 - 0) - 1) * 2 ^ 0) = 0x1fffff := by decide
  rw [hm1] at h1
  rw [hm2] at h2
  have h3 : (0xfc1fffff : BitVec 32) = 0xfc000000 ||| 0x1fffff := by decide
  have h4 : w &&& (0xfc1fffff : BitVec 32) = (w &&& 0xfc000000) ||| (w &&& 0x1fffff) := by
    rw [h3]
    apply BitVec.eq_of_getLsbD_eq
    intro i hi
    rw [BitVec.getLsbD_and, BitVec.getLsbD_or, BitVec.getLsbD_or, BitVec.getLsbD_and, BitVec.getLsbD_and]
    cases w.getLsbD i <;> rfl
  have := w.isLt
  have h5 : w.toNat % 2 ^ 32 / 2 ^ 26 * 2 ^ 26 = 2 ^ 26 * (w.toNat / 2 ^ 26) := by omega
  have h6 : w.toNat % 2 ^ 21 / 2 ^ 0 * 2 ^ 0 = w.toNat % 2 ^ 21 := by omega
  rw [← BitVec.toNat_inj, h4, BitVec.toNat_or, h1, h2, h5, h6, ← Nat.two_pow_add_eq_or_of_lt (by omega)]
  show _ = 0x7c0c42a6 ↔ _
  constructor
  · intro h
    exact ⟨w.toNat / 2 ^ 21 % 32, by omega, by omega⟩
  · rintro ⟨t, ht, hw⟩
    omega

end Stats
