import Verif.Opc.Table

/-! The error messages of the insertion functions. -/
namespace Opc

variable {i x d w : W} {v inv : Int} {e : Bool}

theorem word_small (h0 : 0 ≤ v) (h1 : v < 2 ^ 63) : ((BitVec.ofInt 64 v).toNat : Int) = v ∧ (BitVec.ofInt 64 v).toInt = v := by
  have e1 : ((BitVec.ofInt 64 v).toNat : Int) = v := by rw [toNat_ofInt64]; omega
  refine ⟨e1, ?_⟩
  rw [BitVec.toInt_eq_toNat_of_lt (by omega)]; exact e1

theorem word_eq (h0 : 0 ≤ v) (h1 : v < 2 ^ 63) : BitVec.ofInt 64 v = x ↔ v = (x.toNat : Int) := by
  have := (word_small h0 h1).1
  constructor
  · rintro rfl; exact this.symm
  · intro h; apply BitVec.eq_of_toNat_eq; omega

theorem part_eq (lo n : Nat) (hn : n ≤ 64) : (((i >>> lo) &&& BitVec.ofNat 64 (2 ^ n - 1)).toNat : Int) = part i lo n := by
  rw [and_low _ hn, BitVec.toNat_ushiftRight, Nat.shiftRight_eq_div_pow]; rfl

theorem part5 (lo : Nat) : (((i >>> lo) &&& 0x1f#64).toNat : Int) = part i lo 5 := part_eq lo 5 (by omega)

theorem part_range (lo n : Nat) : 0 ≤ part i lo n ∧ part i lo n < 2 ^ n := by
  unfold part
  refine ⟨by omega, ?_⟩
  exact_mod_cast Nat.mod_lt _ (Nat.two_pow_pos n)

theorem ite_true_iff {c : Prop} [Decidable c] : (if c then true else false) = true ↔ c := by simp

/-- The insertion is defined, and its error message is set exactly for the values that are not legal. -/
def Judged (r : Inserted) (ok : Prop) : Prop := ∃ w e, r = some (w, e) ∧ (e = true ↔ ¬ok)

theorem judged_ite {w : W} {c ok : Prop} [Decidable c] (h : c ↔ ¬ok) : Judged (some (w, if c then true else false)) ok :=
  ⟨w, _, rfl, by rw [ite_true_iff, h]⟩

theorem judged_ok {w : W} {ok : Prop} (h : ok) : Judged (some (w, false)) ok := ⟨w, false, rfl, by simp [h]⟩

theorem judged_bad {w : W} {ok : Prop} (h : ¬ok) : Judged (some (w, true)) ok := ⟨w, true, rfl, by simp [h]⟩

theorem leArx (h0 : 0 ≤ v) (h1 : v < 32) : Judged (insertArx i (BitVec.ofInt 64 v) d) (8 ≤ v ∧ v < 24) := by
  obtain ⟨a, b⟩ := word_small h0 (by omega)
  unfold insertArx
  rw [if_neg (by omega)]
  have e1 : (BitVec.ofInt 64 v - 8#64).toInt = v - 8 := by
    rw [BitVec.toInt_sub, b]
    change (v - 8).bmod (2 ^ 64) = v - 8
    rw [Int.bmod_def]; split <;> omega
  simp only [e1]
  split
  · exact judged_bad (by omega)
  · exact judged_ok (by omega)

theorem leAry (h0 : 0 ≤ v) (h1 : v < 32) : Judged (insertAry i (BitVec.ofInt 64 v) d) (8 ≤ v ∧ v < 24) := by
  obtain ⟨a, b⟩ := word_small h0 (by omega)
  unfold insertAry
  rw [if_neg (by omega)]
  have e1 : (BitVec.ofInt 64 v - 8#64).toInt = v - 8 := by
    rw [BitVec.toInt_sub, b]
    change (v - 8).bmod (2 ^ 64) = v - 8
    rw [Int.bmod_def]; split <;> omega
  simp only [e1]
  split
  · exact judged_bad (by omega)
  · exact judged_ok (by omega)

theorem leRx (h0 : 0 ≤ v) (h1 : v < 32) : Judged (insertRx i (BitVec.ofInt 64 v) d) (v < 8 ∨ 24 ≤ v) := by
  obtain ⟨a, b⟩ := word_small h0 (by omega)
  unfold insertRx
  simp only [b]
  split
  · exact judged_ok (by omega)
  · split
    · exact judged_ok (by omega)
    · exact judged_bad (by omega)

theorem leRy (h0 : 0 ≤ v) (h1 : v < 32) : Judged (insertRy i (BitVec.ofInt 64 v) d) (v < 8 ∨ 24 ≤ v) := by
  obtain ⟨a, b⟩ := word_small h0 (by omega)
  unfold insertRy
  simp only [b]
  split
  · exact judged_ok (by omega)
  · split
    · exact judged_ok (by omega)
    · exact judged_bad (by omega)

/-! BO. -/

instance (p : String) (v : Int) : Decidable (digits p v) := by unfold digits; infer_instance

theorem bo_old : ∀ n : Fin 32, validBoPreV2 (BitVec.ofNat 64 n) = true ↔ ∃ p ∈ boOld, digits p n := by decide +kernel

theorem bo_new : ∀ n : Fin 32, validBoPostV2 (BitVec.ofNat 64 n) = true ↔ ∃ p ∈ boNew, digits p n := by decide +kernel

theorem bo_bit : ∀ n : Fin 32, (BitVec.ofNat 64 n &&& 4#64 = 0#64) ↔ ¬(n : Int) / 4 % 2 = 1 := by decide +kernel

theorem bo_ok (h0 : 0 ≤ v) (h1 : v < 32) : validBo (BitVec.ofInt 64 v) d false = true ↔ boOk d v := by
  obtain ⟨n, rfl⟩ := Int.eq_ofNat_of_zero_le h0
  have hn : n < 32 := by omega
  have e1 : BitVec.ofInt 64 (n : Int) = BitVec.ofNat 64 n := rfl
  have e2 : isaV2 = version2 := rfl
  unfold validBo boOk has
  rw [if_neg (by simp), e1, ← e2]
  by_cases hd : d &&& isaV2 = 0#64
  · rw [if_pos hd, bo_old ⟨n, hn⟩]
    simp [hd]
  · rw [if_neg hd, bo_new ⟨n, hn⟩]
    simp [hd]

theorem bo_counter (h0 : 0 ≤ v) (h1 : v < 32) :
    (ppcOp i = 19#64 ∧ i &&& 0x400#64 ≠ 0#64 ∧ BitVec.ofInt 64 v &&& 4#64 = 0#64) ↔ ¬boCounter i v := by
  obtain ⟨n, rfl⟩ := Int.eq_ofNat_of_zero_le h0
  have hn : n < 32 := by omega
  have e1 : BitVec.ofInt 64 (n : Int) = BitVec.ofNat 64 n := rfl
  have h6 : ((ppcOp i).toNat : Int) = part i 26 6 := part_eq 26 6 (by omega)
  have h10 : (((i >>> 10) &&& 1#64).toNat : Int) = part i 10 1 := part_eq 10 1 (by omega)
  have hr := part_range (i := i) 10 1
  have p1 : ppcOp i = 19#64 ↔ part i 26 6 = 19 := by
    rw [← h6]
    constructor
    · intro h; rw [h]; rfl
    · intro h; apply BitVec.eq_of_toNat_eq; change _ = 19; omega
  have p2 : i &&& 0x400#64 ≠ 0#64 ↔ part i 10 1 = 1 := by
    have e : i &&& 0x400#64 = ((i >>> 10) &&& 1#64) <<< 10 := lin_eq_all (i := i) (v := 7#64) (by decide +kernel)
    constructor
    · intro h
      have : (i >>> 10) &&& 1#64 ≠ 0#64 := by intro h2; rw [e, h2] at h; exact h (by decide)
      have : ((i >>> 10) &&& 1#64).toNat ≠ 0 := fun h2 => this (BitVec.eq_of_toNat_eq h2)
      omega
    · intro h h2
      have h3 : (i >>> 10) &&& 1#64 = 1#64 := by apply BitVec.eq_of_toNat_eq; change _ = 1; omega
      rw [e, h3] at h2
      exact absurd h2 (by decide)
  rw [p1, p2, e1, bo_bit ⟨n, hn⟩]
  unfold boCounter
  simp only [Classical.not_imp]

theorem leBo (h0 : 0 ≤ v) (h1 : v < 32) : Judged (insertBo i (BitVec.ofInt 64 v) d) (boOk d v ∧ boCounter i v) := by
  have hb := bo_ok (d := d) h0 h1
  have hc := bo_counter (i := i) h0 h1
  unfold insertBo
  refine ⟨_, _, rfl, ?_⟩
  cases hv : validBo (BitVec.ofInt 64 v) d false
  · have : ¬boOk d v := fun h => by rw [hb.mpr h] at hv; cases hv
    simp [this]
  · have h1 := hb.mp hv
    simp only [Bool.not_true, Bool.false_eq_true, if_false, ite_true_iff, hc, h1, true_and]

theorem leBoe (h0 : 0 ≤ v) (h1 : v < 32) (h2 : (2 : Int) ∣ v) : Judged (insertBoe i (BitVec.ofInt 64 v) d) (boOk d v ∧ boCounter i v) := by
  have hb := bo_ok (d := d) h0 h1
  have hc := bo_counter (i := i) h0 h1
  have hz : BitVec.ofInt 64 v &&& 1#64 = 0#64 := by
    apply BitVec.eq_of_toNat_eq
    have := and_low (BitVec.ofInt 64 v) (t := 1) (by omega)
    simp only [Nat.pow_one, Nat.add_one_sub_one] at this
    have h3 := (word_small h0 (by omega)).1
    rw [this]
    change _ = 0
    omega
  unfold insertBoe
  refine ⟨_, _, rfl, ?_⟩
  cases hv : validBo (BitVec.ofInt 64 v) d false
  · have : ¬boOk d v := fun h => by rw [hb.mpr h] at hv; cases hv
    simp [this]
  · have h1 := hb.mp hv
    have h4 : ¬BitVec.ofInt 64 v &&& 1#64 ≠ 0#64 := by simp [hz]
    simp only [Bool.not_true, Bool.false_eq_true, if_false, if_neg h4, ite_true_iff, hc, h1, true_and]

end Opc
