import Verif.Opc.Legal

/-! The error messages of the insertion functions, continued. -/
namespace Opc

variable {i x d w : W} {v inv : Int} {e : Bool}

/-! The mask of mfcr and mtcrf. -/

theorem single_table : ∀ n : Fin 256, (n.val = 0 ∨ BitVec.ofNat 64 n &&& -BitVec.ofNat 64 n ≠ BitVec.ofNat 64 n) ↔ ¬∃ k, k < 8 ∧ n.val = 2 ^ k := by
  decide +kernel

theorem single_iff (h0 : 0 ≤ v) (h1 : v < 256) :
    (BitVec.ofInt 64 v = 0#64 ∨ BitVec.ofInt 64 v &&& -BitVec.ofInt 64 v ≠ BitVec.ofInt 64 v) ↔ ¬single v := by
  obtain ⟨n, rfl⟩ := Int.eq_ofNat_of_zero_le h0
  have hn : n < 256 := by omega
  have e1 : BitVec.ofInt 64 (n : Int) = BitVec.ofNat 64 n := rfl
  have e2 : BitVec.ofNat 64 n = 0#64 ↔ n = 0 := by
    constructor
    · intro h
      have := congrArg BitVec.toNat h
      rw [BitVec.toNat_ofNat] at this
      simp at this
      omega
    · rintro rfl; rfl
  rw [e1, e2, single_table ⟨n, hn⟩]
  apply not_congr
  constructor
  · rintro ⟨k, _, hk⟩; exact ⟨k, by exact_mod_cast hk⟩
  · rintro ⟨k, hk⟩
    have hk' : n = 2 ^ k := by exact_mod_cast hk
    refine ⟨k, ?_, hk'⟩
    apply Classical.byContradiction
    intro hc
    have := Nat.pow_le_pow_right (show 0 < 2 by omega) (show 8 ≤ k by omega)
    omega

theorem bit_part (k : Nat) (hk : k < 64) : i &&& (1#64 <<< k) ≠ 0#64 ↔ part i k 1 = 1 := by
  have h1 : (i &&& (1#64 <<< k) ≠ 0#64) ↔ i.getLsbD k = true := by
    constructor
    · intro h
      apply Classical.byContradiction
      intro hc
      apply h
      apply BitVec.eq_of_getLsbD_eq
      intro j hj
      rw [BitVec.getLsbD_and, BitVec.getLsbD_shiftLeft, BitVec.getLsbD_one]
      by_cases hjk : j = k
      · subst hjk; simp only [Bool.not_eq_true] at hc; rw [hc, Bool.false_and]; simp
      · have : ¬(j - k = 0 ∧ ¬j < k) := by omega
        by_cases hlt : j < k
        · simp [hlt]
        · have : ¬j - k = 0 := by omega
          simp [this]
    · intro h hc
      have := congrArg (fun y => y.getLsbD k) hc
      rw [BitVec.getLsbD_and, BitVec.getLsbD_shiftLeft, h] at this
      simp [hk] at this
  rw [h1, ← BitVec.testBit_toNat, Nat.testBit_eq_decide_div_mod_eq]
  unfold part
  simp only [decide_eq_true_eq]
  omega

theorem mfcr_part : isMfcr i = true ↔ part i 1 10 = 19 := by
  have h1 : (((i >>> 1) &&& 0x3ff#64).toNat : Int) = part i 1 10 := part_eq 1 10 (by omega)
  have e1 : i &&& (0x3ff#64 <<< 1) = ((i >>> 1) &&& 0x3ff#64) <<< 1 := lin_eq_all (i := i) (v := 7#64) (by decide +kernel)
  unfold isMfcr
  rw [decide_eq_true_eq]
  constructor
  · intro h
    have : (i >>> 1) &&& 0x3ff#64 = 19#64 := by
      have e2 : (i >>> 1) &&& 0x3ff#64 = (i &&& (0x3ff#64 <<< 1)) >>> 1 := lin_eq_all (i := i) (v := 7#64) (by decide +kernel)
      rw [e2, h]; decide
    rw [← h1, this]; rfl
  · intro h
    have : (i >>> 1) &&& 0x3ff#64 = 19#64 := by apply BitVec.eq_of_toNat_eq; change _ = 19; omega
    rw [e1, this]

theorem part_bit (k : Nat) : part i k 1 = 1 ∨ part i k 1 = 0 := by
  have := part_range (i := i) k 1
  omega

theorem leFxm (h0 : 0 ≤ v) (h1 : v < 256) : Judged (insertFxm i (BitVec.ofInt 64 v) d)
    ((part i 20 1 = 1 → single v) ∧ (part i 20 1 = 0 → part i 1 10 = 19 → single v ∧ (has d 0x800#64 ∨ has d 0x40#64))) := by
  have hw := word_small h0 (by omega)
  have hs := single_iff h0 h1
  have hmin : BitVec.ofInt 64 v ≠ 0x8000000000000000#64 := by
    intro h; rw [word_eq h0 (by omega)] at h
    have : (0x8000000000000000#64).toNat = 2 ^ 63 := by decide
    omega
  have hneg : BitVec.ofInt 64 v ≠ -1#64 := by
    intro h; rw [word_eq h0 (by omega)] at h
    have : (-1#64 : W).toNat = 2 ^ 64 - 1 := by decide
    omega
  unfold insertFxm
  have hb := bit_part (i := i) 20 (by omega)
  by_cases a : i &&& (1#64 <<< 20) ≠ 0#64
  · have pa := hb.mp a
    rw [if_pos a, if_neg hmin]
    split
    · next hc => exact judged_bad (fun h => hs.mp hc (h.1 pa))
    · next hc => exact judged_ok ⟨fun _ => Classical.byContradiction fun h => hc (hs.mpr h), fun h => by omega⟩
  · have pa : part i 20 1 = 0 := by
      rcases part_bit (i := i) 20 with h | h
      · exact absurd (hb.mpr h) a
      · exact h
    rw [if_neg a]
    split
    · next hc =>
      obtain ⟨c1, c2, c3⟩ := hc
      have hsv : single v := Classical.byContradiction fun h => by
        rcases hs.mpr h with h | h
        · rw [h] at c1; exact absurd c1 (by decide)
        · exact h c2
      refine judged_ok ⟨fun h => by omega, fun _ _ => ⟨hsv, ?_⟩⟩
      rcases c3 with h | h
      · exact .inl h
      · exact .inr h.1
    · next hc =>
      split
      · next hm =>
        have hm' := mfcr_part.mp hm
        rw [decide_eq_true hneg]
        refine judged_bad (fun h => hc ?_)
        obtain ⟨s1, s2⟩ := h.2 pa hm'
        have hs' : ¬(BitVec.ofInt 64 v = 0#64 ∨ BitVec.ofInt 64 v &&& -BitVec.ofInt 64 v ≠ BitVec.ofInt 64 v) := fun h => hs.mp h s1
        refine ⟨?_, Classical.byContradiction fun h => hs' (.inr h), ?_⟩
        · rw [hw.2]
          apply Classical.byContradiction
          intro hz
          exact hs' (.inl (by rw [show v = 0 by omega]; rfl))
        · rcases s2 with h | h
          · exact .inl h
          · exact .inr ⟨h, hm⟩
      · next hm => exact judged_ok ⟨fun h => by omega, fun _ h => absurd (mfcr_part.mpr h) hm⟩

theorem xo_part : (i >>> 1) &&& 0x3ff#64 = 598#64 ↔ part i 1 10 = 598 := by
  have h1 : (((i >>> 1) &&& 0x3ff#64).toNat : Int) = part i 1 10 := part_eq 1 10 (by omega)
  constructor
  · intro h; rw [← h1, h]; rfl
  · intro h; apply BitVec.eq_of_toNat_eq; change _ = 598; omega

theorem leLs (h0 : 0 ≤ v) (h1 : v < 4) : Judged (insertLs i (BitVec.ofInt 64 v) d) (part i 1 10 = 598 → v ≤ 1 ∨ (v = 2 ∧ has d 0x800#64)) := by
  have hw := word_small h0 (by omega)
  unfold insertLs
  refine ⟨_, _, rfl, ?_⟩
  rw [hw.2]
  by_cases a : (i >>> 1) &&& 0x3ff#64 = 598#64
  · have a' := xo_part.mp a
    rw [if_pos a, ite_true_iff]
    unfold has
    by_cases b : d &&& 0x800#64 ≠ 0#64
    · rw [if_pos b]
      constructor
      · intro h hc
        rcases hc a' with h2 | h2 <;> omega
      · intro h
        apply Classical.byContradiction
        intro hc
        refine h (fun _ => ?_)
        by_cases hv : v ≤ 1
        · exact .inl hv
        · exact .inr ⟨by omega, b⟩
    · rw [if_neg b]
      constructor
      · intro h hc
        rcases hc a' with h2 | h2
        · omega
        · exact b h2.2
      · intro h
        apply Classical.byContradiction
        intro hc
        exact h (fun _ => .inl (by omega))
  · have a' : ¬part i 1 10 = 598 := fun h => a (xo_part.mpr h)
    simp [a, a']

theorem esync_table : ∀ n : Fin 16, ((BitVec.sshiftRight (~~~BitVec.ofNat 64 n) 1) &&& 0x1#64).toNat = 1 - n.val / 2 % 2 := by decide +kernel

theorem leEsync (h0 : 0 ≤ v) (h1 : v < 16) : Judged (insertEsync i (BitVec.ofInt 64 v) d) (v = 0 ∨ part i 21 2 = 1 - v / 2 % 2) := by
  have hz := word_eq (x := 0#64) h0 (by omega)
  obtain ⟨n, rfl⟩ := Int.eq_ofNat_of_zero_le h0
  have hn : n < 16 := by omega
  have e1 : BitVec.ofInt 64 (n : Int) = BitVec.ofNat 64 n := rfl
  have ht := esync_table ⟨n, hn⟩
  simp only at ht
  have hp : (((i >>> 21) &&& 0x3#64).toNat : Int) = part i 21 2 := part_eq 21 2 (by omega)
  have hz' : BitVec.ofNat 64 n = 0#64 ↔ n = 0 := by rw [← e1, hz]; simp
  rw [e1]
  unfold insertEsync
  apply judged_ite
  have hc : (BitVec.sshiftRight (~~~BitVec.ofNat 64 n) 1) &&& 0x1#64 = (i >>> 21) &&& 0x3#64 ↔ part i 21 2 = 1 - (n : Int) / 2 % 2 := by
    rw [← hp]
    constructor
    · intro h; rw [← h, ht]; omega
    · intro h; apply BitVec.eq_of_toNat_eq; rw [ht]; omega
  have hc' : (BitVec.sshiftRight (~~~BitVec.ofNat 64 n) 1) &&& 0x1#64 ≠ (i >>> 21) &&& 0x03#64 ↔ ¬part i 21 2 = 1 - (n : Int) / 2 % 2 := not_congr hc
  rw [hc', Ne, hz']
  omega

theorem leNbi (h0 : 0 ≤ v) (h1 : v ≤ 32) : Judged (insertNbi i (BitVec.ofInt 64 v) d)
    (∀ k : Nat, 4 * (k : Int) < (if v = 0 then 32 else v) → (part i 21 5 + k) % 32 ≠ part i 16 5) := by
  have hv : (if BitVec.ofInt 64 v = 0#64 then 32#64 else BitVec.ofInt 64 v).toInt = if v = 0 then 32 else v := by
    by_cases a : v = 0
    · subst a; decide
    · have : ¬BitVec.ofInt 64 v = 0#64 := by rw [word_eq h0 (by omega)]; simpa using a
      rw [if_neg this, if_neg a]; exact (word_small h0 (by omega)).2
  unfold insertNbi
  simp only [hv, part5]
  have r1 := part_range (i := i) 21 5
  have r2 := part_range (i := i) 16 5
  generalize part i 21 5 = rt at r1
  generalize part i 16 5 = ra at r2
  have hb : 0 < (if v = 0 then (32 : Int) else v) ∧ (if v = 0 then (32 : Int) else v) ≤ 32 := by split <;> omega
  generalize (if v = 0 then (32 : Int) else v) = u at hb
  rw [if_neg (by omega)]
  apply judged_ite
  rw [Int.tdiv_eq_ediv_of_nonneg (by omega)]
  constructor
  · intro h hc
    by_cases a : rt > ra
    · rw [if_pos a] at h
      exact hc (ra + 32 - rt).toNat (by omega) (by omega)
    · rw [if_neg a] at h
      exact hc (ra - rt).toNat (by omega) (by omega)
  · intro h
    apply Classical.byContradiction
    intro hc
    apply h
    intro k hk he
    split at hc <;> omega

theorem leRal (h0 : 0 ≤ v) (h1 : v < 32) : Judged (insertRal i (BitVec.ofInt 64 v) d) (v ≠ 0 ∧ v ≠ part i 21 5) := by
  unfold insertRal
  apply judged_ite
  rw [word_eq h0 (by omega), word_eq h0 (by omega), part5]
  simp only [BitVec.toNat_ofNat]
  omega

theorem leRam (h0 : 0 ≤ v) (h1 : v < 32) : Judged (insertRam i (BitVec.ofInt 64 v) d) (v < part i 21 5) := by
  unfold insertRam
  apply judged_ite
  have := part5 (i := i) 21
  have := (word_small h0 (by omega)).1
  omega

theorem leRaq (h0 : 0 ≤ v) (h1 : v < 32) : Judged (insertRaq i (BitVec.ofInt 64 v) d) (v ≠ part i 21 5) := by
  unfold insertRaq
  apply judged_ite
  rw [word_eq h0 (by omega), part5]
  omega

theorem leRbx (h0 : 0 ≤ v) (h1 : v < 32) : Judged (insertRbx i (BitVec.ofInt 64 v) d) (v ≠ part i 21 5) := by
  unfold insertRbx
  apply judged_ite
  rw [word_eq h0 (by omega), part5]
  omega

theorem leRas (h0 : 0 ≤ v) (h1 : v < 32) : Judged (insertRas i (BitVec.ofInt 64 v) d) (v ≠ 0) := by
  unfold insertRas
  apply judged_ite
  rw [word_eq h0 (by omega)]
  simp

theorem leSprbat (h0 : 0 ≤ v) (h1 : v < 8) : Judged (insertSprbat i (BitVec.ofInt 64 v) d) (v < 4 ∨ has d 0x2000000000#64) := by
  have hw := (word_small h0 (by omega)).1
  have hc : (7 < (BitVec.ofInt 64 v).toNat ∨ (3 < (BitVec.ofInt 64 v).toNat ∧ d &&& 0x2000000000#64 = 0#64)) ↔ ¬(v < 4 ∨ has d 0x2000000000#64) := by
    unfold has
    by_cases a : d &&& 0x2000000000#64 = 0#64
    · simp only [a, and_true, ne_eq, not_true_eq_false, or_false]; omega
    · simp only [a, and_false, ne_eq, not_false_eq_true, or_true, or_false, not_true_eq_false, iff_false]; omega
  unfold insertSprbat
  simp only
  split
  · exact judged_ite hc
  · exact judged_ite hc

theorem leSprg (h0 : 0 ≤ v) (h1 : v < 32) : Judged (insertSprg i (BitVec.ofInt 64 v) d) (v < 4 ∨ (v < 8 ∧ has d 0x4000400#64)) := by
  have hw := (word_small h0 (by omega)).1
  have hc : (7 < (BitVec.ofInt 64 v).toNat ∨ (3 < (BitVec.ofInt 64 v).toNat ∧ d &&& allow8Sprg = 0#64)) ↔ ¬(v < 4 ∨ (v < 8 ∧ has d 0x4000400#64)) := by
    have e : allow8Sprg = 0x4000400#64 := by decide
    unfold has
    rw [e]
    by_cases a : d &&& 0x4000400#64 = 0#64
    · simp only [a, and_true, ne_eq, not_true_eq_false, and_false, or_false]; omega
    · simp only [a, and_false, ne_eq, not_false_eq_true, and_true, or_false]; omega
  unfold insertSprg
  exact judged_ite hc

theorem leTbr (h0 : 0 ≤ v) (h1 : v < 1024) : Judged (insertTbr i (BitVec.ofInt 64 v) d) (v = 268 ∨ v = 269) := by
  unfold insertTbr
  apply judged_ite
  rw [Ne, Ne, word_eq h0 (by omega), word_eq h0 (by omega)]
  simp only [BitVec.toNat_ofNat]
  omega

theorem leDm (h0 : 0 ≤ v) (h1 : v < 4) : Judged (insertDm i (BitVec.ofInt 64 v) d) (v = 0 ∨ v = 1) := by
  unfold insertDm
  apply judged_ite
  rw [Ne, Ne, word_eq h0 (by omega), word_eq h0 (by omega)]
  simp only [BitVec.toNat_ofNat]
  omega

theorem leEvuimm1Ex0 (h0 : 0 ≤ v) (h1 : v < 32) : Judged (insertEvuimm1Ex0 i (BitVec.ofInt 64 v) d) (v ≠ 0) := by
  unfold insertEvuimm1Ex0
  apply judged_ite
  rw [(word_small h0 (by omega)).2]
  omega

theorem leEvuimm2Ex0 (h0 : 0 ≤ v) (h1 : v < 64) (hd : (2 : Int) ∣ v) : Judged (insertEvuimm2Ex0 i (BitVec.ofInt 64 v) d) (v ≠ 0) := by
  unfold insertEvuimm2Ex0
  apply judged_ite
  rw [(word_small h0 (by omega)).2]
  omega

theorem leEvuimm4Ex0 (h0 : 0 ≤ v) (h1 : v < 128) (hd : (4 : Int) ∣ v) : Judged (insertEvuimm4Ex0 i (BitVec.ofInt 64 v) d) (v ≠ 0) := by
  unfold insertEvuimm4Ex0
  apply judged_ite
  rw [(word_small h0 (by omega)).2]
  omega

theorem leEvuimm8Ex0 (h0 : 0 ≤ v) (h1 : v < 256) (hd : (8 : Int) ∣ v) : Judged (insertEvuimm8Ex0 i (BitVec.ofInt 64 v) d) (v ≠ 0) := by
  unfold insertEvuimm8Ex0
  apply judged_ite
  rw [(word_small h0 (by omega)).2]
  omega

theorem leOffLsp (h0 : 0 ≤ v) (h1 : v < 4) : Judged (insertOffLsp i (BitVec.ofInt 64 v) d) (v ≠ 0) := by
  unfold insertOffLsp
  apply judged_ite
  rw [(word_small h0 (by omega)).2]
  omega

theorem leOffSpe2 (h0 : 0 ≤ v) (h1 : v < 8) : Judged (insertOffSpe2 i (BitVec.ofInt 64 v) d) (v ≠ 0) := by
  unfold insertOffSpe2
  apply judged_ite
  rw [(word_small h0 (by omega)).2]
  omega

theorem leEvuimmLt8 (h0 : 0 ≤ v) (h1 : v < 32) : Judged (insertEvuimmLt8 i (BitVec.ofInt 64 v) d) (v < 8) := by
  unfold insertEvuimmLt8
  apply judged_ite
  rw [(word_small h0 (by omega)).2]
  omega

theorem leEvuimmLt16 (h0 : 0 ≤ v) (h1 : v < 32) : Judged (insertEvuimmLt16 i (BitVec.ofInt 64 v) d) (v < 16) := by
  unfold insertEvuimmLt16
  apply judged_ite
  rw [(word_small h0 (by omega)).2]
  omega

theorem leDdd (h0 : 0 ≤ v) (h1 : v < 8) : Judged (insertDdd i (BitVec.ofInt 64 v) d) True := by
  unfold insertDdd
  apply judged_ite
  rw [(word_small h0 (by omega)).2]
  simp only [not_true_eq_false, iff_false]
  omega

theorem leEven (h0 : 0 ≤ v) (h1 : v < 32) : Judged (insertEven i (BitVec.ofInt 64 v) d) (v % 2 = 0) := by
  unfold insertEven
  apply judged_ite
  have h2 := and_low (BitVec.ofInt 64 v) (t := 1) (by omega)
  have hw := (word_small h0 (by omega)).1
  change (BitVec.ofInt 64 v &&& 1#64).toNat = _ at h2
  constructor
  · intro h hc
    apply h
    apply BitVec.eq_of_toNat_eq
    change _ = 0
    omega
  · intro h hc
    rw [hc] at h2
    simp at h2
    omega

/-! Scaled bytes. -/

theorem byte_table : ∀ k : Fin 4, ∀ b : Fin 256,
    BitVec.ofNat 64 (b.val * 2 ^ (8 * k.val)) &&& ~~~(0xff#64 <<< (8 * k.val)) = 0#64 ∧
    (0xffffffff#64 &&& ~~~(0xff#64 <<< (8 * k.val)) ||| BitVec.ofNat 64 b <<< (8 * k.val)).toNat = 2 ^ 32 - 1 - (255 - b.val) * 2 ^ (8 * k.val) ∧
    BitVec.ofNat 64 (2 ^ 32 - 1 - (255 - b.val) * 2 ^ (8 * k.val)) &&& (0xffffffff#64 &&& ~~~(0xff#64 <<< (8 * k.val))) = 0xffffffff#64 &&& ~~~(0xff#64 <<< (8 * k.val)) ∧
    (BitVec.ofNat 64 b <<< (8 * k.val)).toNat = b.val * 2 ^ (8 * k.val) := by decide +kernel

theorem low_word {n : Nat} (hn : n < 2 ^ 32) (h : x.toNat % 2 ^ 32 = n) : x &&& 0xffffffff#64 = BitVec.ofNat 64 n := by
  have := and_low x (t := 32) (by omega)
  apply BitVec.eq_of_toNat_eq
  change (x &&& 0xffffffff#64).toNat = _ at this
  rw [this, h, BitVec.toNat_ofNat]
  omega

theorem scaled {k : Nat} (hk : k < 4) {M : W} (hM : M = 0xffffffff#64 &&& ~~~(0xff#64 <<< (8 * k))) :
    (x &&& M = 0#64 ↔ ∃ b, b < 256 ∧ x.toNat % 2 ^ 32 = b * 2 ^ (8 * k)) ∧
    (x &&& M = M ↔ ∃ b, b < 256 ∧ x.toNat % 2 ^ 32 = 2 ^ 32 - 1 - (255 - b) * 2 ^ (8 * k)) := by
  have hlow := and_low x (t := 32) (by omega)
  change (x &&& 0xffffffff#64).toNat = _ at hlow
  have hb : ((x >>> (8 * k)) &&& 0xff#64).toNat < 256 := by
    have := and_le (x >>> (8 * k)) 0xff#64
    simp at this ⊢
    omega
  have hsplit : x &&& 0xffffffff#64 = (x &&& M) ||| (((x >>> (8 * k)) &&& 0xff#64) <<< (8 * k)) := by
    subst hM
    have : k = 0 ∨ k = 1 ∨ k = 2 ∨ k = 3 := by omega
    rcases this with rfl | rfl | rfl | rfl
    · have e : 0xffffffff#64 &&& ~~~(0xff#64 <<< (8 * 0)) = 0xffffff00#64 := by decide
      rw [e]; exact lin_eq_all (i := x) (v := 7#64) (by decide +kernel)
    · have e : 0xffffffff#64 &&& ~~~(0xff#64 <<< (8 * 1)) = 0xffff00ff#64 := by decide
      rw [e]; exact lin_eq_all (i := x) (v := 7#64) (by decide +kernel)
    · have e : 0xffffffff#64 &&& ~~~(0xff#64 <<< (8 * 2)) = 0xff00ffff#64 := by decide
      rw [e]; exact lin_eq_all (i := x) (v := 7#64) (by decide +kernel)
    · have e : 0xffffffff#64 &&& ~~~(0xff#64 <<< (8 * 3)) = 0x00ffffff#64 := by decide
      rw [e]; exact lin_eq_all (i := x) (v := 7#64) (by decide +kernel)
  have hM32 : x &&& M = (x &&& 0xffffffff#64) &&& M := by
    rw [hM, ← BitVec.and_assoc, ← BitVec.and_assoc, and_and_mask]
  have hbw : BitVec.ofNat 64 ((x >>> (8 * k)) &&& 0xff#64).toNat = (x >>> (8 * k)) &&& 0xff#64 := by
    rw [BitVec.ofNat_toNat]; exact BitVec.setWidth_eq _
  have hp : 2 ^ (8 * k) ≤ 2 ^ 24 := Nat.pow_le_pow_right (by omega) (by omega)
  constructor
  · constructor
    · intro h
      rw [h, BitVec.zero_or] at hsplit
      refine ⟨_, hb, ?_⟩
      rw [← hlow, hsplit, ← hbw, (byte_table ⟨k, hk⟩ ⟨_, hb⟩).2.2.2]
      simp only [hbw]
    · rintro ⟨b, hb', h⟩
      have hlt : b * 2 ^ (8 * k) < 2 ^ 32 := by rw [← h]; exact Nat.mod_lt _ (by decide)
      rw [hM32, low_word hlt h, hM, BitVec.and_comm 0xffffffff#64, ← BitVec.and_assoc, (byte_table ⟨k, hk⟩ ⟨b, hb'⟩).1]
      simp
  · constructor
    · intro h
      rw [h] at hsplit
      refine ⟨_, hb, ?_⟩
      rw [← hlow, hsplit, ← hbw, hM, (byte_table ⟨k, hk⟩ ⟨_, hb⟩).2.1]
      simp only [hbw]
    · rintro ⟨b, hb', h⟩
      have hlt : 2 ^ 32 - 1 - (255 - b) * 2 ^ (8 * k) < 2 ^ 32 := by omega
      rw [hM32, low_word hlt h, hM]
      exact (byte_table ⟨k, hk⟩ ⟨b, hb'⟩).2.2.1

theorem oneByte_iff {u : Int} : oneByte u ↔ ∃ k, k < 4 ∧
    ((∃ b, b < 256 ∧ (BitVec.ofInt 64 u).toNat % 2 ^ 32 = b * 2 ^ (8 * k)) ∨
     (∃ b, b < 256 ∧ (BitVec.ofInt 64 u).toNat % 2 ^ 32 = 2 ^ 32 - 1 - (255 - b) * 2 ^ (8 * k))) := by
  have e : (((BitVec.ofInt 64 u).toNat % 2 ^ 32 : Nat) : Int) = u % 2 ^ 32 := by rw [toNat_ofInt64]; omega
  have hlo : ∀ b k : Nat, b < 256 → k < 4 → ((255 - b) * 2 ^ (8 * k) ≤ 2 ^ 32 - 1) := by
    intro b k hb hk
    have hp : 2 ^ (8 * k) ≤ 2 ^ 24 := Nat.pow_le_pow_right (by omega) (by omega)
    have := Nat.mul_le_mul (show 255 - b ≤ 255 by omega) hp
    omega
  have c1 : ∀ b k : Nat, (b * 2 ^ (8 * k) : Int) = ((b * 2 ^ (8 * k) : Nat) : Int) := by intro b k; push_cast; rfl
  have c2 : ∀ b k : Nat, b < 256 → k < 4 → (2 ^ 32 - 1 - (255 - b) * 2 ^ (8 * k) : Int) = ((2 ^ 32 - 1 - (255 - b) * 2 ^ (8 * k) : Nat) : Int) := by
    intro b k hb hk
    have := hlo b k hb hk
    have e0 : ((2 ^ 32 - 1 : Nat) : Int) = 2 ^ 32 - 1 := by decide
    rw [Int.natCast_sub this, Int.natCast_mul, Int.natCast_sub (show b ≤ 255 by omega), Int.natCast_pow, e0]
    rfl
  unfold oneByte
  rw [← e]
  constructor
  · rintro ⟨b, k, hb, hk, h | h⟩
    · rw [c1] at h; exact ⟨k, hk, .inl ⟨b, hb, by exact_mod_cast h⟩⟩
    · rw [c2 b k hb hk] at h; exact ⟨k, hk, .inr ⟨b, hb, by exact_mod_cast h⟩⟩
  · rintro ⟨k, hk, ⟨b, hb, h⟩ | ⟨b, hb, h⟩⟩
    · exact ⟨b, k, hb, hk, .inl (by rw [h, c1])⟩
    · exact ⟨b, k, hb, hk, .inr (by rw [h, c2 b k hb hk])⟩

theorem leSci8 {u : Int} : Judged (insertSci8 i (BitVec.ofInt 64 u) d) (oneByte u) := by
  have s0 := scaled (x := BitVec.ofInt 64 u) (k := 0) (by omega) (M := 0xffffff00#64) (by decide)
  have s1 := scaled (x := BitVec.ofInt 64 u) (k := 1) (by omega) (M := 0xffff00ff#64) (by decide)
  have s2 := scaled (x := BitVec.ofInt 64 u) (k := 2) (by omega) (M := 0xff00ffff#64) (by decide)
  have s3 := scaled (x := BitVec.ofInt 64 u) (k := 3) (by omega) (M := 0x00ffffff#64) (by decide)
  unfold insertSci8
  simp only
  split
  · next h => exact judged_ok (oneByte_iff.mpr ⟨0, by omega, .inl (s0.1.mp h)⟩)
  split
  · next h => exact judged_ok (oneByte_iff.mpr ⟨0, by omega, .inr (s0.2.mp h)⟩)
  split
  · next h => exact judged_ok (oneByte_iff.mpr ⟨1, by omega, .inl (s1.1.mp h)⟩)
  split
  · next h => exact judged_ok (oneByte_iff.mpr ⟨1, by omega, .inr (s1.2.mp h)⟩)
  split
  · next h => exact judged_ok (oneByte_iff.mpr ⟨2, by omega, .inl (s2.1.mp h)⟩)
  split
  · next h => exact judged_ok (oneByte_iff.mpr ⟨2, by omega, .inr (s2.2.mp h)⟩)
  split
  · next h => exact judged_ok (oneByte_iff.mpr ⟨3, by omega, .inl (s3.1.mp h)⟩)
  split
  · next h => exact judged_ok (oneByte_iff.mpr ⟨3, by omega, .inr (s3.2.mp h)⟩)
  · next h0 h1 h2 h3 h4 h5 h6 h7 =>
    refine judged_bad (fun h => ?_)
    obtain ⟨k, hk, hc⟩ := oneByte_iff.mp h
    have : k = 0 ∨ k = 1 ∨ k = 2 ∨ k = 3 := by omega
    rcases this with rfl | rfl | rfl | rfl
    · rcases hc with hc | hc
      · exact h0 (s0.1.mpr hc)
      · exact h1 (s0.2.mpr hc)
    · rcases hc with hc | hc
      · exact h2 (s1.1.mpr hc)
      · exact h3 (s1.2.mpr hc)
    · rcases hc with hc | hc
      · exact h4 (s2.1.mpr hc)
      · exact h5 (s2.2.mpr hc)
    · rcases hc with hc | hc
      · exact h6 (s3.1.mpr hc)
      · exact h7 (s3.2.mpr hc)

theorem leSci8n (h0 : -2 ^ 31 < v) (h1 : v ≤ 2 ^ 31) : Judged (insertSci8n i (BitVec.ofInt 64 v) d) (oneByte (-v)) := by
  have : minus (BitVec.ofInt 64 v) = some (BitVec.ofInt 64 (-v)) := by
    rw [minus, if_neg, neg_ofInt]
    intro h
    have := congrArg BitVec.toNat h
    rw [toNat_ofInt64] at this
    simp at this
    omega
  unfold insertSci8n
  rw [this]
  exact leSci8

/-! Masks. -/

theorem mbe_congr {y : W} (h : ∀ j, j < 32 → x.getLsbD j = y.getLsbD j) : mbeLoop x = mbeLoop y := by
  have hr : ∀ (l : List Nat) (s : Mbe), l.foldl (mbeRound x) s = l.foldl (mbeRound y) s := by
    intro l
    induction l with
    | nil => intro s; rfl
    | cons k l ih =>
      intro s
      rw [List.foldl_cons, List.foldl_cons, ih]
      congr 1
      unfold mbeRound
      rw [h (31 - k) (by omega)]
  have h1 : ∀ z : W, decide (z &&& 1#64 ≠ 0#64) = z.getLsbD 0 := by
    intro z
    have := (mbe_at (x := z)).last
    have hz := bit_part (i := z) 0 (by omega)
    rw [show (1#64 : W) <<< 0 = 1#64 from by decide] at hz
    have e : z.getLsbD 0 = decide (part z 0 1 = 1) := by
      rw [← BitVec.testBit_toNat, Nat.testBit_eq_decide_div_mod_eq]
      apply decide_eq_decide.mpr
      unfold part
      omega
    rw [e]
    exact decide_eq_decide.mpr hz
  unfold mbeLoop
  rw [hr, h1, h1, h 0 (by omega)]

/-- The mask with `n` ones from bit `a` (from the left) on. -/
def runMask (a n : Nat) : W := BitVec.ofNat 64 (((List.range 32).map fun k => if (k + 32 - a) % 32 < n then 2 ^ (31 - k) else 0).sum)

theorem run_table : ∀ a : Fin 32, ∀ n : Fin 32,
    (let s := mbeLoop (runMask a (n + 1)); (s.count = 2 ∨ (s.count = 0 ∧ s.last = true)) ∧ runMask a (n + 1) ≠ 0#64) ∧
    ∀ j : Fin 32, (runMask a (n + 1)).getLsbD j = decide ((31 - j.val + 32 - a) % 32 < n.val + 1) := by decide +kernel

theorem word_bit (u : Int) (j : Nat) (hj : j < 64) : (BitVec.ofInt 64 u).getLsbD j = true ↔ u / 2 ^ j % 2 = 1 := by
  rw [← BitVec.testBit_toNat, Nat.testBit_eq_decide_div_mod_eq, decide_eq_true_eq, toNat_ofInt64]
  have hp : 0 < 2 ^ j := Nat.two_pow_pos j
  have hnn : 0 ≤ u % 2 ^ 64 := Int.emod_nonneg _ (by decide)
  have e1 : (((u % 2 ^ 64).toNat / 2 ^ j % 2 : Nat) : Int) = u % 2 ^ 64 / 2 ^ j % 2 := by
    rw [Int.natCast_emod, Int.natCast_ediv, Int.toNat_of_nonneg hnn, Int.natCast_pow]
    rfl
  have e2 : u % 2 ^ 64 / 2 ^ j % 2 = u / 2 ^ j % 2 := by
    have hs : (2 : Int) ^ 64 = 2 ^ j * (2 * 2 ^ (63 - j)) := by
      have : (2 : Nat) ^ 64 = 2 ^ j * (2 * 2 ^ (63 - j)) := by
        rw [← Nat.pow_succ', ← Nat.pow_add]; congr 1; omega
      exact_mod_cast this
    have hj0 : (2 : Int) ^ j ≠ 0 := by
      have : (0 : Int) < 2 ^ j := by exact_mod_cast hp
      omega
    have hd : u % 2 ^ 64 = u + 2 ^ j * (2 * (-(2 ^ (63 - j) * (u / 2 ^ 64)))) := by
      rw [Int.emod_def]
      conv => lhs; rhs; lhs; rw [hs]
      rw [Int.mul_assoc, Int.mul_assoc, Int.mul_neg, Int.mul_neg, Int.sub_eq_add_neg]
    rw [hd, Int.add_mul_ediv_left _ _ hj0, Int.add_mul_emod_self_left]
  omega

theorem leMbe (h0 : 0 ≤ v) : Judged (insertMbe i (BitVec.ofInt 64 v) d) (∃ a n : Nat, a < 32 ∧ 0 < n ∧ n ≤ 32 ∧ run a n v) := by
  have hrun : (∃ a n : Nat, a < 32 ∧ 0 < n ∧ n ≤ 32 ∧ run a n v) →
      BitVec.ofInt 64 v ≠ 0#64 ∧ ((mbeLoop (BitVec.ofInt 64 v)).count = 2 ∨ ((mbeLoop (BitVec.ofInt 64 v)).count = 0 ∧ (mbeLoop (BitVec.ofInt 64 v)).last = true)) := by
    rintro ⟨a, n, ha, hn0, hn, hr⟩
    obtain ⟨⟨t1, t2⟩, t3⟩ := run_table ⟨a, ha⟩ ⟨n - 1, by omega⟩
    simp only [show n - 1 + 1 = n by omega] at t1 t2 t3
    have hsame : ∀ j, j < 32 → (BitVec.ofInt 64 v).getLsbD j = (runMask a n).getLsbD j := by
      intro j hj
      have := hr (31 - j) (by omega)
      rw [show 31 - (31 - j) = j by omega, ← word_bit v j (by omega)] at this
      rw [t3 ⟨j, hj⟩, Bool.eq_iff_iff, decide_eq_true_eq]
      exact this
    rw [mbe_congr hsame]
    refine ⟨fun hz => ?_, t1⟩
    have : ∀ j, j < 32 → (runMask a n).getLsbD j = false := by
      intro j hj
      rw [← hsame j hj, hz]; simp
    have h2 := this (31 - a) (by omega)
    rw [t3 ⟨31 - a, by omega⟩] at h2
    simp only [decide_eq_false_iff_not] at h2
    apply h2
    have : 31 - (31 - a) + 32 - a = 32 := by omega
    rw [this]; omega
  have hback : ((mbeLoop (BitVec.ofInt 64 v)).count = 2 ∨ ((mbeLoop (BitVec.ofInt 64 v)).count = 0 ∧ (mbeLoop (BitVec.ofInt 64 v)).last = true)) →
      ∃ a n : Nat, a < 32 ∧ 0 < n ∧ n ≤ 32 ∧ run a n v := by
    intro h
    have hm := mbe_at (x := BitVec.ofInt 64 v)
    generalize mbeLoop (BitVec.ofInt 64 v) = s at hm h
    have fin (a n : Nat) (hb : ∀ k, k < 32 → ((BitVec.ofInt 64 v).getLsbD (31 - k) = true ↔ (k + 32 - a) % 32 < n)) : run a n v := by
      intro k hk
      rw [← word_bit v (31 - k) (by omega)]
      exact hb k hk
    rcases h with h | ⟨h, hl⟩
    · cases hz : (BitVec.ofInt 64 v).getLsbD 0
      · obtain ⟨c1, c2, c3, c4⟩ := hm.one h hz
        refine ⟨s.mb, s.me - s.mb, by omega, by omega, by omega, fin _ _ fun k hk => ?_⟩
        rw [c4 k hk]; omega
      · obtain ⟨c1, c2, c3, c4⟩ := hm.two h hz
        refine ⟨s.mb, 32 - s.mb + s.me, by omega, by omega, by omega, fin _ _ fun k hk => ?_⟩
        rw [c4 k hk]; omega
    · obtain ⟨c1, c2, c3, c4⟩ := hm.none h
      refine ⟨0, 32, by omega, by omega, by omega, fin _ _ fun k hk => ?_⟩
      rw [c4 k hk, ← c3, hl]
      simp; omega
  unfold insertMbe
  split
  · next hz => exact judged_bad (fun h => (hrun h).1 hz)
  · simp only
    apply judged_ite
    constructor
    · intro h hc
      have := (hrun hc).2
      rcases this with h2 | ⟨h2, h3⟩
      · exact h.1 h2
      · rcases h.2 with h4 | h4
        · exact h4 h2
        · exact h4 h3
    · intro h
      by_cases c2 : (mbeLoop (BitVec.ofInt 64 v)).count = 2
      · exact absurd (hback (.inl c2)) h
      · refine ⟨c2, ?_⟩
        by_cases c0 : (mbeLoop (BitVec.ofInt 64 v)).count = 0
        · exact .inr (fun hl => h (hback (.inr ⟨c0, hl⟩)))
        · exact .inl c0

end Opc
