import Verif.Opc.Packed

/-! What an insertion changes, in an instruction that already matches its entry; all operands of an entry. -/
namespace Opc

variable {op mask i d w x m : W} {v : Int}

/-- The bits that an insertion may change in a word matching `opcode` under `mask`; `fxm` are those of a mask of condition registers when bit 20 is clear. -/
def touch (fxm opcode mask k : Nat) : Nat :=
  if k = 18 then 0x3c00000
  else if 9 ≤ k ∧ k ≤ 12 then
    if mask &&& 0x2800000 = 0x2800000 then
      if opcode &&& 0x2800000 = 0x800000 then 0x60fffc else if opcode &&& 0x2800000 = 0x2000000 then 0x120fffc else 0x20fffc
    else 0x160fffc
  else if k = 54 ∨ k = 55 then if opcode &&& 0x100000 = 0x100000 then 0xff000 else fxm
  else look touchTable k

theorem boe_codes : (operandAt 18).ins = .boe := by decide +kernel
theorem bd_codes : ∀ k, 9 ≤ k → k ≤ 12 → (operandAt k).ins = .bdm ∨ (operandAt k).ins = .bdp := by
  intro k h1 h2
  have : ∀ k, k < 13 → 9 ≤ k → (operandAt k).ins = .bdm ∨ (operandAt k).ins = .bdp := by decide +kernel
  exact this k (by omega) h1
theorem fxm_codes : ∀ k, k = 54 ∨ k = 55 → (operandAt k).ins = .fxm := by
  intro k h; rcases h with rfl | rfl <;> decide +kernel

/-- Words that agree outside `t` agree on every mask apart from `t`. -/
theorem and_of_frame {t : W} (h : w &&& ~~~t = i &&& ~~~t) (hm : m &&& t = 0#64) : w &&& m = i &&& m := by
  have e : m = ~~~t &&& m := by
    apply BitVec.eq_of_getLsbD_eq
    intro k hk
    have := congrArg (fun y => y.getLsbD k) hm
    simp only [BitVec.getLsbD_and, BitVec.getLsbD_not, BitVec.getLsbD_zero, hk, decide_true, Bool.true_and] at this ⊢
    revert this; generalize m.getLsbD k = a; generalize t.getLsbD k = b; revert a b; decide
  rw [e, ← BitVec.and_assoc, ← BitVec.and_assoc, h]

theorem or_frame {y t : W} (h : y &&& ~~~t = 0#64) : (i ||| y) &&& ~~~t = i &&& ~~~t := by
  apply BitVec.eq_of_getLsbD_eq
  intro k hk
  have := congrArg (fun y => y.getLsbD k) h
  simp only [BitVec.getLsbD_and, BitVec.getLsbD_or, BitVec.getLsbD_not, BitVec.getLsbD_zero, hk, decide_true, Bool.true_and] at this ⊢
  revert this; generalize y.getLsbD k = a; generalize t.getLsbD k = b; generalize i.getLsbD k = c; revert a b c; decide

/-- A part of the mask. -/
theorem part_of_mask {n : W} (h : i &&& mask = op) (hn : mask &&& n = n) : i &&& n = op &&& n := by
  rw [← h, BitVec.and_assoc, hn]

theorem low_value (y : W) : (y &&& 0xfffc#64) &&& ~~~0x20fffc#64 = 0#64 := lin_eq_all (i := y) (v := 7#64) (by decide +kernel)

/-- Hints inserted with a branch displacement. -/
theorem bd_touch {s : Ins} (hs : s = .bdm ∨ s = .bdp) {e : Bool} {o : Operand} (ho : o.ins = s) (h : o.insert i x d = some (w, e)) :
    ∃ a : W, w = (i ||| a) ||| (x &&& 0xfffc#64) ∧ (a = 0#64 ∨ a = 0x200000#64 ∨
      (i &&& 0x2800000#64 = 0x800000#64 ∧ a &&& ~~~0x600000#64 = 0#64) ∨ (i &&& 0x2800000#64 = 0x2000000#64 ∧ a &&& ~~~0x1200000#64 = 0#64)) := by
  unfold Operand.insert at h
  rw [ho] at h
  rcases hs with rfl | rfl
  · simp only [insertBdm, Option.some.injEq, Prod.mk.injEq] at h
    obtain ⟨h, -⟩ := h
    subst h
    by_cases c1 : d &&& isaV2 = 0#64
    · by_cases c2 : x &&& 0x8000#64 ≠ 0#64
      · exact ⟨0x200000#64, by rw [if_pos c1, if_pos c2]; rfl, by simp⟩
      · exact ⟨0#64, by rw [if_pos c1, if_neg c2]; simp, by simp⟩
    · by_cases c2 : i &&& (0x14#64 <<< 21) = 0x04#64 <<< 21
      · exact ⟨0x400000#64, by rw [if_neg c1, if_pos c2]; rfl, Or.inr (Or.inr (Or.inl ⟨c2, by decide⟩))⟩
      · by_cases c3 : i &&& (0x14#64 <<< 21) = 0x10#64 <<< 21
        · exact ⟨0x1000000#64, by rw [if_neg c1, if_neg c2, if_pos c3]; rfl, Or.inr (Or.inr (Or.inr ⟨c3, by decide⟩))⟩
        · exact ⟨0#64, by rw [if_neg c1, if_neg c2, if_neg c3]; simp, by simp⟩
  · simp only [insertBdp, Option.some.injEq, Prod.mk.injEq] at h
    obtain ⟨h, -⟩ := h
    subst h
    by_cases c1 : d &&& isaV2 = 0#64
    · by_cases c2 : x &&& 0x8000#64 = 0#64
      · exact ⟨0x200000#64, by rw [if_pos c1, if_pos c2]; rfl, by simp⟩
      · exact ⟨0#64, by rw [if_pos c1, if_neg c2]; simp, by simp⟩
    · by_cases c2 : i &&& (0x14#64 <<< 21) = 0x04#64 <<< 21
      · exact ⟨0x600000#64, by rw [if_neg c1, if_pos c2]; rfl, Or.inr (Or.inr (Or.inl ⟨c2, by decide⟩))⟩
      · by_cases c3 : i &&& (0x14#64 <<< 21) = 0x10#64 <<< 21
        · exact ⟨0x1200000#64, by rw [if_neg c1, if_neg c2, if_pos c3]; rfl, Or.inr (Or.inr (Or.inr ⟨c3, by decide⟩))⟩
        · exact ⟨0#64, by rw [if_neg c1, if_neg c2, if_neg c3]; simp, by simp⟩

theorem sub_frame {a t u : W} (h : a &&& ~~~t = 0#64) (hu : t &&& ~~~u = 0#64) : a &&& ~~~u = 0#64 := by
  apply BitVec.eq_of_getLsbD_eq
  intro k hk
  have h1 := congrArg (fun y => y.getLsbD k) h
  have h2 := congrArg (fun y => y.getLsbD k) hu
  simp only [BitVec.getLsbD_and, BitVec.getLsbD_not, BitVec.getLsbD_zero, hk, decide_true, Bool.true_and] at h1 h2 ⊢
  revert h1 h2; generalize a.getLsbD k = a; generalize t.getLsbD k = b; generalize u.getLsbD k = c; revert a b c; decide

theorem or2_frame {a y t : W} (ha : a &&& ~~~t = 0#64) (hy : y &&& ~~~t = 0#64) : ((i ||| a) ||| y) &&& ~~~t = i &&& ~~~t := by
  rw [or_frame hy, or_frame ha]

theorem nat_mask {n k c : Nat} (h : n &&& k = c) : BitVec.ofNat 64 n &&& BitVec.ofNat 64 k = BitVec.ofNat 64 c := by
  rw [← BitVec.ofNat_and, h]

variable {mk oc fxm k : Nat}

/-- An insertion into a word that matches the entry changes only `touch`. -/
theorem touch_row (hk : k < 185) (hr : (operandAt k).Range v) (hi : i &&& BitVec.ofNat 64 mk = BitVec.ofNat 64 oc)
    (hf : fxm = 0x1ff000 ∨ (fxm = 0xff000 ∧ d &&& 0x840#64 = 0#64)) (h1 : oc &&& mk = oc)
    {e : Bool} (h : (operandAt k).insert i (BitVec.ofInt 64 v) d = some (w, e)) :
    w &&& ~~~BitVec.ofNat 64 (touch fxm oc mk k) = i &&& ~~~BitVec.ofNat 64 (touch fxm oc mk k) := by
  unfold touch
  have fr := frame_row (at_mem hk) h
  by_cases c1 : k = 18
  · subst c1
    rw [if_pos rfl]
    unfold Operand.insert at h
    rw [boe_codes] at h
    simp only [insertBoe, Option.some.injEq, Prod.mk.injEq] at h
    obtain ⟨h, -⟩ := h
    subst h
    apply or_frame
    have hl : (operandAt 18).lo = 1 := by decide +kernel
    have h2 := hr.1
    rw [hl] at h2
    have e1 : BitVec.ofInt 64 v &&& 1#64 = 0#64 := by
      apply BitVec.eq_of_toNat_eq
      rw [BitVec.toNat_and]
      change (BitVec.ofInt 64 v).toNat &&& 1 = 0
      rw [Nat.and_one_is_mod]
      have : ((BitVec.ofInt 64 v).toNat : Int) = v % 2 ^ 64 := by rw [BitVec.toNat_ofInt]; omega
      omega
    generalize BitVec.ofInt 64 v = y at e1
    have e2 : ((y &&& 0x1f#64) <<< 21) &&& ~~~(BitVec.ofNat 64 0x3c00000) = (y &&& 1#64) <<< 21 := lin_eq_all (i := y) (v := 7#64) (by decide +kernel)
    rw [e2, e1]; rfl
  rw [if_neg c1]
  by_cases c2 : 9 ≤ k ∧ k ≤ 12
  · rw [if_pos c2]
    obtain ⟨a, ha, hc⟩ := bd_touch (bd_codes k c2.1 c2.2) rfl h
    subst ha
    have hy := low_value (BitVec.ofInt 64 v)
    generalize BitVec.ofInt 64 v &&& 0xfffc#64 = y at hy
    have key : ∀ t : W, 0x20fffc#64 &&& ~~~t = 0#64 → (i &&& 0x2800000#64 = 0x800000#64 → 0x600000#64 &&& ~~~t = 0#64) →
        (i &&& 0x2800000#64 = 0x2000000#64 → 0x1200000#64 &&& ~~~t = 0#64) → ((i ||| a) ||| y) &&& ~~~t = i &&& ~~~t := by
      intro t t1 t2 t3
      refine or2_frame ?_ (sub_frame hy t1)
      rcases hc with hc | hc | ⟨hc, hc'⟩ | ⟨hc, hc'⟩
      · subst hc; exact BitVec.zero_and
      · subst hc; exact sub_frame (t := 0x20fffc#64) (by decide) t1
      · exact sub_frame hc' (t2 hc)
      · exact sub_frame hc' (t3 hc)
    by_cases c3 : mk &&& 0x2800000 = 0x2800000
    · rw [if_pos c3]
      have e1 : i &&& 0x2800000#64 = BitVec.ofNat 64 oc &&& 0x2800000#64 := part_of_mask hi (nat_mask c3)
      by_cases c4 : oc &&& 0x2800000 = 0x800000
      · rw [if_pos c4]
        have := nat_mask c4
        refine key _ (by decide) (fun _ => by decide) (fun hh => ?_)
        rw [e1] at hh; rw [this] at hh; exact absurd hh (by decide)
      · rw [if_neg c4]
        have n4 : ¬ i &&& 0x2800000#64 = 0x800000#64 := by
          rw [e1]
          intro hh
          apply c4
          have := congrArg BitVec.toNat hh
          rw [BitVec.toNat_and, BitVec.toNat_ofNat] at this
          change oc % 2 ^ 64 &&& 0x2800000 = 0x800000 at this
          rw [← this]
          apply Nat.eq_of_testBit_eq
          intro j
          simp only [Nat.testBit_and, Nat.testBit_mod_two_pow]
          by_cases hj : j < 64
          · simp [hj]
          · have : Nat.testBit 0x2800000 j = false := Nat.testBit_lt_two_pow (Nat.lt_of_lt_of_le (by decide : 0x2800000 < 2 ^ 64) (Nat.pow_le_pow_right (by omega) (by omega)))
            simp [this]
        by_cases c5 : oc &&& 0x2800000 = 0x2000000
        · rw [if_pos c5]
          exact key _ (by decide) (fun hh => absurd hh n4) (fun _ => by decide)
        · rw [if_neg c5]
          refine key _ (by decide) (fun hh => absurd hh n4) (fun hh => absurd ?_ c5)
          rw [e1] at hh
          have := congrArg BitVec.toNat hh
          rw [BitVec.toNat_and, BitVec.toNat_ofNat] at this
          change oc % 2 ^ 64 &&& 0x2800000 = 0x2000000 at this
          rw [← this]
          apply Nat.eq_of_testBit_eq
          intro j
          simp only [Nat.testBit_and, Nat.testBit_mod_two_pow]
          by_cases hj : j < 64
          · simp [hj]
          · have : Nat.testBit 0x2800000 j = false := Nat.testBit_lt_two_pow (Nat.lt_of_lt_of_le (by decide : 0x2800000 < 2 ^ 64) (Nat.pow_le_pow_right (by omega) (by omega)))
            simp [this]
    · rw [if_neg c3]
      exact key _ (by decide) (fun _ => by decide) (fun _ => by decide)
  rw [if_neg c2]
  by_cases c3 : k = 54 ∨ k = 55
  · rw [if_pos c3]
    have tt := (shape_of (at_mem hk) (fxm_codes k c3) (by decide) rfl).2.2.2.2.2.2.2
    rw [tt] at fr
    unfold Operand.insert at h
    rw [fxm_codes k c3] at h
    generalize BitVec.ofInt 64 v = y at h
    have f1 : ((y &&& 0xff#64) <<< 12) &&& ~~~0xff000#64 = 0#64 := lin_eq_all (i := y) (v := 7#64) (by decide +kernel)
    have f2 : ((0#64 &&& 0xff#64) <<< 12) &&& ~~~0xff000#64 = 0#64 := by decide
    by_cases c4 : oc &&& 0x100000 = 0x100000
    · rw [if_pos c4]
      have hb : i &&& (1#64 <<< 20) ≠ 0#64 := by
        have : mk &&& 0x100000 = 0x100000 := by
          have : (oc &&& 0x100000) &&& mk = oc &&& 0x100000 := by
            rw [Nat.and_assoc, Nat.and_comm 0x100000 mk, ← Nat.and_assoc, h1]
          rw [c4] at this
          rw [Nat.and_comm]; exact this
        have e1 : i &&& 0x100000#64 = BitVec.ofNat 64 oc &&& 0x100000#64 := part_of_mask hi (nat_mask this)
        have := nat_mask c4
        change i &&& 0x100000#64 ≠ 0#64
        rw [e1]
        change BitVec.ofNat 64 oc &&& BitVec.ofNat 64 0x100000 ≠ _
        rw [this]; decide
      simp only [insertFxm, if_pos hb] at h
      split at h
      · cases h
      · split at h
        · cases h; exact or_frame f2
        · cases h; exact or_frame f1
    · rw [if_neg c4]
      rcases hf with hf | ⟨hf, hd⟩
      · subst hf; exact fr.1
      · subst hf
        have d1 : d &&& 0x800#64 = 0#64 := by
          have e0 : d &&& 0x800#64 = (d &&& 0x840#64) &&& 0x800#64 := lin_eq_all (i := d) (v := 7#64) (by decide +kernel)
          rw [e0, hd]; rfl
        have d2 : d &&& 0x40#64 = 0#64 := by
          have e0 : d &&& 0x40#64 = (d &&& 0x840#64) &&& 0x40#64 := lin_eq_all (i := d) (v := 7#64) (by decide +kernel)
          rw [e0, hd]; rfl
        simp only [insertFxm] at h
        split at h
        · split at h
          · cases h
          · split at h
            · cases h; exact or_frame f2
            · cases h; exact or_frame f1
        · split at h
          · next hh => rcases hh.2.2 with hh | hh; exact absurd d1 hh; exact absurd d2 hh.1
          · split at h
            · cases h; exact or_frame f2
            · cases h; exact or_frame f1
  rw [if_neg c3, ← touch_table k hk]
  exact fr.1

end Opc
