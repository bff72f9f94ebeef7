import Verif.Opc.Legal3

/-! Branch displacements with a prediction: a recognised word comes back. -/
namespace Opc

variable {i x d h : W}

theorem hint_back (h1 : i &&& h = h) (h2 : i &&& 0x200000#64 = h &&& 0x200000#64) :
    ((i &&& ~~~0x20fffc#64) ||| h) ||| (i &&& 0xfffc#64) = i := by
  have e : (0x20fffc#64 : W) = 0xfffc#64 ||| 0x200000#64 := by decide
  apply BitVec.eq_of_getLsbD_eq
  intro k hk
  have a := congrArg (fun y => y.getLsbD k) h1
  have b := congrArg (fun y => y.getLsbD k) h2
  rw [e]
  simp only [BitVec.getLsbD_or, BitVec.getLsbD_and, BitVec.getLsbD_not, hk, decide_true, Bool.true_and] at a b ⊢
  generalize (0xfffc#64 : W).getLsbD k = f at *
  generalize (0x200000#64 : W).getLsbD k = g at *
  generalize i.getLsbD k = p at *
  generalize h.getLsbD k = q at *
  revert a b
  cases f <;> cases g <;> cases p <;> cases q <;> decide

theorem bd_low : ((((i &&& 0xfffc#64) ^^^ 0x8000#64) - 0x8000#64) &&& 0xfffc#64 = i &&& 0xfffc#64) ∧
    ((((i &&& 0xfffc#64) ^^^ 0x8000#64) - 0x8000#64) &&& 0x8000#64 = i &&& 0x8000#64) := by
  have hs : (i &&& 0xfffc#64) &&& ~~~0xffff#64 = 0#64 := lin_eq_all (i := i) (v := 7#64) (by decide +kernel)
  have hl := low15 hs
  generalize ((i &&& 0xfffc#64) ^^^ 0x8000#64) - 0x8000#64 = y at hl
  have e1 : y &&& 0xfffc#64 = (y &&& 0xffff#64) &&& 0xfffc#64 := lin_eq_all (i := y) (v := 7#64) (by decide +kernel)
  have e2 : y &&& 0x8000#64 = (y &&& 0xffff#64) &&& 0x8000#64 := lin_eq_all (i := y) (v := 7#64) (by decide +kernel)
  rw [e1, e2, hl, BitVec.and_assoc, BitVec.and_assoc]
  exact ⟨rfl, rfl⟩

theorem bit21 : (i &&& 0x200000#64 = 0#64) ∨ i &&& 0x200000#64 = 0x200000#64 := by
  rcases Classical.em (i.getLsbD 21 = true) with a | a
  all_goals
    first
    | right
      apply BitVec.eq_of_getLsbD_eq
      intro k hk
      rw [BitVec.getLsbD_and]
      by_cases hk21 : k = 21
      · subst hk21; rw [a]; rfl
      · have : ∀ k : Fin 64, k.val ≠ 21 → (0x200000#64 : W).getLsbD k = false := by decide
        rw [this ⟨k, hk⟩ hk21]; simp
      done
    | left
      apply BitVec.eq_of_getLsbD_eq
      intro k hk
      rw [BitVec.getLsbD_and]
      by_cases hk21 : k = 21
      · subst hk21; simp only [Bool.not_eq_true] at a; rw [a]; simp
      · have : ∀ k : Fin 64, k.val ≠ 21 → (0x200000#64 : W).getLsbD k = false := by decide
        rw [this ⟨k, hk⟩ hk21]; simp
      done

theorem bkBdm (hv : (extractBdm i d 0).2 = 0) : insertBdm (i &&& ~~~0x20fffc#64) (extractBdm i d 0).1 d = some (i, false) := by
  rw [insertBdm_eq]
  simp only [extractBdm] at hv ⊢
  rw [bd_low.1]
  congr 2
  apply hint_back
  all_goals
    unfold bdmHint
    rw [bd_low.2]
    by_cases a : d &&& isaV2 = 0#64
    · rw [if_pos a] at hv ⊢
      have c : (i &&& (1#64 <<< 21) = 0#64) ↔ (i &&& (1#64 <<< 15) = 0#64) := by
        apply Classical.byContradiction
        intro hc
        rw [if_neg hc] at hv
        cases hv
      change (i &&& 0x200000#64 = 0#64) ↔ (i &&& 0x8000#64 = 0#64) at c
      rcases bit21 (i := i) with hb | hb
      · rw [if_neg (by simpa using c.mp hb)]
        simp [hb]
      · rw [if_pos (fun hc => by rw [c.mpr hc] at hb; exact absurd hb (by decide))]
        exact hb
    · rw [if_neg a] at hv ⊢
      have c : i &&& (0x17#64 <<< 21) = 0x06#64 <<< 21 ∨ i &&& (0x1d#64 <<< 21) = 0x18#64 <<< 21 := by
        apply Classical.byContradiction
        intro hc
        rw [not_or] at hc
        rw [if_pos hc] at hv
        cases hv
      have n : ~~~0x20fffc#64 = (0xffffffffffdf0003#64 : W) := by decide
      rw [n]
      rcases c with c | c
      · have j : (i &&& 0xffffffffffdf0003#64) &&& (0x14#64 <<< 21) = (i &&& (0x17#64 <<< 21)) &&& (0x14#64 <<< 21) := lin_eq_all (i := i) (v := 7#64) (by decide +kernel)
        rw [if_pos (by rw [j, c]; decide)]
        first
        | have k : i &&& (0x02#64 <<< 21) = (i &&& (0x17#64 <<< 21)) &&& (0x02#64 <<< 21) := lin_eq_all (i := i) (v := 7#64) (by decide +kernel)
          rw [k, c]; decide
        | have k : i &&& 0x200000#64 = (i &&& (0x17#64 <<< 21)) &&& 0x200000#64 := lin_eq_all (i := i) (v := 7#64) (by decide +kernel)
          rw [k, c]; decide
      · have j : (i &&& 0xffffffffffdf0003#64) &&& (0x14#64 <<< 21) = (i &&& (0x1d#64 <<< 21)) &&& (0x14#64 <<< 21) := lin_eq_all (i := i) (v := 7#64) (by decide +kernel)
        rw [if_neg (by rw [j, c]; decide), if_pos (by rw [j, c]; decide)]
        first
        | have k : i &&& (0x08#64 <<< 21) = (i &&& (0x1d#64 <<< 21)) &&& (0x08#64 <<< 21) := lin_eq_all (i := i) (v := 7#64) (by decide +kernel)
          rw [k, c]; decide
        | have k : i &&& 0x200000#64 = (i &&& (0x1d#64 <<< 21)) &&& 0x200000#64 := lin_eq_all (i := i) (v := 7#64) (by decide +kernel)
          rw [k, c]; decide

theorem bkBdp (hv : (extractBdp i d 0).2 = 0) : insertBdp (i &&& ~~~0x20fffc#64) (extractBdp i d 0).1 d = some (i, false) := by
  rw [insertBdp_eq]
  simp only [extractBdp] at hv ⊢
  rw [bd_low.1]
  congr 2
  apply hint_back
  all_goals
    unfold bdpHint
    rw [bd_low.2]
    by_cases a : d &&& isaV2 = 0#64
    · rw [if_pos a] at hv ⊢
      have c : ¬((i &&& (1#64 <<< 21) = 0#64) ↔ (i &&& (1#64 <<< 15) = 0#64)) := by
        intro hc
        rw [if_pos hc] at hv
        cases hv
      change ¬((i &&& 0x200000#64 = 0#64) ↔ (i &&& 0x8000#64 = 0#64)) at c
      rcases bit21 (i := i) with hb | hb
      · rw [if_neg (fun hc => c (by simp [hb, hc]))]
        simp [hb]
      · rw [if_pos (Classical.byContradiction fun hc => c ⟨fun h => by rw [h] at hb; exact absurd hb (by decide), fun h => absurd h hc⟩)]
        exact hb
    · rw [if_neg a] at hv ⊢
      have c : i &&& (0x17#64 <<< 21) = 0x07#64 <<< 21 ∨ i &&& (0x1d#64 <<< 21) = 0x19#64 <<< 21 := by
        apply Classical.byContradiction
        intro hc
        rw [not_or] at hc
        rw [if_pos hc] at hv
        cases hv
      have n : ~~~0x20fffc#64 = (0xffffffffffdf0003#64 : W) := by decide
      rw [n]
      rcases c with c | c
      · have j : (i &&& 0xffffffffffdf0003#64) &&& (0x14#64 <<< 21) = (i &&& (0x17#64 <<< 21)) &&& (0x14#64 <<< 21) := lin_eq_all (i := i) (v := 7#64) (by decide +kernel)
        rw [if_pos (by rw [j, c]; decide)]
        first
        | have k : i &&& (0x03#64 <<< 21) = (i &&& (0x17#64 <<< 21)) &&& (0x03#64 <<< 21) := lin_eq_all (i := i) (v := 7#64) (by decide +kernel)
          rw [k, c]; decide
        | have k : i &&& 0x200000#64 = (i &&& (0x17#64 <<< 21)) &&& 0x200000#64 := lin_eq_all (i := i) (v := 7#64) (by decide +kernel)
          rw [k, c]; decide
      · have j : (i &&& 0xffffffffffdf0003#64) &&& (0x14#64 <<< 21) = (i &&& (0x1d#64 <<< 21)) &&& (0x14#64 <<< 21) := lin_eq_all (i := i) (v := 7#64) (by decide +kernel)
        rw [if_neg (by rw [j, c]; decide), if_pos (by rw [j, c]; decide)]
        first
        | have k : i &&& (0x09#64 <<< 21) = (i &&& (0x1d#64 <<< 21)) &&& (0x09#64 <<< 21) := lin_eq_all (i := i) (v := 7#64) (by decide +kernel)
          rw [k, c]; decide
        | have k : i &&& 0x200000#64 = (i &&& (0x1d#64 <<< 21)) &&& 0x200000#64 := lin_eq_all (i := i) (v := 7#64) (by decide +kernel)
          rw [k, c]; decide

end Opc
