import Verif.Opc.Ranges

/-! Operands whose functions only move bits. -/
namespace Opc

variable {i v d w : W} {inv : Int} {e : Bool}

theorem rtDcmxs (hi : i &&& 0x1f0044#64 = 0#64) (hv : v &&& ~~~0x7f#64 = 0#64) (h : insertDcmxs i v d = some (w, false)) :
    extractDcmxs w d inv = (v, inv) := by
  simp only [insertDcmxs, Option.some.injEq, Prod.mk.injEq, and_true] at h
  subst h
  simp only [extractDcmxs, Prod.mk.injEq, and_true]
  exact lin_eq 0x1f0044#64 0x7f#64 (by decide +kernel) hi hv

theorem frDcmxs (h : insertDcmxs i v d = some (w, e)) : w &&& ~~~0x1f0044#64 = i &&& ~~~0x1f0044#64 ∧ i &&& ~~~w = 0#64 ∧ e = false := by
  simp only [insertDcmxs, Option.some.injEq, Prod.mk.injEq] at h
  obtain ⟨rfl, rfl⟩ := h
  exact ⟨lin_eq_all (i := i) (v := v) (by decide +kernel), by simp only [BitVec.or_assoc]; exact and_not_or _ _, rfl⟩

theorem bkDcmxs : insertDcmxs (i &&& ~~~0x1f0044#64) (extractDcmxs i d inv).1 d = some (i, false) := by
  simp only [extractDcmxs, insertDcmxs, Option.some.injEq, Prod.mk.injEq, and_true]
  exact lin_eq_all (i := i) (v := i) (by decide +kernel)

theorem rtMb6 (hi : i &&& 0x7e0#64 = 0#64) (hv : v &&& ~~~0x3f#64 = 0#64) (h : insertMb6 i v d = some (w, false)) :
    extractMb6 w d inv = (v, inv) := by
  simp only [insertMb6, Option.some.injEq, Prod.mk.injEq, and_true] at h
  subst h
  simp only [extractMb6, Prod.mk.injEq, and_true]
  exact lin_eq 0x7e0#64 0x3f#64 (by decide +kernel) hi hv

theorem frMb6 (h : insertMb6 i v d = some (w, e)) : w &&& ~~~0x7e0#64 = i &&& ~~~0x7e0#64 ∧ i &&& ~~~w = 0#64 ∧ e = false := by
  simp only [insertMb6, Option.some.injEq, Prod.mk.injEq] at h
  obtain ⟨rfl, rfl⟩ := h
  exact ⟨lin_eq_all (i := i) (v := v) (by decide +kernel), by simp only [BitVec.or_assoc]; exact and_not_or _ _, rfl⟩

theorem bkMb6 : insertMb6 (i &&& ~~~0x7e0#64) (extractMb6 i d inv).1 d = some (i, false) := by
  simp only [extractMb6, insertMb6, Option.some.injEq, Prod.mk.injEq, and_true]
  exact lin_eq_all (i := i) (v := i) (by decide +kernel)

theorem rtSh6 (hi : i &&& 0xf802#64 = 0#64) (hv : v &&& ~~~0x3f#64 = 0#64) (h : insertSh6 i v d = some (w, false)) :
    extractSh6 w d inv = (v, inv) := by
  simp only [insertSh6, Option.some.injEq, Prod.mk.injEq, and_true] at h
  subst h
  simp only [extractSh6, Prod.mk.injEq, and_true]
  exact lin_eq 0xf802#64 0x3f#64 (by decide +kernel) hi hv

theorem frSh6 (h : insertSh6 i v d = some (w, e)) : w &&& ~~~0xf802#64 = i &&& ~~~0xf802#64 ∧ i &&& ~~~w = 0#64 ∧ e = false := by
  simp only [insertSh6, Option.some.injEq, Prod.mk.injEq] at h
  obtain ⟨rfl, rfl⟩ := h
  exact ⟨lin_eq_all (i := i) (v := v) (by decide +kernel), by simp only [BitVec.or_assoc]; exact and_not_or _ _, rfl⟩

theorem bkSh6 : insertSh6 (i &&& ~~~0xf802#64) (extractSh6 i d inv).1 d = some (i, false) := by
  simp only [extractSh6, insertSh6, Option.some.injEq, Prod.mk.injEq, and_true]
  exact lin_eq_all (i := i) (v := i) (by decide +kernel)

theorem rtSpr (hi : i &&& 0x1ff800#64 = 0#64) (hv : v &&& ~~~0x3ff#64 = 0#64) (h : insertSpr i v d = some (w, false)) :
    extractSpr w d inv = (v, inv) := by
  simp only [insertSpr, Option.some.injEq, Prod.mk.injEq, and_true] at h
  subst h
  simp only [extractSpr, Prod.mk.injEq, and_true]
  exact lin_eq 0x1ff800#64 0x3ff#64 (by decide +kernel) hi hv

theorem frSpr (h : insertSpr i v d = some (w, e)) : w &&& ~~~0x1ff800#64 = i &&& ~~~0x1ff800#64 ∧ i &&& ~~~w = 0#64 ∧ e = false := by
  simp only [insertSpr, Option.some.injEq, Prod.mk.injEq] at h
  obtain ⟨rfl, rfl⟩ := h
  exact ⟨lin_eq_all (i := i) (v := v) (by decide +kernel), by simp only [BitVec.or_assoc]; exact and_not_or _ _, rfl⟩

theorem bkSpr : insertSpr (i &&& ~~~0x1ff800#64) (extractSpr i d inv).1 d = some (i, false) := by
  simp only [extractSpr, insertSpr, Option.some.injEq, Prod.mk.injEq, and_true]
  exact lin_eq_all (i := i) (v := i) (by decide +kernel)

theorem rtXt6 (hi : i &&& 0x3e00001#64 = 0#64) (hv : v &&& ~~~0x3f#64 = 0#64) (h : insertXt6 i v d = some (w, false)) :
    extractXt6 w d inv = (v, inv) := by
  simp only [insertXt6, Option.some.injEq, Prod.mk.injEq, and_true] at h
  subst h
  simp only [extractXt6, Prod.mk.injEq, and_true]
  exact lin_eq 0x3e00001#64 0x3f#64 (by decide +kernel) hi hv

theorem frXt6 (h : insertXt6 i v d = some (w, e)) : w &&& ~~~0x3e00001#64 = i &&& ~~~0x3e00001#64 ∧ i &&& ~~~w = 0#64 ∧ e = false := by
  simp only [insertXt6, Option.some.injEq, Prod.mk.injEq] at h
  obtain ⟨rfl, rfl⟩ := h
  exact ⟨lin_eq_all (i := i) (v := v) (by decide +kernel), by simp only [BitVec.or_assoc]; exact and_not_or _ _, rfl⟩

theorem bkXt6 : insertXt6 (i &&& ~~~0x3e00001#64) (extractXt6 i d inv).1 d = some (i, false) := by
  simp only [extractXt6, insertXt6, Option.some.injEq, Prod.mk.injEq, and_true]
  exact lin_eq_all (i := i) (v := i) (by decide +kernel)

theorem rtXtq6 (hi : i &&& 0x3e00008#64 = 0#64) (hv : v &&& ~~~0x3f#64 = 0#64) (h : insertXtq6 i v d = some (w, false)) :
    extractXtq6 w d inv = (v, inv) := by
  simp only [insertXtq6, Option.some.injEq, Prod.mk.injEq, and_true] at h
  subst h
  simp only [extractXtq6, Prod.mk.injEq, and_true]
  exact lin_eq 0x3e00008#64 0x3f#64 (by decide +kernel) hi hv

theorem frXtq6 (h : insertXtq6 i v d = some (w, e)) : w &&& ~~~0x3e00008#64 = i &&& ~~~0x3e00008#64 ∧ i &&& ~~~w = 0#64 ∧ e = false := by
  simp only [insertXtq6, Option.some.injEq, Prod.mk.injEq] at h
  obtain ⟨rfl, rfl⟩ := h
  exact ⟨lin_eq_all (i := i) (v := v) (by decide +kernel), by simp only [BitVec.or_assoc]; exact and_not_or _ _, rfl⟩

theorem bkXtq6 : insertXtq6 (i &&& ~~~0x3e00008#64) (extractXtq6 i d inv).1 d = some (i, false) := by
  simp only [extractXtq6, insertXtq6, Option.some.injEq, Prod.mk.injEq, and_true]
  exact lin_eq_all (i := i) (v := i) (by decide +kernel)

theorem rtXa6 (hi : i &&& 0x1f0004#64 = 0#64) (hv : v &&& ~~~0x3f#64 = 0#64) (h : insertXa6 i v d = some (w, false)) :
    extractXa6 w d inv = (v, inv) := by
  simp only [insertXa6, Option.some.injEq, Prod.mk.injEq, and_true] at h
  subst h
  simp only [extractXa6, Prod.mk.injEq, and_true]
  exact lin_eq 0x1f0004#64 0x3f#64 (by decide +kernel) hi hv

theorem frXa6 (h : insertXa6 i v d = some (w, e)) : w &&& ~~~0x1f0004#64 = i &&& ~~~0x1f0004#64 ∧ i &&& ~~~w = 0#64 ∧ e = false := by
  simp only [insertXa6, Option.some.injEq, Prod.mk.injEq] at h
  obtain ⟨rfl, rfl⟩ := h
  exact ⟨lin_eq_all (i := i) (v := v) (by decide +kernel), by simp only [BitVec.or_assoc]; exact and_not_or _ _, rfl⟩

theorem bkXa6 : insertXa6 (i &&& ~~~0x1f0004#64) (extractXa6 i d inv).1 d = some (i, false) := by
  simp only [extractXa6, insertXa6, Option.some.injEq, Prod.mk.injEq, and_true]
  exact lin_eq_all (i := i) (v := i) (by decide +kernel)

theorem rtXb6 (hi : i &&& 0xf802#64 = 0#64) (hv : v &&& ~~~0x3f#64 = 0#64) (h : insertXb6 i v d = some (w, false)) :
    extractXb6 w d inv = (v, inv) := by
  simp only [insertXb6, Option.some.injEq, Prod.mk.injEq, and_true] at h
  subst h
  simp only [extractXb6, Prod.mk.injEq, and_true]
  exact lin_eq 0xf802#64 0x3f#64 (by decide +kernel) hi hv

theorem frXb6 (h : insertXb6 i v d = some (w, e)) : w &&& ~~~0xf802#64 = i &&& ~~~0xf802#64 ∧ i &&& ~~~w = 0#64 ∧ e = false := by
  simp only [insertXb6, Option.some.injEq, Prod.mk.injEq] at h
  obtain ⟨rfl, rfl⟩ := h
  exact ⟨lin_eq_all (i := i) (v := v) (by decide +kernel), by simp only [BitVec.or_assoc]; exact and_not_or _ _, rfl⟩

theorem bkXb6 : insertXb6 (i &&& ~~~0xf802#64) (extractXb6 i d inv).1 d = some (i, false) := by
  simp only [extractXb6, insertXb6, Option.some.injEq, Prod.mk.injEq, and_true]
  exact lin_eq_all (i := i) (v := i) (by decide +kernel)

theorem rtXc6 (hi : i &&& 0x7c8#64 = 0#64) (hv : v &&& ~~~0x3f#64 = 0#64) (h : insertXc6 i v d = some (w, false)) :
    extractXc6 w d inv = (v, inv) := by
  simp only [insertXc6, Option.some.injEq, Prod.mk.injEq, and_true] at h
  subst h
  simp only [extractXc6, Prod.mk.injEq, and_true]
  exact lin_eq 0x7c8#64 0x3f#64 (by decide +kernel) hi hv

theorem frXc6 (h : insertXc6 i v d = some (w, e)) : w &&& ~~~0x7c8#64 = i &&& ~~~0x7c8#64 ∧ i &&& ~~~w = 0#64 ∧ e = false := by
  simp only [insertXc6, Option.some.injEq, Prod.mk.injEq] at h
  obtain ⟨rfl, rfl⟩ := h
  exact ⟨lin_eq_all (i := i) (v := v) (by decide +kernel), by simp only [BitVec.or_assoc]; exact and_not_or _ _, rfl⟩

theorem bkXc6 : insertXc6 (i &&& ~~~0x7c8#64) (extractXc6 i d inv).1 d = some (i, false) := by
  simp only [extractXc6, insertXc6, Option.some.injEq, Prod.mk.injEq, and_true]
  exact lin_eq_all (i := i) (v := i) (by decide +kernel)

theorem rtVleui (hi : i &&& 0x3e007ff#64 = 0#64) (hv : v &&& ~~~0xffff#64 = 0#64) (h : insertVleui i v d = some (w, false)) :
    extractVleui w d inv = (v, inv) := by
  simp only [insertVleui, Option.some.injEq, Prod.mk.injEq, and_true] at h
  subst h
  simp only [extractVleui, Prod.mk.injEq, and_true]
  exact lin_eq 0x3e007ff#64 0xffff#64 (by decide +kernel) hi hv

theorem frVleui (h : insertVleui i v d = some (w, e)) : w &&& ~~~0x3e007ff#64 = i &&& ~~~0x3e007ff#64 ∧ i &&& ~~~w = 0#64 ∧ e = false := by
  simp only [insertVleui, Option.some.injEq, Prod.mk.injEq] at h
  obtain ⟨rfl, rfl⟩ := h
  exact ⟨lin_eq_all (i := i) (v := v) (by decide +kernel), by simp only [BitVec.or_assoc]; exact and_not_or _ _, rfl⟩

theorem bkVleui : insertVleui (i &&& ~~~0x3e007ff#64) (extractVleui i d inv).1 d = some (i, false) := by
  simp only [extractVleui, insertVleui, Option.some.injEq, Prod.mk.injEq, and_true]
  exact lin_eq_all (i := i) (v := i) (by decide +kernel)

theorem rtVleil (hi : i &&& 0x1f07ff#64 = 0#64) (hv : v &&& ~~~0xffff#64 = 0#64) (h : insertVleil i v d = some (w, false)) :
    extractVleil w d inv = (v, inv) := by
  simp only [insertVleil, Option.some.injEq, Prod.mk.injEq, and_true] at h
  subst h
  simp only [extractVleil, Prod.mk.injEq, and_true]
  exact lin_eq 0x1f07ff#64 0xffff#64 (by decide +kernel) hi hv

theorem frVleil (h : insertVleil i v d = some (w, e)) : w &&& ~~~0x1f07ff#64 = i &&& ~~~0x1f07ff#64 ∧ i &&& ~~~w = 0#64 ∧ e = false := by
  simp only [insertVleil, Option.some.injEq, Prod.mk.injEq] at h
  obtain ⟨rfl, rfl⟩ := h
  exact ⟨lin_eq_all (i := i) (v := v) (by decide +kernel), by simp only [BitVec.or_assoc]; exact and_not_or _ _, rfl⟩

theorem bkVleil : insertVleil (i &&& ~~~0x1f07ff#64) (extractVleil i d inv).1 d = some (i, false) := by
  simp only [extractVleil, insertVleil, Option.some.injEq, Prod.mk.injEq, and_true]
  exact lin_eq_all (i := i) (v := i) (by decide +kernel)

end Opc
