import Verif.Opc.Ranges

/-! Operands with a field of their own and a condition on the value. -/
namespace Opc

variable {i v d w : W} {inv : Int} {e : Bool}

theorem ite_false {c : Prop} [Decidable c] (h : (if c then true else false) = false) : ¬c := by
  by_cases hc : c
  · rw [if_pos hc] at h; exact absurd h (by decide)
  · exact hc

theorem ite_one {c : Prop} [Decidable c] (h : (if c then (1 : Int) else 0) = 0) : ¬c := by
  by_cases hc : c
  · rw [if_pos hc] at h; exact absurd h (by decide)
  · exact hc

theorem rtRal (hi : i &&& 0x1f0000#64 = 0#64) (hv : v &&& ~~~0x1f#64 = 0#64) (h : insertRal i v d = some (w, false)) :
    extractRal w d inv = (v, inv) := by
  simp only [insertRal, Option.some.injEq, Prod.mk.injEq] at h
  obtain ⟨rfl, hc⟩ := h
  have hc := ite_false hc
  have e1 : ((i ||| ((v &&& 0x1f#64) <<< 16)) >>> 16) &&& 0x1f#64 = v := lin_eq 0x1f0000#64 0x1f#64 (by decide +kernel) hi hv
  have e2 : ((i ||| ((v &&& 0x1f#64) <<< 16)) >>> 21) &&& 0x1f#64 = (i >>> 21) &&& 0x1f#64 :=
    lin_eq_all (i := i) (v := v) (by decide +kernel)
  simp only [extractRal, e1, e2]
  rw [if_neg (fun h => hc (h.elim (fun a => .inr a.symm) .inl))]

theorem frRal (h : insertRal i v d = some (w, e)) : w &&& ~~~0x1f0000#64 = i &&& ~~~0x1f0000#64 ∧ i &&& ~~~w = 0#64 := by
  simp only [insertRal, Option.some.injEq, Prod.mk.injEq] at h
  obtain ⟨rfl, -⟩ := h
  exact ⟨lin_eq_all (i := i) (v := v) (by decide +kernel), by (try simp only [BitVec.or_assoc]); exact and_not_or _ _⟩

theorem bkRal (h : (extractRal i d 0).2 = 0) : insertRal (i &&& ~~~0x1f0000#64) (extractRal i d 0).1 d = some (i, false) := by
  simp only [extractRal] at h
  have hc := ite_one h
  have e2 : ((i &&& ~~~0x1f0000#64) >>> 21) &&& 0x1f#64 = (i >>> 21) &&& 0x1f#64 := lin_eq_all (i := i) (v := i) (by decide +kernel)
  simp only [extractRal, insertRal, e2, Option.some.injEq, Prod.mk.injEq]
  exact ⟨lin_eq_all (i := i) (v := i) (by decide +kernel), if_neg (fun h => hc (h.elim .inr (fun a => .inl a.symm)))⟩

theorem rtRam (hi : i &&& 0x1f0000#64 = 0#64) (hv : v &&& ~~~0x1f#64 = 0#64) (h : insertRam i v d = some (w, false)) :
    extractRam w d inv = (v, inv) := by
  simp only [insertRam, Option.some.injEq, Prod.mk.injEq] at h
  obtain ⟨rfl, hc⟩ := h
  have hc := ite_false hc
  have e1 : ((i ||| ((v &&& 0x1f#64) <<< 16)) >>> 16) &&& 0x1f#64 = v := lin_eq 0x1f0000#64 0x1f#64 (by decide +kernel) hi hv
  have e2 : ((i ||| ((v &&& 0x1f#64) <<< 16)) >>> 21) &&& 0x1f#64 = (i >>> 21) &&& 0x1f#64 :=
    lin_eq_all (i := i) (v := v) (by decide +kernel)
  simp only [extractRam, e1, e2]
  rw [if_neg hc]

theorem frRam (h : insertRam i v d = some (w, e)) : w &&& ~~~0x1f0000#64 = i &&& ~~~0x1f0000#64 ∧ i &&& ~~~w = 0#64 := by
  simp only [insertRam, Option.some.injEq, Prod.mk.injEq] at h
  obtain ⟨rfl, -⟩ := h
  exact ⟨lin_eq_all (i := i) (v := v) (by decide +kernel), by (try simp only [BitVec.or_assoc]); exact and_not_or _ _⟩

theorem bkRam (h : (extractRam i d 0).2 = 0) : insertRam (i &&& ~~~0x1f0000#64) (extractRam i d 0).1 d = some (i, false) := by
  simp only [extractRam] at h
  have hc := ite_one h
  have e2 : ((i &&& ~~~0x1f0000#64) >>> 21) &&& 0x1f#64 = (i >>> 21) &&& 0x1f#64 := lin_eq_all (i := i) (v := i) (by decide +kernel)
  simp only [extractRam, insertRam, e2, Option.some.injEq, Prod.mk.injEq]
  exact ⟨lin_eq_all (i := i) (v := i) (by decide +kernel), if_neg hc⟩

theorem rtRaq (hn : 0 ≤ inv) (hi : i &&& 0x1f0000#64 = 0#64) (hv : v &&& ~~~0x1f#64 = 0#64) (h : insertRaq i v d = some (w, false)) :
    extractRaq w d inv = (v, inv) := by
  simp only [insertRaq, Option.some.injEq, Prod.mk.injEq] at h
  obtain ⟨rfl, hc⟩ := h
  have hc := ite_false hc
  have e1 : ((i ||| ((v &&& 0x1f#64) <<< 16)) >>> 16) &&& 0x1f#64 = v := lin_eq 0x1f0000#64 0x1f#64 (by decide +kernel) hi hv
  have e2 : ((i ||| ((v &&& 0x1f#64) <<< 16)) >>> 21) &&& 0x1f#64 = (i >>> 21) &&& 0x1f#64 :=
    lin_eq_all (i := i) (v := v) (by decide +kernel)
  simp only [extractRaq, if_neg (show ¬inv < 0 by omega), e1, e2]
  rw [if_neg hc]

theorem frRaq (h : insertRaq i v d = some (w, e)) : w &&& ~~~0x1f0000#64 = i &&& ~~~0x1f0000#64 ∧ i &&& ~~~w = 0#64 := by
  simp only [insertRaq, Option.some.injEq, Prod.mk.injEq] at h
  obtain ⟨rfl, -⟩ := h
  exact ⟨lin_eq_all (i := i) (v := v) (by decide +kernel), by (try simp only [BitVec.or_assoc]); exact and_not_or _ _⟩

theorem bkRaq (h : (extractRaq i d 0).2 = 0) : insertRaq (i &&& ~~~0x1f0000#64) (extractRaq i d 0).1 d = some (i, false) := by
  simp only [extractRaq, if_neg (show ¬(0 : Int) < 0 by omega)] at h
  have hc := ite_one h
  have e2 : ((i &&& ~~~0x1f0000#64) >>> 21) &&& 0x1f#64 = (i >>> 21) &&& 0x1f#64 := lin_eq_all (i := i) (v := i) (by decide +kernel)
  simp only [extractRaq, insertRaq, e2, if_neg (show ¬(0 : Int) < 0 by omega), Option.some.injEq, Prod.mk.injEq]
  exact ⟨lin_eq_all (i := i) (v := i) (by decide +kernel), if_neg hc⟩

theorem rtRas (hi : i &&& 0x1f0000#64 = 0#64) (hv : v &&& ~~~0x1f#64 = 0#64) (h : insertRas i v d = some (w, false)) :
    extractRas w d inv = (v, inv) := by
  simp only [insertRas, Option.some.injEq, Prod.mk.injEq] at h
  obtain ⟨rfl, hc⟩ := h
  have hc := ite_false hc
  have e1 : ((i ||| ((v &&& 0x1f#64) <<< 16)) >>> 16) &&& 0x1f#64 = v := lin_eq 0x1f0000#64 0x1f#64 (by decide +kernel) hi hv
  simp only [extractRas, e1]
  rw [if_neg hc]

theorem frRas (h : insertRas i v d = some (w, e)) : w &&& ~~~0x1f0000#64 = i &&& ~~~0x1f0000#64 ∧ i &&& ~~~w = 0#64 := by
  simp only [insertRas, Option.some.injEq, Prod.mk.injEq] at h
  obtain ⟨rfl, -⟩ := h
  exact ⟨lin_eq_all (i := i) (v := v) (by decide +kernel), by (try simp only [BitVec.or_assoc]); exact and_not_or _ _⟩

theorem bkRas (h : (extractRas i d 0).2 = 0) : insertRas (i &&& ~~~0x1f0000#64) (extractRas i d 0).1 d = some (i, false) := by
  simp only [extractRas] at h
  have hc := ite_one h
  simp only [extractRas, insertRas, Option.some.injEq, Prod.mk.injEq]
  exact ⟨lin_eq_all (i := i) (v := i) (by decide +kernel), if_neg hc⟩

theorem rtRbx (hi : i &&& 0xf800#64 = 0#64) (hv : v &&& ~~~0x1f#64 = 0#64) (h : insertRbx i v d = some (w, false)) :
    extractRbx w d inv = (v, inv) := by
  simp only [insertRbx, Option.some.injEq, Prod.mk.injEq] at h
  obtain ⟨rfl, hc⟩ := h
  have hc := ite_false hc
  have e1 : ((i ||| ((v &&& 0x1f#64) <<< 11)) >>> 11) &&& 0x1f#64 = v := lin_eq 0xf800#64 0x1f#64 (by decide +kernel) hi hv
  have e2 : ((i ||| ((v &&& 0x1f#64) <<< 11)) >>> 21) &&& 0x1f#64 = (i >>> 21) &&& 0x1f#64 :=
    lin_eq_all (i := i) (v := v) (by decide +kernel)
  simp only [extractRbx, e1, e2]
  rw [if_neg hc]

theorem frRbx (h : insertRbx i v d = some (w, e)) : w &&& ~~~0xf800#64 = i &&& ~~~0xf800#64 ∧ i &&& ~~~w = 0#64 := by
  simp only [insertRbx, Option.some.injEq, Prod.mk.injEq] at h
  obtain ⟨rfl, -⟩ := h
  exact ⟨lin_eq_all (i := i) (v := v) (by decide +kernel), by (try simp only [BitVec.or_assoc]); exact and_not_or _ _⟩

theorem bkRbx (h : (extractRbx i d 0).2 = 0) : insertRbx (i &&& ~~~0xf800#64) (extractRbx i d 0).1 d = some (i, false) := by
  simp only [extractRbx] at h
  have hc := ite_one h
  have e2 : ((i &&& ~~~0xf800#64) >>> 21) &&& 0x1f#64 = (i >>> 21) &&& 0x1f#64 := lin_eq_all (i := i) (v := i) (by decide +kernel)
  simp only [extractRbx, insertRbx, e2, Option.some.injEq, Prod.mk.injEq]
  exact ⟨lin_eq_all (i := i) (v := i) (by decide +kernel), if_neg hc⟩

theorem rtBab (hi : i &&& 0x1ff800#64 = 0#64) (hv : v &&& ~~~0x1f#64 = 0#64) (h : insertBab i v d = some (w, false)) :
    extractBab w d inv = (v, inv) := by
  simp only [insertBab, Option.some.injEq, Prod.mk.injEq, and_true] at h
  subst h
  have e1 : ((i ||| ((v &&& 0x1f#64) <<< 16) ||| ((v &&& 0x1f#64) <<< 11)) >>> 16) &&& 0x1f#64 = v := lin_eq 0x1ff800#64 0x1f#64 (by decide +kernel) hi hv
  have e2 : ((i ||| ((v &&& 0x1f#64) <<< 16) ||| ((v &&& 0x1f#64) <<< 11)) >>> 11) &&& 0x1f#64 = v := lin_eq 0x1ff800#64 0x1f#64 (by decide +kernel) hi hv
  simp only [extractBab, e1, e2]
  rw [if_neg (fun h => h rfl)]

theorem frBab (h : insertBab i v d = some (w, e)) : w &&& ~~~0x1ff800#64 = i &&& ~~~0x1ff800#64 ∧ i &&& ~~~w = 0#64 := by
  simp only [insertBab, Option.some.injEq, Prod.mk.injEq] at h
  obtain ⟨rfl, -⟩ := h
  exact ⟨lin_eq_all (i := i) (v := v) (by decide +kernel), by (try simp only [BitVec.or_assoc]); exact and_not_or _ _⟩

theorem bkBab (h : (extractBab i d 0).2 = 0) : insertBab (i &&& ~~~0x1ff800#64) (extractBab i d 0).1 d = some (i, false) := by
  simp only [extractBab] at h
  have hc := Classical.not_not.mp (ite_one h)
  have e : (i &&& ~~~0x1ff800#64) ||| (((i >>> 16) &&& 0x1f#64) <<< 16) ||| (((i >>> 11) &&& 0x1f#64) <<< 11) = i :=
    lin_eq_all (i := i) (v := i) (by decide +kernel)
  simp only [extractBab, insertBab, Option.some.injEq, Prod.mk.injEq, and_true]
  refine Eq.trans ?_ e
  rw [← hc]
  exact lin_eq_all (i := i) (v := i) (by decide +kernel)

theorem rtRsb (hi : i &&& 0x3e0f800#64 = 0#64) (hv : v &&& ~~~0x1f#64 = 0#64) (h : insertRsb i v d = some (w, false)) :
    extractRsb w d inv = (v, inv) := by
  simp only [insertRsb, Option.some.injEq, Prod.mk.injEq, and_true] at h
  subst h
  have e1 : ((i ||| ((v &&& 0x1f#64) <<< 21) ||| ((v &&& 0x1f#64) <<< 11)) >>> 21) &&& 0x1f#64 = v := lin_eq 0x3e0f800#64 0x1f#64 (by decide +kernel) hi hv
  have e2 : ((i ||| ((v &&& 0x1f#64) <<< 21) ||| ((v &&& 0x1f#64) <<< 11)) >>> 11) &&& 0x1f#64 = v := lin_eq 0x3e0f800#64 0x1f#64 (by decide +kernel) hi hv
  simp only [extractRsb, e1, e2]
  rw [if_neg (fun h => h rfl)]

theorem frRsb (h : insertRsb i v d = some (w, e)) : w &&& ~~~0x3e0f800#64 = i &&& ~~~0x3e0f800#64 ∧ i &&& ~~~w = 0#64 := by
  simp only [insertRsb, Option.some.injEq, Prod.mk.injEq] at h
  obtain ⟨rfl, -⟩ := h
  exact ⟨lin_eq_all (i := i) (v := v) (by decide +kernel), by (try simp only [BitVec.or_assoc]); exact and_not_or _ _⟩

theorem bkRsb (h : (extractRsb i d 0).2 = 0) : insertRsb (i &&& ~~~0x3e0f800#64) (extractRsb i d 0).1 d = some (i, false) := by
  simp only [extractRsb] at h
  have hc := Classical.not_not.mp (ite_one h)
  have e : (i &&& ~~~0x3e0f800#64) ||| (((i >>> 21) &&& 0x1f#64) <<< 21) ||| (((i >>> 11) &&& 0x1f#64) <<< 11) = i :=
    lin_eq_all (i := i) (v := i) (by decide +kernel)
  simp only [extractRsb, insertRsb, Option.some.injEq, Prod.mk.injEq, and_true]
  refine Eq.trans ?_ e
  rw [← hc]
  exact lin_eq_all (i := i) (v := i) (by decide +kernel)

theorem rtBtab (hi : i &&& 0x3fff800#64 = 0#64) (hv : v &&& ~~~0x1f#64 = 0#64) (h : insertBtab i v d = some (w, false)) :
    extractBtab w d inv = (v, inv) := by
  simp only [insertBtab, Option.some.injEq, Prod.mk.injEq, and_true] at h
  have e1 : (w >>> 21) &&& 0x1f#64 = v := by subst h; exact lin_eq 0x3fff800#64 0x1f#64 (by decide +kernel) hi hv
  have e2 : (w >>> 16) &&& 0x1f#64 = v := by subst h; exact lin_eq 0x3fff800#64 0x1f#64 (by decide +kernel) hi hv
  have e3 : (w >>> 11) &&& 0x1f#64 = v := by subst h; exact lin_eq 0x3fff800#64 0x1f#64 (by decide +kernel) hi hv
  simp only [extractBtab, extractBab, e1, e2, e3]
  rw [if_neg (fun h => h rfl), if_neg (fun h => h rfl)]

theorem frBtab (h : insertBtab i v d = some (w, e)) : w &&& ~~~0x3fff800#64 = i &&& ~~~0x3fff800#64 ∧ i &&& ~~~w = 0#64 := by
  simp only [insertBtab, Option.some.injEq, Prod.mk.injEq] at h
  obtain ⟨rfl, -⟩ := h
  refine ⟨lin_eq_all (i := i) (v := v) (by decide +kernel), ?_⟩
  rw [BitVec.or_comm]; simp only [BitVec.or_assoc]; exact and_not_or _ _

theorem bkBtab (h : (extractBtab i d 0).2 = 0) :
    insertBtab (i &&& ~~~0x3fff800#64) (extractBtab i d 0).1 d = some (i, false) := by
  change (if (i >>> 21) &&& 0x1f#64 ≠ (i >>> 16) &&& 0x1f#64 then (1 : Int)
    else if (i >>> 16) &&& 0x1f#64 ≠ (i >>> 11) &&& 0x1f#64 then 1 else 0) = 0 at h
  have h1 : (i >>> 21) &&& 0x1f#64 = (i >>> 16) &&& 0x1f#64 := by
    by_cases h1 : (i >>> 21) &&& 0x1f#64 = (i >>> 16) &&& 0x1f#64
    · exact h1
    · rw [if_pos (show (i >>> 21) &&& 0x1f#64 ≠ (i >>> 16) &&& 0x1f#64 from h1)] at h; exact absurd h (by decide)
  rw [if_neg (c := (i >>> 21) &&& 0x1f#64 ≠ (i >>> 16) &&& 0x1f#64) (fun h => h h1)] at h
  have h2 := Classical.not_not.mp (ite_one h)
  have e : (((i >>> 21) &&& 0x1f#64) <<< 21) |||
      ((i &&& ~~~0x3fff800#64) ||| (((i >>> 16) &&& 0x1f#64) <<< 16) ||| (((i >>> 11) &&& 0x1f#64) <<< 11)) = i :=
    lin_eq_all (i := i) (v := i) (by decide +kernel)
  simp only [extractBtab, insertBtab, Option.some.injEq, Prod.mk.injEq, and_true]
  refine Eq.trans ?_ e
  rw [← h2, ← h1]
  exact lin_eq_all (i := i) (v := i) (by decide +kernel)

theorem rtXab6 (hi : i &&& 0x1ff806#64 = 0#64) (hv : v &&& ~~~0x3f#64 = 0#64) (h : insertXab6 i v d = some (w, false)) :
    extractXab6 w d inv = (v, inv) := by
  simp only [insertXab6, Option.some.injEq, Prod.mk.injEq, and_true] at h
  have e1 : ((w <<< 3) &&& 0x20#64) ||| ((w >>> 16) &&& 0x1f#64) = v := by subst h; exact lin_eq 0x1ff806#64 0x3f#64 (by decide +kernel) hi hv
  have e2 : ((w <<< 4) &&& 0x20#64) ||| ((w >>> 11) &&& 0x1f#64) = v := by subst h; exact lin_eq 0x1ff806#64 0x3f#64 (by decide +kernel) hi hv
  simp only [extractXab6, extractXa6, extractXb6, e1, e2]
  rw [if_neg (fun h => h rfl)]

theorem frXab6 (h : insertXab6 i v d = some (w, e)) : w &&& ~~~0x1ff806#64 = i &&& ~~~0x1ff806#64 ∧ i &&& ~~~w = 0#64 := by
  simp only [insertXab6, Option.some.injEq, Prod.mk.injEq] at h
  obtain ⟨rfl, -⟩ := h
  refine ⟨lin_eq_all (i := i) (v := v) (by decide +kernel), ?_⟩
  simp only [BitVec.or_assoc]; exact and_not_or _ _

theorem bkXab6 (h : (extractXab6 i d 0).2 = 0) :
    insertXab6 (i &&& ~~~0x1ff806#64) (extractXab6 i d 0).1 d = some (i, false) := by
  simp only [extractXab6, extractXa6, extractXb6] at h
  have hc := Classical.not_not.mp (ite_one h)
  have e : ((i &&& ~~~0x1ff806#64) ||| ((((i <<< 3) &&& 0x20#64 ||| (i >>> 16) &&& 0x1f#64) &&& 0x1f#64) <<< 16) |||
        ((((i <<< 3) &&& 0x20#64 ||| (i >>> 16) &&& 0x1f#64) &&& 0x20#64) >>> 3)) |||
      ((i &&& ~~~0x1ff806#64) ||| ((((i <<< 4) &&& 0x20#64 ||| (i >>> 11) &&& 0x1f#64) &&& 0x1f#64) <<< 11) |||
        ((((i <<< 4) &&& 0x20#64 ||| (i >>> 11) &&& 0x1f#64) &&& 0x20#64) >>> 4)) = i := lin_eq_all (i := i) (v := i) (by decide +kernel)
  simp only [extractXab6, extractXa6, insertXab6, Option.some.injEq, Prod.mk.injEq, and_true]
  rw [← hc] at e
  exact e

end Opc
