import Verif.Opc.Counts

/-! Signed operands with an insertion function. -/
namespace Opc

variable {i x d w : W} {v inv : Int} {e : Bool}

theorem sext15 (h0 : -2 ^ 15 ≤ v) (h1 : v < 2 ^ 15) :
    ((BitVec.ofInt 64 v &&& 0xffff#64) ^^^ 0x8000#64) - 0x8000#64 = BitVec.ofInt 64 v := sext_value (t := 15) (by omega) h0 h1

theorem sext19 (h0 : -2 ^ 19 ≤ v) (h1 : v < 2 ^ 19) :
    ((BitVec.ofInt 64 v &&& 0xfffff#64) ^^^ 0x80000#64) - 0x80000#64 = BitVec.ofInt 64 v := sext_value (t := 19) (by omega) h0 h1

theorem low15 (h : x &&& ~~~0xffff#64 = 0#64) : ((x ^^^ 0x8000#64) - 0x8000#64) &&& 0xffff#64 = x :=
  sext_low (t := 15) (by omega) (and_mask_small (t := 16) (by omega) h)

theorem low19 (h : x &&& ~~~0xfffff#64 = 0#64) : ((x ^^^ 0x80000#64) - 0x80000#64) &&& 0xfffff#64 = x :=
  sext_low (t := 19) (by omega) (and_mask_small (t := 20) (by omega) h)

theorem neg_ofInt (v : Int) : -BitVec.ofInt 64 v = BitVec.ofInt 64 (-v) := by
  rw [BitVec.ofInt_neg]

theorem ofInt_ne_min (h0 : -2 ^ 15 ≤ v) (h1 : v ≤ 2 ^ 15) : BitVec.ofInt 64 v ≠ 0x8000000000000000#64 := by
  intro h
  have := congrArg BitVec.toNat h
  rw [toNat_ofInt64] at this
  simp at this
  omega

theorem minus_ofInt (h0 : -2 ^ 15 ≤ v) (h1 : v ≤ 2 ^ 15) : minus (BitVec.ofInt 64 v) = some (BitVec.ofInt 64 (-v)) := by
  rw [minus, if_neg (ofInt_ne_min h0 h1), neg_ofInt]

/-- A negated 16-bit number is not the smallest number. -/
theorem minus_low (h : x &&& ~~~0xffff#64 = 0#64) : minus (-((x ^^^ 0x8000#64) - 0x8000#64)) = some ((x ^^^ 0x8000#64) - 0x8000#64) := by
  have hl := low15 h
  have hs : x.toNat < 2 ^ 16 := and_mask_small (t := 16) (by omega) h
  have : -((x ^^^ 0x8000#64) - 0x8000#64) ≠ 0x8000000000000000#64 := by
    intro hm
    have h2 : (x ^^^ 0x8000#64) - 0x8000#64 = 0x8000000000000000#64 := by
      rw [← BitVec.neg_neg (x := (x ^^^ 0x8000#64) - 0x8000#64), hm]; decide
    by_cases a : x.toNat < 2 ^ 15
    · have := sext_small (t := 15) (by omega) a
      have h3 : (x ^^^ 0x8000#64) - 0x8000#64 = x := this
      rw [h3] at h2; rw [h2] at hs; revert hs; decide
    · have := sext_large (t := 15) (by omega) (by omega : 2 ^ 15 ≤ x.toNat) (by omega)
      have h3 : ((x ^^^ 0x8000#64) - 0x8000#64).toNat = (2 ^ 64 + x.toNat - 2 * 2 ^ 15) % 2 ^ 64 := this
      rw [h2] at h3
      simp at h3
      omega
  rw [minus, if_neg this, BitVec.neg_neg]

/-! insert_dxd -/

theorem dxd_word (hi : i &&& 0x1fffc1#64 = 0#64) (h : insertDxd i x d = some (w, e)) :
    (w &&& 0xffc1#64) ||| ((w >>> 15) &&& 0x3e#64) = x &&& 0xffff#64 := by
  simp only [insertDxd, Option.some.injEq, Prod.mk.injEq] at h
  rw [← h.1]
  exact lin_eq_any (i := i) (v := x) 0x1fffc1#64 (by decide +kernel) hi

theorem rtDxd (h0 : -2 ^ 15 ≤ v) (h1 : v < 2 ^ 15) (hi : i &&& 0x1fffc1#64 = 0#64) (h : insertDxd i (BitVec.ofInt 64 v) d = some (w, e)) :
    extractDxd w d inv = (BitVec.ofInt 64 v, inv) := by
  simp only [extractDxd, dxd_word hi h, sext15 h0 h1]

theorem rtDxdn (h0 : -2 ^ 15 < v) (h1 : v ≤ 2 ^ 15) (hi : i &&& 0x1fffc1#64 = 0#64) (h : insertDxdn i (BitVec.ofInt 64 v) d = some (w, e)) :
    extractDxdn w d inv = (BitVec.ofInt 64 v, inv) := by
  rw [insertDxdn, minus_ofInt (by omega) h1] at h
  rw [extractDxdn, rtDxd (by omega) (by omega) hi h, neg_ofInt, Int.neg_neg]

theorem frDxd (h : insertDxd i x d = some (w, e)) : w &&& ~~~0x1fffc1#64 = i &&& ~~~0x1fffc1#64 ∧ i &&& ~~~w = 0#64 := by
  simp only [insertDxd, Option.some.injEq, Prod.mk.injEq] at h
  rw [← h.1]
  exact ⟨lin_eq_all (i := i) (v := x) (by decide +kernel), by rw [BitVec.or_assoc]; exact and_not_or _ _⟩

theorem frDxdn (h : insertDxdn i x d = some (w, e)) : w &&& ~~~0x1fffc1#64 = i &&& ~~~0x1fffc1#64 ∧ i &&& ~~~w = 0#64 := by
  unfold insertDxdn at h
  split at h
  · cases h
  · exact frDxd h

theorem dxd_small : ((i &&& 0xffc1#64) ||| ((i >>> 15) &&& 0x3e#64)) &&& ~~~0xffff#64 = 0#64 :=
  lin_eq_all (i := i) (v := i) (by decide +kernel)

theorem dxd_put (hx : x &&& 0xffff#64 = (i &&& 0xffc1#64) ||| ((i >>> 15) &&& 0x3e#64)) : insertDxd (i &&& ~~~0x1fffc1#64) x d = some (i, false) := by
  have h1 : x &&& 0xffc1#64 = ((i &&& 0xffc1#64) ||| ((i >>> 15) &&& 0x3e#64)) &&& 0xffc1#64 := by
    rw [← hx]; exact lin_eq_all (i := i) (v := x) (by decide +kernel)
  have h2 : x &&& 0x3e#64 = ((i &&& 0xffc1#64) ||| ((i >>> 15) &&& 0x3e#64)) &&& 0x3e#64 := by
    rw [← hx]; exact lin_eq_all (i := i) (v := x) (by decide +kernel)
  rw [insertDxd, h1, h2]
  exact congrArg (fun x => some (x, false)) (lin_eq_all (i := i) (v := i) (by decide +kernel))

theorem bkDxd : insertDxd (i &&& ~~~0x1fffc1#64) (extractDxd i d inv).1 d = some (i, false) := by
  simp only [extractDxd]
  exact dxd_put (low15 dxd_small)

theorem bkDxdn : insertDxdn (i &&& ~~~0x1fffc1#64) (extractDxdn i d inv).1 d = some (i, false) := by
  simp only [insertDxdn, extractDxdn, extractDxd, minus_low (dxd_small (i := i))]
  exact dxd_put (low15 dxd_small)

/-! insert_li20 -/

theorem rtLi20 (h0 : -2 ^ 19 ≤ v) (h1 : v < 2 ^ 19) (hi : i &&& 0x1f7fff#64 = 0#64) (h : insertLi20 i (BitVec.ofInt 64 v) d = some (w, e)) :
    extractLi20 w d inv = (BitVec.ofInt 64 v, inv) := by
  have hs := sext19 h0 h1
  generalize hx : BitVec.ofInt 64 v = x at h hs
  simp only [insertLi20, Option.some.injEq, Prod.mk.injEq] at h
  have e1 : ((w <<< 5) &&& 0xf0000#64) ||| ((w >>> 5) &&& 0xf800#64) ||| (w &&& 0x7ff#64) = x &&& 0xfffff#64 := by
    rw [← h.1]
    exact lin_eq_any (i := i) (v := x) 0x1f7fff#64 (by decide +kernel) hi
  simp only [extractLi20, e1, hs]

theorem frLi20 (h : insertLi20 i x d = some (w, e)) : w &&& ~~~0x1f7fff#64 = i &&& ~~~0x1f7fff#64 ∧ i &&& ~~~w = 0#64 := by
  simp only [insertLi20, Option.some.injEq, Prod.mk.injEq] at h
  rw [← h.1]
  exact ⟨lin_eq_all (i := i) (v := x) (by decide +kernel), by simp only [BitVec.or_assoc]; exact and_not_or _ _⟩

theorem bkLi20 : insertLi20 (i &&& ~~~0x1f7fff#64) (extractLi20 i d inv).1 d = some (i, false) := by
  have hm : (((i <<< 5) &&& 0xf0000#64) ||| ((i >>> 5) &&& 0xf800#64) ||| (i &&& 0x7ff#64)) &&& ~~~0xfffff#64 = 0#64 :=
    lin_eq_all (i := i) (v := i) (by decide +kernel)
  have hl := low19 hm
  simp only [extractLi20]
  generalize ((((i <<< 5) &&& 0xf0000#64) ||| ((i >>> 5) &&& 0xf800#64) ||| (i &&& 0x7ff#64)) ^^^ 0x80000#64) - 0x80000#64 = y at hl
  have key (m : W) (hmm : 0xfffff#64 &&& m = m) : y &&& m = (((i <<< 5) &&& 0xf0000#64) ||| ((i >>> 5) &&& 0xf800#64) ||| (i &&& 0x7ff#64)) &&& m := by
    rw [← hl, BitVec.and_assoc, hmm]
  simp only [insertLi20, key 0xf0000#64 (by decide), key 0xf800#64 (by decide), key 0x7ff#64 (by decide)]
  exact congrArg (fun x => some (x, false)) (lin_eq_all (i := i) (v := i) (by decide +kernel))

/-! insert_nsi -/

theorem rtNsi (h0 : -2 ^ 15 < v) (h1 : v ≤ 2 ^ 15) (hi : i &&& 0xffff#64 = 0#64) (h : insertNsi i (BitVec.ofInt 64 v) d = some (w, e)) :
    extractNsi w d inv = (BitVec.ofInt 64 v, 1) := by
  simp only [insertNsi, minus_ofInt (by omega) h1, Option.some.injEq, Prod.mk.injEq] at h
  have e1 : w &&& 0xffff#64 = BitVec.ofInt 64 (-v) &&& 0xffff#64 := by
    rw [← h.1]
    generalize BitVec.ofInt 64 (-v) = x
    exact lin_eq_any (i := i) (v := x) 0xffff#64 (by decide +kernel) hi
  rw [extractNsi, e1, sext15 (by omega) (by omega), neg_ofInt, Int.neg_neg]

theorem frNsi (h : insertNsi i x d = some (w, e)) : w &&& ~~~0xffff#64 = i &&& ~~~0xffff#64 ∧ i &&& ~~~w = 0#64 := by
  unfold insertNsi at h
  split at h
  · cases h
  · next y _ =>
    simp only [Option.some.injEq, Prod.mk.injEq] at h
    rw [← h.1]
    exact ⟨lin_eq_all (i := i) (v := y) (by decide +kernel), and_not_or _ _⟩

theorem bkNsi : insertNsi (i &&& ~~~0xffff#64) (extractNsi i d inv).1 d = some (i, false) := by
  have hm : (i &&& 0xffff#64) &&& ~~~0xffff#64 = 0#64 := and_not_self _ _
  simp only [insertNsi, extractNsi, minus_low hm, low15 hm]
  exact congrArg (fun x => some (x, false)) (lin_eq_all (i := i) (v := i) (by decide +kernel))

/-! insert_vlesi, insert_vlensi -/

theorem vle_word (hi : i &&& 0x3e007ff#64 = 0#64) (h : i ||| ((x &&& 0xf800#64) <<< 10) ||| (x &&& 0x7ff#64) = w) :
    ((w >>> 10) &&& 0xf800#64) ||| (w &&& 0x7ff#64) = x &&& 0xffff#64 := by
  rw [← h]
  exact lin_eq_any (i := i) (v := x) 0x3e007ff#64 (by decide +kernel) hi

theorem rtVlesi (h0 : -2 ^ 15 ≤ v) (h1 : v < 2 ^ 15) (hi : i &&& 0x3e007ff#64 = 0#64) (h : insertVlesi i (BitVec.ofInt 64 v) d = some (w, e)) :
    extractVlesi w d inv = (BitVec.ofInt 64 v, inv) := by
  simp only [insertVlesi, Option.some.injEq, Prod.mk.injEq] at h
  simp only [extractVlesi, vle_word hi h.1, sext15 h0 h1]

theorem rtVlensi (h0 : -2 ^ 15 < v) (h1 : v ≤ 2 ^ 15) (hi : i &&& 0x3e007ff#64 = 0#64) (h : insertVlensi i (BitVec.ofInt 64 v) d = some (w, e)) :
    extractVlensi w d inv = (BitVec.ofInt 64 v, 1) := by
  simp only [insertVlensi, minus_ofInt (by omega) h1, Option.some.injEq, Prod.mk.injEq] at h
  simp only [extractVlensi, vle_word hi h.1, sext15 (v := -v) (by omega) (by omega), neg_ofInt, Int.neg_neg]

theorem frVlesi (h : insertVlesi i x d = some (w, e)) : w &&& ~~~0x3e007ff#64 = i &&& ~~~0x3e007ff#64 ∧ i &&& ~~~w = 0#64 := by
  simp only [insertVlesi, Option.some.injEq, Prod.mk.injEq] at h
  rw [← h.1]
  exact ⟨lin_eq_all (i := i) (v := x) (by decide +kernel), by simp only [BitVec.or_assoc]; exact and_not_or _ _⟩

theorem frVlensi (h : insertVlensi i x d = some (w, e)) : w &&& ~~~0x3e007ff#64 = i &&& ~~~0x3e007ff#64 ∧ i &&& ~~~w = 0#64 := by
  unfold insertVlensi at h
  split at h
  · cases h
  · next y _ => exact frVlesi (x := y) (d := d) h

theorem vle_put (hx : x &&& 0xffff#64 = ((i >>> 10) &&& 0xf800#64) ||| (i &&& 0x7ff#64)) :
    (i &&& ~~~0x3e007ff#64) ||| ((x &&& 0xf800#64) <<< 10) ||| (x &&& 0x7ff#64) = i := by
  have key (m : W) (hmm : 0xffff#64 &&& m = m) : x &&& m = (((i >>> 10) &&& 0xf800#64) ||| (i &&& 0x7ff#64)) &&& m := by
    rw [← hx, BitVec.and_assoc, hmm]
  rw [key 0xf800#64 (by decide), key 0x7ff#64 (by decide)]
  exact lin_eq_all (i := i) (v := i) (by decide +kernel)

theorem vle_small : (((i >>> 10) &&& 0xf800#64) ||| (i &&& 0x7ff#64)) &&& ~~~0xffff#64 = 0#64 :=
  lin_eq_all (i := i) (v := i) (by decide +kernel)

theorem bkVlesi : insertVlesi (i &&& ~~~0x3e007ff#64) (extractVlesi i d inv).1 d = some (i, false) := by
  simp only [insertVlesi, extractVlesi, vle_put (low15 vle_small)]

theorem bkVlensi : insertVlensi (i &&& ~~~0x3e007ff#64) (extractVlensi i d inv).1 d = some (i, false) := by
  simp only [insertVlensi, extractVlensi, minus_low vle_small, vle_put (low15 vle_small)]

/-! insert_bdm, insert_bdp -/

/-- The hint bits that insert_bdm adds. -/
def bdmHint (i x d : W) : W :=
  if d &&& isaV2 = 0#64 then if x &&& 0x8000#64 ≠ 0#64 then 1#64 <<< 21 else 0#64
  else if i &&& (0x14#64 <<< 21) = 0x04#64 <<< 21 then 0x02#64 <<< 21
  else if i &&& (0x14#64 <<< 21) = 0x10#64 <<< 21 then 0x08#64 <<< 21
  else 0#64

/-- The hint bits that insert_bdp adds. -/
def bdpHint (i x d : W) : W :=
  if d &&& isaV2 = 0#64 then if x &&& 0x8000#64 = 0#64 then 1#64 <<< 21 else 0#64
  else if i &&& (0x14#64 <<< 21) = 0x04#64 <<< 21 then 0x03#64 <<< 21
  else if i &&& (0x14#64 <<< 21) = 0x10#64 <<< 21 then 0x09#64 <<< 21
  else 0#64

theorem insertBdm_eq : insertBdm i x d = some ((i ||| bdmHint i x d) ||| (x &&& 0xfffc#64), false) := by
  unfold insertBdm bdmHint
  (repeat' split) <;> simp_all

theorem insertBdp_eq : insertBdp i x d = some ((i ||| bdpHint i x d) ||| (x &&& 0xfffc#64), false) := by
  unfold insertBdp bdpHint
  (repeat' split) <;> simp_all

theorem bdmHint_bits : bdmHint i x d &&& ~~~0x1600000#64 = 0#64 := by
  unfold bdmHint
  (repeat' split) <;> decide

theorem bdpHint_bits : bdpHint i x d &&& ~~~0x1600000#64 = 0#64 := by
  unfold bdpHint
  (repeat' split) <;> decide

theorem hint_frame {h : W} (hh : h &&& ~~~0x1600000#64 = 0#64) :
    ((i ||| h) ||| (x &&& 0xfffc#64)) &&& ~~~0x160fffc#64 = i &&& ~~~0x160fffc#64 ∧ i &&& ~~~((i ||| h) ||| (x &&& 0xfffc#64)) = 0#64 := by
  refine ⟨?_, by rw [BitVec.or_assoc]; exact and_not_or _ _⟩
  have e1 : ((i ||| h) ||| (x &&& 0xfffc#64)) &&& ~~~0x160fffc#64 = (i ||| h) &&& ~~~0x160fffc#64 := lin_eq_all (i := i ||| h) (v := x) (by decide +kernel)
  have e2 : (i ||| h) &&& ~~~0x160fffc#64 = i &&& ~~~0x160fffc#64 :=
    lin_eq (i := i) (v := h) 0#64 0x1600000#64 (by decide +kernel) (by simp) hh
  rw [e1, e2]

theorem frBdm (h : insertBdm i x d = some (w, e)) : w &&& ~~~0x160fffc#64 = i &&& ~~~0x160fffc#64 ∧ i &&& ~~~w = 0#64 := by
  rw [insertBdm_eq] at h
  simp only [Option.some.injEq, Prod.mk.injEq] at h
  rw [← h.1]; exact hint_frame bdmHint_bits

theorem frBdp (h : insertBdp i x d = some (w, e)) : w &&& ~~~0x160fffc#64 = i &&& ~~~0x160fffc#64 ∧ i &&& ~~~w = 0#64 := by
  rw [insertBdp_eq] at h
  simp only [Option.some.injEq, Prod.mk.injEq] at h
  rw [← h.1]; exact hint_frame bdpHint_bits

/-- The displacement comes back. -/
theorem bd_value (h0 : -2 ^ 15 ≤ v) (h1 : v < 2 ^ 15) (h4 : (4 : Int) ∣ v) {j : W} (hj : j &&& 0xfffc#64 = 0#64)
    (h : j ||| (BitVec.ofInt 64 v &&& 0xfffc#64) = w) : ((w &&& 0xfffc#64) ^^^ 0x8000#64) - 0x8000#64 = BitVec.ofInt 64 v := by
  have hlow : BitVec.ofInt 64 v &&& 0x3#64 = 0#64 := by
    apply BitVec.eq_of_toNat_eq
    have := and_low (BitVec.ofInt 64 v) (t := 2) (by omega)
    simp only [Nat.reducePow, Nat.add_one_sub_one] at this
    rw [this, toNat_ofInt64]
    simp
    omega
  have hs := sext15 h0 h1
  generalize BitVec.ofInt 64 v = x at h hs hlow
  have e1 : w &&& 0xfffc#64 = x &&& 0xffff#64 := by
    have a1 : w &&& 0xfffc#64 = x &&& 0xfffc#64 := by
      rw [← h]; exact lin_eq_any (i := j) (v := x) 0xfffc#64 (by decide +kernel) hj
    have a2 : x &&& 0xffff#64 = x &&& 0xfffc#64 := by
      have : x &&& 0xffff#64 = (x &&& 0xfffc#64) ||| (x &&& 0x3#64) := lin_eq_all (i := j) (v := x) (by decide +kernel)
      rw [this, hlow, BitVec.or_zero]
    rw [a1, a2]
  rw [e1, hs]

theorem hint_field {h : W} (hi : i &&& 0x20fffc#64 = 0#64) (hh : h &&& ~~~0x1600000#64 = 0#64) : (i ||| h) &&& 0xfffc#64 = 0#64 := by
  have : (i ||| h) &&& 0xfffc#64 = (i &&& 0x20fffc#64) &&& 0xfffc#64 :=
    lin_eq (i := i) (v := h) 0#64 0x1600000#64 (by decide +kernel) (by simp) hh
  rw [this, hi]; decide

/-- Before version 2 the hint is bit 21, compared with the sign of the displacement. -/
theorem old_hint {h : W} (hi : i &&& 0x20fffc#64 = 0#64) (hh : h = 0#64 ∨ h = 1#64 <<< 21) (hw : (i ||| h) ||| (x &&& 0xfffc#64) = w) :
    (w &&& (1#64 <<< 21) = 0#64 ↔ h = 0#64) ∧ (w &&& (1#64 <<< 15) = 0#64 ↔ x &&& 0x8000#64 = 0#64) := by
  have a1 : w &&& (1#64 <<< 15) = x &&& 0x8000#64 := by
    have hi' : (i ||| h) &&& 0xfffc#64 = 0#64 := hint_field hi (by rcases hh with rfl | rfl <;> decide)
    rw [← hw]; exact lin_eq_any (i := i ||| h) (v := x) 0xfffc#64 (by decide +kernel) hi'
  refine ⟨?_, by rw [a1]⟩
  rcases hh with rfl | rfl
  · have : w &&& (1#64 <<< 21) = 0#64 := by
      rw [← hw, BitVec.or_zero]; exact lin_eq_any (i := i) (v := x) 0x20fffc#64 (by decide +kernel) hi
    rw [this]
  · have : w &&& (1#64 <<< 21) = 1#64 <<< 21 := by
      rw [← hw]; exact lin_eq_any (i := i) (v := x) 0x20fffc#64 (by decide +kernel) hi
    rw [this]

theorem rtBdmOld (h0 : -2 ^ 15 ≤ v) (h1 : v < 2 ^ 15) (h4 : (4 : Int) ∣ v) (hd : d &&& isaV2 = 0#64) (hi : i &&& 0x20fffc#64 = 0#64)
    (h : insertBdm i (BitVec.ofInt 64 v) d = some (w, e)) : extractBdm w d inv = (BitVec.ofInt 64 v, inv) := by
  rw [insertBdm_eq] at h
  simp only [Option.some.injEq, Prod.mk.injEq] at h
  have hv := bd_value h0 h1 h4 (hint_field hi bdmHint_bits) h.1
  have hh : bdmHint i (BitVec.ofInt 64 v) d = 0#64 ∨ bdmHint i (BitVec.ofInt 64 v) d = 1#64 <<< 21 := by
    simp only [bdmHint, if_pos hd]; split <;> simp
  have ho := old_hint hi hh h.1
  have hb : bdmHint i (BitVec.ofInt 64 v) d = 0#64 ↔ BitVec.ofInt 64 v &&& 0x8000#64 = 0#64 := by
    simp only [bdmHint, if_pos hd]
    by_cases a : BitVec.ofInt 64 v &&& 0x8000#64 = 0#64
    · simp [a]
    · simp [a]
  rw [extractBdm, hv, if_pos hd, if_pos (by rw [ho.1, ho.2, hb])]

theorem rtBdpOld (h0 : -2 ^ 15 ≤ v) (h1 : v < 2 ^ 15) (h4 : (4 : Int) ∣ v) (hd : d &&& isaV2 = 0#64) (hi : i &&& 0x20fffc#64 = 0#64)
    (h : insertBdp i (BitVec.ofInt 64 v) d = some (w, e)) : extractBdp w d inv = (BitVec.ofInt 64 v, inv) := by
  rw [insertBdp_eq] at h
  simp only [Option.some.injEq, Prod.mk.injEq] at h
  have hv := bd_value h0 h1 h4 (hint_field hi bdpHint_bits) h.1
  have hh : bdpHint i (BitVec.ofInt 64 v) d = 0#64 ∨ bdpHint i (BitVec.ofInt 64 v) d = 1#64 <<< 21 := by
    simp only [bdpHint, if_pos hd]; split <;> simp
  have ho := old_hint hi hh h.1
  have hb : bdpHint i (BitVec.ofInt 64 v) d = 0#64 ↔ ¬BitVec.ofInt 64 v &&& 0x8000#64 = 0#64 := by
    simp only [bdpHint, if_pos hd]
    by_cases a : BitVec.ofInt 64 v &&& 0x8000#64 = 0#64
    · simp [a]
    · simp [a]
  rw [extractBdp, hv, if_pos hd, if_neg (by rw [ho.1, ho.2, hb]; exact fun h => iff_not_self h.symm)]

/-- From version 2 on, with a BO field that has room for the hint. -/
theorem rtBdmNew (h0 : -2 ^ 15 ≤ v) (h1 : v < 2 ^ 15) (h4 : (4 : Int) ∣ v) (hd : d &&& isaV2 ≠ 0#64) (hi : i &&& 0x20fffc#64 = 0#64)
    (hb : i &&& (0x17#64 <<< 21) = 0x04#64 <<< 21 ∨ i &&& (0x1d#64 <<< 21) = 0x10#64 <<< 21)
    (h : insertBdm i (BitVec.ofInt 64 v) d = some (w, e)) : extractBdm w d inv = (BitVec.ofInt 64 v, inv) := by
  rw [insertBdm_eq] at h
  simp only [Option.some.injEq, Prod.mk.injEq] at h
  have hv := bd_value h0 h1 h4 (hint_field hi bdmHint_bits) h.1
  rw [extractBdm, hv, if_neg hd]
  have hw := h.1
  generalize BitVec.ofInt 64 v = x at hw
  rcases hb with hb | hb
  · have e1 : i &&& (0x14#64 <<< 21) = 0x04#64 <<< 21 := by
      have : i &&& (0x14#64 <<< 21) = (i &&& (0x17#64 <<< 21)) &&& (0x14#64 <<< 21) := lin_eq_all (i := i) (v := x) (by decide +kernel)
      rw [this, hb]; decide
    rw [bdmHint, if_neg hd, if_pos e1] at hw
    have e2 : w &&& (0x17#64 <<< 21) = 0x06#64 <<< 21 := by
      have : w &&& (0x17#64 <<< 21) = (i &&& (0x17#64 <<< 21)) ||| (0x02#64 <<< 21) := by
        rw [← hw]; exact lin_eq_all (i := i) (v := x) (by decide +kernel)
      rw [this, hb]; decide
    rw [if_neg (fun hc => hc.1 e2)]
  · have e1 : i &&& (0x14#64 <<< 21) = 0x10#64 <<< 21 := by
      have : i &&& (0x14#64 <<< 21) = (i &&& (0x1d#64 <<< 21)) &&& (0x14#64 <<< 21) := lin_eq_all (i := i) (v := x) (by decide +kernel)
      rw [this, hb]; decide
    rw [bdmHint, if_neg hd, if_neg (by rw [e1]; decide), if_pos e1] at hw
    have e2 : w &&& (0x1d#64 <<< 21) = 0x18#64 <<< 21 := by
      have : w &&& (0x1d#64 <<< 21) = (i &&& (0x1d#64 <<< 21)) ||| (0x08#64 <<< 21) := by
        rw [← hw]; exact lin_eq_all (i := i) (v := x) (by decide +kernel)
      rw [this, hb]; decide
    rw [if_neg (fun hc => hc.2 e2)]

theorem rtBdpNew (h0 : -2 ^ 15 ≤ v) (h1 : v < 2 ^ 15) (h4 : (4 : Int) ∣ v) (hd : d &&& isaV2 ≠ 0#64) (hi : i &&& 0x20fffc#64 = 0#64)
    (hb : i &&& (0x17#64 <<< 21) = 0x04#64 <<< 21 ∨ i &&& (0x1d#64 <<< 21) = 0x10#64 <<< 21)
    (h : insertBdp i (BitVec.ofInt 64 v) d = some (w, e)) : extractBdp w d inv = (BitVec.ofInt 64 v, inv) := by
  rw [insertBdp_eq] at h
  simp only [Option.some.injEq, Prod.mk.injEq] at h
  have hv := bd_value h0 h1 h4 (hint_field hi bdpHint_bits) h.1
  rw [extractBdp, hv, if_neg hd]
  have hw := h.1
  generalize BitVec.ofInt 64 v = x at hw
  rcases hb with hb | hb
  · have e1 : i &&& (0x14#64 <<< 21) = 0x04#64 <<< 21 := by
      have : i &&& (0x14#64 <<< 21) = (i &&& (0x17#64 <<< 21)) &&& (0x14#64 <<< 21) := lin_eq_all (i := i) (v := x) (by decide +kernel)
      rw [this, hb]; decide
    rw [bdpHint, if_neg hd, if_pos e1] at hw
    have e2 : w &&& (0x17#64 <<< 21) = 0x07#64 <<< 21 := by
      have : w &&& (0x17#64 <<< 21) = (i &&& (0x17#64 <<< 21)) ||| (0x03#64 <<< 21) := by
        rw [← hw]; exact lin_eq_all (i := i) (v := x) (by decide +kernel)
      rw [this, hb]; decide
    rw [if_neg (fun hc => hc.1 e2)]
  · have e1 : i &&& (0x14#64 <<< 21) = 0x10#64 <<< 21 := by
      have : i &&& (0x14#64 <<< 21) = (i &&& (0x1d#64 <<< 21)) &&& (0x14#64 <<< 21) := lin_eq_all (i := i) (v := x) (by decide +kernel)
      rw [this, hb]; decide
    rw [bdpHint, if_neg hd, if_neg (by rw [e1]; decide), if_pos e1] at hw
    have e2 : w &&& (0x1d#64 <<< 21) = 0x19#64 <<< 21 := by
      have : w &&& (0x1d#64 <<< 21) = (i &&& (0x1d#64 <<< 21)) ||| (0x09#64 <<< 21) := by
        rw [← hw]; exact lin_eq_all (i := i) (v := x) (by decide +kernel)
      rw [this, hb]; decide
    rw [if_neg (fun hc => hc.2 e2)]

end Opc
