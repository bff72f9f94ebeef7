import Verif.Opc.Values

/-! Operands whose legal values depend on the dialect or on the rest of the instruction. -/
namespace Opc

variable {i v d w : W} {inv : Int} {e : Bool}

/-- A value of three bits. -/
theorem eight (h : v.toNat < 8) :
    v = 0#64 ∨ v = 1#64 ∨ v = 2#64 ∨ v = 3#64 ∨ v = 4#64 ∨ v = 5#64 ∨ v = 6#64 ∨ v = 7#64 := by
  have h1 : ∀ n : Nat, v.toNat = n → n < 2 ^ 64 → v = BitVec.ofNat 64 n := fun n hn hl =>
    BitVec.eq_of_toNat_eq (by rw [hn, BitVec.toNat_ofNat, Nat.mod_eq_of_lt hl])
  have : v.toNat = 0 ∨ v.toNat = 1 ∨ v.toNat = 2 ∨ v.toNat = 3 ∨ v.toNat = 4 ∨ v.toNat = 5 ∨ v.toNat = 6 ∨ v.toNat = 7 := by omega
  rcases this with h | h | h | h | h | h | h | h
  · exact .inl (h1 _ h (by decide))
  · exact .inr (.inl (h1 _ h (by decide)))
  · exact .inr (.inr (.inl (h1 _ h (by decide))))
  · exact .inr (.inr (.inr (.inl (h1 _ h (by decide)))))
  · exact .inr (.inr (.inr (.inr (.inl (h1 _ h (by decide))))))
  · exact .inr (.inr (.inr (.inr (.inr (.inl (h1 _ h (by decide)))))))
  · exact .inr (.inr (.inr (.inr (.inr (.inr (.inl (h1 _ h (by decide))))))))
  · exact .inr (.inr (.inr (.inr (.inr (.inr (.inr (h1 _ h (by decide))))))))

/-! BO. -/

theorem validBo_extract (h : validBo v d false = true) : validBo v d true = true := by
  unfold validBo at h ⊢
  rw [if_neg (by simp)] at h
  by_cases hd : d = ~~~0x40#64
  · rw [if_pos ⟨rfl, hd⟩]
    by_cases h2 : d &&& isaV2 = 0#64
    · rw [if_pos h2] at h; simp [h]
    · rw [if_neg h2] at h; simp [h]
  · rw [if_neg (fun h => hd h.2)]; exact h

theorem rtBo (hi : i &&& 0x3e00000#64 = 0#64) (hv : v &&& ~~~0x1f#64 = 0#64) (h : insertBo i v d = some (w, false)) :
    extractBo w d inv = (v, inv) := by
  simp only [insertBo, Option.some.injEq, Prod.mk.injEq] at h
  obtain ⟨h, hc⟩ := h
  have e1 : (w >>> 21) &&& 0x1f#64 = v := by subst h; exact lin_eq 0x3e00000#64 0x1f#64 (by decide +kernel) hi hv
  have hb : validBo v d false = true := by
    cases hb : validBo v d false
    · rw [hb] at hc; simp at hc
    · rfl
  simp only [extractBo, e1, validBo_extract hb]
  rfl

theorem frBo (h : insertBo i v d = some (w, e)) : w &&& ~~~0x3e00000#64 = i &&& ~~~0x3e00000#64 ∧ i &&& ~~~w = 0#64 := by
  simp only [insertBo, Option.some.injEq, Prod.mk.injEq] at h
  obtain ⟨rfl, -⟩ := h
  exact ⟨lin_eq_all (i := i) (v := v) (by decide +kernel), and_not_or _ _⟩

theorem rtBoe (hi : i &&& 0x3e00000#64 = 0#64) (hv : v &&& ~~~0x1e#64 = 0#64) (h : insertBoe i v d = some (w, false)) :
    extractBoe w d inv = (v, inv) := by
  simp only [insertBoe, Option.some.injEq, Prod.mk.injEq] at h
  obtain ⟨h, hc⟩ := h
  have e1 : (w >>> 21) &&& 0x1f#64 = v := by subst h; exact lin_eq 0x3e00000#64 0x1e#64 (by decide +kernel) hi hv
  have hb : validBo v d false = true := by
    cases hb : validBo v d false
    · rw [hb] at hc; simp at hc
    · rfl
  simp only [extractBoe, e1, validBo_extract hb, and_self_of hv]
  rfl

theorem frBoe (h : insertBoe i v d = some (w, e)) : w &&& ~~~0x3e00000#64 = i &&& ~~~0x3e00000#64 ∧ i &&& ~~~w = 0#64 := by
  simp only [insertBoe, Option.some.injEq, Prod.mk.injEq] at h
  obtain ⟨rfl, -⟩ := h
  exact ⟨lin_eq_all (i := i) (v := v) (by decide +kernel), and_not_or _ _⟩

/-! sync. -/

theorem rtLs (hn : 0 ≤ inv) (hi : i &&& 0x600000#64 = 0#64) (hv : v &&& ~~~0x3#64 = 0#64) (h : insertLs i v d = some (w, false)) :
    extractLs w d inv = (v, inv) := by
  simp only [insertLs, Option.some.injEq, Prod.mk.injEq] at h
  obtain ⟨h, hc⟩ := h
  have e1 : (w >>> 21) &&& 3#64 = v := by subst h; exact lin_eq 0x600000#64 0x3#64 (by decide +kernel) hi hv
  have e2 : (w >>> 1) &&& 0x3ff#64 = (i >>> 1) &&& 0x3ff#64 := by subst h; exact lin_eq_all (i := i) (v := v) (by decide +kernel)
  have hs := (toInt_small (t := 2) (by omega) hv).2
  simp only [extractLs, if_neg (show ¬inv < 0 by omega), e1, e2]
  by_cases a : (i >>> 1) &&& 0x3ff#64 = 598#64
  · rw [if_pos a] at hc ⊢
    have hc := ite_false hc
    rw [if_neg]
    by_cases b : d &&& 0x800#64 ≠ 0#64
    · rw [if_pos b] at hc ⊢; omega
    · rw [if_neg b] at hc ⊢; omega
  · rw [if_neg a]

theorem frLs (h : insertLs i v d = some (w, e)) : w &&& ~~~0x600000#64 = i &&& ~~~0x600000#64 ∧ i &&& ~~~w = 0#64 := by
  simp only [insertLs, Option.some.injEq, Prod.mk.injEq] at h
  obtain ⟨rfl, -⟩ := h
  exact ⟨lin_eq_all (i := i) (v := v) (by decide +kernel), and_not_or _ _⟩

theorem bkLs (h : (extractLs i d 0).2 = 0) : insertLs (i &&& ~~~0x600000#64) (extractLs i d 0).1 d = some (i, false) := by
  simp only [extractLs, if_neg (show ¬(0 : Int) < 0 by omega)] at h
  have e2 : ((i &&& ~~~0x600000#64) >>> 1) &&& 0x3ff#64 = (i >>> 1) &&& 0x3ff#64 := lin_eq_all (i := i) (v := i) (by decide +kernel)
  have hs := (toInt_small (t := 2) (by omega) (and_not_self (i >>> 21) 3#64)).2
  simp only [extractLs, insertLs, if_neg (show ¬(0 : Int) < 0 by omega), e2, Option.some.injEq, Prod.mk.injEq]
  refine ⟨lin_eq_all (i := i) (v := i) (by decide +kernel), ?_⟩
  by_cases a : (i >>> 1) &&& 0x3ff#64 = 598#64
  · rw [if_pos a] at h ⊢
    have hc := ite_one h
    rw [if_neg]
    by_cases b : d &&& 0x800#64 ≠ 0#64
    · rw [if_pos b] at hc ⊢; omega
    · rw [if_neg b] at hc ⊢; omega
  · rw [if_neg a]

theorem sshift_bit (x : W) : (BitVec.sshiftRight x 1) &&& 0x1#64 = (x >>> 1) &&& 0x1#64 := by
  apply BitVec.eq_of_getLsbD_eq
  intro k hk
  simp only [BitVec.getLsbD_and, BitVec.getLsbD_sshiftRight, BitVec.getLsbD_ushiftRight]
  by_cases h : k = 0
  · subst h; simp
  · have : (0x1#64).getLsbD k = false := by
      rw [BitVec.getLsbD_one]; simp [h]
    simp [this]

theorem rtEsync (hn : 0 ≤ inv) (hi : i &&& 0xf0000#64 = 0#64) (hv : v &&& ~~~0xf#64 = 0#64) (h : insertEsync i v d = some (w, false)) :
    extractEsync w d inv = (v, inv) := by
  simp only [insertEsync, Option.some.injEq, Prod.mk.injEq] at h
  obtain ⟨h, hc⟩ := h
  have e1 : (w >>> 16) &&& 0xf#64 = v := by subst h; exact lin_eq 0xf0000#64 0xf#64 (by decide +kernel) hi hv
  have e2 : (w >>> 21) &&& 0x3#64 = (i >>> 21) &&& 0x3#64 := by subst h; exact lin_eq_all (i := i) (v := v) (by decide +kernel)
  have hc := ite_false hc
  rw [sshift_bit] at hc
  simp only [extractEsync, if_neg (show ¬inv < 0 by omega), e1, e2]
  rw [if_neg hc]

theorem frEsync (h : insertEsync i v d = some (w, e)) : w &&& ~~~0xf0000#64 = i &&& ~~~0xf0000#64 ∧ i &&& ~~~w = 0#64 := by
  simp only [insertEsync, Option.some.injEq, Prod.mk.injEq] at h
  obtain ⟨rfl, -⟩ := h
  exact ⟨lin_eq_all (i := i) (v := v) (by decide +kernel), and_not_or _ _⟩

theorem bkEsync (h : (extractEsync i d 0).2 = 0) : insertEsync (i &&& ~~~0xf0000#64) (extractEsync i d 0).1 d = some (i, false) := by
  simp only [extractEsync, if_neg (show ¬(0 : Int) < 0 by omega)] at h
  have hc := ite_one h
  have e2 : ((i &&& ~~~0xf0000#64) >>> 21) &&& 0x3#64 = (i >>> 21) &&& 0x3#64 := lin_eq_all (i := i) (v := i) (by decide +kernel)
  simp only [extractEsync, insertEsync, if_neg (show ¬(0 : Int) < 0 by omega), e2, Option.some.injEq, Prod.mk.injEq, sshift_bit]
  exact ⟨lin_eq_all (i := i) (v := i) (by decide +kernel), if_neg hc⟩

/-! BAT and SPRG registers. -/

theorem ite_bool {c : Prop} [Decidable c] {b : Bool} (h : (if c then true else false) = b) : c ↔ b = true := by
  by_cases hc : c
  · rw [if_pos hc] at h; simp [hc, h.symm]
  · rw [if_neg hc] at h; simp [hc, h.symm]

theorem bat1 {x : W} (hi : i &&& 0x60800#64 = 0#64) (hx : x &&& ~~~0x60800#64 = 0#64) :
    ((i ||| x) >>> 17) &&& 0x3#64 = (x >>> 17) &&& 0x3#64 := lin_eq 0x60800#64 0x60800#64 (by decide +kernel) hi hx

theorem bat2 {x : W} (hi : i &&& 0x60800#64 = 0#64) (hx : x &&& ~~~0x60800#64 = 0#64) :
    ((i ||| x) >>> 9) &&& 0x4#64 = (x >>> 9) &&& 0x4#64 := lin_eq 0x60800#64 0x60800#64 (by decide +kernel) hi hx

theorem bit11 : (i >>> 11) &&& 1#64 = if i.getLsbD 11 then 1#64 else 0#64 := by
  apply BitVec.eq_of_getLsbD_eq
  intro k hk
  rw [BitVec.getLsbD_and, BitVec.getLsbD_ushiftRight, BitVec.getLsbD_one]
  by_cases h : k = 0
  · subst h; cases h : i.getLsbD 11 <;> simp [h]
  · cases h : i.getLsbD 11 <;> simp [BitVec.getLsbD_one, *]

theorem keep8 (x : W) : (i ||| ((x &&& 0x17#64) <<< 16)) &&& 0x100#64 = i &&& 0x100#64 := lin_eq_all (i := i) (v := x) (by decide +kernel)

theorem rtSprbat (hi : i &&& 0x60800#64 = 0#64) (h : insertSprbat i v d = some (w, false)) : extractSprbat w d inv = (v, inv) := by
  have hw : v.toNat ≤ 7 ∧ ¬(3 < v.toNat ∧ d &&& 0x2000000000#64 = 0#64) ∧
      w = i ||| (if 3 < v.toNat then (((v &&& 3#64) <<< 6) ||| 1#64) <<< 11 else (v <<< 6) <<< 11) := by
    unfold insertSprbat at h
    by_cases a : 3 < v.toNat
    · simp only [if_pos a, Option.some.injEq, Prod.mk.injEq] at h ⊢
      have := ite_false h.2
      exact ⟨by omega, fun x => this (.inr x), h.1.symm⟩
    · simp only [if_neg a, Option.some.injEq, Prod.mk.injEq] at h ⊢
      exact ⟨by omega, fun x => a x.1, h.1.symm⟩
  obtain ⟨h7, hc, hw⟩ := hw
  have key : ((w >>> 17) &&& 0x3#64) + ((w >>> 9) &&& 0x4#64) = v := by
    rw [hw]
    rcases eight (v := v) (by omega) with rfl | rfl | rfl | rfl | rfl | rfl | rfl | rfl
    all_goals
      rw [bat1 hi (by decide), bat2 hi (by decide)]
      decide
  simp only [extractSprbat, key]
  rw [if_neg hc]

theorem frSprbat (h : insertSprbat i v d = some (w, e)) : w &&& ~~~0x60800#64 = i &&& ~~~0x60800#64 ∧ i &&& ~~~w = 0#64 := by
  unfold insertSprbat at h
  by_cases a : 3 < v.toNat
  · simp only [if_pos a, Option.some.injEq, Prod.mk.injEq] at h
    rw [← h.1]
    exact ⟨lin_eq_all (i := i) (v := v) (by decide +kernel), and_not_or _ _⟩
  · simp only [if_neg a, Option.some.injEq, Prod.mk.injEq] at h
    rw [← h.1]
    have hv : v &&& ~~~0x3#64 = 0#64 := toNat_bits (t := 2) (by omega) (by omega)
    exact ⟨lin_eq (i := i) (v := v) 0#64 0x3#64 (by decide +kernel) (by simp) hv, and_not_or _ _⟩

theorem sprbat_ok (h7 : v.toNat ≤ 7) (hc : ¬(3 < v.toNat ∧ d &&& 0x2000000000#64 = 0#64)) :
    insertSprbat i v d = some (i ||| (if 3 < v.toNat then (((v &&& 3#64) <<< 6) ||| 1#64) <<< 11 else (v <<< 6) <<< 11), false) := by
  unfold insertSprbat
  have : ¬(7 < v.toNat ∨ (3 < v.toNat ∧ d &&& 0x2000000000#64 = 0#64)) := fun h => h.elim (by omega) hc
  simp only [if_neg this]
  by_cases a : 3 < v.toNat
  · rw [if_pos a, if_pos a]
  · rw [if_neg a, if_neg a]

theorem bkSprbat (h : (extractSprbat i d 0).2 = 0) : insertSprbat (i &&& ~~~0x60800#64) (extractSprbat i d 0).1 d = some (i, false) := by
  have e : (i &&& ~~~0x60800#64) ||| ((((i >>> 17) &&& 0x3#64) <<< 17) ||| (((i >>> 9) &&& 0x4#64) <<< 9)) = i :=
    lin_eq_all (i := i) (v := i) (by decide +kernel)
  have ha := and_le (i >>> 17) 0x3#64
  have hb : (i >>> 9) &&& 0x4#64 = 0#64 ∨ (i >>> 9) &&& 0x4#64 = 4#64 := by
    cases hb : i.getLsbD 11
    · left
      have : (i >>> 9) &&& 0x4#64 = ((i >>> 11) &&& 1#64) <<< 2 := lin_eq_all (i := i) (v := i) (by decide +kernel)
      rw [this, bit11, hb]; rfl
    · right
      have : (i >>> 9) &&& 0x4#64 = ((i >>> 11) &&& 1#64) <<< 2 := lin_eq_all (i := i) (v := i) (by decide +kernel)
      rw [this, bit11, hb]; rfl
  unfold extractSprbat at h ⊢
  simp only at h ⊢
  have hc := ite_one h
  generalize (i >>> 17) &&& 0x3#64 = a at *
  rcases hb with hb | hb <;> rw [hb] at hc e ⊢ <;>
    rcases eight (v := a) (by simp at ha; omega) with rfl | rfl | rfl | rfl | rfl | rfl | rfl | rfl
  all_goals first
    | exact absurd ha (by decide)
    | (rw [sprbat_ok (by decide) hc]
       exact congrArg (fun x => some (x, false)) e)

theorem rtSprg (hi : i &&& 0x1f0000#64 = 0#64) (h : insertSprg i v d = some (w, false)) : extractSprg w d inv = (v, inv) := by
  unfold insertSprg at h
  simp only [Option.some.injEq, Prod.mk.injEq] at h
  obtain ⟨hw, hc⟩ := h
  have hc := ite_false hc
  have h8 : w &&& 0x100#64 = i &&& 0x100#64 := by rw [← hw]; exact keep8 _
  have hlt : v.toNat < 8 := by omega
  have hval : (w >>> 16) &&& 0x1f#64 = (if v.toNat ≤ 3 ∨ i &&& 0x100#64 ≠ 0#64 then v ||| 0x10#64 else v) &&& 0x17#64 := by
    rw [← hw]
    generalize (if v.toNat ≤ 3 ∨ i &&& 0x100#64 ≠ 0#64 then v ||| 0x10#64 else v) = x
    exact lin_eq_any (i := i) (v := x) 0x1f0000#64 (by decide +kernel) hi
  unfold extractSprg
  simp only [hval, h8]
  by_cases a : i &&& 0x100#64 = 0#64
  · rcases eight hlt with rfl | rfl | rfl | rfl | rfl | rfl | rfl | rfl <;> simp [a] at hc ⊢ <;> simp_all
  · rcases eight hlt with rfl | rfl | rfl | rfl | rfl | rfl | rfl | rfl <;> simp [a] at hc ⊢ <;> simp_all

theorem frSprg (h : insertSprg i v d = some (w, e)) : w &&& ~~~0x1f0000#64 = i &&& ~~~0x1f0000#64 ∧ i &&& ~~~w = 0#64 := by
  unfold insertSprg at h
  simp only [Option.some.injEq, Prod.mk.injEq] at h
  obtain ⟨rfl, -⟩ := h
  generalize (if v.toNat ≤ 3 ∨ i &&& 0x100#64 ≠ 0#64 then v ||| 0x10#64 else v) = x
  exact ⟨lin_eq_all (i := i) (v := x) (by decide +kernel), and_not_or _ _⟩

end Opc
