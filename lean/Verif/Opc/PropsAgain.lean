import Verif.Opc.Props

/-! C108: what becomes of the words whose operands do not all come back. -/
namespace Opc

variable {o : Operand} {insn dialect w : W}

theorem field5 (i : W) (lo : Nat) : ∃ x : Fin 32, (i >>> lo) &&& 0x1f#64 = BitVec.ofNat 64 x ∧ part i lo 5 = ((x : Nat) : Int) := by
  have h := part_range (i := i) lo 5
  have e := part5 (i := i) lo
  have hl : ((i >>> lo) &&& 0x1f#64).toNat < 32 := by omega
  refine ⟨⟨((i >>> lo) &&& 0x1f#64).toNat, hl⟩, ?_, e.symm⟩
  rw [BitVec.ofNat_toNat, BitVec.setWidth_eq]

theorem boe_rows : ∀ o ∈ operands, o.name = "BOE" → o = ⟨"BOE", 0x1e, some 21, .boe, .boe, 0⟩ := by decide +kernel

/-- Branch options with a prediction: the word comes back with the prediction bit cleared, and the error message tells that the options without it are not legal. -/
theorem C108_prediction_partial (ho : o ∈ operands) (hx : o.name = "BOE") :
    ∃ error, o.insert (o.without insn) (o.extract insn dialect 0).1 dialect = some (insn &&& ~~~0x200000#64, error) ∧
      (error = true ↔ ¬(boOk dialect (part insn 21 5 / 2 * 2) ∧ boCounter insn (part insn 21 5))) := by
  have e0 := boe_rows o ho hx
  have hf : bits o.field = 0x3e00000#64 := by rw [e0]; decide +kernel
  obtain ⟨x, hx1, hx2⟩ := field5 insn 21
  have hr := part_range (i := insn) 21 5
  have hv : (o.extract insn dialect 0).1 = BitVec.ofInt 64 (part insn 21 5 / 2 * 2) := by
    rw [e0]
    change ((insn >>> 21) &&& 0x1f#64) &&& 0x1e#64 = _
    rw [hx1, hx2]
    exact (show ∀ x : Fin 32, BitVec.ofNat 64 x &&& 0x1e#64 = BitVec.ofInt 64 (((x : Nat) : Int) / 2 * 2) by decide +kernel) x
  have hw : (o.without insn) ||| (((o.extract insn dialect 0).1 &&& 0x1f#64) <<< 21) = insn &&& ~~~0x200000#64 := by
    unfold Operand.without
    rw [hf, show ~~~0x3e00000#64 = (0xfffffffffc1fffff#64 : W) by decide, show ~~~0x200000#64 = (0xffffffffffdfffff#64 : W) by decide, e0]
    change (insn &&& 0xfffffffffc1fffff#64) ||| (((((insn >>> 21) &&& 0x1f#64) &&& 0x1e#64) &&& 0x1f#64) <<< 21) = _
    exact lin_eq_all (i := insn) (v := 7#64) (by decide +kernel)
  obtain ⟨w, e, h, he⟩ := leBoe (i := o.without insn) (d := dialect) (v := part insn 21 5 / 2 * 2) (by omega) (by omega) ⟨part insn 21 5 / 2, by omega⟩
  have hp1 : part (o.without insn) 26 6 = part insn 26 6 := by
    unfold Operand.without
    rw [hf, ← part_eq 26 6 (by omega), ← part_eq 26 6 (by omega)]
    have : ((insn &&& ~~~0x3e00000#64) >>> 26) &&& 0x3f#64 = (insn >>> 26) &&& 0x3f#64 := by
      rw [show ~~~0x3e00000#64 = (0xfffffffffc1fffff#64 : W) by decide]
      exact lin_eq_all (i := insn) (v := 7#64) (by decide +kernel)
    exact congrArg (fun y : W => (y.toNat : Int)) this
  have hp2 : part (o.without insn) 10 1 = part insn 10 1 := by
    unfold Operand.without
    rw [hf, ← part_eq 10 1 (by omega), ← part_eq 10 1 (by omega)]
    have : ((insn &&& ~~~0x3e00000#64) >>> 10) &&& 0x1#64 = (insn >>> 10) &&& 0x1#64 := by
      rw [show ~~~0x3e00000#64 = (0xfffffffffc1fffff#64 : W) by decide]
      exact lin_eq_all (i := insn) (v := 7#64) (by decide +kernel)
    exact congrArg (fun y : W => (y.toNat : Int)) this
  have hins : o.insert (o.without insn) (o.extract insn dialect 0).1 dialect = insertBoe (o.without insn) (o.extract insn dialect 0).1 dialect := by
    unfold Operand.insert
    rw [show o.ins = .boe by rw [e0]]
  refine ⟨e, ?_, ?_⟩
  · rw [hins, ← hw]
    rw [← hv] at h
    rw [h]
    simp only [insertBoe, Option.some.injEq, Prod.mk.injEq] at h
    rw [← h.1]
  · rw [he]
    unfold boCounter
    rw [hp1, hp2, show part insn 21 5 / 2 * 2 / 4 % 2 = part insn 21 5 / 4 % 2 by omega]

/-- Without a prediction the word comes back. -/
example : ∃ o ∈ operands, o.name = "BOE" ∧ (o.extract 0x41820000#64 1#64 0) = (12#64, 0) ∧ (0x41820000#64 : W) &&& ~~~0x200000#64 = 0x41820000#64 ∧
    o.insert (o.without 0x41820000#64) 12#64 1#64 = some (0x41820000#64, false) :=
  ⟨⟨"BOE", 0x1e, some 21, .boe, .boe, 0⟩, by decide +kernel, rfl, by decide +kernel, by decide +kernel, by decide +kernel⟩

theorem nbi_rows : ∀ o ∈ operands, o.name = "NBI" → o = ⟨"NBI", 0x1f, some 11, .nbi, .nb, 0x20000⟩ := by decide +kernel

/-- Byte counts of string instructions: the word comes back, and the error message tells that the registers that are loaded contain the base register. -/
theorem C108_count_partial (ho : o ∈ operands) (hx : o.name = "NBI") :
    ∃ error, o.insert (o.without insn) (o.extract insn dialect 0).1 dialect = some (insn, error) ∧
      (error = true ↔ ∃ k : Nat, 4 * (k : Int) < (if part insn 11 5 = 0 then 32 else part insn 11 5) ∧ (part insn 21 5 + k) % 32 = part insn 16 5) := by
  have e0 := nbi_rows o ho hx
  have hf : bits o.field = 0xf800#64 := by rw [e0]; decide +kernel
  obtain ⟨x, hx1, hx2⟩ := field5 insn 11
  have hr := part_range (i := insn) 11 5
  have hv : (o.extract insn dialect 0).1 = BitVec.ofInt 64 (if part insn 11 5 = 0 then 32 else part insn 11 5) := by
    rw [e0]
    change (if (insn >>> 11) &&& 0x1f#64 = 0#64 then 32#64 else (insn >>> 11) &&& 0x1f#64) = _
    rw [hx1, hx2]
    exact (show ∀ x : Fin 32, (if BitVec.ofNat 64 x = 0#64 then 32#64 else BitVec.ofNat 64 x) =
      BitVec.ofInt 64 (if ((x : Nat) : Int) = 0 then 32 else ((x : Nat) : Int)) by decide +kernel) x
  have hw : (o.without insn) ||| (((if (o.extract insn dialect 0).1 = 0#64 then 32#64 else (o.extract insn dialect 0).1) &&& 0x1f#64) <<< 11) = insn := by
    have e : (if (o.extract insn dialect 0).1 = 0#64 then 32#64 else (o.extract insn dialect 0).1) &&& 0x1f#64 = (insn >>> 11) &&& 0x1f#64 := by
      rw [hv, hx1, hx2]
      exact (show ∀ x : Fin 32, (if BitVec.ofInt 64 (if ((x : Nat) : Int) = 0 then 32 else ((x : Nat) : Int)) = 0#64 then 32#64
        else BitVec.ofInt 64 (if ((x : Nat) : Int) = 0 then 32 else ((x : Nat) : Int))) &&& 0x1f#64 = BitVec.ofNat 64 x by decide +kernel) x
    rw [e]
    unfold Operand.without
    rw [hf]
    exact left_back (m := 0x1f#64) (n := 11)
  obtain ⟨w, e, h, he⟩ := leNbi (i := o.without insn) (d := dialect) (v := if part insn 11 5 = 0 then 32 else part insn 11 5) (by split <;> omega) (by split <;> omega)
  have hp1 : part (o.without insn) 21 5 = part insn 21 5 := by
    unfold Operand.without
    rw [hf, ← part5 21, ← part5 21]
    have : ((insn &&& ~~~0xf800#64) >>> 21) &&& 0x1f#64 = (insn >>> 21) &&& 0x1f#64 := by
      rw [show ~~~0xf800#64 = (0xffffffffffff07ff#64 : W) by decide]
      exact lin_eq_all (i := insn) (v := 7#64) (by decide +kernel)
    exact congrArg (fun y : W => (y.toNat : Int)) this
  have hp2 : part (o.without insn) 16 5 = part insn 16 5 := by
    unfold Operand.without
    rw [hf, ← part5 16, ← part5 16]
    have : ((insn &&& ~~~0xf800#64) >>> 16) &&& 0x1f#64 = (insn >>> 16) &&& 0x1f#64 := by
      rw [show ~~~0xf800#64 = (0xffffffffffff07ff#64 : W) by decide]
      exact lin_eq_all (i := insn) (v := 7#64) (by decide +kernel)
    exact congrArg (fun y : W => (y.toNat : Int)) this
  have hins : o.insert (o.without insn) (o.extract insn dialect 0).1 dialect = insertNbi (o.without insn) (o.extract insn dialect 0).1 dialect := by
    unfold Operand.insert
    rw [show o.ins = .nbi by rw [e0]]
  have hz : ∀ n : Int, (if (if n = 0 then 32 else n) = 0 then (32 : Int) else if n = 0 then 32 else n) = if n = 0 then 32 else n := by
    intro n
    by_cases hn : n = 0
    · simp [hn]
    · simp [hn]
  refine ⟨e, ?_, ?_⟩
  · rw [hins, hv, h]
    rw [← hv] at h
    simp only [insertNbi] at h
    by_cases hc : 2 ^ 63 - 3 ≤ (if (o.extract insn dialect 0).1 = 0#64 then 32#64 else (o.extract insn dialect 0).1).toInt
    · rw [if_pos hc] at h; cases h
    · rw [if_neg hc] at h
      simp only [Option.some.injEq, Prod.mk.injEq] at h
      rw [← h.1, hw]
  · rw [he, hp1, hp2, hz]
    constructor
    · intro hn
      exact Classical.byContradiction fun hc => hn fun k hk hq => hc ⟨k, hk, hq⟩
    · rintro ⟨k, h1, h2⟩ hn
      exact hn k h1 h2

/-- `lswi r3,r10,8` comes back. -/
example : ∃ o ∈ operands, o.name = "NBI" ∧ (o.extract 0x7c6a44aa#64 0#64 0) = (8#64, 0) ∧ o.insert (o.without 0x7c6a44aa#64) 8#64 0#64 = some (0x7c6a44aa#64, false) :=
  ⟨⟨"NBI", 0x1f, some 11, .nbi, .nb, 0x20000⟩, by decide +kernel, rfl, by decide +kernel, by decide +kernel⟩

theorem sprg_rows : ∀ o ∈ operands, o.name = "SPRG" → o = ⟨"SPRG", 0x1f, some 16, .sprg, .sprg, 0x80⟩ := by decide +kernel

theorem bit8 (i : W) : i &&& 0x100#64 = 0#64 ↔ part i 8 1 = 0 := by
  have h1 : (((i >>> 8) &&& 0x1#64).toNat : Int) = part i 8 1 := part_eq 8 1 (by omega)
  have e1 : i &&& 0x100#64 = ((i >>> 8) &&& 0x1#64) <<< 8 := lin_eq_all (i := i) (v := 7#64) (by decide +kernel)
  have e2 : (i >>> 8) &&& 0x1#64 = (i &&& 0x100#64) >>> 8 := lin_eq_all (i := i) (v := 7#64) (by decide +kernel)
  constructor
  · intro h
    rw [← h1, e2, h]; rfl
  · intro h
    have : (i >>> 8) &&& 0x1#64 = 0#64 := by
      apply BitVec.eq_of_toNat_eq
      rw [h] at h1
      exact Int.ofNat.inj h1
    rw [e1, this]; rfl

theorem sprg_values : ∀ (x : Fin 32) (p q : Bool),
    ¬((3 < (BitVec.ofNat 64 x - 0x10#64).toNat ∧ q = true) ∨ (7 < (BitVec.ofNat 64 x - 0x10#64).toNat ∧ ¬p = true) ∨ (BitVec.ofNat 64 x).toNat ≤ 3 ∨
      BitVec.ofNat 64 x &&& 8#64 ≠ 0#64) →
    (if (BitVec.ofNat 64 x &&& 7#64).toNat ≤ 3 ∨ ¬p = true then BitVec.ofNat 64 x &&& 7#64 ||| 0x10#64 else BitVec.ofNat 64 x &&& 7#64) &&& 0x17#64 =
      (if p = true ∧ (x : Nat) / 4 = 5 then BitVec.ofNat 64 x &&& 0xf#64 else BitVec.ofNat 64 x) ∧
    ¬(7 < (BitVec.ofNat 64 x &&& 7#64).toNat ∨ (3 < (BitVec.ofNat 64 x &&& 7#64).toNat ∧ q = true)) := by decide +kernel

/-- A word recognised as one with SPRG comes back, but for the privileged numbers of SPRG4 to SPRG7 in an instruction that reads: they become the numbers for users. -/
theorem C108_sprg_partial (ho : o ∈ operands) (hx : o.name = "SPRG") (h : (o.extract insn dialect 0).2 = 0) :
    (part insn 8 1 = 0 ∧ part insn 18 3 = 5 → o.insert (o.without insn) (o.extract insn dialect 0).1 dialect = some (insn &&& ~~~0x100000#64, false)) ∧
    (¬(part insn 8 1 = 0 ∧ part insn 18 3 = 5) → o.insert (o.without insn) (o.extract insn dialect 0).1 dialect = some (insn, false)) := by
  have e0 := sprg_rows o ho hx
  have hf : bits o.field = 0x1f0000#64 := by rw [e0]; decide +kernel
  obtain ⟨x, hx1, hx2⟩ := field5 insn 16
  have h3 : part insn 18 3 = part insn 16 5 / 4 := by
    have : ((insn.toNat / 2 ^ 18 % 2 ^ 3 : Nat) : Int) = (insn.toNat / 2 ^ 16 % 2 ^ 5 : Nat) / 4 := by omega
    exact this
  have hb : (o.without insn) &&& 0x100#64 = insn &&& 0x100#64 := by
    unfold Operand.without
    rw [hf, show ~~~0x1f0000#64 = (0xffffffffffe0ffff#64 : W) by decide]
    exact lin_eq_all (i := insn) (v := 7#64) (by decide +kernel)
  have hext : o.extract insn dialect 0 = extractSprg insn dialect 0 := by rw [e0]; rfl
  have hins : ∀ x, o.insert (o.without insn) x dialect = insertSprg (o.without insn) x dialect := by
    intro x
    unfold Operand.insert
    rw [show o.ins = .sprg by rw [e0]]
  have hback : (o.without insn) ||| (((insn >>> 16) &&& 0x1f#64) <<< 16) = insn := by
    unfold Operand.without
    rw [hf]
    exact left_back (m := 0x1f#64) (n := 16)
  have hless : (o.without insn) ||| ((((insn >>> 16) &&& 0x1f#64) &&& 0xf#64) <<< 16) = insn &&& ~~~0x100000#64 := by
    unfold Operand.without
    rw [hf, show ~~~0x1f0000#64 = (0xffffffffffe0ffff#64 : W) by decide, show ~~~0x100000#64 = (0xffffffffffefffff#64 : W) by decide]
    exact lin_eq_all (i := insn) (v := 7#64) (by decide +kernel)
  rw [h3, hx2, ← bit8]
  rw [hext] at h ⊢
  rw [hins]
  unfold insertSprg
  rw [hb]
  simp only [extractSprg, hx1] at h hback hless ⊢
  generalize o.without insn = rest at hback hless ⊢
  have key := sprg_values x (decide (insn &&& 0x100#64 = 0#64)) (decide (dialect &&& allow8Sprg = 0#64)) (by
    simp only [decide_eq_true_eq]
    intro hc
    rw [if_pos hc] at h
    exact absurd h (by decide))
  simp only [decide_eq_true_eq] at key
  rw [key.1, if_neg key.2]
  constructor
  · rintro ⟨h1, h2⟩
    rw [if_pos ⟨h1, by omega⟩, hless]
  · intro hn
    rw [if_neg (fun hc => hn ⟨hc.1, by omega⟩), hback]

/-- `mfsprg r3,1`, `mtsprg 5,r3` and `mfsprg r3,5` with the number for users come back. -/
example : ∃ o ∈ operands, o.name = "SPRG" ∧ (∀ p ∈ [(0x7c7142a6#64, 1#64), (0x7c7543a6#64, 5#64), (0x7c6542a6#64, 5#64)],
    o.extract p.1 0x400#64 0 = (p.2, 0) ∧ o.insert (o.without p.1) p.2 0x400#64 = some (p.1, false)) :=
  ⟨⟨"SPRG", 0x1f, some 16, .sprg, .sprg, 0x80⟩, by decide +kernel, rfl, by decide +kernel⟩

theorem fxm_rows : ∀ o ∈ operands, o.name = "FXM" ∨ o.name = "FXM4" → o.ins = .fxm ∧ o.ext = .fxm := by decide +kernel

theorem field8 (i : W) (lo : Nat) : ∃ x : Fin 256, (i >>> lo) &&& 0xff#64 = BitVec.ofNat 64 x ∧ part i lo 8 = ((x : Nat) : Int) := by
  have h := part_range (i := i) lo 8
  have e : (((i >>> lo) &&& 0xff#64).toNat : Int) = part i lo 8 := part_eq lo 8 (by omega)
  have hl : ((i >>> lo) &&& 0xff#64).toNat < 256 := by omega
  refine ⟨⟨((i >>> lo) &&& 0xff#64).toNat, hl⟩, ?_, e.symm⟩
  rw [BitVec.ofNat_toNat, BitVec.setWidth_eq]

theorem bit20 (i : W) : i &&& (1#64 <<< 20) = 0#64 ↔ part i 20 1 = 0 := by
  have h1 : (((i >>> 20) &&& 0x1#64).toNat : Int) = part i 20 1 := part_eq 20 1 (by omega)
  have e1 : i &&& (1#64 <<< 20) = ((i >>> 20) &&& 0x1#64) <<< 20 := lin_eq_all (i := i) (v := 7#64) (by decide +kernel)
  have e2 : (i >>> 20) &&& 0x1#64 = (i &&& (1#64 <<< 20)) >>> 20 := lin_eq_all (i := i) (v := 7#64) (by decide +kernel)
  constructor
  · intro h
    rw [← h1, e2, h]; rfl
  · intro h
    have : (i >>> 20) &&& 0x1#64 = 0#64 := by
      apply BitVec.eq_of_toNat_eq
      rw [h] at h1
      exact Int.ofNat.inj h1
    rw [e1, this]; rfl

theorem fxm_signs : ∀ x : Fin 256, BitVec.ofNat 64 x ≠ 0x8000000000000000#64 ∧ (BitVec.ofNat 64 x = 0#64 ↔ ¬0 < (BitVec.ofNat 64 x).toInt) ∧
    BitVec.ofNat 64 x &&& 0xff#64 = BitVec.ofNat 64 x := by decide +kernel

/-- A word recognised as one with a mask of condition registers comes back, but for `mtcrf` with one register on Power4: it becomes `mtocrf`. -/
theorem C108_register_partial (ho : o ∈ operands) (hx : o.name = "FXM" ∨ o.name = "FXM4") (h : (o.extract insn dialect 0).2 = 0) :
    (part insn 20 1 = 0 ∧ part insn 1 10 ≠ 19 ∧ single (part insn 12 8) ∧ has dialect 0x800#64 →
      o.insert (o.without insn) (o.extract insn dialect 0).1 dialect = some (insn ||| 0x100000#64, false)) ∧
    (¬(part insn 20 1 = 0 ∧ part insn 1 10 ≠ 19 ∧ single (part insn 12 8) ∧ has dialect 0x800#64) →
      o.insert (o.without insn) (o.extract insn dialect 0).1 dialect = some (insn, false)) := by
  obtain ⟨e1, e2⟩ := fxm_rows o ho hx
  have hf : bits o.field = 0xff000#64 := by
    have : o.field = [(12, 8)] := by unfold Operand.field; rw [e1]
    rw [this]; decide +kernel
  obtain ⟨x, hx1, hx2⟩ := field8 insn 12
  have hs : (BitVec.ofNat 64 x = 0#64 ∨ BitVec.ofNat 64 x &&& -BitVec.ofNat 64 x ≠ BitVec.ofNat 64 x) ↔ ¬single ((x : Nat) : Int) := by
    have := x.isLt
    exact single_iff (v := ((x : Nat) : Int)) (by omega) (by omega)
  obtain ⟨g1, g2, g3⟩ := fxm_signs x
  have hb : (o.without insn) &&& (1#64 <<< 20) = insn &&& (1#64 <<< 20) := by
    unfold Operand.without
    rw [hf, show ~~~0xff000#64 = (0xfffffffffff00fff#64 : W) by decide]
    exact lin_eq_all (i := insn) (v := 7#64) (by decide +kernel)
  have hm : isMfcr (o.without insn) = isMfcr insn := by
    have : (o.without insn) &&& (0x3ff#64 <<< 1) = insn &&& (0x3ff#64 <<< 1) := by
      unfold Operand.without
      rw [hf, show ~~~0xff000#64 = (0xfffffffffff00fff#64 : W) by decide]
      exact lin_eq_all (i := insn) (v := 7#64) (by decide +kernel)
    unfold isMfcr
    rw [this]
  have hback : (o.without insn) ||| (((insn >>> 12) &&& 0xff#64) <<< 12) = insn := by
    unfold Operand.without
    rw [hf]
    exact left_back (m := 0xff#64) (n := 12)
  have hext : o.extract insn dialect 0 = extractFxm insn dialect 0 := by unfold Operand.extract; rw [e2]
  have hins : ∀ x, o.insert (o.without insn) x dialect = insertFxm (o.without insn) x dialect := by
    intro x
    unfold Operand.insert
    rw [e1]
  rw [hext] at h ⊢
  rw [hins]
  have hval : extractFxm insn dialect 0 = if insn &&& (1#64 <<< 20) ≠ 0#64 then
      (BitVec.ofNat 64 x, if BitVec.ofNat 64 x = 0#64 ∨ BitVec.ofNat 64 x &&& -BitVec.ofNat 64 x ≠ BitVec.ofNat 64 x then 1 else 0)
      else if isMfcr insn then if BitVec.ofNat 64 x ≠ 0#64 then (BitVec.ofNat 64 x, 1) else (-1#64, 0) else (BitVec.ofNat 64 x, 0) := by
    simp only [extractFxm, hx1, if_neg (show ¬((0 : Int) < 0) by decide)]
  rw [hval] at h ⊢
  clear hval
  unfold insertFxm
  rw [hb, hm]
  rw [hx1] at hback
  generalize o.without insn = rest at hback ⊢
  rw [hx2, ← bit20, ne_eq, ← mfcr_part]
  by_cases b : insn &&& (1#64 <<< 20) = 0#64
  · have b' : ¬insn &&& (1#64 <<< 20) ≠ 0#64 := fun hc => hc b
    rw [if_neg b'] at h ⊢
    rw [if_neg b']
    by_cases m : isMfcr insn = true
    · rw [if_pos m] at h ⊢
      have h0 : BitVec.ofNat 64 x = 0#64 := by
        refine Classical.byContradiction fun hc => ?_
        rw [if_pos hc] at h
        exact absurd (show (1 : Int) = 0 from h) (by decide)
      have h1 : ¬BitVec.ofNat 64 x ≠ 0#64 := fun hc => hc h0
      rw [if_neg h1]
      constructor
      · rintro ⟨-, hn, -⟩; exact absurd m hn
      · intro _
        rw [if_neg (fun hc => absurd hc.1 (by decide)), if_pos m]
        rw [h0] at hback
        change some (rest ||| ((0#64 &&& 0xff#64) <<< 12), false) = _
        rw [show (0#64 &&& 0xff#64 : W) = 0#64 by decide, hback]
    · rw [if_neg m] at h ⊢
      constructor
      · rintro ⟨-, -, h1, h2⟩
        have h3 : ¬(BitVec.ofNat 64 x = 0#64 ∨ BitVec.ofNat 64 x &&& -BitVec.ofNat 64 x ≠ BitVec.ofNat 64 x) := fun hc => hs.mp hc h1
        have h4 : 0 < (BitVec.ofNat 64 x).toInt := Classical.byContradiction fun hc => h3 (.inl (g2.mpr hc))
        have h5 : BitVec.ofNat 64 x &&& -BitVec.ofNat 64 x = BitVec.ofNat 64 x := Classical.byContradiction fun hc => h3 (.inr hc)
        rw [if_pos ⟨h4, h5, .inl h2⟩, g3, BitVec.or_assoc, BitVec.or_comm (1#64 <<< 20), ← BitVec.or_assoc, hback]
        rfl
      · intro hn
        rw [if_neg, if_neg m, g3, hback]
        rintro ⟨h4, h5, h6⟩
        rcases h6 with h6 | h6
        · refine hn ⟨b, m, ?_, h6⟩
          refine Classical.byContradiction fun hc => ?_
          rcases hs.mpr hc with h7 | h7
          · exact g2.mp h7 h4
          · exact h7 h5
        · exact m h6.2
  · have b' : insn &&& (1#64 <<< 20) ≠ 0#64 := b
    rw [if_pos b'] at h ⊢
    rw [if_pos b']
    have h3 : ¬(BitVec.ofNat 64 x = 0#64 ∨ BitVec.ofNat 64 x &&& -BitVec.ofNat 64 x ≠ BitVec.ofNat 64 x) := by
      intro hc
      rw [if_pos hc] at h
      exact absurd (show (1 : Int) = 0 from h) (by decide)
    constructor
    · rintro ⟨hc, -⟩; exact absurd hc b
    · intro _
      rw [if_neg g1, if_neg h3, g3, hback]

/-- `mfcr r3`, `mfocrf r3,8` and `mtcrf 0x81,r3` come back on Power4, `mtcrf 0x80,r3` before. -/
example : ∃ o ∈ operands, o.name = "FXM" ∧ (∀ p ∈ [(0x7c600026#64, 0x800#64), (0x7c708026#64, 0x800#64), (0x7c681120#64, 0x800#64), (0x7c680120#64, 1#64)],
    (o.extract p.1 p.2 0).2 = 0 ∧ o.insert (o.without p.1) (o.extract p.1 p.2 0).1 p.2 = some (p.1, false)) :=
  ⟨⟨"FXM", 0xff, some 12, .fxm, .fxm, 0⟩, by decide +kernel, rfl, by decide +kernel⟩

/-! Scaled immediates: the value depends on eleven bits. -/

theorem field11 (i : W) : ∃ x : Fin 2048, i &&& 0x7ff#64 = BitVec.ofNat 64 x ∧ part i 0 8 = (((x : Nat) % 256 : Nat) : Int) ∧
    part i 8 2 = (((x : Nat) / 256 % 4 : Nat) : Int) ∧ part i 10 1 = (((x : Nat) / 1024 : Nat) : Int) := by
  have e : (i &&& 0x7ff#64).toNat = i.toNat % 2 ^ 11 := and_low i (t := 11) (by omega)
  refine ⟨⟨(i &&& 0x7ff#64).toNat, by omega⟩, ?_, ?_, ?_, ?_⟩
  · rw [BitVec.ofNat_toNat, BitVec.setWidth_eq]
  all_goals
    simp only [part, e]
    omega

theorem sci8_low (i d : W) : extractSci8 i d 0 = extractSci8 (i &&& 0x7ff#64) 0#64 0 := by
  unfold extractSci8
  rw [show (i &&& 0x7ff#64) &&& 0x400#64 = i &&& 0x400#64 from lin_eq_all (i := i) (v := 7#64) (by decide +kernel),
    show (i &&& 0x7ff#64) &&& 0x300#64 = i &&& 0x300#64 from lin_eq_all (i := i) (v := 7#64) (by decide +kernel),
    show (i &&& 0x7ff#64) &&& 0xff#64 = i &&& 0xff#64 from lin_eq_all (i := i) (v := 7#64) (by decide +kernel)]

theorem sci8_into (c v d : W) : insertSci8 c v d = (insertSci8 0#64 v 0#64).map fun p => (c ||| p.1, p.2) := by
  unfold insertSci8
  simp only [BitVec.zero_or, BitVec.or_assoc]
  repeat' split
  all_goals rfl

/-- The encoding that the insertion chooses. -/
def chosen (x : Nat) : Nat := if x / 256 % 4 = 0 ∨ x % 256 ≠ (if x / 1024 = 1 then 255 else 0) then x else x / 1024 * 1024 + x % 256

/-- One of the 2048 encodings. -/
def sci8Word (x : Nat) : Bool :=
  let e := extractSci8 (BitVec.ofNat 64 x) 0#64 0
  (-e.1) != 0x8000000000000000#64 && insertSci8 0#64 e.1 0#64 == some (BitVec.ofNat 64 (chosen x), false) &&
    extractSci8 (BitVec.ofNat 64 (chosen x)) 0#64 0 == e

theorem sci8_all : (List.range 2048).all sci8Word = true := by decide +kernel

theorem sci8_words (x : Fin 2048) : (-(extractSci8 (BitVec.ofNat 64 x) 0#64 0).1) ≠ 0x8000000000000000#64 ∧
    insertSci8 0#64 (extractSci8 (BitVec.ofNat 64 x) 0#64 0).1 0#64 = some (BitVec.ofNat 64 (chosen x), false) ∧
    extractSci8 (BitVec.ofNat 64 (chosen x)) 0#64 0 = extractSci8 (BitVec.ofNat 64 x) 0#64 0 := by
  have h := List.all_eq_true.mp sci8_all x (List.mem_range.mpr x.isLt)
  unfold sci8Word at h
  simp only [Bool.and_eq_true, bne_iff_ne, beq_iff_eq] at h
  exact ⟨h.1.1, h.1.2, h.2⟩

theorem scaled_again_rows : ∀ o ∈ operands, o.name = "SCLSCI8" ∨ o.name = "SCLSCI8N" → (o.ins = .sci8 ∧ o.ext = .sci8) ∨ (o.ins = .sci8n ∧ o.ext = .sci8n) := by
  decide +kernel

/-- Words with a scaled immediate: the extracted value is inserted without error message, and the word that results has the same value.  It is the word itself exactly if the byte
is the lowest one, or differs from the bytes around it. -/
theorem C108_scaled_partial (ho : o ∈ operands) (hx : o.name = "SCLSCI8" ∨ o.name = "SCLSCI8N") :
    ∃ w, o.insert (o.without insn) (o.extract insn dialect 0).1 dialect = some (w, false) ∧ o.extract w dialect 0 = o.extract insn dialect 0 ∧
      w &&& ~~~0x7ff#64 = insn &&& ~~~0x7ff#64 ∧
      (w = insn ↔ part insn 8 2 = 0 ∨ part insn 0 8 ≠ if part insn 10 1 = 1 then 255 else 0) := by
  have hf : bits o.field = 0x7ff#64 := by
    have : o.field = [(0, 11)] := by
      unfold Operand.field
      rcases scaled_again_rows o ho hx with h | h <;> rw [h.1]
    rw [this]; decide +kernel
  obtain ⟨x, h1, h2, h3, h4⟩ := field11 insn
  obtain ⟨g2, g3, g4⟩ := sci8_words x
  have hlow : chosen x < 2048 := by
    have := x.isLt
    by_cases hc : (x : Nat) / 256 % 4 = 0 ∨ (x : Nat) % 256 ≠ (if (x : Nat) / 1024 = 1 then 255 else 0)
    · unfold chosen; rw [if_pos hc]; exact this
    · unfold chosen; rw [if_neg hc]; omega
  have hwl : BitVec.ofNat 64 (chosen x) &&& ~~~0x7ff#64 = 0#64 := by
    apply BitVec.eq_of_toNat_eq
    have : BitVec.ofNat 64 (chosen x) = BitVec.ofNat 64 (chosen x) &&& 0x7ff#64 := by
      apply BitVec.eq_of_toNat_eq
      have := and_low (BitVec.ofNat 64 (chosen x)) (t := 11) (by omega)
      rw [show BitVec.ofNat 64 (2 ^ 11 - 1) = 0x7ff#64 from rfl] at this
      rw [this, BitVec.toNat_ofNat]
      omega
    rw [this, BitVec.and_assoc, show (0x7ff#64 &&& ~~~0x7ff#64 : W) = 0#64 by decide, BitVec.and_zero]
  have hsplit : (insn &&& ~~~0x7ff#64) ||| (insn &&& 0x7ff#64) = insn := by
    rw [show ~~~0x7ff#64 = (0xfffffffffffff800#64 : W) by decide]
    exact lin_eq_all (i := insn) (v := 7#64) (by decide +kernel)
  have hw1 : ((insn &&& ~~~0x7ff#64) ||| BitVec.ofNat 64 (chosen x)) &&& 0x7ff#64 = BitVec.ofNat 64 (chosen x) := by
    have e : BitVec.ofNat 64 (chosen x) &&& 0x7ff#64 = BitVec.ofNat 64 (chosen x) := by
      apply BitVec.eq_of_toNat_eq
      have := and_low (BitVec.ofNat 64 (chosen x)) (t := 11) (by omega)
      rw [show BitVec.ofNat 64 (2 ^ 11 - 1) = 0x7ff#64 from rfl] at this
      rw [this, BitVec.toNat_ofNat]
      omega
    apply BitVec.eq_of_getLsbD_eq
    intro k hk
    have e' := congrArg (fun w : W => w.getLsbD k) e
    simp only [BitVec.getLsbD_and, BitVec.getLsbD_or, BitVec.getLsbD_not, hk, decide_true, Bool.true_and] at e' ⊢
    revert e'
    generalize (0x7ff#64 : W).getLsbD k = a
    generalize (BitVec.ofNat 64 (chosen x)).getLsbD k = b
    generalize insn.getLsbD k = c
    revert a b c; decide
  have hw2 : ((insn &&& ~~~0x7ff#64) ||| BitVec.ofNat 64 (chosen x)) &&& ~~~0x7ff#64 = insn &&& ~~~0x7ff#64 := by
    apply BitVec.eq_of_getLsbD_eq
    intro k hk
    have e' := congrArg (fun w : W => w.getLsbD k) hwl
    simp only [BitVec.getLsbD_and, BitVec.getLsbD_or, BitVec.getLsbD_not, hk, decide_true, Bool.true_and, BitVec.getLsbD_zero] at e' ⊢
    revert e'
    generalize (0x7ff#64 : W).getLsbD k = a
    generalize (BitVec.ofNat 64 (chosen x)).getLsbD k = b
    generalize insn.getLsbD k = c
    revert a b c; decide
  have hiff : (insn &&& ~~~0x7ff#64) ||| BitVec.ofNat 64 (chosen x) = insn ↔ part insn 8 2 = 0 ∨ part insn 0 8 ≠ if part insn 10 1 = 1 then 255 else 0 := by
    have hx := x.isLt
    have hc : ((x : Nat) / 256 % 4 = 0 ∨ (x : Nat) % 256 ≠ (if (x : Nat) / 1024 = 1 then 255 else 0)) ↔
        (part insn 8 2 = 0 ∨ part insn 0 8 ≠ if part insn 10 1 = 1 then 255 else 0) := by
      rw [h2, h3, h4]
      by_cases a : (x : Nat) / 1024 = 1
      · rw [if_pos a, if_pos (by omega)]; omega
      · rw [if_neg a, if_neg (by omega)]; omega
    rw [← hc]
    constructor
    · intro h
      have e : BitVec.ofNat 64 (chosen x) = BitVec.ofNat 64 x := by rw [← hw1, h, h1]
      have e' := congrArg BitVec.toNat e
      rw [BitVec.toNat_ofNat, BitVec.toNat_ofNat, Nat.mod_eq_of_lt (show chosen x < 2 ^ 64 by omega), Nat.mod_eq_of_lt (show (x : Nat) < 2 ^ 64 by omega)] at e'
      refine Classical.byContradiction fun hn => ?_
      unfold chosen at e'
      rw [if_neg hn] at e'
      omega
    · intro h
      have : chosen x = x := by unfold chosen; rw [if_pos h]
      rw [this, ← h1, hsplit]
  have hins : insertSci8 (o.without insn) (extractSci8 insn dialect 0).1 dialect = some ((insn &&& ~~~0x7ff#64) ||| BitVec.ofNat 64 (chosen x), false) := by
    unfold Operand.without
    rw [hf, sci8_into, sci8_low, h1, g3]
    rfl
  have hext : extractSci8 ((insn &&& ~~~0x7ff#64) ||| BitVec.ofNat 64 (chosen x)) dialect 0 = extractSci8 insn dialect 0 := by
    rw [sci8_low, hw1, sci8_low insn, h1, g4]
  rcases scaled_again_rows o ho hx with ⟨h5, h6⟩ | ⟨h5, h6⟩
  · have q1 : ∀ i, o.extract i dialect 0 = extractSci8 i dialect 0 := fun i => by unfold Operand.extract; rw [h6]
    have q2 : ∀ i x, o.insert i x dialect = insertSci8 i x dialect := fun i x => by unfold Operand.insert; rw [h5]
    refine ⟨_, ?_, ?_, hw2, hiff⟩
    · rw [q1, q2, hins]
    · rw [q1, q1, hext]
  · have q1 : ∀ i, o.extract i dialect 0 = extractSci8n i dialect 0 := fun i => by unfold Operand.extract; rw [h6]
    have q2 : ∀ i x, o.insert i x dialect = insertSci8n i x dialect := fun i x => by unfold Operand.insert; rw [h5]
    have q3 : minus (-(extractSci8 insn dialect 0).1) = some (extractSci8 insn dialect 0).1 := by
      unfold minus
      rw [sci8_low, h1, if_neg g2, BitVec.neg_neg]
    have q4 : ∀ i, extractSci8n i dialect 0 = (-(extractSci8 i dialect 0).1, (extractSci8 i dialect 0).2) := fun i => by unfold extractSci8n; rw []
    refine ⟨_, ?_, ?_, hw2, hiff⟩
    · rw [q1, q2, q4]
      unfold insertSci8n
      rw [q3]
      dsimp only
      rw [hins]
    · rw [q1, q1, q4, q4, hext]

/-- The immediate 0x3400 comes back. -/
example : ∃ o ∈ operands, o.name = "SCLSCI8" ∧ o.extract 0x134#64 0#64 0 = (0x3400#64, 0) ∧ o.insert (o.without 0x134#64) 0x3400#64 0#64 = some (0x134#64, false) :=
  ⟨⟨"SCLSCI8", 0xffffffff, none, .sci8, .sci8, 0⟩, by decide +kernel, rfl, by decide +kernel, by decide +kernel⟩

end Opc
