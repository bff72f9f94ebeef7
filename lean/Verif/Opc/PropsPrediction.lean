import Verif.Opc.PropsRegisters
import Verif.Opc.PropsAgain

/-! C109 for the branches with a prediction: what the assembled word has in its field BO, and what is extracted from it. -/
namespace Opc

variable {e : Opcode} {dialect w : W} {v b t : Int}

/-- The branches to a register that are predicted as taken. -/
def takenReg : List String := ["bclr+", "bclrl+", "bcctr+", "bcctrl+", "bctar+", "bctarl+"]
/-- The branches to a register that are predicted as not taken. -/
def untakenReg : List String := ["bclr-", "bclrl-", "bcctr-", "bcctrl-", "bctar-", "bctarl-"]
/-- The branches to an address that are predicted as taken. -/
def takenTo : List String := ["bc+", "bcl+", "bca+", "bcla+"]
/-- The branches to an address that are predicted as not taken. -/
def untakenTo : List String := ["bc-", "bcl-", "bca-", "bcla-"]

/-- The options of a branch to an address with a prediction.  Before version 2 the lowest bit turns round the prediction that goes by the sign of the displacement (backwards is
taken); from version 2 on the two bits `at` are 10 for not taken and 11 for taken, if the options have such bits. -/
def hinted (taken : Bool) (dialect : W) (v displacement : Int) : Int :=
  if dialect &&& version2 = 0#64 then v + (if taken = decide (0 ≤ displacement) then 1 else 0)
  else if v / 4 % 2 = 1 ∧ v / 16 % 2 = 0 then v / 4 * 4 + (if taken then 3 else 2)
  else if v / 4 % 2 = 0 ∧ v / 16 % 2 = 1 then 24 + v % 8 + (if taken then 1 else 0)
  else v

/-- Options that the disassembler takes: those of the dialect, and for the dialect of all features (without "any") those of either version. -/
def readable (dialect : W) (v : Int) : Prop := boOk dialect v ∨ (dialect = ~~~0x40#64 ∧ ∃ p ∈ boOld, digits p v)

theorem boe_extract (w d : W) (inv : Int) :
    ∃ inv', (⟨"BOE", 0x1e, some 21, .boe, .boe, 0⟩ : Operand).extract w d inv = (BitVec.ofInt 64 (part w 21 5 / 2 * 2), inv') ∧
      (readable d (part w 21 5) → inv' = inv) ∧ (¬readable d (part w 21 5) → inv' = 1) := by
  obtain ⟨x, hx1, hx2⟩ := field5 w 21
  refine ⟨_, Prod.ext ?_ rfl, ?_⟩
  · change ((w >>> 21) &&& 0x1f#64) &&& 0x1e#64 = _
    rw [hx1, hx2]
    exact (show ∀ x : Fin 32, BitVec.ofNat 64 x &&& 0x1e#64 = BitVec.ofInt 64 (((x : Nat) : Int) / 2 * 2) by decide +kernel) x
  · change (_ → (if !validBo ((w >>> 21) &&& 0x1f#64) d true then 1 else inv) = inv) ∧ (_ → (if !validBo ((w >>> 21) &&& 0x1f#64) d true then 1 else inv) = 1)
    have key : validBo ((w >>> 21) &&& 0x1f#64) d true = true ↔ readable d (part w 21 5) := by
      have hb := bo_ok (d := d) (v := part w 21 5) (by omega) (by have := x.isLt; omega)
      have hold := bo_old x
      unfold readable
      rw [← hb, hx1, hx2, ← hold]
      have e1 : BitVec.ofInt 64 (((x : Nat)) : Int) = BitVec.ofNat 64 x := by simp
      rw [e1]
      unfold validBo
      by_cases hd : d = ~~~0x40#64
      · subst hd
        have h2 : ¬(~~~0x40#64 : W) &&& isaV2 = 0#64 := by decide
        simp only [true_and, if_true, Bool.false_eq_true, false_and, if_false, if_neg h2, Bool.or_eq_true]
        exact Or.comm
      · rw [if_neg (fun h => hd h.2), if_neg (c := false = true ∧ _) (fun h => hd h.2)]
        exact ⟨Or.inl, fun h => h.elim id fun h => absurd h.1 hd⟩
    constructor
    · intro h; rw [key.mpr h]; rfl
    · intro h
      have : validBo ((w >>> 21) &&& 0x1f#64) d true = false := by
        cases hc : validBo ((w >>> 21) &&& 0x1f#64) d true
        · rfl
        · exact absurd (key.mp hc) h
      rw [this]; rfl

theorem every_entry {f : Opcode → Bool} (h : (mainTable ++ vleTable ++ spe2Table).all (fun c => c.all f) = true) : ∀ e ∈ entries, f e = true := by
  intro e he
  unfold entries at he
  rw [← List.flatten_append, ← List.flatten_append, List.mem_flatten] at he
  obtain ⟨c, hc, hx⟩ := he
  exact List.all_eq_true.mp (List.all_eq_true.mp h c hc) e hx

/-- What the proofs need to know of the entry of a branch to a register. -/
def regRow (e : Opcode) : Bool :=
  e.operands == [18, 1] && (((BitVec.ofNat 64 e.opcode >>> 21) &&& 0x1f#64) == if takenReg.contains e.name then 1#64 else 0#64)

/-- What the proofs need to know of the entry of a branch to an address. -/
def toRow (e : Opcode) : Bool :=
  (((BitVec.ofNat 64 e.opcode >>> 21) &&& 0x1f#64) == 0#64) &&
    if takenTo.contains e.name then e.operands == [18, 1, 11] || e.operands == [18, 1, 12] else e.operands == [18, 1, 9] || e.operands == [18, 1, 10]

theorem reg_check : (mainTable ++ vleTable ++ spe2Table).all (fun c => c.all fun e => !(takenReg ++ untakenReg).contains e.name || regRow e) = true := by decide +kernel
theorem to_check : (mainTable ++ vleTable ++ spe2Table).all (fun c => c.all fun e => !(takenTo ++ untakenTo).contains e.name || toRow e) = true := by decide +kernel
theorem all_check : (mainTable ++ vleTable ++ spe2Table).all (fun c => c.all fun e => !e.operands.contains 18 ||
    (takenReg ++ untakenReg ++ takenTo ++ untakenTo).contains e.name) = true := by decide +kernel

theorem reg_row (he : e ∈ entries) (hn : e.name ∈ takenReg ++ untakenReg) :
    e.operands = [18, 1] ∧ ((BitVec.ofNat 64 e.opcode >>> 21) &&& 0x1f#64) = if e.name ∈ takenReg then 1#64 else 0#64 := by
  have h := every_entry reg_check e he
  rw [List.contains_iff_mem.mpr hn] at h
  simpa [regRow] using h

theorem to_row (he : e ∈ entries) (hn : e.name ∈ takenTo ++ untakenTo) :
    ((BitVec.ofNat 64 e.opcode >>> 21) &&& 0x1f#64) = 0#64 ∧
    if e.name ∈ takenTo then e.operands = [18, 1, 11] ∨ e.operands = [18, 1, 12] else e.operands = [18, 1, 9] ∨ e.operands = [18, 1, 10] := by
  have h := every_entry to_check e he
  rw [List.contains_iff_mem.mpr hn] at h
  simp only [Bool.not_true, Bool.false_or, toRow, Bool.and_eq_true, beq_iff_eq] at h
  refine ⟨h.1, ?_⟩
  by_cases c : e.name ∈ takenTo
  · rw [if_pos c]; have := h.2; rw [if_pos (List.contains_iff_mem.mpr c)] at this; simpa using this
  · rw [if_neg c]; have := h.2; rw [if_neg (fun hc => c (List.contains_iff_mem.mp hc))] at this; simpa using this

theorem bo_field (x : Fin 32) (y : W) (w : W) (h : (w >>> 21) &&& 0x1f#64 = y ||| BitVec.ofNat 64 x) (hy : y = 0#64 ∨ y = 1#64) (hx : x.val % 2 = 0) :
    part w 21 5 = ((x : Nat) : Int) + y.toNat := by
  rw [← part5, h]
  rcases hy with rfl | rfl
  · exact (show ∀ x : Fin 32, (((0#64 : W) ||| BitVec.ofNat 64 x).toNat : Int) = ((x : Nat) : Int) + (0#64 : W).toNat by decide +kernel) x
  · exact (show ∀ x : Fin 32, x.val % 2 = 0 → (((1#64 : W) ||| BitVec.ofNat 64 x).toNat : Int) = ((x : Nat) : Int) + (1#64 : W).toNat by decide +kernel) x hx

theorem put_bo (i V : W) : ((i ||| ((V &&& 0x1f#64) <<< 21)) >>> 21) &&& 0x1f#64 = ((i >>> 21) &&& 0x1f#64) ||| (V &&& 0x1f#64) :=
  lin_eq_all (i := i) (v := V) (by decide +kernel)

theorem put_ba (i V : W) : ((i ||| ((V &&& 0x1f#64) <<< 16)) >>> 21) &&& 0x1f#64 = (i >>> 21) &&& 0x1f#64 :=
  lin_eq_all (i := i) (v := V) (by decide +kernel)

theorem put_bd (i V : W) : ((i ||| (V &&& 0xfffc#64)) >>> 21) &&& 0x1f#64 = (i >>> 21) &&& 0x1f#64 :=
  lin_eq_all (i := i) (v := V) (by decide +kernel)

theorem options_range (h : (⟨"BOE", 0x1e, some 21, .boe, .boe, 0⟩ : Operand).Range v) : ∃ x : Fin 32, x.val % 2 = 0 ∧ v = ((x : Nat) : Int) := by
  have h1 : (2 : Int) ∣ v ∧ 0 ≤ v ∧ v < 32 := by
    obtain ⟨a, c⟩ := h
    have e1 : (⟨"BOE", 0x1e, some 21, .boe, .boe, 0⟩ : Operand).lo = 1 := by decide +kernel
    have e2 : (⟨"BOE", 0x1e, some 21, .boe, .boe, 0⟩ : Operand).hi = 5 := by decide +kernel
    have e3 : (⟨"BOE", 0x1e, some 21, .boe, .boe, 0⟩ : Operand).signed = false := by decide +kernel
    have e4 : (⟨"BOE", 0x1e, some 21, .boe, .boe, 0⟩ : Operand).plus1 = false := by decide +kernel
    rw [e1] at a
    rw [e2, e3, e4] at c
    simp at a c
    omega
  exact ⟨⟨v.toNat, by omega⟩, by simp only; omega, by simp only; omega⟩

/-- The branches to a register with a prediction: the field BO of the assembled word holds the options, with the lowest bit for the prediction "taken".  The options
are extracted again as they were given; the disassembler takes the word for another instruction if BO with the prediction is none of the encodings. -/
theorem C109_predicted_register_partial (he : e ∈ entries) (hn : e.name ∈ takenReg ++ untakenReg) (hv : (⟨"BOE", 0x1e, some 21, .boe, .boe, 0⟩ : Operand).Range v)
    {error : Bool} (hw : fill dialect (BitVec.ofNat 64 e.opcode) (e.args.zip [v, b]) = some (w, error)) :
    e.args.map (·.name) = ["BOE", "BA"] ∧ part w 21 5 = v + (if e.name ∈ takenReg then 1 else 0) ∧
    ∀ o ∈ e.args, o.name = "BOE" → ∀ invalid : Int, ∃ invalid', o.extract w dialect invalid = (BitVec.ofInt 64 v, invalid') ∧
      (readable dialect (part w 21 5) → invalid' = invalid) ∧ (¬readable dialect (part w 21 5) → invalid' = 1) := by
  obtain ⟨x, hx2, rfl⟩ := options_range hv
  obtain ⟨h1, h2⟩ := reg_row he hn
  have ea : e.args = [⟨"BOE", 0x1e, some 21, .boe, .boe, 0⟩, ⟨"BA", 0x1f, some 16, .null, .null, 0x20⟩] := by
    unfold Opcode.args; rw [h1]; decide +kernel
  have e1 : BitVec.ofInt 64 (((x : Nat)) : Int) = BitVec.ofNat 64 x := by simp
  have e2 : BitVec.ofNat 64 x &&& 0x1f#64 = BitVec.ofNat 64 x := (show ∀ x : Fin 32, BitVec.ofNat 64 x &&& 0x1f#64 = BitVec.ofNat 64 x by decide +kernel) x
  rw [ea] at hw
  have hw' : (BitVec.ofNat 64 e.opcode ||| ((BitVec.ofNat 64 x &&& 0x1f#64) <<< 21)) ||| ((BitVec.ofInt 64 b &&& 0x1f#64) <<< 16) = w := by
    simp only [List.zip_cons_cons, List.zip_nil_right, fill, Operand.insert, insertBoe, Operand.insertNull, e1, Option.bind_eq_bind, Option.bind_some] at hw
    exact congrArg (fun z => z.1) (Option.some.inj hw)
  have hb : (w >>> 21) &&& 0x1f#64 = (if e.name ∈ takenReg then 1#64 else 0#64) ||| BitVec.ofNat 64 x := by
    rw [← hw', put_ba, put_bo, h2, e2]
  have hp := bo_field x _ w hb (by split <;> simp) hx2
  have hp : part w 21 5 = ((x : Nat) : Int) + (if e.name ∈ takenReg then 1 else 0) := by
    rw [hp]; split <;> simp
  refine ⟨by rw [ea]; rfl, hp, ?_⟩
  intro o ho hoe inv
  rw [ea] at ho
  simp only [List.mem_cons, List.not_mem_nil, or_false] at ho
  rcases ho with rfl | rfl
  · obtain ⟨i', h3, h4⟩ := boe_extract w dialect inv
    refine ⟨i', ?_, h4⟩
    rw [h3]
    congr 2
    rw [hp]
    split <;> omega
  · exact absurd hoe (by decide)

/-- `beqlr+` before version 2: BO is 01101. -/
example : ∃ e ∈ entries, e.name ∈ takenReg ++ untakenReg ∧ (⟨"BOE", 0x1e, some 21, .boe, .boe, 0⟩ : Operand).Range 12 ∧
    fill 0x1#64 (BitVec.ofNat 64 e.opcode) (e.args.zip [12, 2]) = some (0x4da20020#64, false) ∧ readable 0x1#64 (part 0x4da20020#64 21 5) :=
  ⟨⟨"bclr+", 0x4c200020, 0xfc20ffff, 0x21, 0x800000000, [18, 1]⟩, by decide +kernel, by decide +kernel, ⟨by decide +kernel, by decide +kernel⟩, by decide +kernel,
    Or.inl (Or.inr ⟨by unfold has; decide, by decide +kernel⟩)⟩

/-- "Branch always" predicted as taken is assembled without an error message, but the disassembler does not take the word for `bclr+`, in all dialects. -/
theorem C109_predicted_register_refuted : ∃ e ∈ entries, ∃ w, e.name = "bclr+" ∧ ∀ dialect, fill dialect (BitVec.ofNat 64 e.opcode) (e.args.zip [20, 0]) = some (w, false) ∧
    e.matches w ∧ ∀ o ∈ e.args, o.name = "BOE" → ∀ invalid : Int, o.extract w dialect invalid = (20#64, 1) := by
  refine ⟨⟨"bclr+", 0x4c200020, 0xfc20ffff, 0x21, 0x800000000, [18, 1]⟩, by decide +kernel, 0x4ea00020#64, rfl, fun d => ⟨?_, by unfold Opcode.matches; decide +kernel, ?_⟩⟩
  · have ea : (⟨"bclr+", 0x4c200020, 0xfc20ffff, 0x21, 0x800000000, [18, 1]⟩ : Opcode).args =
        [⟨"BOE", 0x1e, some 21, .boe, .boe, 0⟩, ⟨"BA", 0x1f, some 16, .null, .null, 0x20⟩] := by decide +kernel
    have hv : validBo 20#64 d false = true := by
      unfold validBo
      rw [if_neg (by simp)]
      split <;> decide
    rw [ea]
    simp only [List.zip_cons_cons, List.zip_nil_right, fill, Operand.insert, insertBoe, Operand.insertNull, Option.bind_eq_bind, Option.bind_some,
      show BitVec.ofInt 64 20 = 20#64 by decide, hv]
    decide +kernel
  · have ea : (⟨"bclr+", 0x4c200020, 0xfc20ffff, 0x21, 0x800000000, [18, 1]⟩ : Opcode).args =
        [⟨"BOE", 0x1e, some 21, .boe, .boe, 0⟩, ⟨"BA", 0x1f, some 16, .null, .null, 0x20⟩] := by decide +kernel
    rw [ea]
    intro o ho hoe inv
    simp only [List.mem_cons, List.not_mem_nil, or_false] at ho
    rcases ho with rfl | rfl
    · have hv : validBo 21#64 d true = false := by
        unfold validBo
        split
        · decide
        · split <;> decide
      change (_, if !validBo ((0x4ea00020#64 >>> 21) &&& 0x1f#64) d true then 1 else inv) = _
      rw [show (0x4ea00020#64 >>> 21) &&& 0x1f#64 = 21#64 by decide, hv]
      rfl
    · exact absurd hoe (by decide)

theorem at_mask (i : W) : i &&& (0x14#64 <<< 21) = (((i >>> 21) &&& 0x1f#64) &&& 0x14#64) <<< 21 := lin_eq_all (i := i) (v := 7#64) (by decide +kernel)

theorem or_hint1 (i : W) : ((i ||| (1#64 <<< 21)) >>> 21) &&& 0x1f#64 = ((i >>> 21) &&& 0x1f#64) ||| 1#64 := lin_eq_all (i := i) (v := 7#64) (by decide +kernel)
theorem or_hint2 (i : W) : ((i ||| (0x02#64 <<< 21)) >>> 21) &&& 0x1f#64 = ((i >>> 21) &&& 0x1f#64) ||| 2#64 := lin_eq_all (i := i) (v := 7#64) (by decide +kernel)
theorem or_hint3 (i : W) : ((i ||| (0x03#64 <<< 21)) >>> 21) &&& 0x1f#64 = ((i >>> 21) &&& 0x1f#64) ||| 3#64 := lin_eq_all (i := i) (v := 7#64) (by decide +kernel)
theorem or_hint8 (i : W) : ((i ||| (0x08#64 <<< 21)) >>> 21) &&& 0x1f#64 = ((i >>> 21) &&& 0x1f#64) ||| 8#64 := lin_eq_all (i := i) (v := 7#64) (by decide +kernel)
theorem or_hint9 (i : W) : ((i ||| (0x09#64 <<< 21)) >>> 21) &&& 0x1f#64 = ((i >>> 21) &&& 0x1f#64) ||| 9#64 := lin_eq_all (i := i) (v := 7#64) (by decide +kernel)

theorem sign_bit (h0 : -2 ^ 15 ≤ t) (h1 : t < 2 ^ 15) : BitVec.ofInt 64 t &&& 0x8000#64 = 0#64 ↔ 0 ≤ t := by
  have e1 : BitVec.ofInt 64 t &&& 0x8000#64 = (((BitVec.ofInt 64 t) >>> 15) &&& 1#64) <<< 15 := by
    generalize BitVec.ofInt 64 t = y
    exact lin_eq_all (i := y) (v := 7#64) (by decide +kernel)
  have e2 : ((((BitVec.ofInt 64 t) >>> 15) &&& 1#64).toNat : Int) = part (BitVec.ofInt 64 t) 15 1 := part_eq 15 1 (by omega)
  have e3 : part (BitVec.ofInt 64 t) 15 1 = if 0 ≤ t then 0 else 1 := by
    unfold part
    have : (BitVec.ofInt 64 t).toNat = (t % 2 ^ 64).toNat := by rw [toNat_ofInt64]
    rw [this]
    by_cases c : 0 ≤ t
    · rw [if_pos c]; omega
    · rw [if_neg c]; omega
  rw [e3] at e2
  rw [e1]
  generalize hz : ((BitVec.ofInt 64 t) >>> 15) &&& 1#64 = z at *
  constructor
  · intro h
    apply Classical.byContradiction
    intro c
    rw [if_neg c] at e2
    have : z = 1#64 := BitVec.eq_of_toNat_eq (by simpa using (show z.toNat = 1 by omega))
    rw [this] at h
    exact absurd h (by decide)
  · intro c
    rw [if_pos c] at e2
    have : z = 0#64 := BitVec.eq_of_toNat_eq (by simpa using (show z.toNat = 0 by omega))
    rw [this]; rfl

/-- The word after the displacement has been put in. -/
theorem bdm_options (i : W) (x : Fin 32) (hx : x.val % 2 = 0) (hi : (i >>> 21) &&& 0x1f#64 = BitVec.ofNat 64 x) (h0 : -2 ^ 15 ≤ t) (h1 : t < 2 ^ 15)
    (h : insertBdm i (BitVec.ofInt 64 t) dialect = some (w, false)) : part w 21 5 = hinted false dialect ((x : Nat) : Int) t := by
  have hs := sign_bit h0 h1
  unfold insertBdm at h
  dsimp only at h
  have hw := congrArg (fun z => z.1) (Option.some.inj h)
  dsimp only at hw
  rw [← part5, ← hw, put_bd]
  unfold hinted
  rw [at_mask, hi, show isaV2 = version2 from rfl]
  by_cases hd : dialect &&& version2 = 0#64
  · rw [if_pos hd, if_pos hd]
    by_cases c : 0 ≤ t
    · rw [if_neg (fun hc => hc (hs.mpr c)), hi, if_neg (by simp [c])]
      exact (show ∀ x : Fin 32, ((BitVec.ofNat 64 x).toNat : Int) = ((x : Nat) : Int) + 0 by decide +kernel) x
    · rw [if_pos (fun hc => c (hs.mp hc)), or_hint1, hi, if_pos (by simp [c])]
      exact (show ∀ x : Fin 32, x.val % 2 = 0 → ((BitVec.ofNat 64 x ||| 1#64).toNat : Int) = ((x : Nat) : Int) + 1 by decide +kernel) x hx
  · rw [if_neg hd, if_neg hd]
    have k : ∀ x : Fin 32, x.val % 2 = 0 → ((if (BitVec.ofNat 64 x &&& 0x14#64) <<< 21 = 0x04#64 <<< 21 then BitVec.ofNat 64 x ||| 2#64
        else if (BitVec.ofNat 64 x &&& 0x14#64) <<< 21 = 0x10#64 <<< 21 then BitVec.ofNat 64 x ||| 8#64 else BitVec.ofNat 64 x).toNat : Int) =
        if ((x : Nat) : Int) / 4 % 2 = 1 ∧ ((x : Nat) : Int) / 16 % 2 = 0 then ((x : Nat) : Int) / 4 * 4 + (if false then 3 else 2)
        else if ((x : Nat) : Int) / 4 % 2 = 0 ∧ ((x : Nat) : Int) / 16 % 2 = 1 then 24 + ((x : Nat) : Int) % 8 + (if false then 1 else 0) else ((x : Nat) : Int) := by
      decide +kernel
    have k := k x hx
    by_cases c1 : (BitVec.ofNat 64 x &&& 0x14#64) <<< 21 = 0x04#64 <<< 21
    · rw [if_pos c1] at k ⊢
      rw [or_hint2, hi]; exact k
    · rw [if_neg c1] at k ⊢
      by_cases c2 : (BitVec.ofNat 64 x &&& 0x14#64) <<< 21 = 0x10#64 <<< 21
      · rw [if_pos c2] at k ⊢
        rw [or_hint8, hi]; exact k
      · rw [if_neg c2] at k ⊢
        rw [hi]; exact k

theorem bdp_options (i : W) (x : Fin 32) (hx : x.val % 2 = 0) (hi : (i >>> 21) &&& 0x1f#64 = BitVec.ofNat 64 x) (h0 : -2 ^ 15 ≤ t) (h1 : t < 2 ^ 15)
    (h : insertBdp i (BitVec.ofInt 64 t) dialect = some (w, false)) : part w 21 5 = hinted true dialect ((x : Nat) : Int) t := by
  have hs := sign_bit h0 h1
  unfold insertBdp at h
  dsimp only at h
  have hw := congrArg (fun z => z.1) (Option.some.inj h)
  dsimp only at hw
  rw [← part5, ← hw, put_bd]
  unfold hinted
  rw [at_mask, hi, show isaV2 = version2 from rfl]
  by_cases hd : dialect &&& version2 = 0#64
  · rw [if_pos hd, if_pos hd]
    by_cases c : 0 ≤ t
    · rw [if_pos (hs.mpr c), or_hint1, hi, if_pos (by simp [c])]
      exact (show ∀ x : Fin 32, x.val % 2 = 0 → ((BitVec.ofNat 64 x ||| 1#64).toNat : Int) = ((x : Nat) : Int) + 1 by decide +kernel) x hx
    · rw [if_neg (fun hc => c (hs.mp hc)), hi, if_neg (by simp [c])]
      exact (show ∀ x : Fin 32, ((BitVec.ofNat 64 x).toNat : Int) = ((x : Nat) : Int) + 0 by decide +kernel) x
  · rw [if_neg hd, if_neg hd]
    have k : ∀ x : Fin 32, x.val % 2 = 0 → ((if (BitVec.ofNat 64 x &&& 0x14#64) <<< 21 = 0x04#64 <<< 21 then BitVec.ofNat 64 x ||| 3#64
        else if (BitVec.ofNat 64 x &&& 0x14#64) <<< 21 = 0x10#64 <<< 21 then BitVec.ofNat 64 x ||| 9#64 else BitVec.ofNat 64 x).toNat : Int) =
        if ((x : Nat) : Int) / 4 % 2 = 1 ∧ ((x : Nat) : Int) / 16 % 2 = 0 then ((x : Nat) : Int) / 4 * 4 + (if true then 3 else 2)
        else if ((x : Nat) : Int) / 4 % 2 = 0 ∧ ((x : Nat) : Int) / 16 % 2 = 1 then 24 + ((x : Nat) : Int) % 8 + (if true then 1 else 0) else ((x : Nat) : Int) := by
      decide +kernel
    have k := k x hx
    by_cases c1 : (BitVec.ofNat 64 x &&& 0x14#64) <<< 21 = 0x04#64 <<< 21
    · rw [if_pos c1] at k ⊢
      rw [or_hint3, hi]; exact k
    · rw [if_neg c1] at k ⊢
      by_cases c2 : (BitVec.ofNat 64 x &&& 0x14#64) <<< 21 = 0x10#64 <<< 21
      · rw [if_pos c2] at k ⊢
        rw [or_hint9, hi]; exact k
      · rw [if_neg c2] at k ⊢
        rw [hi]; exact k

/-- The branches to an address with a prediction: the field BO of the assembled word holds the options with the hint of the dialect, and what is extracted are the options
with this hint without their lowest bit; the disassembler takes the word for another instruction if BO with the hint is none of the encodings. -/
theorem C109_predicted_address_partial (he : e ∈ entries) (hn : e.name ∈ takenTo ++ untakenTo) (hv : (⟨"BOE", 0x1e, some 21, .boe, .boe, 0⟩ : Operand).Range v)
    (h0 : -2 ^ 15 ≤ t) (h1 : t < 2 ^ 15)
    {error : Bool} (hw : fill dialect (BitVec.ofNat 64 e.opcode) (e.args.zip [v, b, t]) = some (w, error)) :
    part w 21 5 = hinted (e.name ∈ takenTo) dialect v t ∧
    ∀ o ∈ e.args, o.name = "BOE" → ∀ invalid : Int, ∃ invalid', o.extract w dialect invalid = (BitVec.ofInt 64 (part w 21 5 / 2 * 2), invalid') ∧
      (readable dialect (part w 21 5) → invalid' = invalid) ∧ (¬readable dialect (part w 21 5) → invalid' = 1) := by
  obtain ⟨x, hx2, rfl⟩ := options_range hv
  obtain ⟨h2, h3⟩ := to_row he hn
  have e1 : BitVec.ofInt 64 (((x : Nat)) : Int) = BitVec.ofNat 64 x := by simp
  have e2 : BitVec.ofNat 64 x &&& 0x1f#64 = BitVec.ofNat 64 x := (show ∀ x : Fin 32, BitVec.ofNat 64 x &&& 0x1f#64 = BitVec.ofNat 64 x by decide +kernel) x
  obtain ⟨o3, ea, ho3⟩ : ∃ o3 : Operand, e.args = [⟨"BOE", 0x1e, some 21, .boe, .boe, 0⟩, ⟨"BA", 0x1f, some 16, .null, .null, 0x20⟩, o3] ∧
      o3.name ≠ "BOE" ∧ o3.ins = if e.name ∈ takenTo then .bdp else .bdm := by
    unfold Opcode.args
    by_cases c : e.name ∈ takenTo
    · rw [if_pos c] at h3 ⊢
      rcases h3 with h3 | h3
      · rw [h3]; exact ⟨⟨"BDP", 0xfffc, some 0, .bdp, .bdp, 0xa00⟩, by decide +kernel, by decide, rfl⟩
      · rw [h3]; exact ⟨⟨"BDPA", 0xfffc, some 0, .bdp, .bdp, 0xc00⟩, by decide +kernel, by decide, rfl⟩
    · rw [if_neg c] at h3 ⊢
      rcases h3 with h3 | h3
      · rw [h3]; exact ⟨⟨"BDM", 0xfffc, some 0, .bdm, .bdm, 0xa00⟩, by decide +kernel, by decide, rfl⟩
      · rw [h3]; exact ⟨⟨"BDMA", 0xfffc, some 0, .bdm, .bdm, 0xc00⟩, by decide +kernel, by decide, rfl⟩
  rw [ea] at hw
  obtain ⟨i, hi⟩ : ∃ i, i = (BitVec.ofNat 64 e.opcode ||| ((BitVec.ofNat 64 x &&& 0x1f#64) <<< 21)) ||| ((BitVec.ofInt 64 b &&& 0x1f#64) <<< 16) := ⟨_, rfl⟩
  have hb : (i >>> 21) &&& 0x1f#64 = BitVec.ofNat 64 x := by
    rw [hi, put_ba, put_bo, h2, e2, BitVec.zero_or]
  have hw' : o3.insert i (BitVec.ofInt 64 t) dialect = some (w, false) := by
    have ea2 : ∃ z, o3.insert i (BitVec.ofInt 64 t) dialect = some (z, false) := by
      unfold Operand.insert
      rw [ho3.2]
      by_cases c : e.name ∈ takenTo
      · rw [if_pos c]; exact ⟨_, rfl⟩
      · rw [if_neg c]; exact ⟨_, rfl⟩
    obtain ⟨z, hz⟩ := ea2
    have f1 : (⟨"BOE", 0x1e, some 21, .boe, .boe, 0⟩ : Operand).insert (BitVec.ofNat 64 e.opcode) (BitVec.ofInt 64 ((x : Nat) : Int)) dialect =
      insertBoe (BitVec.ofNat 64 e.opcode) (BitVec.ofNat 64 x) dialect := by rw [e1]; rfl
    have f2 : ∀ y : W, (⟨"BA", 0x1f, some 16, .null, .null, 0x20⟩ : Operand).insert y (BitVec.ofInt 64 b) dialect = some (y ||| ((BitVec.ofInt 64 b &&& 0x1f#64) <<< 16), false) :=
      fun y => rfl
    simp only [List.zip_cons_cons, List.zip_nil_right, fill, f1, f2, insertBoe, Option.bind_eq_bind, Option.bind_some, ← hi, hz] at hw
    have := congrArg (fun z => z.1) (Option.some.inj hw)
    dsimp only at this
    rw [hz, this]
  have hp : part w 21 5 = hinted (e.name ∈ takenTo) dialect ((x : Nat) : Int) t := by
    unfold Operand.insert at hw'
    rw [ho3.2] at hw'
    by_cases c : e.name ∈ takenTo
    · rw [if_pos c] at hw'
      rw [bdp_options i x hx2 hb h0 h1 hw', decide_eq_true c]
    · rw [if_neg c] at hw'
      rw [bdm_options i x hx2 hb h0 h1 hw', decide_eq_false c]
  refine ⟨hp, ?_⟩
  intro o ho hoe inv
  rw [ea] at ho
  simp only [List.mem_cons, List.not_mem_nil, or_false] at ho
  rcases ho with rfl | rfl | rfl
  · exact boe_extract w dialect inv
  · exact absurd hoe (by decide)
  · exact absurd hoe ho3.1

/-- `beq+` backwards before version 2: the options come back; with the hints of version 2 they come back as 14. -/
example : ∃ e ∈ entries, e.name ∈ takenTo ++ untakenTo ∧ (⟨"BOE", 0x1e, some 21, .boe, .boe, 0⟩ : Operand).Range 12 ∧
    hinted true 0x1#64 12 (-64) = 12 ∧ hinted true 0x1#64 12 64 = 13 ∧ hinted true 0x800#64 12 64 = 15 ∧
    fill 0x1#64 (BitVec.ofNat 64 e.opcode) (e.args.zip [12, 2, -64]) = some (0x4182ffc0#64, false) :=
  ⟨⟨"bc+", 0x40000000, 0xfc000003, 0x21, 0x800000000, [18, 1, 11]⟩, by decide +kernel, by decide +kernel, ⟨by decide +kernel, by decide +kernel⟩, by decide +kernel,
    by decide +kernel, by decide +kernel, by decide +kernel⟩

/-- Before version 2 the options of a branch to an address come back. -/
theorem C109_predicted_old_partial (he : e ∈ entries) (hn : e.name ∈ takenTo ++ untakenTo) (hv : (⟨"BOE", 0x1e, some 21, .boe, .boe, 0⟩ : Operand).Range v)
    (h0 : -2 ^ 15 ≤ t) (h1 : t < 2 ^ 15) (hd : ¬has dialect version2)
    {error : Bool} (hw : fill dialect (BitVec.ofNat 64 e.opcode) (e.args.zip [v, b, t]) = some (w, error)) :
    ∀ o ∈ e.args, o.name = "BOE" → ∀ invalid : Int, (o.extract w dialect invalid).1 = BitVec.ofInt 64 v := by
  intro o ho hoe inv
  obtain ⟨hp, h2⟩ := C109_predicted_address_partial he hn hv h0 h1 hw
  obtain ⟨i', h3, -⟩ := h2 o ho hoe inv
  obtain ⟨x, hx2, rfl⟩ := options_range hv
  rw [h3, hp]
  unfold hinted
  rw [if_pos (Classical.not_not.mp hd)]
  dsimp only
  congr 1
  split <;> omega

/-- No other entries have options with a prediction. -/
theorem C109_predicted_all : ∀ e ∈ entries, 18 ∈ e.operands → e.name ∈ takenReg ++ untakenReg ++ takenTo ++ untakenTo := by
  intro e he h
  have := every_entry all_check e he
  rw [List.contains_iff_mem.mpr h] at this
  exact List.contains_iff_mem.mp (by simpa using this)

end Opc
