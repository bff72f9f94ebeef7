import Verif.Opc.Words

/-! A check of the tables: what operands and masks cover. -/
namespace Opc

variable {e : Opcode} {dialect insn : W}

/-- The major opcode may be 19. -/
def Opcode.branch (e : Opcode) : Bool := !(Nat.beq (e.mask &&& 0xfc000000) 0xfc000000 && !Nat.beq (e.opcode &&& 0xfc000000) 0x4c000000)

/-- The open bits as a number. -/
def Opcode.rest (e : Opcode) : Nat := 0xffffffff ^^^ (e.mask ||| cover e.operands)

/-- The open bits are those of the list. -/
def Opcode.listed (e : Opcode) : Bool :=
  Nat.beq e.rest 0 || (Nat.blt e.mask (2 ^ 16) && Nat.beq e.rest 0xffff0000) || openBits.any fun row => Nat.beq e.rest row.1 && row.2.contains e.name

/-- The operands are in the table, and apart from each other and from the mask. -/
def Opcode.fits (e : Opcode) : Bool :=
  e.operands.all (fun k => Nat.blt k 185) && Nat.blt e.mask (2 ^ 32) && Nat.blt (cover e.operands) (2 ^ 32) && e.listed &&
    later e.branch e.operands && Nat.beq (e.mask &&& backs e.operands) 0 && Nat.beq (e.mask ||| cover e.operands) (e.mask ||| backs e.operands)

theorem fits_check : (mainTable ++ vleTable ++ spe2Table).all (fun c => c.all Opcode.fits) = true := by decide +kernel

theorem fits_entry (he : e ∈ entries) : e.fits = true := by
  unfold entries at he
  simp only [List.mem_append, List.mem_flatten] at he
  rcases he with (⟨c, hc, he⟩ | ⟨c, hc, he⟩) | ⟨c, hc, he⟩
  all_goals exact List.all_eq_true.mp (List.all_eq_true.mp fits_check c (by simp [hc])) e he

theorem open_entry (he : e ∈ entries) : e.listed = true := by
  have := fits_entry he
  unfold Opcode.fits at this
  simp only [Bool.and_eq_true] at this
  exact this.1.1.1.2

theorem codes_entry (he : e ∈ entries) : ∀ k ∈ e.operands, k < 185 := by
  have := fits_entry he
  unfold Opcode.fits at this
  simp only [Bool.and_eq_true, List.all_eq_true] at this
  intro k hk
  simpa using this.1.1.1.1.1.1 k hk

theorem arg_mem (he : e ∈ entries) {o : Operand} (ho : o ∈ e.args) : o ∈ operands := by
  unfold Opcode.args at ho
  obtain ⟨k, hk, rfl⟩ := List.mem_map.mp ho
  exact at_mem (codes_entry he k hk)

theorem fold_cover : ∀ (ks : List Nat) (w : W), (∀ k ∈ ks, k < 185) →
    (ks.map operandAt).foldl (fun w o => w &&& ~~~bits o.field) w = w &&& ~~~BitVec.ofNat 64 (cover ks) := by
  intro ks
  induction ks with
  | nil =>
    intro w _
    change w = w &&& ~~~0#64
    rw [show ~~~0#64 = BitVec.allOnes 64 by decide, BitVec.and_allOnes]
  | cons k ks ih =>
    intro w hk
    rw [List.map_cons, List.foldl_cons, ih _ (fun j hj => hk j (List.mem_cons_of_mem _ hj)), field_table k (hk k List.mem_cons_self)]
    have : cover (k :: ks) = look fieldTable k ||| cover ks := rfl
    rw [this, BitVec.ofNat_or, BitVec.not_or, BitVec.and_assoc]

theorem xor_low {n : Nat} (h : n < 2 ^ 32) : BitVec.ofNat 64 (0xffffffff ^^^ n) = 0xffffffff#64 &&& ~~~BitVec.ofNat 64 n := by
  apply BitVec.eq_of_getLsbD_eq
  intro k hk
  rw [BitVec.getLsbD_ofNat, BitVec.getLsbD_and, BitVec.getLsbD_not, BitVec.getLsbD_ofNat, BitVec.getLsbD_ofNat, Nat.testBit_xor]
  simp only [hk, decide_true, Bool.true_and]
  by_cases h32 : k < 32
  · have : Nat.testBit 0xffffffff k = true := by rw [show 0xffffffff = 2 ^ 32 - 1 from rfl, Nat.testBit_two_pow_sub_one]; simpa using h32
    simp [this]
  · have h1 : Nat.testBit n k = false := Nat.testBit_lt_two_pow (Nat.lt_of_lt_of_le h (Nat.pow_le_pow_right (by omega) (by omega)))
    have h2 : Nat.testBit 0xffffffff k = false := Nat.testBit_lt_two_pow (Nat.lt_of_lt_of_le (by decide : 0xffffffff < 2 ^ 32) (Nat.pow_le_pow_right (by omega) (by omega)))
    simp [h1, h2]

theorem open_cover (he : e ∈ entries) : e.open = 0xffffffff#64 &&& ~~~BitVec.ofNat 64 e.mask &&& ~~~BitVec.ofNat 64 (cover e.operands) := by
  unfold Opcode.open Opcode.args
  exact fold_cover _ _ (codes_entry he)

theorem open_eq (he : e ∈ entries) : e.open = BitVec.ofNat 64 e.rest := by
  have := fits_entry he
  unfold Opcode.fits at this
  simp only [Bool.and_eq_true] at this
  have h1 : e.mask < 2 ^ 32 := by simpa using this.1.1.1.1.1.2
  have h2 : cover e.operands < 2 ^ 32 := by simpa using this.1.1.1.1.2
  rw [open_cover he]
  unfold Opcode.rest
  rw [xor_low (Nat.or_lt_two_pow h1 h2), BitVec.ofNat_or, BitVec.not_or, BitVec.and_assoc]

/-- The operands of an instruction with the values they are given by a disassembler. -/
def Opcode.taken (e : Opcode) (dialect insn : W) : List (Operand × Int) := e.args.map fun o => (o, (o.extract insn dialect 0).1.toInt)

theorem major_up (y : W) : y &&& 0xfc000000#64 = ppcOp y <<< 26 := by
  unfold ppcOp
  exact lin_eq_all (i := y) (v := 7#64) (by decide +kernel)

theorem word_back (he : e ∈ entries) (hm : e.matches insn) (hw : insn.toNat < 2 ^ 32) {err : Operand → Bool}
    (hb : ∀ o ∈ e.args, (o.name ≠ "BOE" ∧ o.insert (o.without insn) (o.extract insn dialect 0).1 dialect = some (insn, err o)) ∨
      (o.name = "BOE" ∧ ∃ w, o.insert (o.without insn) (o.extract insn dialect 0).1 dialect = some (w, err o))) :
    fill dialect (BitVec.ofNat 64 e.opcode ||| (insn &&& e.open)) (e.taken dialect insn) = some (insn, e.args.any err) := by
  have hc := fits_entry he
  unfold Opcode.fits at hc
  simp only [Bool.and_eq_true] at hc
  obtain ⟨⟨⟨hc, hl⟩, hd⟩, hu⟩ := hc
  have hd := nat_apart hd
  have hu := congrArg (BitVec.ofNat 64) (Nat.eq_of_beq_eq_true hu)
  rw [BitVec.ofNat_or, BitVec.ofNat_or] at hu
  have hbr : e.branch = false → ppcOp insn ≠ 19#64 := by
    intro h
    unfold Opcode.branch at h
    simp only [Bool.not_eq_false', Bool.and_eq_true, Bool.not_eq_true'] at h
    intro h19
    have m1 := nat_mask (Nat.eq_of_beq_eq_true h.1)
    have e1 : insn &&& 0xfc000000#64 = BitVec.ofNat 64 e.opcode &&& 0xfc000000#64 := part_of_mask hm m1
    have e2 : ppcOp insn = ppcOp (BitVec.ofNat 64 e.opcode) := look_part e1 (by decide)
    rw [e2] at h19
    have e3 : BitVec.ofNat 64 e.opcode &&& 0xfc000000#64 = ppcOp (BitVec.ofNat 64 e.opcode) <<< 26 :=
      major_up _
    rw [h19] at e3
    have e4 := congrArg BitVec.toNat e3
    rw [BitVec.toNat_and, BitVec.toNat_ofNat] at e4
    change e.opcode % 2 ^ 64 &&& 0xfc000000 = 0x4c000000 at e4
    have e5 : e.opcode % 2 ^ 64 &&& 0xfc000000 = e.opcode &&& 0xfc000000 := by
      apply Nat.eq_of_testBit_eq
      intro j
      simp only [Nat.testBit_and, Nat.testBit_mod_two_pow]
      by_cases hj : j < 64
      · simp [hj]
      · have : Nat.testBit 0xfc000000 j = false := Nat.testBit_lt_two_pow (Nat.lt_of_lt_of_le (by decide : 0xfc000000 < 2 ^ 64) (Nat.pow_le_pow_right (by omega) (by omega)))
        simp [this]
    rw [e5] at e4
    rw [e4] at h
    exact absurd h.2 (by decide)
  have key := back_all (i := insn) (d := dialect) err e.branch e.operands (codes_entry he) hl (fun k hk => by
    have kk := codes_entry he k hk
    rcases hb _ (List.mem_map.mpr ⟨k, hk, rfl⟩) with ⟨h1, h2⟩ | ⟨h1, h2⟩
    · refine puts_of kk (fun h => ?_) hbr h2
      subst h
      exact h1 (by decide +kernel)
    · have k18 : k = 18 := by
        have : ∀ k, k < 185 → (operandAt k).name = "BOE" → k = 18 := by decide +kernel
        exact this k kk h1
      subst k18
      refine puts_boe hbr ?_
      have hf : bits (operandAt 18).field = 0x3e00000#64 := by decide +kernel
      unfold Operand.without at h2
      rw [hf] at h2
      rw [boe_at] at h2 ⊢
      exact h2)
  have start : BitVec.ofNat 64 e.opcode ||| (insn &&& e.open) = insn &&& ~~~BitVec.ofNat 64 (backs e.operands) := by
    rw [open_cover he]
    unfold Opcode.matches at hm
    rw [← hm]
    generalize BitVec.ofNat 64 (cover e.operands) = C at *
    generalize BitVec.ofNat 64 (backs e.operands) = B at *
    generalize BitVec.ofNat 64 e.mask = M at *
    have hi : insn = insn &&& 0xffffffff#64 := by
      apply BitVec.eq_of_toNat_eq
      rw [BitVec.toNat_and]
      change _ = insn.toNat &&& (2 ^ 32 - 1)
      rw [Nat.and_two_pow_sub_one_eq_mod, Nat.mod_eq_of_lt hw]
    generalize 0xffffffff#64 = L at *
    apply BitVec.eq_of_getLsbD_eq
    intro n hn
    have a1 := congrArg (fun y => y.getLsbD n) hd
    have a2 := congrArg (fun y => y.getLsbD n) hi
    have a3 := congrArg (fun y => y.getLsbD n) hu
    simp only [BitVec.getLsbD_and, BitVec.getLsbD_not, BitVec.getLsbD_or, BitVec.getLsbD_zero, hn, decide_true, Bool.true_and] at a1 a2 a3 ⊢
    revert a1 a2 a3
    generalize B.getLsbD n = b'
    generalize insn.getLsbD n = a; generalize C.getLsbD n = b; generalize M.getLsbD n = c; generalize L.getLsbD n = t
    revert a b c t b'; decide
  rw [start]
  exact key

end Opc
