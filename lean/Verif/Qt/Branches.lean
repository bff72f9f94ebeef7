import Verif.Qt.Annotate
import Verif.Qt.SpecBranch
/-! Helper lemmas: instruction fields of the model against the specification. -/
namespace Qt

theorem bv32_eq_iff {x : BitVec 32} {n : Nat} (hn : n < 2 ^ 32) : x = BitVec.ofNat 32 n ↔ x.toNat = n := by
  constructor
  · rintro rfl; simp; omega
  · intro h; apply BitVec.eq_of_toNat_eq; simp; omega

theorem field_toNat (insn : BitVec 32) (s k : Nat) (hk : k ≤ 31) :
    ((insn >>> s) &&& BitVec.ofNat 32 (2 ^ k - 1)).toNat = insn.toNat / 2 ^ s % 2 ^ k := by
  have h : 2 ^ k ≤ 2 ^ 31 := Nat.pow_le_pow_right (by omega) hk
  rw [BitVec.toNat_and, BitVec.toNat_ushiftRight, Nat.shiftRight_eq_div_pow, BitVec.toNat_ofNat,
    Nat.mod_eq_of_lt (by omega), Nat.and_two_pow_sub_one_eq_mod]

theorem opcode_toNat (w : BitVec 32) : (opcode w).toNat = Spec.primary w.toNat := by
  unfold opcode Spec.primary; rw [BitVec.toNat_ushiftRight, Nat.shiftRight_eq_div_pow]
theorem subOpcode_toNat (w : BitVec 32) : (subOpcode w).toNat = Spec.xo w.toNat := field_toNat w 1 10 (by omega)
theorem fieldBO_toNat (w : BitVec 32) : (fieldBO w).toNat = Spec.bo w.toNat := field_toNat w 21 5 (by omega)
theorem fieldBI_toNat (w : BitVec 32) : (fieldBI w).toNat = Spec.bi w.toNat := field_toNat w 16 5 (by omega)
theorem fieldBD_toNat (w : BitVec 32) : (fieldBD w).toNat = Spec.bd w.toNat := field_toNat w 2 14 (by omega)
theorem fieldBH_toNat (w : BitVec 32) : (fieldBH w).toNat = Spec.bh w.toNat := field_toNat w 11 2 (by omega)
theorem fieldAA_toNat (w : BitVec 32) : (fieldAA w).toNat = Spec.aa w.toNat := field_toNat w 1 1 (by omega)
theorem fieldLink_toNat (w : BitVec 32) : (fieldLink w).toNat = Spec.lk w.toNat := by
  have := field_toNat w 0 1 (by omega)
  simpa [Spec.lk, fieldLink] using this

theorem opcode_iff (w : BitVec 32) (n : Nat) (hn : n < 2 ^ 32) : opcode w = BitVec.ofNat 32 n ↔ Spec.primary w.toNat = n := by
  rw [bv32_eq_iff hn, opcode_toNat]
theorem sub_iff (w : BitVec 32) (n : Nat) (hn : n < 2 ^ 32) : subOpcode w = BitVec.ofNat 32 n ↔ Spec.xo w.toNat = n := by
  rw [bv32_eq_iff hn, subOpcode_toNat]

theorem bcic_iff (w : BitVec 32) : branchConditionalIsConditional w = true ↔ ¬ Spec.always w.toNat := by
  have key : ∀ x : BitVec 5, ((x.setWidth 32 &&& 0x14#32) != 0x14#32) = !(decide (x.toNat / 16 = 1 ∧ x.toNat / 4 % 2 = 1)) := by
    decide
  have h : fieldBO w = (BitVec.ofNat 5 (Spec.bo w.toNat)).setWidth 32 := by
    apply BitVec.eq_of_toNat_eq
    have : Spec.bo w.toNat < 32 := Nat.mod_lt _ (by omega)
    rw [fieldBO_toNat, BitVec.toNat_setWidth, BitVec.toNat_ofNat]; omega
  have hb : Spec.bo w.toNat < 32 := Nat.mod_lt _ (by omega)
  unfold branchConditionalIsConditional Spec.always
  rw [h]
  have := key (BitVec.ofNat 5 (Spec.bo w.toNat))
  rw [BitVec.toNat_ofNat, Nat.mod_eq_of_lt (by omega)] at this
  rw [show (20 : BitVec 32) = 0x14#32 from rfl, this]
  simp only [Bool.not_eq_true', decide_eq_false_iff_not]

/-- The classification as a function of the fields. -/
theorem classes (p x : Nat) (c : Bool) :
    ((if p = 16 ∧ c = true then true else if p = 19 then if (x = 16 ∨ x = 528) ∨ x = 560 then c else false else false) = true ↔
      let k : Spec.Kind := if p = 18 then .b else if p = 16 then .bc else if p = 17 then .sc
        else if p = 19 then if x = 16 then .bclr else if x = 528 then .bcctr else if x = 560 then .bctar
          else if x = 18 ∨ x = 50 ∨ x = 82 ∨ x = 274 then .rfx else if x = 146 then .rfebb else .other
        else .other
      (k = .bc ∨ k = .bclr ∨ k = .bcctr ∨ k = .bctar) ∧ c = true) ∧
    ((if p = 16 ∧ c = false then true else if p = 17 ∨ p = 18 then true else if p = 19 then
        if (x = 16 ∨ x = 528) ∨ x = 560 then !c else if ((x = 50 ∨ x = 18) ∨ x = 274) ∨ x = 82 then true else false
        else false) = true ↔
      let k : Spec.Kind := if p = 18 then .b else if p = 16 then .bc else if p = 17 then .sc
        else if p = 19 then if x = 16 then .bclr else if x = 528 then .bcctr else if x = 560 then .bctar
          else if x = 18 ∨ x = 50 ∨ x = 82 ∨ x = 274 then .rfx else if x = 146 then .rfebb else .other
        else .other
      (k = .bc ∨ k = .bclr ∨ k = .bcctr ∨ k = .bctar) ∧ c = false ∨ k = .b ∨ k = .sc ∨ k = .rfx) := by
  by_cases p16 : p = 16
  · subst p16; cases c <;> simp
  by_cases p17 : p = 17
  · subst p17; simp
  by_cases p18 : p = 18
  · subst p18; simp
  by_cases p19 : p = 19
  · subst p19
    by_cases x1 : x = 16
    · subst x1; simp
    by_cases x2 : x = 528
    · subst x2; simp
    by_cases x3 : x = 560
    · subst x3; simp
    by_cases x4 : x = 18 ∨ x = 50 ∨ x = 82 ∨ x = 274
    · have : ((x = 50 ∨ x = 18) ∨ x = 274) ∨ x = 82 := by omega
      simp [x1, x2, x3, x4, this]
    · have : ¬ (((x = 50 ∨ x = 18) ∨ x = 274) ∨ x = 82) := by omega
      by_cases x5 : x = 146 <;> simp [x1, x2, x3, x4, this, x5]
  · simp [p16, p17, p18, p19]

theorem isCond_iff (w : BitVec 32) : isConditionalBranch w = true ↔ Spec.conditional w.toNat := by
  have o16 := opcode_iff w 16 (by omega)
  have o19 := opcode_iff w 19 (by omega)
  have s1 := sub_iff w 16 (by omega)
  have s2 := sub_iff w 528 (by omega)
  have s3 := sub_iff w 560 (by omega)
  unfold isConditionalBranch Spec.conditional Spec.hasBO
  rw [← bcic_iff]
  simp only [BitVec.ofNat_eq_ofNat, beq_iff_eq, Bool.and_eq_true, Bool.or_eq_true, o16, o19, s1, s2, s3]
  exact (classes _ _ _).1

theorem isUncond_iff (w : BitVec 32) : isUnconditionalBranch w = true ↔
    (Spec.hasBO w.toNat ∧ Spec.always w.toNat) ∨ Spec.kind w.toNat = .b ∨ Spec.kind w.toNat = .sc ∨
      Spec.kind w.toNat = .rfx := by
  have o16 := opcode_iff w 16 (by omega)
  have o17 := opcode_iff w 17 (by omega)
  have o18 := opcode_iff w 18 (by omega)
  have o19 := opcode_iff w 19 (by omega)
  have s1 := sub_iff w 16 (by omega)
  have s2 := sub_iff w 528 (by omega)
  have s3 := sub_iff w 560 (by omega)
  have s4 := sub_iff w 50 (by omega)
  have s5 := sub_iff w 18 (by omega)
  have s6 := sub_iff w 274 (by omega)
  have s7 := sub_iff w 82 (by omega)
  have hb : branchConditionalIsConditional w = false ↔ Spec.always w.toNat := by
    have := bcic_iff w
    cases h : branchConditionalIsConditional w <;> simp_all
  unfold isUnconditionalBranch Spec.hasBO
  rw [← hb]
  simp only [BitVec.ofNat_eq_ofNat, beq_iff_eq, Bool.and_eq_true, Bool.or_eq_true, Bool.not_eq_true', o16, o17, o18, o19, s1, s2, s3,
    s4, s5, s6, s7]
  exact (classes _ _ _).2

/-- What reading leaves in the branch fields of a record. -/
structure BranchInv (r : Record) : Prop where
  branch : r.branch = true ↔ Spec.isBranchRecord r
  cond : r.conditionalBranch = true ↔ Spec.condRecord r

theorem annotateBranch_eq (r : Record) (hi : BranchInv r) (hb : r.branch = true) :
    annotateBranch r = if Spec.Asserts r then none else some (Spec.annotated r) := by
  have o16 := opcode_iff r.insn 16 (by omega)
  have o17 := opcode_iff r.insn 17 (by omega)
  have o18 := opcode_iff r.insn 18 (by omega)
  have o19 := opcode_iff r.insn 19 (by omega)
  have s1 := sub_iff r.insn 16 (by omega)
  have s2 := sub_iff r.insn 528 (by omega)
  have s3 := sub_iff r.insn 560 (by omega)
  have s4 := sub_iff r.insn 50 (by omega)
  have s5 := sub_iff r.insn 18 (by omega)
  have s6 := sub_iff r.insn 274 (by omega)
  have s7 := sub_iff r.insn 82 (by omega)
  have f1 : fieldAA r.insn = BitVec.ofNat 32 0 ↔ Spec.aa r.insn.toNat = 0 := by
    rw [bv32_eq_iff (by omega), fieldAA_toNat]
  have f2 : fieldLink r.insn = BitVec.ofNat 32 1 ↔ Spec.lk r.insn.toNat = 1 := by
    rw [bv32_eq_iff (by omega), fieldLink_toNat]
  have f3 : fieldBO r.insn = BitVec.ofNat 32 20 ↔ Spec.bo r.insn.toNat = 20 := by
    rw [bv32_eq_iff (by omega), fieldBO_toNat]
  have f4 : fieldBI r.insn = BitVec.ofNat 32 31 ↔ Spec.bi r.insn.toNat = 31 := by
    rw [bv32_eq_iff (by omega), fieldBI_toNat]
  have f5 : fieldBD r.insn = BitVec.ofNat 32 1 ↔ Spec.bd r.insn.toNat = 1 := by
    rw [bv32_eq_iff (by omega), fieldBD_toNat]
  have f6 : fieldBH r.insn = BitVec.ofNat 32 0 ↔ Spec.bh r.insn.toNat = 0 := by
    rw [bv32_eq_iff (by omega), fieldBH_toNat]
  have hc := hi.cond
  have hbc := bcic_iff r.insn
  have hal : Spec.bo r.insn.toNat = 20 → Spec.always r.insn.toNat := by
    intro h; unfold Spec.always; rw [h]; decide
  have hcf : r.conditionalBranch = false ↔ ¬ Spec.condRecord r := by rw [← hc]; simp
  have hnad : Spec.kind r.insn.toNat ≠ .bc → ¬ Spec.addressing r.insn.toNat := fun h a => h a.1
  have hlr : ∀ (_ : Spec.hasBO r.insn.toNat), (branchConditionalIsConditional r.insn = r.conditionalBranch ↔
      ¬ (Spec.conditional r.insn.toNat ∧ (r.termCode = 0x08 ∨ r.termCode = 0x10))) := by
    intro hB
    have hn : ¬ (Spec.kind r.insn.toNat = .other ∨ Spec.kind r.insn.toNat = .rfebb) := by
      rintro (h | h) <;> rw [Spec.hasBO, h] at hB <;> simp at hB
    by_cases al : Spec.always r.insn.toNat
    · have h0 : ¬ Spec.conditional r.insn.toNat := fun h => h.2 al
      have h1 : branchConditionalIsConditional r.insn = false := by
        cases h : branchConditionalIsConditional r.insn with
        | false => rfl
        | true => exact absurd al (hbc.1 h)
      have h2 : r.conditionalBranch = false := hcf.2 fun h => h.elim (fun h => h0 h.1) (fun h => hn h.1)
      simp [h0, h1, h2]
    · have h0 : Spec.conditional r.insn.toNat := ⟨hB, al⟩
      have h1 : branchConditionalIsConditional r.insn = true := hbc.2 al
      by_cases ht : r.termCode = 0x08 ∨ r.termCode = 0x10
      · have h2 : r.conditionalBranch = false := hcf.2 fun h => h.elim (fun h => h.2 ht) (fun h => hn h.1)
        rw [h1, h2]; simp only [h0, ht, true_and, not_true]; simp
      · have h2 : r.conditionalBranch = true := hc.2 (Or.inl ⟨h0, ht⟩)
        rw [h1, h2]; simp only [h0, ht, and_false, not_false_iff]
  unfold annotateBranch
  simp only [BitVec.ofNat_eq_ofNat, o16, o17, o18, o19, s1, s2, s3, s4, s5, s6, s7, f1, f2, f3, f4, f5, f6]
  clear o16 o17 o18 o19 s1 s2 s3 s4 s5 s6 s7 f1 f2 f3 f4 f5 f6 hi
  by_cases p16 : Spec.primary r.insn.toNat = 16
  · have k : Spec.kind r.insn.toNat = .bc := by simp [Spec.kind, p16]
    have hB : Spec.hasBO r.insn.toNat := .inl k
    by_cases ad : Spec.addressing r.insn.toNat
    · obtain ⟨_, a1, a2, a3, a4, a5⟩ := id ad
      have al := hal a1
      have h0 : ¬ Spec.conditional r.insn.toNat := fun h => h.2 al
      have hf : r.conditionalBranch = false := by
        rw [hcf]; rintro (h | h)
        · exact h0 h.1
        · rw [k] at h; simp at h
      have hA : ¬ Spec.Asserts r := fun h => h.2.elim (fun h => h.2.2 ad) (fun h => h0 h.1)
      simp [p16, a1, a2, a3, a4, a5, hf, hA, Spec.annotated, hb, Spec.branchType, ad, k]
    · have ad' : ¬ (Spec.aa r.insn.toNat = 0 ∧ Spec.lk r.insn.toNat = 1 ∧ Spec.bo r.insn.toNat = 20 ∧
          Spec.bi r.insn.toNat = 31 ∧ Spec.bd r.insn.toNat = 1) := fun ⟨a, b, c, d, e⟩ => ad ⟨k, c, d, e, a, b⟩
      have hA : Spec.Asserts r ↔ ¬ r.conditionalBranch = true := by
        rw [hc, Spec.Asserts, Spec.condRecord]
        simp only [k, hb, ad, Spec.conditional, hB]
        by_cases al : Spec.always r.insn.toNat <;> simp [al, Decidable.or_iff_not_imp_left]
      cases hcb : r.conditionalBranch
      · simp [p16, ad', hA, hcb]
      · simp [p16, ad', hA, hcb, Spec.annotated, hb, Spec.branchType, ad, k]
  by_cases p17 : Spec.primary r.insn.toNat = 17
  · have k : Spec.kind r.insn.toNat = .sc := by simp [Spec.kind, p17]
    have ad := hnad (by simp [k])
    have hA : ¬ Spec.Asserts r := by simp [Spec.Asserts, Spec.conditional, Spec.hasBO, k]
    simp [p17, hA, Spec.annotated, hb, Spec.branchType, ad, k]
  by_cases p18 : Spec.primary r.insn.toNat = 18
  · have k : Spec.kind r.insn.toNat = .b := by simp [Spec.kind, p18]
    have ad := hnad (by simp [k])
    have hf : r.conditionalBranch = false := by
      rw [hcf]; simp [Spec.condRecord, Spec.conditional, Spec.hasBO, k]
    have hA : ¬ Spec.Asserts r := by simp [Spec.Asserts, Spec.conditional, Spec.hasBO, k]
    simp [p18, hA, hf, Spec.annotated, hb, Spec.branchType, ad, k]
  by_cases p19 : Spec.primary r.insn.toNat = 19
  · have fin : ∀ K : Spec.Kind, Spec.kind r.insn.toNat = K → K ≠ .bc → Spec.hasBO r.insn.toNat →
        (Spec.Asserts r ↔ (Spec.conditional r.insn.toNat ∧ (r.termCode = 0x08 ∨ r.termCode = 0x10))) := by
      intro K hK hK2 hB
      unfold Spec.Asserts
      simp [hb, hK, hK2]
    by_cases x1 : Spec.xo r.insn.toNat = 16
    · have k : Spec.kind r.insn.toNat = .bclr := by simp [Spec.kind, p19, x1]
      have ad := hnad (by simp [k])
      have hB : Spec.hasBO r.insn.toNat := by simp [Spec.hasBO, k]
      have hA := fin _ k (by decide) hB
      have hl := hlr hB
      rw [← hA] at hl
      by_cases h : Spec.Asserts r <;> by_cases hh : Spec.bh r.insn.toNat = 0 <;>
        simp [p19, x1, hl, h, hh, Spec.annotated, hb, Spec.branchType, ad, k]
    by_cases x2 : Spec.xo r.insn.toNat = 528
    · have k : Spec.kind r.insn.toNat = .bcctr := by simp [Spec.kind, p19, x2]
      have ad := hnad (by simp [k])
      have hB : Spec.hasBO r.insn.toNat := by simp [Spec.hasBO, k]
      have hA := fin _ k (by decide) hB
      have hl := hlr hB
      rw [← hA] at hl
      by_cases h : Spec.Asserts r <;> simp [p19, x2, hl, h, Spec.annotated, hb, Spec.branchType, ad, k]
    by_cases x3 : Spec.xo r.insn.toNat = 560
    · have k : Spec.kind r.insn.toNat = .bctar := by simp [Spec.kind, p19, x3]
      have ad := hnad (by simp [k])
      have hB : Spec.hasBO r.insn.toNat := by simp [Spec.hasBO, k]
      have hA := fin _ k (by decide) hB
      have hl := hlr hB
      rw [← hA] at hl
      by_cases h : Spec.Asserts r <;> simp [p19, x3, hl, h, Spec.annotated, hb, Spec.branchType, ad, k]
    by_cases x4 : Spec.xo r.insn.toNat = 18 ∨ Spec.xo r.insn.toNat = 50 ∨ Spec.xo r.insn.toNat = 82 ∨
        Spec.xo r.insn.toNat = 274
    · have k : Spec.kind r.insn.toNat = .rfx := by simp [Spec.kind, p19, x1, x2, x3, x4]
      have ad := hnad (by simp [k])
      have hA : ¬ Spec.Asserts r := by simp [Spec.Asserts, Spec.conditional, Spec.hasBO, k]
      have x4' : Spec.xo r.insn.toNat = 50 ∨ Spec.xo r.insn.toNat = 18 ∨ Spec.xo r.insn.toNat = 274 ∨
        Spec.xo r.insn.toNat = 82 := by omega
      simp [p19, x1, x2, x3, x4', hA, Spec.annotated, hb, Spec.branchType, ad, k]
    · have x4' : ¬ (Spec.xo r.insn.toNat = 50 ∨ Spec.xo r.insn.toNat = 18 ∨ Spec.xo r.insn.toNat = 274 ∨
        Spec.xo r.insn.toNat = 82) := by omega
      by_cases x5 : Spec.xo r.insn.toNat = 146
      · have k : Spec.kind r.insn.toNat = .rfebb := by simp [Spec.kind, p19, x5]
        have ad := hnad (by simp [k])
        have hA : ¬ Spec.Asserts r := by simp [Spec.Asserts, Spec.conditional, Spec.hasBO, k]
        simp [p19, x5, hA, Spec.annotated, hb, Spec.branchType, ad, k]
      · have k : Spec.kind r.insn.toNat = .other := by simp [Spec.kind, p19, x1, x2, x3, x4, x5]
        have ad := hnad (by simp [k])
        have hA : ¬ Spec.Asserts r := by simp [Spec.Asserts, Spec.conditional, Spec.hasBO, k]
        simp [p19, x1, x2, x3, x4', hA, Spec.annotated, hb, Spec.branchType, ad, k]
  · have k : Spec.kind r.insn.toNat = .other := by simp [Spec.kind, p16, p17, p18, p19]
    have ad := hnad (by simp [k])
    have hA : ¬ Spec.Asserts r := by simp [Spec.Asserts, Spec.conditional, Spec.hasBO, k]
    simp [p16, p17, p18, p19, hA, Spec.annotated, hb, Spec.branchType, ad, k]

/-! ### What the sections leave in the branch fields -/

/-- The fields the annotation depends on. -/
def Record.key (r : Record) : BitVec 32 × Bool × Bool × Byte := (r.insn, r.branch, r.conditionalBranch, r.termCode)

/-- Leaves the branch fields alone. -/
def Keep {α} (x : Rd α) : Prop := ∀ m c a c', x m c = .ok a c' → c'.rcd.key = c.rcd.key

theorem Keep.bind {α β} {x : Rd α} {f : α → Rd β} (hx : Keep x) (hf : ∀ a, Keep (f a)) : Keep (x >>= f) := by
  intro m c b c' h
  cases hc : x m c with
  | ok a c1 => rw [Rd.bind_ok hc] at h; exact (hf a _ _ _ _ h).trans (hx _ _ _ _ hc)
  | err e c1 => rw [Rd.bind_err hc] at h; cases h

theorem Keep.pure {α} (a : α) : Keep (pure a : Rd α) := by intro m c a c' h; cases h; rfl
theorem Keep.getCtx : Keep getCtx := by intro m c a c' h; cases h; rfl
theorem Keep.throwErr {α} (e) : Keep (throwErr e : Rd α) := by intro m c a c' h; cases h
theorem Keep.modRec {f} (hf : ∀ r : Record, (f r).key = r.key) : Keep (modRec f) := by
  intro m c a c' h; cases h; exact hf _
theorem Keep.modSt (f) : Keep (modSt f) := by intro m c a c' h; cases h; rfl
theorem Keep.whenR {b x} (h : Keep x) : Keep (whenR b x) := by
  cases b
  · exact Keep.pure ()
  · exact h
theorem Keep.ite {α} {p : Prop} [Decidable p] {x y : Rd α} (hx : Keep x) (hy : Keep y) :
    Keep (if p then x else y) := by
  split
  · exact hx
  · exact hy
theorem Keep.get8 : Keep get8 := by
  intro m c a c' h; unfold Qt.get8 at h; split at h <;> cases h <;> rfl
theorem Keep.get16 : Keep get16 := by
  intro m c a c' h; unfold Qt.get16 at h; split at h <;> cases h <;> rfl
theorem Keep.get32 : Keep get32 := by
  intro m c a c' h; unfold Qt.get32 at h; split at h <;> cases h <;> rfl
theorem Keep.get64 : Keep get64 := by
  intro m c a c' h; unfold Qt.get64 at h; split at h <;> cases h <;> rfl
theorem Keep.skipN (n) : Keep (skipN n) := by
  intro m c a c' h; unfold Qt.skipN at h; split at h <;> cases h <;> rfl
theorem Keep.bump (n) : Keep (bump n) := by intro m c a c' h; cases h; rfl

macro "keep" : tactic => `(tactic| repeat' (first
  | exact Keep.get8 | exact Keep.get16 | exact Keep.get32 | exact Keep.get64 | exact Keep.skipN _
  | exact Keep.bump _ | assumption
  | exact Keep.pure _ | exact Keep.getCtx | exact Keep.throwErr _ | exact Keep.modSt _
  | exact Keep.modRec (fun _ => rfl)
  | apply Keep.whenR | apply Keep.ite | refine Keep.bind ?_ (fun _ => ?_)))

theorem Keep.get8n : Keep get8n := by unfold Qt.get8n; keep

theorem Keep.readInto (cap) : ∀ n k f, Keep (readInto cap n k f)
  | 0, k, f => by unfold Qt.readInto; keep
  | n + 1, k, f => by
    unfold Qt.readInto
    exact Keep.bind Keep.get64 fun _ => Keep.ite (Keep.readInto cap n _ _) (Keep.throwErr _)

theorem Keep.readRows (nr) : ∀ n k f, Keep (readRows nr n k f)
  | 0, k, f => by unfold Qt.readRows; keep
  | n + 1, k, f => by
    unfold Qt.readRows
    exact Keep.bind (Keep.readInto _ _ _ _) fun _ => Keep.readRows nr n _ _

theorem Keep.readRegs8 (cap) : ∀ n k, Keep (readRegs8 cap n k)
  | 0, k => by unfold Qt.readRegs8; keep
  | n + 1, k => by
    unfold Qt.readRegs8
    exact Keep.bind Keep.get8 fun _ => Keep.ite
      (Keep.bind Keep.get64 fun _ => Keep.bind (Keep.readRegs8 cap n _) fun _ => Keep.pure _) (Keep.throwErr _)

theorem Keep.readRegs16 (cap) : ∀ n k, Keep (readRegs16 cap n k)
  | 0, k => by unfold Qt.readRegs16; keep
  | n + 1, k => by
    unfold Qt.readRegs16
    exact Keep.bind Keep.get16 fun _ => Keep.ite
      (Keep.bind Keep.get64 fun _ => Keep.bind (Keep.readRegs16 cap n _) fun _ => Keep.pure _) (Keep.throwErr _)

theorem Keep.getRadixCount (hs gs d f3) : Keep (getRadixCount hs gs d f3) := by
  intro m c a c' h
  unfold Qt.getRadixCount at h
  split at h
  · cases hg : Qt.get8 m c with
    | ok b c1 => rw [hg] at h; cases h; exact Keep.get8 _ _ _ _ hg
    | err e c1 =>
      rw [hg] at h; cases h
      unfold Qt.get8 at hg; split at hg <;> cases hg; rfl
  · split at h <;> cases h <;> rfl

theorem Keep.walkSection (hs gs st f3 x) : Keep (walkSection hs gs st f3 x) := by
  have h1 := Keep.readInto
  have h2 := Keep.readRows
  rw [walkSection_eq]
  refine Keep.bind (Keep.getRadixCount _ _ _ _) fun _ => Keep.bind (Keep.getRadixCount _ _ _ _) fun _ => ?_
  unfold walkRest parseRadix parseRadixOnRadix
  exact Keep.ite (Keep.bind (h1 _ _ _ _) fun _ => Keep.pure _) (Keep.ite (Keep.bind (h2 _ _ _ _) fun _ =>
    Keep.bind (h1 _ _ _ _) fun _ => Keep.bind (h1 _ _ _ _) fun _ => Keep.pure _) (Keep.pure _))

theorem Keep.parseRegs : Keep parseRegs := by
  have h0 := Keep.get8n
  have h1 := fun cap n => Keep.readRegs8 cap n 0
  have h2 := fun cap n => Keep.readRegs16 cap n 0
  have h3 : Keep Qt.vsxCount := Keep.bind Keep.getCtx fun _ => Keep.ite h0 (Keep.pure _)
  unfold Qt.parseRegs
  refine Keep.bind h0 fun _ => Keep.bind h0 fun _ => Keep.bind h0 fun _ => Keep.bind h3 fun _ =>
    Keep.bind h0 fun _ => Keep.bind h0 fun _ => Keep.bind h0 fun _ => Keep.bind h0 fun _ =>
    Keep.bind h3 fun _ => Keep.bind h0 fun _ => ?_
  refine Keep.bind (h1 _ _) fun _ => Keep.bind (h1 _ _) fun _ => Keep.bind (Keep.bump _) fun _ =>
    Keep.bind (Keep.bump _) fun _ => Keep.bind (h2 _ _) fun _ => ?_
  exact Keep.bind (h1 _ _) fun _ => Keep.bind (h1 _ _) fun _ => Keep.bind (Keep.bump _) fun _ =>
    Keep.bind (Keep.bump _) fun _ => Keep.bind (h2 _ _) fun _ => Keep.bind (Keep.skipN _) fun _ => Keep.pure _

theorem Keep.combineRa (a b c) : Keep (combineRa a b c) := by unfold Qt.combineRa; keep

theorem Keep.parseHeader : Keep parseHeader := by
  have h8 := Keep.get8n
  unfold Qt.parseHeader
  refine Keep.bind (by unfold Qt.headerFlags; keep) fun a => ?_
  obtain ⟨f2, f3, h⟩ := a
  refine Keep.bind (by unfold Qt.headerIds; keep) fun _ => Keep.bind ?_ fun _ =>
    Keep.bind (by unfold Qt.headerPages; keep) fun _ => by unfold Qt.headerTail; keep
  unfold Qt.headerWalk
  exact Keep.whenR (Keep.bind Keep.getCtx fun _ => Keep.bind (Keep.walkSection _ _ _ _ _) fun _ => Keep.modSt _)

theorem Keep.peek : Keep peekInsn := by intro m c a c' h; cases h; rfl

theorem Keep.skipHeaders : ∀ fuel, Keep (skipHeaders fuel)
  | 0 => Keep.throwErr _
  | fuel + 1 => by
    unfold Qt.skipHeaders
    exact Keep.bind Keep.peek fun _ => Keep.bind Keep.getCtx fun _ => Keep.ite
      (Keep.bind Keep.parseHeader fun _ => Keep.skipHeaders fuel) (Keep.pure _)

/-- The record part of `applyNext`. -/
def nextRec (s : RState) (r : Record) : Record :=
  let r := { r with insnAddr := s.nextInsnAddr }
  let r := if s.insnPageShiftValid then
    { r with insnPageShiftValid := true, insnPageShift := s.insnPageShift } else r
  let r := if s.radixInsn.nrPtes ≠ 0 then { r with radixInsn := s.radixInsn } else r
  if s.guestInsnPageShiftValid then
    { r with guestInsnPageShiftValid := true, guestInsnPageShift := s.guestInsnPageShift } else r

theorem applyNext_rcd (c : Ctx) : (applyNext c).rcd = nextRec (applyNext c).st c.rcd := rfl

theorem Keep.applyNext : Keep (fun _ c => .ok () (applyNext c) : Rd Unit) := by
  intro m c a c' h
  cases h
  rw [applyNext_rcd]
  unfold nextRec
  simp only
  repeat' split
  all_goals rfl

/-- The part of a body before the branch fields are settled. -/
theorem Keep.beforeBranch (f f2 f3) : Keep (do
    dataAddrSection f
    dataWalkSection f f2 f3
    dataRpnSection f
    iarSection f) := by
  refine Keep.bind (by unfold Qt.dataAddrSection; keep) fun _ => ?_
  refine Keep.bind (Keep.whenR (Keep.bind Keep.getCtx fun _ => Keep.bind (Keep.walkSection _ _ _ _ _) fun _ =>
    Keep.modRec fun _ => rfl)) fun _ => ?_
  refine Keep.bind (by unfold Qt.dataRpnSection; keep) fun _ => ?_
  unfold Qt.iarSection Qt.iarFetch; keep

/-- The part of a body after the branch fields are settled. -/
theorem Keep.afterBranch (f f2 f3) : Keep (do
    insnWalkSection f f2 f3
    insnRpnSection f
    regsSection f
    seqSection f2
    insnPageSection f2
    dataPageSection f2
    guestPageSection f2) := by
  have h8 := Keep.get8n
  refine Keep.bind (Keep.bind (Keep.whenR (Keep.skipN _)) fun _ => (Keep.whenR (Keep.bind Keep.getCtx fun _ =>
    Keep.bind (Keep.walkSection _ _ _ _ _) fun _ => Keep.modSt _))) fun _ => ?_
  refine Keep.bind (by unfold Qt.insnRpnSection; keep) fun _ => ?_
  refine Keep.bind (Keep.whenR (Keep.bind Keep.parseRegs fun _ => Keep.modRec fun _ => rfl)) fun _ => ?_
  refine Keep.bind (by unfold Qt.seqSection; keep) fun _ => ?_
  refine Keep.bind (by unfold Qt.insnPageSection; keep) fun _ => ?_
  refine Keep.bind (Keep.bind (by keep) fun _ => Keep.bind Keep.getCtx fun _ =>
    Keep.whenR (Keep.bind (Keep.combineRa _ _ _) fun _ => Keep.modRec fun _ => rfl)) fun _ => ?_
  unfold Qt.guestPageSection Qt.guestInsnPage; keep

theorem Rd.bind_inv {α β} {x : Rd α} {f : α → Rd β} {m c b c'} (h : (x >>= f) m c = .ok b c') :
    ∃ a c1, x m c = .ok a c1 ∧ f a m c1 = .ok b c' := by
  cases hx : x m c with
  | ok a c1 => exact ⟨a, c1, rfl, by rwa [Rd.bind_ok hx] at h⟩
  | err e c1 => rw [Rd.bind_err hx] at h; cases h

theorem bodyPlain_split : bodyPlain = flagsSection >>= fun x => nodeSection x.1 >>= fun _ => termSection x.1 >>= fun _ =>
    (do dataAddrSection x.1; dataWalkSection x.1 x.2.1 x.2.2; dataRpnSection x.1; iarSection x.1) >>= fun _ =>
    branchSection x.1 >>= fun _ => (do
      insnWalkSection x.1 x.2.1 x.2.2
      insnRpnSection x.1
      regsSection x.1
      seqSection x.2.1
      insnPageSection x.2.1
      dataPageSection x.2.1
      guestPageSection x.2.1) := by
  unfold bodyPlain
  simp only [Rd.bind_assoc]

theorem Keep.flagsSection : Keep flagsSection := by unfold Qt.flagsSection; keep
theorem Keep.nodeSection (f) : Keep (nodeSection f) := by unfold Qt.nodeSection; keep

/-- After the termination section. -/
theorem termSection_key {f m c a c'} (h : termSection f m c = .ok a c') (h0 : c.rcd.branch = false)
    (h1 : c.rcd.conditionalBranch = false) (h2 : c.rcd.termCode = 0) :
    c'.rcd.insn = c.rcd.insn ∧
    ((has f 0x2000 = false ∧ c'.rcd.branch = false ∧ c'.rcd.conditionalBranch = false ∧ c'.rcd.termCode = 0) ∨
     (has f 0x2000 = true ∧ c'.rcd.branch = true ∧
       ((c'.rcd.conditionalBranch = true ∧ (c'.rcd.termCode = 0x40 ∨ c'.rcd.termCode = 0x80)) ∨
        (c'.rcd.conditionalBranch = false ∧ (c'.rcd.termCode = 0x08 ∨ c'.rcd.termCode = 0x10))))) := by
  unfold termSection at h
  cases hf : has f 0x2000 with
  | false => rw [hf] at h; cases h; exact ⟨rfl, .inl ⟨rfl, h0, h1, h2⟩⟩
  | true =>
    rw [hf] at h
    obtain ⟨n, c1, e1, h⟩ := Rd.bind_inv (x := get8) h
    obtain ⟨t, c2, e2, h⟩ := Rd.bind_inv (x := get8) h
    obtain ⟨_, c3, e3, h⟩ := Rd.bind_inv h
    have k1 := Keep.get8 _ _ _ _ e1
    have k2 := Keep.get8 _ _ _ _ e2
    cases e3
    have hi : c2.rcd.insn = c.rcd.insn := congrArg Prod.fst (k2.trans k1)
    unfold termCheck at h
    by_cases ht : t = 0x40 ∨ t = 0x80
    · rw [if_pos ht] at h; cases h
      exact ⟨hi, .inr ⟨rfl, rfl, .inl ⟨rfl, ht⟩⟩⟩
    · rw [if_neg ht] at h
      by_cases ht2 : t = 0x08 ∨ t = 0x10
      · rw [if_pos ht2] at h; cases h
        exact ⟨hi, .inr ⟨rfl, rfl, .inr ⟨rfl, ht2⟩⟩⟩
      · rw [if_neg ht2] at h; cases h

theorem uncond_not_cond (w : BitVec 32) (h : isUnconditionalBranch w = true) : ¬ Spec.conditional w.toNat := by
  rw [isUncond_iff] at h
  rintro ⟨hB, ha⟩
  rcases h with h | h | h | h
  · exact ha h.2
  all_goals (rw [Spec.hasBO, h] at hB; simp at hB)

theorem kind_cases (w : BitVec 32) : isUnconditionalBranch w = true ∨ Spec.conditional w.toNat ∨
    (Spec.kind w.toNat = .other ∨ Spec.kind w.toNat = .rfebb) := by
  rw [isUncond_iff]
  unfold Spec.conditional Spec.hasBO
  by_cases ha : Spec.always w.toNat <;> simp only [ha] <;> cases Spec.kind w.toNat <;> simp

theorem bodyPlain_inv {m c c'} (h : bodyPlain m c = .ok () c') (h0 : c.rcd.branch = false)
    (h1 : c.rcd.conditionalBranch = false) (h2 : c.rcd.termCode = 0) : BranchInv c'.rcd := by
  rw [bodyPlain_split] at h
  obtain ⟨x, c1, e1, h⟩ := Rd.bind_inv h
  obtain ⟨_, c2, e2, h⟩ := Rd.bind_inv h
  obtain ⟨_, c3, e3, h⟩ := Rd.bind_inv h
  obtain ⟨_, c4, e4, h⟩ := Rd.bind_inv h
  obtain ⟨_, c5, e5, h⟩ := Rd.bind_inv h
  have k6 := Keep.afterBranch _ _ _ _ _ _ _ h
  have k4 := Keep.beforeBranch _ _ _ _ _ _ _ e4
  have k2 := (Keep.nodeSection _ _ _ _ _ e2).trans (Keep.flagsSection _ _ _ _ e1)
  simp only [Record.key, Prod.mk.injEq] at k6 k4 k2
  obtain ⟨i2, b2, d2, t2⟩ := k2
  obtain ⟨i4, b4, d4, t4⟩ := k4
  obtain ⟨i6, b6, d6, t6⟩ := k6
  have k3 := termSection_key e3 (b2.trans h0) (d2.trans h1) (t2.trans h2)
  rw [← i4, ← b4, ← d4, ← t4] at k3
  obtain ⟨-, k3⟩ := k3
  have e5 : (if has x.1 0x2000 then
      modRec fun r => { r with
        branchTaken := c4.st.nextInsnAddr != r.insnAddr + 4
        conditionalBranch := if isUnconditionalBranch r.insn then false else r.conditionalBranch }
    else if isConditionalBranch c4.rcd.insn then
      modRec fun r => { r with branch := true, conditionalBranch := true }
    else pure () : Rd Unit) m c4 = .ok () c5 := e5
  have hkc := kind_cases c4.rcd.insn
  have hun := uncond_not_cond c4.rcd.insn
  have hno : (Spec.kind c4.rcd.insn.toNat = .other ∨ Spec.kind c4.rcd.insn.toNat = .rfebb) →
      ¬ Spec.conditional c4.rcd.insn.toNat ∧ isUnconditionalBranch c4.rcd.insn = false := by
    intro hk
    constructor
    · rintro ⟨hB, -⟩
      rcases hk with hk | hk <;> (rw [Spec.hasBO, hk] at hB; simp at hB)
    · cases hu : isUnconditionalBranch c4.rcd.insn with
      | false => rfl
      | true =>
        rw [isUncond_iff, Spec.hasBO] at hu
        rcases hk with hk | hk <;> (rw [hk] at hu; simp at hu)
  rcases k3 with ⟨hf, hb, hd, ht⟩ | ⟨hf, hb, hd⟩
  · rw [hf] at e5
    cases hc : isConditionalBranch c4.rcd.insn with
    | true =>
      rw [hc] at e5; cases e5
      have hco := (isCond_iff _).1 hc
      have ht' := t6.trans ht
      have hi' := i6
      constructor
      · rw [b6]; unfold Spec.isBranchRecord; rw [hi']; exact ⟨fun _ => .inr hco, fun _ => rfl⟩
      · rw [d6]; unfold Spec.condRecord; rw [hi', ht']
        exact ⟨fun _ => .inl ⟨hco, by decide⟩, fun _ => rfl⟩
    | false =>
      rw [hc] at e5; cases e5
      have hco : ¬ Spec.conditional c4.rcd.insn.toNat := fun h => by rw [(isCond_iff _).2 h] at hc; cases hc
      have ht' := t6.trans ht
      constructor
      · rw [b6, hb]; unfold Spec.isBranchRecord; rw [i6, ht']; simp [hco]
      · rw [d6, hd]; unfold Spec.condRecord; rw [i6, ht']; simp [hco]
  · rw [hf] at e5
    cases e5
    have hne : c4.rcd.termCode ≠ 0 := by
      rcases hd with ⟨_, h | h⟩ | ⟨_, h | h⟩ <;> rw [h] <;> decide
    constructor
    · rw [b6]; unfold Spec.isBranchRecord; rw [t6]
      exact ⟨fun _ => .inl hne, fun _ => hb⟩
    · rw [d6]; unfold Spec.condRecord; rw [i6, t6]
      show (if isUnconditionalBranch c4.rcd.insn = true then false else c4.rcd.conditionalBranch) = true ↔
        Spec.conditional c4.rcd.insn.toNat ∧ ¬ (c4.rcd.termCode = 8 ∨ c4.rcd.termCode = 16) ∨
        (Spec.kind c4.rcd.insn.toNat = .other ∨ Spec.kind c4.rcd.insn.toNat = .rfebb) ∧
          (c4.rcd.termCode = 64 ∨ c4.rcd.termCode = 128)
      rcases hkc with hu | hco | hk
      · have h1 := hun hu
        have h2 : ¬ (Spec.kind c4.rcd.insn.toNat = .other ∨ Spec.kind c4.rcd.insn.toNat = .rfebb) := fun h => by
          rw [(hno h).2] at hu; cases hu
        simp [hu, h1, h2]
      · have h2 : ¬ (Spec.kind c4.rcd.insn.toNat = .other ∨ Spec.kind c4.rcd.insn.toNat = .rfebb) := fun h =>
          (hno h).1 hco
        have h3 : isUnconditionalBranch c4.rcd.insn = false := by
          cases hu : isUnconditionalBranch c4.rcd.insn with
          | false => rfl
          | true => exact absurd hco (hun hu)
        rcases hd with ⟨hd, h | h⟩ | ⟨hd, h | h⟩ <;> simp [h3, hco, h2, hd, h]
      · obtain ⟨h1, h3⟩ := hno hk
        rcases hd with ⟨hd, h | h⟩ | ⟨hd, h | h⟩ <;> simp [h3, h1, hk, hd, h]

theorem plainRd_inv {m s r c'} (h : plainRd m { st := s, rcd := r } = .ok () c') : BranchInv c'.rcd := by
  unfold plainRd at h
  obtain ⟨_, c1, e1, h⟩ := Rd.bind_inv h
  obtain ⟨_, c2, e2, h⟩ := Rd.bind_inv h
  obtain ⟨_, c3, e3, h⟩ := Rd.bind_inv h
  obtain ⟨_, c4, e4, h⟩ := Rd.bind_inv h
  obtain ⟨_, c5, e5, h⟩ := Rd.bind_inv h
  cases e1
  have k2 := Keep.skipHeaders _ _ _ _ _ e2
  have k3 := Keep.applyNext m _ _ _ e3
  have k4 : c4.rcd.key = c3.rcd.key := by
    refine Keep.bind Keep.getCtx (fun _ => ?_) _ _ _ _ e4
    exact Keep.whenR (Keep.bind (Keep.combineRa _ _ _) fun _ => Keep.modRec fun _ => rfl)
  have k := k4.trans (k3.trans k2)
  unfold insnSection at e5
  obtain ⟨w, c6, e6, e5⟩ := Rd.bind_inv e5
  obtain ⟨_, c7, e7, e5⟩ := Rd.bind_inv e5
  have k6 := (Keep.get32 _ _ _ _ e6).trans k
  cases e7; cases e5
  simp only [Record.key, Prod.mk.injEq] at k6
  exact bodyPlain_inv h k6.2.1 k6.2.2.1 k6.2.2.2

/-! ### Annotation of a whole trace -/

theorem annotated_key (r : Record) : (Spec.annotated r).key = r.key := by
  unfold Spec.annotated; split <;> rfl

/-- `annotateTlbie` sets other fields than the branch annotation. -/
theorem annotateTlbie_annotated (s : RState) (r : Record) :
    annotateTlbie s (Spec.annotated r) = (annotateTlbie s r).map Spec.annotated := by
  unfold Spec.annotated
  cases hb : r.branch with
  | false =>
    have : ∀ r', annotateTlbie s r = some r' → r'.branch = false := by
      intro r' h
      unfold annotateTlbie at h
      simp only at h
      split at h
      · cases h; exact hb
      split at h
      · cases h; exact hb
      split at h
      · cases h
      split at h
      · cases h
      split at h <;> cases h
      exact hb
    rw [if_neg (by simp)]
    cases h : annotateTlbie s r with
    | none => rfl
    | some r' => simp [this r' h]
  | true =>
    rw [if_pos rfl]
    unfold annotateTlbie
    simp only
    split
    · simp [hb]
    split
    · simp [hb]
    split
    · simp
    split
    · simp
    split
    · simp
    · simp [hb]

theorem annotateTlbie_key {s : RState} {r r' : Record} (h : annotateTlbie s r = some r') : r'.key = r.key := by
  unfold annotateTlbie at h
  simp only at h
  split at h
  · cases h; rfl
  split at h
  · cases h; rfl
  split at h
  · cases h
  split at h
  · cases h
  split at h <;> cases h
  rfl

theorem asserts_key {r r' : Record} (h : r'.key = r.key) : Spec.Asserts r' ↔ Spec.Asserts r := by
  simp only [Record.key, Prod.mk.injEq] at h
  unfold Spec.Asserts
  rw [h.1, h.2.1, h.2.2.2]

/-- The tlbie part of the annotation. -/
def tlbiePart (t : Bool) (c : Ctx) : Out Unit :=
  if t then
    match annotateTlbie c.st c.rcd with
    | some r => .ok () { c with rcd := r }
    | none => .err .fail c
  else .ok () c

theorem annotateSection_false (m : Mem) (c : Ctx) (t : Bool) :
    annotateSection m (c.want (false, t)) = tlbiePart t (c.want (false, t)) := by
  have h1 : annotateSection m (c.want (false, t)) =
      (whenR ((c.want (false, t)).rcd.branch && (c.want (false, t)).st.wantBranch)
        (match annotateBranch (c.want (false, t)).rcd with
          | some r => modRec fun _ => r
          | none => throwErr .abort) >>= fun _ => getCtx >>= fun c => whenR c.st.wantTlbie
      (match annotateTlbie c.st c.rcd with
        | some r => modRec fun _ => r
        | none => throwErr .fail)) m (c.want (false, t)) := rfl
  have h2 : ((c.want (false, t)).rcd.branch && (c.want (false, t)).st.wantBranch) = false := by
    show (c.rcd.branch && false) = false; simp
  rw [h1, h2]
  cases t with
  | false => rfl
  | true =>
    show (match annotateTlbie (c.want (false, true)).st (c.want (false, true)).rcd with
        | some r => modRec fun _ => r
        | none => throwErr .fail : Rd Unit) m (c.want (false, true)) = tlbiePart true (c.want (false, true))
    unfold tlbiePart
    rw [if_pos rfl]
    generalize annotateTlbie (c.want (false, true)).st (c.want (false, true)).rcd = o
    cases o <;> rfl

theorem annotateSection_true (m : Mem) (c : Ctx) (t : Bool) (hi : BranchInv c.rcd) :
    annotateSection m (c.want (true, t)) =
      if Spec.Asserts c.rcd then .err .abort (c.want (true, t))
      else tlbiePart t { (c.want (true, t)) with rcd := Spec.annotated c.rcd } := by
  have h1 : annotateSection m (c.want (true, t)) =
      (whenR (c.rcd.branch && true)
        (match annotateBranch c.rcd with
          | some r => modRec fun _ => r
          | none => throwErr .abort) >>= fun _ => getCtx >>= fun c => whenR c.st.wantTlbie
      (match annotateTlbie c.st c.rcd with
        | some r => modRec fun _ => r
        | none => throwErr .fail)) m (c.want (true, t)) := rfl
  have h2 : ∀ r : Record, (getCtx >>= fun c => whenR c.st.wantTlbie
      (match annotateTlbie c.st c.rcd with
        | some r => modRec fun _ => r
        | none => throwErr .fail) : Rd Unit) m { (c.want (true, t)) with rcd := r } =
      tlbiePart t { (c.want (true, t)) with rcd := r } := by
    intro r
    cases t with
    | false => rfl
    | true =>
      show (match annotateTlbie (c.want (true, true)).st r with
          | some r => modRec fun _ => r
          | none => throwErr .fail : Rd Unit) m { (c.want (true, true)) with rcd := r } = _
      unfold tlbiePart
      rw [if_pos rfl]
      simp only
      generalize annotateTlbie (c.want (true, true)).st r = o
      cases o <;> rfl
  rw [h1]
  cases hb : c.rcd.branch with
  | false =>
    have hA : ¬ Spec.Asserts c.rcd := fun h => by rw [h.1] at hb; cases hb
    have ha : Spec.annotated c.rcd = c.rcd := by unfold Spec.annotated; rw [hb]; rfl
    rw [if_neg hA, ha]
    exact h2 c.rcd
  | true =>
    rw [annotateBranch_eq _ hi hb]
    by_cases hA : Spec.Asserts c.rcd
    · rw [if_pos hA, if_pos hA]; rfl
    · rw [if_neg hA, if_neg hA]; exact h2 _

theorem nextRecord_want (m : Mem) (s : RState) (b : Want) :
    nextRecord m (s.want b) = match plainRd m { st := s, rcd := .zero } with
      | .ok _ c => annotateSection m (c.want b)
      | .err e c => .err e (c.want b) := by
  unfold nextRecord
  rw [nextRecordRd_eq]
  have h := Comm.plainRd m { st := s, rcd := .zero } b
  cases hp : plainRd m { st := s, rcd := .zero } with
  | ok a c => rw [hp] at h; exact Rd.bind_ok h
  | err e c => rw [hp] at h; exact Rd.bind_err h

theorem readLoop_annotated (m : Mem) (t : Bool) : ∀ (fuel : Nat) (s : RState),
    (readLoop m fuel (s.want (true, t))).records =
      ((readLoop m fuel (s.want (false, t))).records.takeWhile (fun r => decide (¬ Spec.Asserts r))).map Spec.annotated ∧
    (t = false → (readLoop m fuel (s.want (true, t))).final =
      if ∃ r ∈ (readLoop m fuel (s.want (false, t))).records, Spec.Asserts r then .abort
      else (readLoop m fuel (s.want (false, t))).final)
  | 0, s => ⟨rfl, fun _ => by simp [readLoop]⟩
  | fuel + 1, s => by
    unfold readLoop
    rw [nextRecord_want, nextRecord_want]
    cases hp : plainRd m { st := s, rcd := .zero } with
    | err e c => simp
    | ok a c =>
      have hi := plainRd_inv hp
      simp only
      rw [annotateSection_true _ _ _ hi, annotateSection_false]
      obtain ⟨ih1, ih2⟩ := readLoop_annotated m t fuel c.st
      cases t with
      | false =>
        have ih2 := ih2 rfl
        show (match (if Spec.Asserts c.rcd then Out.err .abort (c.want (true, false))
          else .ok () { st := c.st.want (true, false), rcd := Spec.annotated c.rcd } : Out Unit) with
            | .ok _ c => { readLoop m fuel c.st with records := c.rcd :: (readLoop m fuel c.st).records }
            | .err e c => { records := [], final := e, state := c.st } : ReadResult).records =
          ((c.rcd :: (readLoop m fuel (c.st.want (false, false))).records).takeWhile _).map _ ∧
          (false = false → (match (if Spec.Asserts c.rcd then Out.err .abort (c.want (true, false))
          else .ok () { st := c.st.want (true, false), rcd := Spec.annotated c.rcd } : Out Unit) with
            | .ok _ c => { readLoop m fuel c.st with records := c.rcd :: (readLoop m fuel c.st).records }
            | .err e c => { records := [], final := e, state := c.st } : ReadResult).final =
            if ∃ r ∈ c.rcd :: (readLoop m fuel (c.st.want (false, false))).records, Spec.Asserts r then .abort
            else (readLoop m fuel (c.st.want (false, false))).final)
        by_cases hA : Spec.Asserts c.rcd
        · simp [hA]
        · simp only [if_neg hA]
          refine ⟨?_, fun _ => ?_⟩
          · simp [hA, ih1]
          · rw [ih2]; simp [hA]
      | true =>
        refine ⟨?_, fun h => by cases h⟩
        unfold tlbiePart
        have e1 : annotateTlbie (c.want (false, true)).st (c.want (false, true)).rcd = annotateTlbie c.st c.rcd := rfl
        have e2 : annotateTlbie { (c.want (true, true)) with rcd := Spec.annotated c.rcd : Ctx }.st
            (Spec.annotated c.rcd) = (annotateTlbie c.st c.rcd).map Spec.annotated := by
          rw [← annotateTlbie_annotated]; rfl
        simp only [if_true]
        rw [e1]
        rw [show annotateTlbie (c.want (true, true)).st (Spec.annotated c.rcd) = _ from e2]
        cases ht : annotateTlbie c.st c.rcd with
        | none => by_cases hA : Spec.Asserts c.rcd <;> simp [hA]
        | some r =>
          have hk := asserts_key (annotateTlbie_key ht)
          by_cases hA : Spec.Asserts c.rcd
          · have hr := hk.2 hA
            simp [hA, hr]
          · have hr : ¬ Spec.Asserts r := fun h => hA (hk.1 h)
            simp only [if_neg hA, Option.map_some]
            rw [List.takeWhile_cons, if_pos (by simp [hr]), List.map_cons]
            exact congrArg _ ih1

end Qt
