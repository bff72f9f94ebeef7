import Verif.Qt.Retarget
import Verif.Qt.PropsFormat
/-!
Properties C12, C13 and C14: branch annotation, classification of instruction words and retargeting.
The specification is in `SpecBranch`.
-/
namespace Qt

/-! ### C12 -/

/-- C12, the part that holds.  Reading any byte string with branch annotation gives the same records as reading it
without, each carrying the branch type the instruction word prescribes, up to the first record of a kind on which the
code fails an assertion (`Spec.Asserts`). -/
theorem C12_annotation_partial (m : Mem) (tlbie : Bool) :
    (readTrace m true tlbie).records =
      ((readTrace m false tlbie).records.takeWhile (fun r => decide (¬ Spec.Asserts r))).map Spec.annotated := by
  unfold readTrace
  cases h : readerInit m with
  | err e c => simp
  | ok a c => exact (readLoop_annotated m tlbie _ c.st).1

/-- C12: reading aborts exactly when such a record occurs; otherwise it ends as without annotation. -/
theorem C12_abort_partial (m : Mem) :
    (readTrace m true false).final =
      if ∃ r ∈ (readTrace m false false).records, Spec.Asserts r then .abort else (readTrace m false false).final := by
  unfold readTrace
  cases h : readerInit m with
  | err e c => simp
  | ok a c => exact (readLoop_annotated m false _ c.st).2 rfl

/-- C12: what a record says about being a branch is determined by its instruction and termination code. -/
theorem C12_branch_fields (m : Mem) (tlbie : Bool) :
    ∀ r ∈ (readTrace m false tlbie).records,
      (r.branch = true ↔ Spec.isBranchRecord r) ∧ (r.conditionalBranch = true ↔ Spec.condRecord r) := by
  have loop : ∀ fuel s, ∀ r ∈ (readLoop m fuel (RState.want (false, tlbie) s)).records, BranchInv r := by
    intro fuel
    induction fuel with
    | zero => intro s r hr; simp [readLoop] at hr
    | succ fuel ih =>
      intro s r hr
      unfold readLoop at hr
      rw [nextRecord_want] at hr
      cases hp : plainRd m { st := s, rcd := .zero } with
      | err e c => rw [hp] at hr; simp at hr
      | ok a c =>
        rw [hp] at hr
        simp only [annotateSection_false] at hr
        have hi := plainRd_inv hp
        unfold tlbiePart at hr
        cases tlbie with
        | false =>
          simp only [Bool.false_eq_true, if_false] at hr
          rcases List.mem_cons.1 hr with rfl | hr
          · exact hi
          · exact ih c.st r hr
        | true =>
          simp only [if_true] at hr
          have e1 : annotateTlbie (c.want (false, true)).st (c.want (false, true)).rcd = annotateTlbie c.st c.rcd := rfl
          rw [e1] at hr
          cases ht : annotateTlbie c.st c.rcd with
          | none => rw [ht] at hr; simp at hr
          | some r' =>
            rw [ht] at hr
            simp only at hr
            rcases List.mem_cons.1 hr with rfl | hr
            · have hk := annotateTlbie_key ht
              simp only [Record.key, Prod.mk.injEq] at hk
              obtain ⟨k1, k2, k3, k4⟩ := hk
              refine ⟨?_, ?_⟩
              · rw [k2, hi.branch]; unfold Spec.isBranchRecord; rw [k1, k4]
              · rw [k3, hi.cond]; unfold Spec.condRecord; rw [k1, k4]
            · exact ih c.st r hr
  intro r hr
  unfold readTrace at hr
  cases h : readerInit m with
  | err e c => rw [h] at hr; simp at hr
  | ok a c =>
    rw [h] at hr
    have := loop _ c.st r hr
    exact ⟨this.branch, this.cond⟩

/-- A trace of one header and the given instructions, each with the given termination code. -/
def branchTrace (l : List (BitVec 32 × Byte)) : Mem :=
  { bytes := be32 0 ++ be16 1 ++ be16 2 ++ be16 0 ++ l.flatMap fun x => be32 x.1 ++ be16 0x2000 ++ [0, x.2]
    beyond := fun _ => 0 }

/-- A call, a conditional branch, a return, a system call and an interrupt, all annotated; then the records after an
unconditional `bc` are lost. -/
example :
    (readTrace (branchTrace [(0x48000101, 0x08), (0x41820010, 0x40), (0x4e800020, 0x08), (0x44000002, 0x10),
      (0x60000000, 0x10)]) true false).records.map (·.branchType) =
        [.call, .branch, .ret, .systemCallException, .asyncException] ∧
    (readTrace (branchTrace [(0x48000101, 0x08), (0x41820010, 0x40), (0x4e800020, 0x08), (0x44000002, 0x10),
      (0x60000000, 0x10)]) true false).final = .fail ∧
    (readTrace (branchTrace [(0x48000101, 0x08), (0x42800008, 0x08), (0x4e800020, 0x08)]) true false).records.length = 1 ∧
    (readTrace (branchTrace [(0x48000101, 0x08), (0x42800008, 0x08), (0x4e800020, 0x08)]) false false).records.length = 3 := by
  decide +kernel

/-- C12 fails as stated: a valid trace holding an unconditional `bc` (`bc 20,0,8`, termination code "unconditional")
makes the annotating reader abort. -/
theorem C12_never_aborts_refuted :
    ¬ ∀ m : Mem, (readTrace m true false).final ≠ .abort := by
  intro h
  exact h (branchTrace [(0x42800008, 0x08)]) (by decide +kernel)

/-- C12 fails as stated: a conditional branch that ends in an exception also does. -/
theorem C12_exception_abort_refuted :
    (readTrace (branchTrace [(0x41820010, 0x10)]) true false).final = .abort := by
  decide +kernel

/-- C12 fails as stated: `blr`, whose target is in the link register, is reported as a direct branch. -/
theorem C12_direct_refuted :
    ¬ ∀ (m : Mem) (r : Record), r ∈ (readTrace m true false).records → r.branch = true →
      (Spec.kind r.insn.toNat = .bclr → r.branchDirect = false) := by
  intro h
  let m := branchTrace [(0x4e800020, 0x08)]
  have h1 : ((readTrace m true false).records.map fun r => (r.branch, Spec.kind r.insn.toNat, r.branchDirect)) =
      [(true, .bclr, true)] := by decide +kernel
  cases hr : (readTrace m true false).records with
  | nil => rw [hr] at h1; simp at h1
  | cons r l =>
    rw [hr] at h1
    simp only [List.map_cons, List.cons.injEq, Prod.mk.injEq] at h1
    have := h m r (by rw [hr]; simp) h1.1.1 h1.1.2.1
    rw [h1.1.2.2] at this; cases this

/-! ### C13 -/

/-- C13. The conditional branches are exactly the `bc`, `bclr`, `bcctr` and `bctar` encodings whose `BO` field is not
"branch always". -/
theorem C13_conditional (w : BitVec 32) : isConditionalBranch w = true ↔ Spec.conditional w.toNat := isCond_iff w

/-- C13. The unconditional branches are exactly those with "branch always", and `b`, `sc`/`scv`, `rfid`, `rfi`, `rfscv`
and `hrfid`. -/
theorem C13_unconditional (w : BitVec 32) : isUnconditionalBranch w = true ↔
    (Spec.hasBO w.toNat ∧ Spec.always w.toNat) ∨
      Spec.kind w.toNat = .b ∨ Spec.kind w.toNat = .sc ∨ Spec.kind w.toNat = .rfx := isUncond_iff w

/-- C13. No instruction is both. -/
theorem C13_exclusive (w : BitVec 32) : ¬ (isConditionalBranch w = true ∧ isUnconditionalBranch w = true) :=
  fun ⟨h1, h2⟩ => uncond_not_cond w h2 ((isCond_iff w).1 h1)

/-- C13, the part that holds: a word is taken for a branch iff it is one of the ISA's branches other than `rfebb`. -/
theorem C13_is_branch_partial (w : BitVec 32) : isBranch w = true ↔
    Spec.kind w.toNat ≠ .other ∧ Spec.kind w.toNat ≠ .rfebb := by
  unfold isBranch
  rw [Bool.or_eq_true, isCond_iff]
  constructor
  · rintro (⟨h, -⟩ | h)
    · rcases h with h | h | h | h <;> rw [h] <;> decide
    · rw [isUncond_iff] at h
      rcases h with ⟨h | h | h | h, -⟩ | h | h | h <;> rw [h] <;> decide
  · rintro ⟨h1, h2⟩
    rcases kind_cases w with h | h | h | h
    · exact .inr h
    · exact .inl h
    · exact absurd h h1
    · exact absurd h h2

/-- C13 fails for `rfebb`, which is not recognised as a branch. -/
theorem C13_rfebb_refuted : ¬ ∀ w : BitVec 32, isBranch w = true ↔ Spec.kind w.toNat ≠ .other := by
  intro h
  exact absurd ((h 0x4c000124).2 (by decide)) (by decide)

/-- Words of each class: `beq`, `bdnz`, `beqlr`, `b`, `blr`, `bctr`, `sc`, `rfid`, `addi`. -/
example :
    Spec.conditional 0x41820010 ∧ Spec.conditional 0x4200fff0 ∧ Spec.conditional 0x4d820020 ∧
    ¬ Spec.conditional 0x48000000 ∧ ¬ Spec.conditional 0x4e800020 ∧
    Spec.kind 0x48000000 = .b ∧ Spec.kind 0x4e800420 = .bcctr ∧ Spec.kind 0x44000002 = .sc ∧
    Spec.kind 0x4c000024 = .rfx ∧ Spec.kind 0x38600000 = .other := by decide

/-! ### C14 -/

/-- C14. Retargeting an I-form or B-form branch to a reachable address gives a branch of the same kind with the same
link, absolute and condition fields whose target is the requested one. -/
theorem C14_retarget (w : BitVec 32) (pc t : BitVec 64) (hk : Spec.kind w.toNat = .b ∨ Spec.kind w.toNat = .bc)
    (h : Spec.reachable w.toNat pc t) :
    let v := (setBranchTarget w pc t).toNat
    Spec.target v pc = t ∧ Spec.kind v = Spec.kind w.toNat ∧ Spec.lk v = Spec.lk w.toNat ∧ Spec.aa v = Spec.aa w.toNat ∧
      (Spec.kind w.toNat = .bc → Spec.bo v = Spec.bo w.toNat ∧ Spec.bi v = Spec.bi w.toNat) := by
  intro v
  obtain ⟨h4, hr⟩ := h
  rcases hk with hk | hk
  · have e : setBranchTarget w pc t = createBranch pc t w := by
      unfold setBranchTarget; rw [if_pos ((iform_iff w).2 hk)]
    rw [if_pos hk] at hr
    obtain ⟨hv, ht⟩ := createBranch_ok w pc t _ rfl h4 hr.1 hr.2
    have hv' : v = _ := (congrArg BitVec.toNat e).trans hv
    have ho : (if Spec.aa w.toNat = 1 then t else t - pc).toNat % 4 = 0 := toNat_mod4 h4
    generalize (if Spec.aa w.toNat = 1 then t else t - pc).toNat = o at *
    refine ⟨?_, ?_, ?_, ?_, ?_⟩
    · rw [show v = (createBranch pc t w).toNat from congrArg BitVec.toNat e]; exact ht
    · rw [hk]; apply kind_of_18; rw [hv', Nat.add_assoc]; exact primary_sum _ _ (by omega)
    · rw [hv']; unfold Spec.lk; omega
    · rw [hv']; unfold Spec.aa; omega
    · intro h; rw [hk] at h; cases h
  · have e : setBranchTarget w pc t = createCondBranch pc t w := by
      unfold setBranchTarget
      rw [if_neg (fun h => by rw [(iform_iff w).1 h] at hk; cases hk), if_pos ((bform_iff w).2 hk)]
    rw [if_neg (by rw [hk]; decide)] at hr
    obtain ⟨hv, ht⟩ := createCond_ok w pc t _ rfl h4 hr.1 hr.2
    have hv' : v = _ := (congrArg BitVec.toNat e).trans hv
    have ho : (if Spec.aa w.toNat = 1 then t else t - pc).toNat % 4 = 0 := toNat_mod4 h4
    generalize (if Spec.aa w.toNat = 1 then t else t - pc).toNat = o at *
    refine ⟨?_, ?_, ?_, ?_, ?_⟩
    · rw [show v = (createCondBranch pc t w).toNat from congrArg BitVec.toNat e]; exact ht
    · rw [hk]; apply kind_of_16; rw [hv', Nat.add_assoc, Nat.add_assoc]; exact primary_sum _ _ (by omega)
    · rw [hv']; unfold Spec.lk; omega
    · rw [hv']; unfold Spec.aa; omega
    · intro _
      rw [hv']; unfold Spec.bo Spec.bi; omega

/-- C14. An unreachable target is refused: the result is the invalid instruction 0. -/
theorem C14_refused (w : BitVec 32) (pc t : BitVec 64) (hk : Spec.kind w.toNat = .b ∨ Spec.kind w.toNat = .bc)
    (h : ¬ Spec.reachable w.toNat pc t) : setBranchTarget w pc t = 0 := by
  have hd : (if Spec.aa w.toNat = 1 then t else t - pc).toInt = Spec.distance w.toNat pc t := rfl
  rcases hk with hk | hk
  · unfold setBranchTarget; rw [if_pos ((iform_iff w).2 hk)]
    unfold createBranch
    simp only
    rw [offset_eq]
    rw [if_neg]
    intro hr
    unfold isOffsetInBranchRange at hr
    simp only [Bool.and_eq_true, decide_eq_true_eq, and3_iff, hd] at hr
    apply h
    unfold Spec.reachable
    rw [if_pos hk]
    omega
  · unfold setBranchTarget
    rw [if_neg (fun h => by rw [(iform_iff w).1 h] at hk; cases hk), if_pos ((bform_iff w).2 hk)]
    unfold createCondBranch
    simp only
    rw [offset_eq]
    rw [if_pos]
    cases hr : (decide ((if Spec.aa w.toNat = 1 then t else t - pc).toInt < -0x8000) ||
      decide ((if Spec.aa w.toNat = 1 then t else t - pc).toInt > 0x7FFF) ||
      ((if Spec.aa w.toNat = 1 then t else t - pc) &&& 3 != 0)) with
    | true => rfl
    | false =>
      simp only [Bool.or_eq_false_iff, decide_eq_false_iff_not, bne, Bool.not_eq_false', and3_iff, hd] at hr
      exfalso; apply h
      unfold Spec.reachable
      rw [if_neg (by rw [hk]; decide)]
      omega

/-- C14. A success is never the invalid instruction, so the two outcomes can be told apart. -/
theorem C14_success_nonzero (w : BitVec 32) (pc t : BitVec 64) (hk : Spec.kind w.toNat = .b ∨ Spec.kind w.toNat = .bc)
    (h : Spec.reachable w.toNat pc t) : setBranchTarget w pc t ≠ 0 := by
  intro h0
  have := (C14_retarget w pc t hk h).2.1
  rw [h0] at this
  rcases hk with hk | hk <;> (rw [hk] at this; exact absurd this (by decide))

/-- C14. Other instructions are left alone, and have no target. -/
theorem C14_other (w : BitVec 32) (pc t : BitVec 64) (hb : Spec.kind w.toNat ≠ .b) (hc : Spec.kind w.toNat ≠ .bc) :
    setBranchTarget w pc t = w ∧ hasBranchTarget w = false ∧ branchTarget w pc = 0 := by
  have h1 : hasBranchTarget w = false := by
    unfold hasBranchTarget
    rw [Bool.or_eq_false_iff, ← Bool.not_eq_true, ← Bool.not_eq_true, iform_iff, bform_iff]
    exact ⟨hb, hc⟩
  refine ⟨?_, h1, ?_⟩
  · unfold setBranchTarget
    rw [if_neg (fun h => hb ((iform_iff w).1 h)), if_neg (fun h => hc ((bform_iff w).1 h))]
  · unfold branchTarget
    rw [h1]; rfl

/-- C14, the part of the code's own decoder that holds: relative branches at word-aligned addresses. -/
theorem C14_decode_partial (w : BitVec 32) (pc : BitVec 64) (hk : Spec.kind w.toNat = .b ∨ Spec.kind w.toNat = .bc)
    (ha : Spec.aa w.toNat = 0) (hp : pc.toNat % 4 = 0) : branchTarget w pc = Spec.target w.toNat pc := by
  have h1 : isBranchAbsolute (pc.setWidth 32) = false := by
    unfold isBranchAbsolute
    rw [bne_eq_false_iff_eq]
    have := (aa_iff (pc.setWidth 32)).2 (by unfold Spec.aa; rw [BitVec.toNat_setWidth]; omega)
    rwa [beq_iff_eq] at this
  have h2 : hasBranchTarget w = true := by
    unfold hasBranchTarget
    rw [Bool.or_eq_true, iform_iff, bform_iff]; exact hk
  unfold branchTarget
  rw [h2, h1]
  unfold Spec.target Spec.displacement
  simp only [Bool.false_eq_true, if_false, if_true, ha]
  rcases hk with hk | hk
  · rw [if_pos ((iform_iff w).2 hk), if_pos hk, iformTarget_eq]; rfl
  · rw [if_neg (fun h => by rw [(iform_iff w).1 h] at hk; cases hk), if_neg (by rw [hk]; decide), bformTarget_eq]; rfl

/-- C14. For absolute branches the code's decoder is always wrong: it adds the address of the branch, for every
word-aligned non-zero address. -/
theorem C14_decode_absolute_refuted (w : BitVec 32) (pc : BitVec 64)
    (hk : Spec.kind w.toNat = .b ∨ Spec.kind w.toNat = .bc) (ha : Spec.aa w.toNat = 1) (hp : pc.toNat % 4 = 0)
    (hz : pc ≠ 0) : branchTarget w pc = Spec.target w.toNat pc + pc ∧ branchTarget w pc ≠ Spec.target w.toNat pc := by
  have h1 : isBranchAbsolute (pc.setWidth 32) = false := by
    unfold isBranchAbsolute
    rw [bne_eq_false_iff_eq]
    have := (aa_iff (pc.setWidth 32)).2 (by unfold Spec.aa; rw [BitVec.toNat_setWidth]; omega)
    rwa [beq_iff_eq] at this
  have h2 : hasBranchTarget w = true := by
    unfold hasBranchTarget
    rw [Bool.or_eq_true, iform_iff, bform_iff]; exact hk
  have e : branchTarget w pc = Spec.target w.toNat pc + pc := by
    unfold branchTarget
    rw [h2, h1]
    unfold Spec.target Spec.displacement
    simp only [Bool.false_eq_true, if_false, if_true, ha, BitVec.ofNat_eq_ofNat, BitVec.add_zero]
    rcases hk with hk | hk
    · rw [if_pos ((iform_iff w).2 hk), if_pos hk, iformTarget_eq]
    · rw [if_neg (fun h => by rw [(iform_iff w).1 h] at hk; cases hk), if_neg (by rw [hk]; decide), bformTarget_eq]
  refine ⟨e, ?_⟩
  rw [e]
  intro h
  apply hz
  have := congrArg BitVec.toNat h
  rw [BitVec.toNat_add] at this
  apply BitVec.eq_of_toNat_eq
  have h1 := pc.isLt
  have h2 := (Spec.target w.toNat pc).isLt
  show pc.toNat = 0
  omega

/-- Reachable: a backward `bl` over the full range, a forward `beq`; one step further is not.  An absolute branch
retargeted at a low address. -/
example :
    Spec.reachable 0x48000001 0x10000000 0xe000000 ∧ ¬ Spec.reachable 0x48000001 0x10000000 0xdfffffc ∧
    setBranchTarget 0x48000001 0x10000000 0xe000000 = 0x4a000001 ∧
    Spec.reachable 0x41820010 0x10000000 0x10007ffc ∧ ¬ Spec.reachable 0x41820010 0x10000000 0x10008000 ∧
    setBranchTarget 0x41820010 0x10000000 0x10007ffc = 0x41827ffc ∧
    Spec.reachable 0x48000003 0x10000000 0x100 ∧ branchTarget 0x48000103 0x10000000 = 0x10000100 := by
  unfold Spec.reachable; decide

end Qt
