import Verif.Qt.File
/-
Properties C01, C02, C04: writing a trace and reading it back.
`Spec.Expressible` lists what the format can express; `PropsFormat.lean` shows that each part is needed.
-/
namespace Qt
open Spec

/-- C01. Writing any expressible sequence of records and reading the file back (with any bytes lying in
memory after the file) gives as many records, in order, with the same instruction words and addresses,
and then the end of the trace. -/
theorem C01_roundtrip_partial (magic : BitVec 32) (rs : List Record) (h : Expressible rs) :
    ∃ file, writeTrace magic rs = .ok file ∧ ∀ beyond,
      let R := readTrace { bytes := file, beyond := beyond } false false
      R.records.map (fun r => (r.insn, r.insnAddr)) = rs.map (fun r => (r.insn, r.insnAddr)) ∧
      R.final = .fail := by
  cases rs with
  | nil =>
    obtain ⟨file, e, H⟩ := readTrace_empty magic
    refine ⟨file, e, fun beyond => ?_⟩
    have := H beyond
    exact ⟨by simp [this.1], this.2⟩
  | cons r rs =>
    obtain ⟨file, w, e, hw, H⟩ := readTrace_closed magic r rs h
    refine ⟨file, e, fun beyond => ⟨?_, (H beyond).2.1⟩⟩
    rw [(H beyond).1]
    have hlen := sim_length (rs ++ [closer (lastOf r rs)]) r (startState magic r w)
    have key := sim_forall (fun s a => s.nextInsnAddr = a.insnAddr) (fun _ _ => True) (fun _ _ => True)
      (fun a _ o => (o.insn, o.insnAddr) = (a.insn, a.insnAddr))
      (by intro s a b hs _; unfold outOf; rw [recOut_rcd]; simp only [hs])
      (by
        intro s a b hs _
        unfold outOf; rw [recOut_st]
        simp only [iarChange, hs]
        split
        · rfl
        · rename_i h; simp at h; exact h.symm)
      (closer (lastOf r rs)) rs r (startState magic r w) rfl (chain_of_forall (fun _ _ => trivial) _)
      (chain_of_forall (fun _ _ => trivial) _) trivial
    apply List.ext_getElem?
    intro i
    rw [List.getElem?_map, List.getElem?_map]
    cases ha : (r :: rs)[i]? with
    | some a =>
      obtain ⟨o, b, h1, _, h3⟩ := key i a ha
      rw [h1]; simp [h3]
    | none =>
      have := List.getElem?_eq_none_iff.mp ha
      rw [List.getElem?_eq_none (by simp at this hlen ⊢; omega)]

/-- C02. In that round trip data addresses come back as they were written. -/
theorem C02_data_addresses (magic : BitVec 32) (rs : List Record) (h : Expressible rs) :
    ∃ file, writeTrace magic rs = .ok file ∧ ∀ (beyond : Nat → Byte) (i : Nat) (r : Record), rs[i]? = some r →
      ∃ o, (readTrace { bytes := file, beyond := beyond } false false).records[i]? = some o ∧
        o.dataAddrValid = r.dataAddrValid ∧ (r.dataAddrValid = true → o.dataAddr = r.dataAddr) := by
  cases rs with
  | nil =>
    obtain ⟨file, e, _⟩ := readTrace_empty magic
    exact ⟨file, e, fun _ i r hr => by simp at hr⟩
  | cons r rs =>
    obtain ⟨file, w, e, hw, H⟩ := readTrace_closed magic r rs h
    refine ⟨file, e, fun beyond i a ha => ?_⟩
    rw [(H beyond).1]
    obtain ⟨o, b, h1, _, h3⟩ := sim_forall (fun _ _ => True) (fun _ _ => True) (fun _ _ => True)
      (fun a _ o => o.dataAddrValid = a.dataAddrValid ∧ (a.dataAddrValid = true → o.dataAddr = a.dataAddr))
      (by intro s a b _ _; unfold outOf; rw [recOut_rcd]; simp +contextual)
      (by intros; trivial)
      (closer (lastOf r rs)) rs r (startState magic r w) trivial (chain_of_forall (fun _ _ => trivial) _)
      (chain_of_forall (fun _ _ => trivial) _) trivial i a ha
    exact ⟨o, h1, h3⟩

/-- Address that follows record `i` of the list: that of the next record, or the sequential one at the end. -/
def Spec.following (rs : List Record) (i : Nat) (r : Record) : BitVec 64 :=
  match rs[i + 1]? with
  | some n => n.insnAddr
  | none => r.insnAddr + 4

/-- C04. In that round trip each record reports the address of the following record, is reported as a taken
branch exactly when that is not the sequential address, and is reported as a branch exactly if it was
written as one, or control left the sequential path, or its instruction is a conditional branch. -/
theorem C04_branches (magic : BitVec 32) (rs : List Record) (h : Expressible rs) :
    ∃ file, writeTrace magic rs = .ok file ∧ ∀ (beyond : Nat → Byte) (i : Nat) (r : Record), rs[i]? = some r →
      ∃ o, (readTrace { bytes := file, beyond := beyond } false false).records[i]? = some o ∧
        o.nextInsnAddr = following rs i r ∧
        (o.branchTaken = true ↔ following rs i r ≠ r.insnAddr + 4) ∧
        (o.branch = true ↔ r.branch = true ∨ following rs i r ≠ r.insnAddr + 4 ∨
          isConditionalBranch r.insn = true) ∧
        (r.branch = true → isUnconditionalBranch r.insn = false → o.conditionalBranch = r.conditionalBranch) := by
  cases rs with
  | nil =>
    obtain ⟨file, e, _⟩ := readTrace_empty magic
    exact ⟨file, e, fun _ i r hr => by simp at hr⟩
  | cons r rs =>
    obtain ⟨file, w, e, hw, H⟩ := readTrace_closed magic r rs h
    refine ⟨file, e, fun beyond i a ha => ?_⟩
    rw [(H beyond).1]
    obtain ⟨o, b, h1, h2, h3⟩ := sim_forall (fun s a => s.nextInsnAddr = a.insnAddr) (fun _ _ => True)
      (fun _ _ => True)
      (fun a b o => o.nextInsnAddr = b.insnAddr ∧ (o.branchTaken = true ↔ b.insnAddr ≠ a.insnAddr + 4) ∧
        (o.branch = true ↔ a.branch = true ∨ b.insnAddr ≠ a.insnAddr + 4 ∨ isConditionalBranch a.insn = true) ∧
        (a.branch = true → isUnconditionalBranch a.insn = false → o.conditionalBranch = a.conditionalBranch))
      (by
        intro s a b hs _; unfold outOf; rw [recOut_rcd]
        simp only [hs, writeIsBranch, iarChange]
        by_cases hj : b.insnAddr = a.insnAddr + 4
        · simp only [hj]
          by_cases hb : a.branch = true <;> simp [hb] <;> grind
        · have hj' : (b.insnAddr != a.insnAddr + 4) = true := bne_iff_ne.mpr hj
          simp only [hj']
          by_cases hb : a.branch = true <;> simp [hb] <;> grind)
      (by
        intro s a b hs _
        unfold outOf; rw [recOut_st]
        simp only [iarChange, hs]
        split
        · rfl
        · rename_i h; simp at h; exact h.symm)
      (closer (lastOf r rs)) rs r (startState magic r w) rfl (chain_of_forall (fun _ _ => trivial) _)
      (chain_of_forall (fun _ _ => trivial) _) trivial i a ha
    have hf : following (r :: rs) i a = b.insnAddr := by
      rcases succ_of ha h2 with ⟨n, hn, rfl⟩ | ⟨hn, rfl⟩
      · simp [following, hn]
      · simp [following, hn, closer]
    rw [hf]
    exact ⟨o, h1, h3⟩

/-- A three-record trace with a taken branch, a data access with a page walk and a prefixed instruction
meets the hypothesis of C01, C02 and C04. -/
example : Expressible
    [ { insn := 0x48000100, insnAddr := 0x10000, branch := true },
      { insn := 0x06000000, insnAddr := 0x10100, dataAddrValid := true, dataAddr := 0x2000,
        dataRaValid := true, dataRa := 0x52000,
        radixData := { type := .hostRadix, nrPtes := 4, nrWalks := 1 } },
      { insn := 0, insnAddr := 0x10104 } ] := by
  simp [Expressible, RecordOk, ShiftsOk, WalkOk, Chain, StepOk, Jumps, IsPrefix, NoWalk]

end Qt
