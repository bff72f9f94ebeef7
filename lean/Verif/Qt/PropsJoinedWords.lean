import Verif.Qt.PropsJoined
import Verif.Stats.PropsImix
/-
Property C127: the instructions of traces joined one behind the other, and the instruction mix of them.
-/
namespace Qt
open Spec

/-- The addresses and words of the instructions of a trace. -/
def Spec.instructions (rs : List Record) : List (BitVec 64 × BitVec 32) := rs.map fun r => (r.insnAddr, r.insn)

theorem instructions_told {rs part : List Record} (h : ToldAlone rs part) : instructions part = instructions rs := by
  apply List.ext_getElem?
  intro i
  unfold instructions
  rw [List.getElem?_map, List.getElem?_map]
  cases hi : rs[i]? with
  | none =>
    rw [List.getElem?_eq_none_iff] at hi
    rw [List.getElem?_eq_none_iff.mpr (by rw [h.1]; exact hi)]
  | some r =>
    obtain ⟨o, h1, h2, -⟩ := h.2 i r hi
    rw [h1]
    obtain ⟨a, b, -⟩ := h2
    simp [a, b]

theorem instructions_parts : ∀ (ts : List (BitVec 32 × List Record)) (ps : List (List Record)), ps.length = ts.length →
    (∀ (j : Nat) (t : BitVec 32 × List Record), ts[j]? = some t → ∃ part, ps[j]? = some part ∧ ToldAlone t.2 part) →
    instructions ps.flatten = ts.flatMap fun t => instructions t.2
  | [], [], _, _ => rfl
  | [], _ :: _, h, _ => by simp at h
  | _ :: _, [], h, _ => by simp at h
  | t :: ts, p :: ps, h, H => by
    obtain ⟨part, h1, h2⟩ := H 0 t rfl
    cases h1
    have := instructions_parts ts ps (by simpa using h) fun j t hj => by
      obtain ⟨part, h3, h4⟩ := H (j + 1) t (by simpa using hj)
      exact ⟨part, by simpa using h3, h4⟩
    rw [List.flatMap_cons, ← this, ← instructions_told h2]
    simp [instructions]

/-- C127. The addresses and words read of joined traces are those of the traces, one behind the other. -/
theorem C127_instructions_partial (magic : BitVec 32) (rs : List Record) (ts : List (BitVec 32 × List Record))
    (hx : ∀ t ∈ (magic, rs) :: ts, Expressible t.2) (hc : Chain (fun t _ => EndsWhole t.2) ((magic, rs) :: ts)) :
    ∃ file, joined ((magic, rs) :: ts) = .ok file ∧ ∀ beyond,
      instructions (readTrace { bytes := file, beyond := beyond } false false).records = ((magic, rs) :: ts).flatMap fun t => instructions t.2 := by
  obtain ⟨file, e, H⟩ := C127_joined_partial magic rs ts hx hc
  refine ⟨file, e, fun beyond => ?_⟩
  obtain ⟨ps, h1, -, h2, h3⟩ := H beyond
  rw [h1]
  exact instructions_parts _ ps (by rw [h2]; rfl) h3

end Qt

namespace Stats
open Stats.Spec

/-- The instruction mix of a list of instructions. -/
def mixOf (l : List (BitVec 32)) : Option Imix := (Imix.init opcodeTable).run opcodeTable (majors opcodeTable) l

theorem mix_parts (p : BitVec 32 → Bool) : ∀ ls : List (List (BitVec 32)),
    BitVec.ofNat 64 (ls.flatten.filter p).length = (ls.map fun l => BitVec.ofNat 64 (l.filter p).length).sum
  | [] => rfl
  | l :: ls => by
    rw [List.flatten_cons, List.filter_append, List.length_append, BitVec.ofNat_add, mix_parts p ls, List.map_cons, List.sum_cons]

/-- C127. The counters of the mix of several lists one behind the other are the sums of theirs. -/
theorem mix_joined (ls : List (List (BitVec 32))) : ∃ (s : Imix) (ss : List Imix), mixOf ls.flatten = some s ∧ ls.map mixOf = ss.map some ∧
    s.unknown = (ss.map (·.unknown)).sum ∧ ∀ k < opcodeTable.length, s.counts[k]? = some (ss.map fun t => t.counts.getD k 0).sum := by
  obtain ⟨s, h1, h2⟩ := C28_counts_partial table_covered ls.flatten
  have hss : ∃ ss : List Imix, ls.map mixOf = ss.map some ∧
      ss.map (·.unknown) = ls.map (fun l => BitVec.ofNat 64 (l.filter fun w => kind opcodeTable.dropLast w == none).length) ∧
      ∀ k < opcodeTable.length, (ss.map fun t => t.counts.getD k 0) =
        ls.map (fun l => BitVec.ofNat 64 (l.filter fun w => kind opcodeTable.dropLast w == some k).length) := by
    clear h1 h2 s
    induction ls with
    | nil => exact ⟨[], rfl, rfl, fun _ _ => rfl⟩
    | cons l ls ih =>
      obtain ⟨ss, i1, i2, i3⟩ := ih
      obtain ⟨t, t1, t2⟩ := C28_counts_partial table_covered l
      refine ⟨t :: ss, ?_, ?_, fun k hk => ?_⟩
      · rw [List.map_cons, List.map_cons, i1]
        exact congrArg (· :: _) t1
      · rw [List.map_cons, List.map_cons, i2, t2.unknown]
      · rw [List.map_cons, List.map_cons, i3 k hk]
        congr 1
        rw [List.getD_eq_getElem?_getD, t2.counts, counters_get, if_pos hk]
        rfl
  obtain ⟨ss, i1, i2, i3⟩ := hss
  refine ⟨s, ss, h1, i1, ?_, fun k hk => ?_⟩
  · rw [h2.unknown, i2, mix_parts]
  · rw [h2.counts, counters_get, if_pos hk, i3 k hk, mix_parts]

end Stats

namespace Qt
open Spec

/-- C127. Every counter of the instruction mix of joined traces is the sum of that counter over the traces, and so is the number of unknown instructions. -/
theorem C127_mix_partial (magic : BitVec 32) (rs : List Record) (ts : List (BitVec 32 × List Record))
    (hx : ∀ t ∈ (magic, rs) :: ts, Expressible t.2) (hc : Chain (fun t _ => EndsWhole t.2) ((magic, rs) :: ts)) :
    ∃ file, joined ((magic, rs) :: ts) = .ok file ∧ ∀ beyond, ∃ (s : Stats.Imix) (ss : List Stats.Imix),
      Stats.mixOf ((readTrace { bytes := file, beyond := beyond } false false).records.map (·.insn)) = some s ∧
      ((magic, rs) :: ts).map (fun t => Stats.mixOf (t.2.map (·.insn))) = ss.map some ∧
      s.unknown = (ss.map (·.unknown)).sum ∧ ∀ k < Stats.opcodeTable.length, s.counts[k]? = some (ss.map fun t => t.counts.getD k 0).sum := by
  obtain ⟨file, e, H⟩ := C127_instructions_partial magic rs ts hx hc
  refine ⟨file, e, fun beyond => ?_⟩
  have h := congrArg (List.map Prod.snd) (H beyond)
  have e1 : ∀ l : List Record, (instructions l).map Prod.snd = l.map (·.insn) := by
    intro l; unfold instructions; rw [List.map_map]; rfl
  rw [e1, List.map_flatMap] at h
  have e2 : (((magic, rs) :: ts).flatMap fun t => (instructions t.2).map Prod.snd) = (((magic, rs) :: ts).map fun t => t.2.map (·.insn)).flatten := by
    rw [← List.flatMap_def]
    exact congrArg (fun f => List.flatMap f ((magic, rs) :: ts)) (funext fun t => e1 t.2)
  rw [h, e2]
  obtain ⟨s, ss, h1, h2, h3, h4⟩ := Stats.mix_joined (((magic, rs) :: ts).map fun t => t.2.map (·.insn))
  rw [List.map_map] at h2
  exact ⟨s, ss, h1, h2, h3, h4⟩

/-- Two traces meet the hypotheses, and an instruction of the second is counted. -/
example :
    let ts : List (BitVec 32 × List Record) :=
      [(1, [{ insn := 0x4E800020, insnAddr := 0x10004 }, { insn := 0x60000000, insnAddr := 0x3000 }]),
       (2, [{ insn := 0x60000000, insnAddr := 0x40000, insnRaValid := true, insnRa := 0xC0000 }])]
    (∀ t ∈ ts, Expressible t.2) ∧ Chain (fun t _ => EndsWhole t.2) ts ∧
    (ts.flatMap fun t => instructions t.2) = [(0x10004, 0x4E800020), (0x3000, 0x60000000), (0x40000, 0x60000000)] := by
  simp [Expressible, RecordOk, ShiftsOk, WalkOk, Chain, StepOk, Jumps, NoWalk, EndsWhole, IsPrefix, instructions]

end Qt
