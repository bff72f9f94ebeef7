import Verif.Dis.Counts
import Verif.Dis.Props
import Verif.Stats.PropsStats
import Verif.Stats.PropsImix
import Verif.Stats.PropsBbExact
import Verif.Ptracer.PropsLive
/-!
Property C91: the numbers that qtdis prints with -s, -i and -c are those of the traced program.
-/
namespace Dis
open Qt DisSpec
open Qt.Spec (Expressible)

/-- The instructions that the records stand for: a prefixed one is a single instruction, at the address of its prefix. -/
def program (rs : List Record) : List Stats.Insn := (instructions rs).map fun x => ⟨x.1.insnAddr, x.1.insn⟩

theorem counted_written (magic : BitVec 32) (rs : List Record) (h : Expressible rs) (hc : Complete rs) :
    ∃ file, writeTrace magic rs = .ok file ∧ ∀ beyond, counted { bytes := file, beyond := beyond } = some (program rs) := by
  obtain ⟨f1, e1, R1⟩ := C01_roundtrip_partial magic rs h
  obtain ⟨f2, e2, R2⟩ := C63_written_partial magic rs h hc
  rw [e1] at e2
  obtain rfl := WRes.ok.inj e2
  refine ⟨f1, e1, fun beyond => ?_⟩
  have hw : (readTrace { bytes := f1, beyond := beyond } false false).records.map (·.insn) = rs.map (·.insn) := by
    have := congrArg (List.map Prod.fst) (R1 beyond).1
    simpa [List.map_map, Function.comp_def] using this
  have hfin := (C65_listing_partial { bytes := f1, beyond := beyond } ((instructions_map (fun r => (r.insn, r.insnAddr)) _ _ rs (Nat.le_refl _) hw (R1 beyond).1).2 hc)).2
  unfold counted program
  simp only [hfin, (R1 beyond).2]
  have := congrArg (List.map fun x : BitVec 64 × BitVec 32 => (⟨x.1, x.2⟩ : Stats.Insn)) (R2 beyond)
  simpa [List.map_map, Function.comp_def, line] using this

/-- C91 (partial). For every trace that can be written and does not end within an instruction, `qtdis -s` prints the counters that
C27 gives for the instructions of the program (`Stats.Counts`): in all, in the kernel, in the firmware, in libraries and binaries, system
calls and hypervisor calls by number, exceptions by vector. -/
theorem C91_statistics_partial (magic : BitVec 32) (rs : List Record) (h : Expressible rs) (hc : Complete rs) :
    ∃ file, writeTrace magic rs = .ok file ∧ ∀ beyond, ∃ s, statistics { bytes := file, beyond := beyond } = some s ∧
      Stats.Counts Stats.tables (program rs).reverse s := by
  obtain ⟨file, e, H⟩ := counted_written magic rs h hc
  obtain ⟨s, h1, h2⟩ := Stats.C27_counts Stats.tables_good (program rs)
  exact ⟨file, e, fun beyond => ⟨s, by unfold statistics; rw [H beyond]; exact h1, h2⟩⟩

/-- C91 (partial). With -i every instruction of the program is counted once, under the first entry of the opcode table that has the bits of
its (first) word, or as unknown. -/
theorem C91_mix_partial (magic : BitVec 32) (rs : List Record) (h : Expressible rs) (hc : Complete rs) :
    ∃ file, writeTrace magic rs = .ok file ∧ ∀ beyond, ∃ s, mix { bytes := file, beyond := beyond } = some s ∧
      Stats.Mixed Stats.opcodeTable ((program rs).map (·.insn)) s ∧
      ((program rs).length < 2 ^ 64 → (s.counts.map (·.toNat)).sum + s.unknown.toNat = (program rs).length) := by
  obtain ⟨file, e, H⟩ := counted_written magic rs h hc
  obtain ⟨s, h1, h2⟩ := Stats.C28_counts_partial Stats.table_covered ((program rs).map (·.insn))
  refine ⟨file, e, fun beyond => ⟨s, by unfold mix; rw [H beyond]; exact h1, h2, fun hl => ?_⟩⟩
  obtain ⟨s', h3, h4⟩ := Stats.C28_once_partial Stats.table_covered ((program rs).map (·.insn)) (by simpa using hl)
  rw [h1] at h3
  obtain rfl := Option.some.inj h3
  simpa using h4

/-- C91 (partial). With -c every address of the program is counted as often as an instruction was executed there. -/
theorem C91_blocks_partial (magic : BitVec 32) (rs : List Record) (h : Expressible rs) (hc : Complete rs)
    (hd : (Bb.Spec.firsts ((program rs).map (·.ea))).length ≤ 2 ^ 30) :
    ∃ file, writeTrace magic rs = .ok file ∧ ∀ beyond, ∃ s, blocks { bytes := file, beyond := beyond } = some s ∧
      (s.entries.map (·.ea)).Nodup ∧ (∀ a, a ∈ s.entries.map (·.ea) ↔ a ∈ (program rs).map (·.ea)) ∧
      (∀ b ∈ s.entries, b.hit = BitVec.ofNat 64 (((program rs).map (·.ea)).count b.ea)) ∧
      s.num = BitVec.ofNat 64 (program rs).length := by
  obtain ⟨file, e, H⟩ := counted_written magic rs h hc
  obtain ⟨s, h1, h2, h3, h4, h5⟩ := (Bb.C29_exact ((program rs).map (·.ea))).1 hd
  exact ⟨file, e, fun beyond => ⟨s, by unfold blocks; rw [H beyond]; exact h1, h2, h3, fun b hb => (h4 b hb).1, by simpa using h5⟩⟩

theorem instructions_unprefixed : ∀ rs : List Record, (∀ r ∈ rs, ¬ IsPrefix r.insn) → instructions rs = rs.map (fun r => (r, none))
  | [], _ => rfl
  | [r], _ => rfl
  | r :: s :: rest, h => by
    rw [instructions, if_neg (h r (List.mem_cons_self ..)), instructions_unprefixed (s :: rest) fun x hx => h x (List.mem_cons_of_mem _ hx)]
    rfl

/-- C91 (partial). For a program without prefixed instructions, traced live, the counters of `qtdis -s` are those of the instructions
executed, those of `-c` how often each address was executed. -/
theorem C91_live_partial (xlate : Bool) (extra : Nat) (xs : List Ptr.Seen) (ht : LiveSpec.Traceable xs)
    (ha : xlate = true → LiveSpec.Answers xs) (hp : ∀ x ∈ xs, ¬ IsPrefix x.insn)
    (hd : (Bb.Spec.firsts (xs.map (·.pc))).length ≤ 2 ^ 30) :
    ∃ file, Ptr.liveFile xlate true extra xs = .ok file ∧ ∀ beyond,
      (∃ s, statistics { bytes := file, beyond := beyond } = some s ∧
        Stats.Counts Stats.tables (xs.map fun x => ⟨x.pc, x.insn⟩).reverse s) ∧
      (∃ s, mix { bytes := file, beyond := beyond } = some s ∧ Stats.Mixed Stats.opcodeTable (xs.map (·.insn)) s) ∧
      (∃ s, blocks { bytes := file, beyond := beyond } = some s ∧ (s.entries.map (·.ea)).Nodup ∧
        (∀ a, a ∈ s.entries.map (·.ea) ↔ a ∈ xs.map (·.pc)) ∧
        (∀ b ∈ s.entries, b.hit = BitVec.ofNat 64 ((xs.map (·.pc)).count b.ea)) ∧ s.num = BitVec.ofNat 64 xs.length) := by
  have hx := Ptr.makeAll_expressible xlate Ptr.Maps.init xs ht ha
  obtain ⟨-, hl, hm⟩ := Ptr.makeAll_made xlate xs Ptr.Maps.init (fun x hx => Ptr.storage_ne_abort (ht.supported x hx)) ha
  rw [Ptr.liveFile_closed xlate extra xs ht ha]
  generalize (Ptr.makeAll xlate Ptr.Maps.init xs).1 = rs at hx hl hm ⊢
  have hmap : rs.map (fun r => (r.insnAddr, r.insn)) = xs.map (fun x => (x.pc, x.insn)) := by
    apply List.ext_getElem?
    intro i
    rw [List.getElem?_map, List.getElem?_map]
    cases hi : xs[i]? with
    | some x =>
      obtain ⟨r, h1, h2⟩ := hm i x hi
      rw [h1, Option.map_some, Option.map_some, h2.insn, h2.addr]
    | none =>
      have := List.getElem?_eq_none_iff.1 hi
      rw [List.getElem?_eq_none (by omega)]; rfl
  have hpr : ∀ r ∈ rs, ¬ IsPrefix r.insn := by
    intro r hr
    have : (r.insnAddr, r.insn) ∈ rs.map (fun r => (r.insnAddr, r.insn)) := List.mem_map_of_mem hr
    rw [hmap] at this
    obtain ⟨x, hx, e⟩ := List.mem_map.1 this
    rw [← (Prod.mk.inj e).2]; exact hp x hx
  have hin := instructions_unprefixed rs hpr
  have hc : Complete rs := by
    intro x hx _
    rw [hin] at hx
    obtain ⟨r, hr, rfl⟩ := List.mem_map.1 hx
    exact hpr r hr
  have hprog : program rs = xs.map fun x => ⟨x.pc, x.insn⟩ := by
    unfold program
    rw [hin, List.map_map]
    have := congrArg (List.map fun x : BitVec 64 × BitVec 32 => (⟨x.1, x.2⟩ : Stats.Insn)) hmap
    simpa [List.map_map, Function.comp_def] using this
  have h1 : (program rs).map (·.ea) = xs.map (·.pc) := by rw [hprog, List.map_map]; rfl
  have h2 : (program rs).map (·.insn) = xs.map (·.insn) := by rw [hprog, List.map_map]; rfl
  obtain ⟨f1, e1, R1⟩ := C91_statistics_partial 0 rs hx hc
  obtain ⟨f2, e2, R2⟩ := C91_mix_partial 0 rs hx hc
  obtain ⟨f3, e3, R3⟩ := C91_blocks_partial 0 rs hx hc (by rw [h1]; exact hd)
  rw [e1] at e2 e3
  obtain rfl := WRes.ok.inj e2
  obtain rfl := WRes.ok.inj e3
  refine ⟨f1, e1, fun beyond => ⟨?_, ?_, ?_⟩⟩
  · have := R1 beyond; rwa [hprog] at this
  · obtain ⟨s, a, b, -⟩ := R2 beyond; rw [h2] at b; exact ⟨s, a, b⟩
  · obtain ⟨s, a, b, c, d, n⟩ := R3 beyond
    rw [h1] at c d
    rw [hprog, List.length_map] at n
    exact ⟨s, a, b, c, d, n⟩

theorem opcodes_major : (Stats.opcodes.all fun e => decide (e.1 / 2 ^ 26 ≠ 1)) = true := by decide +kernel

theorem prefix_unknown (w : BitVec 32) (h : IsPrefix w) : Stats.Spec.kind Stats.opcodeTable.dropLast w = none := by
  unfold Stats.Spec.kind
  rw [List.findIdx?_eq_none_iff]
  intro e he
  have he := List.dropLast_subset _ he
  obtain ⟨r, hr, rfl⟩ := List.mem_map.1 he
  have h1 := List.all_eq_true.1 opcodes_major r hr
  have h2 := List.all_eq_true.1 Stats.opcodes_checked r hr
  have h3 := Stats.table_covered.major _ he
  simp only [Bool.and_eq_true, decide_eq_true_eq] at h1 h2
  rw [Bool.eq_false_iff]
  intro hf
  unfold Stats.Entry.fits at hf
  rw [Bool.and_eq_true, beq_iff_eq] at hf
  have h4 := congrArg (fun x : BitVec 32 => x >>> 26) hf.1
  have h5 : (w &&& (Stats.entry r).mask) >>> 26 = (w >>> 26) &&& ((Stats.entry r).mask >>> 26) := BitVec.ushiftRight_and_distrib ..
  replace h4 : (w &&& (Stats.entry r).mask) >>> 26 = (Stats.entry r).opcode >>> 26 := h4
  rw [h5, h3] at h4
  have h6 : w >>> 26 = 1 := by
    apply BitVec.eq_of_toNat_eq
    rw [BitVec.toNat_ushiftRight, Nat.shiftRight_eq_div_pow, h]; rfl
  rw [h6] at h4
  have h7 := congrArg BitVec.toNat h4
  rw [BitVec.toNat_ushiftRight, Nat.shiftRight_eq_div_pow] at h7
  have h8 : (Stats.entry r).opcode.toNat = r.1 := by
    show (BitVec.ofNat 32 r.1).toNat = r.1
    rw [BitVec.toNat_ofNat, Nat.mod_eq_of_lt h2.1.1.2]
  rw [h8] at h7
  exact h1 h7.symm

/-- C91 in full is violated: no prefixed instruction is counted under its name; in every trace all of them are counted as unknown. -/
theorem C91_prefixed_refuted (magic : BitVec 32) (rs : List Record) (h : Expressible rs) (hc : Complete rs) :
    ∃ file, writeTrace magic rs = .ok file ∧ ∀ beyond, ∃ s n, mix { bytes := file, beyond := beyond } = some s ∧
      s.unknown = BitVec.ofNat 64 n ∧ ((instructions rs).filter fun x => decide (IsPrefix x.1.insn)).length ≤ n := by
  obtain ⟨file, e, H⟩ := C91_mix_partial magic rs h hc
  refine ⟨file, e, fun beyond => ?_⟩
  obtain ⟨s, h1, h2, -⟩ := H beyond
  refine ⟨s, _, h1, h2.unknown, ?_⟩
  unfold program
  rw [List.map_map, ← List.countP_eq_length_filter, ← List.countP_eq_length_filter, List.countP_map]
  apply List.countP_mono_left
  intro x _ hx
  have := prefix_unknown x.1.insn (of_decide_eq_true hx)
  simp only [Function.comp, this]; rfl

/-- A system call behind `li r0,4`, a prefixed load, and a kernel entry. -/
def countedTrace : List Record :=
  [ { insn := 0x38000004, insnAddr := 0x10000000 }, { insn := 0x44000002, insnAddr := 0x10000004, branch := true },
    { insn := 0x60000000, insnAddr := 0xc000000000004c00, branch := true },
    { insn := 0x04100000, insnAddr := 0x10000008, branch := true }, { insn := 0xe4600010, insnAddr := 0x1000000c } ]

/-- It meets the hypotheses, with four instructions, one of them prefixed. -/
example : Expressible countedTrace ∧ Complete countedTrace ∧ (program countedTrace).length = 4 ∧
    ((instructions countedTrace).filter fun x => decide (IsPrefix x.1.insn)).length = 1 := by
  refine ⟨?_, ?_, by decide, by decide⟩
  · simp [countedTrace, Qt.Spec.Expressible, Qt.Spec.RecordOk, Qt.Spec.ShiftsOk, Qt.Spec.Chain, Qt.Spec.StepOk, Qt.Spec.NoWalk]
  · simp [countedTrace, Complete, instructions, IsPrefix]

end Dis
