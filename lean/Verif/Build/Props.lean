import Verif.Build.Lemmas

/-! # Traces built from annotated assembler text (C45) -/

namespace Qtb
open QtbSpec

/-- C45 (partial), whatever the source: the records handed to the writer are those of a prefix of the
source, in order, each with the address control has come to, the instruction going where control goes next,
the annotated data address, and the right flags; if the tool ends normally they are those of the whole
source. Missing: `branch_taken` with absolute branches (`C45_absolute_refuted`), addresses that are not
multiples of four, and sections not produced by the macros (`C45_refuted`, `C45_oob_refuted`). -/
theorem C45_flow_partial (pc : BitVec 64) (lines : List Line) (hb : 4 * lines.length < 2 ^ 64)
    (hp : ∀ l ∈ lines, Plain l) (h4 : pc.toNat % 4 = 0) :
    (∀ (i : Nat) (r : Qt.Record), (buildSource pc lines).records[i]? = some r →
      ∃ l a, lines[i]? = some l ∧ (addresses pc lines)[i]? = some a ∧ Matches l a r) ∧
    ((buildSource pc lines).final = .done → (buildSource pc lines).records.length = lines.length) := by
  rw [buildSource_eq pc lines hb]
  have h := loop_follows lines 0 pc [] (by omega) hp h4 (fun e h => by cases h)
  rw [List.nil_append] at h
  exact ⟨follows_get lines pc _ h.1, h.2⟩

/-- C45: a source in which exactly the loads and stores have a data address and every annotated branch can
reach its destination is built. -/
theorem C45_built_partial (pc : BitVec 64) (lines : List Line) (hb : 4 * lines.length < 2 ^ 64)
    (hp : ∀ l ∈ lines, Plain l) (h4 : pc.toNat % 4 = 0) (hs : SourceOk pc lines) :
    (buildSource pc lines).final = .done := by
  rw [buildSource_eq pc lines hb]
  exact loop_done lines 0 pc (by omega) hp h4 hs

/-- A source with a call, a store, a taken branch and a return. -/
def demo : List Line := [
  ⟨0x48000001#32, some (.abs 0x2000#64), none⟩,       -- bl      ; branch_to_abs 0x2000
  ⟨0x90a10008#32, none, some 0x7000#64⟩,              -- stw     ; ldst 0x7000
  ⟨0x41820010#32, some .taken, none⟩,                 -- beq +16 ; branch_taken
  ⟨0x4e800020#32, some (.abs 0x1004#64), none⟩,       -- blr     ; branch_to_abs 0x1004
  ⟨0x60000000#32, none, none⟩]                        -- nop

/-- The hypotheses of `C45_flow_partial` are met by it. -/
example : 4 * demo.length < 2 ^ 64 ∧ (∀ l ∈ demo, Plain l) ∧ (0x1000#64).toNat % 4 = 0 ∧
    addresses 0x1000#64 demo = [0x1000#64, 0x2000#64, 0x2004#64, 0x2014#64, 0x1004#64] ∧
    ((buildSource 0x1000#64 demo).records.map fun r => (r.insnAddr, r.insn)) =
      [(0x1000#64, 0x48001001#32), (0x2000#64, 0x90a10008#32), (0x2004#64, 0x41820010#32), (0x2014#64, 0x4e800020#32),
       (0x1004#64, 0x60000000#32)] ∧
    (buildSource 0x1000#64 demo).final = .done := by
  refine ⟨by decide, fun l h => ?_, by decide, by decide, by decide +kernel, by decide +kernel⟩
  simp only [demo, List.mem_cons, List.not_mem_nil, or_false] at h
  rcases h with rfl | rfl | rfl | rfl | rfl <;> first | trivial | (unfold Plain; decide)

theorem not_handled {w : BitVec 32} (h : Ptr.isStorage w = some false) :
    (¬ ∃ i ∈ IsaMem.handled, i.Encodes w) ∧ ¬ ∃ i ∈ IsaMem.unsupported, i.Encodes w :=
  ⟨fun hh => (by rw [isStorage_handled hh] at h; cases h), fun hh => (by rw [isStorage_unsupported hh] at h; cases h)⟩

/-- The hypothesis of `C45_built_partial` is met as well. -/
example : SourceOk 0x1000#64 demo := by
  have other : ∀ {w : BitVec 32} {j : Option Jump} {pc : BitVec 64}, Ptr.isStorage w = some false →
      (∀ j', j = some j' → (Qt.Spec.kind w.toNat = .b ∨ Qt.Spec.kind w.toNat = .bc →
        Qt.Spec.reachable w.toNat pc (next ⟨w, j, none⟩ pc)) ∧ w ≠ 0 ∧ match j' with
          | .taken => Qt.Spec.kind w.toNat = .b ∨ Qt.Spec.kind w.toNat = .bc
          | _ => True) → LineOk ⟨w, j, none⟩ pc :=
    fun h hj => ⟨⟨(fun e => by cases e), fun e => ((not_handled h).1 e).elim⟩, (not_handled h).2, hj⟩
  refine ⟨other (by decide) fun j h => ?_, ⟨⟨fun _ => (handled_iff _).1 (by decide), fun _ => rfl⟩, fun hh => ?_, (fun j h => by cases h)⟩,
    other (by decide) fun j h => ?_, other (by decide) fun j h => ?_, other (by decide) (fun j h => by cases h), trivial⟩
  · injection h with h; subst h
    exact ⟨fun _ => by unfold Qt.Spec.reachable; decide, by decide, trivial⟩
  · have := isStorage_unsupported hh; exact absurd this (by decide)
  · injection h with h; subst h
    exact ⟨fun _ => by unfold Qt.Spec.reachable; decide, by decide, .inr (by decide)⟩
  · injection h with h; subst h
    exact ⟨fun hk => absurd hk (by decide), by decide, trivial⟩

/-- C45.  An address annotated before the first instruction replaces that of `start_trace`. -/
theorem C45_start (p pc : BitVec 64) (lines : List Line) (hb : 4 * lines.length < 2 ^ 64) :
    build (lines.map Line.word) (⟨0, 0, p⟩ :: ⟨0, 0, pc⟩ :: imapOf 0 lines) (lmapOf 0 lines) = buildSource pc lines := by
  rw [buildSource_eq pc lines hb]
  rfl

example : (build ((demo).map Line.word) (⟨0, 0, 0x7000⟩ :: ⟨0, 0, 0x1000⟩ :: imapOf 0 demo) (lmapOf 0 demo)).records.head?.map (·.insnAddr) = some 0x1000#64 := by
  rw [C45_start _ _ _ (by decide)]; decide +kernel

/-- C45 (partial), from the source to the trace file: if the tool ends normally, a trace file is written, and reading it
back gives one record for each line of the source, in order, each with the address control has come to and
the instruction going where control goes next. -/
theorem C45_file_partial (pc : BitVec 64) (lines : List Line) (hb : 4 * lines.length < 2 ^ 64)
    (hp : ∀ l ∈ lines, Plain l) (h4 : pc.toNat % 4 = 0) (hd : (buildSource pc lines).final = .done)
    (hw : Words lines) (h0 : ∀ l, lines.head? = some l → l.word ≠ 0) :
    ∃ file, Qt.writeTrace 0 (buildSource pc lines).records = .ok file ∧ ∀ beyond,
      let R := Qt.readTrace { bytes := file, beyond := beyond } false false
      R.records.length = lines.length ∧ R.final = .fail ∧
      ∀ (i : Nat) (r : Qt.Record), R.records[i]? = some r → ∃ l a, lines[i]? = some l ∧ (addresses pc lines)[i]? = some a ∧
        r.insnAddr = a ∧ match l.jump with
          | none => r.insn = l.word
          | some _ => Reaches l.word r.insn a (next l a) := by
  have hflow := C45_flow_partial pc lines hb hp h4
  have hlen := hflow.2 hd
  have hall : Follows pc lines (buildSource pc lines).records ∧ ∀ r ∈ (buildSource pc lines).records,
      r.insnRaValid = false ∧ r.dataRaValid = false ∧ r.insnPageShiftValid = false ∧
      r.guestInsnPageShiftValid = false ∧ r.dataPageShiftValid = false ∧ r.guestDataPageShiftValid = false ∧ r.radixInsn.nrPtes = 0 := by
    rw [buildSource_eq pc lines hb]
    have h := loop_follows lines 0 pc [] (by omega) hp h4 (fun e h => by cases h)
    rw [List.nil_append] at h
    exact ⟨h.1, record_ok _ _ _ _ _⟩
  have hx : Qt.Spec.Expressible (buildSource pc lines).records := by
    refine ⟨fun r hr => ?_, follows_chain lines pc _ hall.1 hw fun r hr => (hall.2 r hr).2.1, fun r hr => ?_⟩
    · obtain ⟨a1, a2, a3, a4, a5, a6, _⟩ := hall.2 r hr
      refine ⟨⟨?_, ?_, ?_, ?_⟩, ?_, ?_⟩ <;> intro h
      · rw [a3] at h; cases h
      · rw [a4] at h; cases h
      · rw [a5] at h; cases h
      · rw [a6] at h; cases h
      · rw [a1] at h; cases h
      · rw [a2] at h; cases h
    · have hm := List.mem_of_mem_head? hr
      refine ⟨fun hz => ?_, fun hn => absurd (hall.2 r hm).2.2.2.2.2.2 hn⟩
      have hf := hall.1
      cases hrs : (buildSource pc lines).records with
      | nil => rw [hrs] at hr; cases hr
      | cons r' rs =>
        rw [hrs] at hr hf
        injection hr with hr; subst hr
        cases lines with
        | nil => exact hf
        | cons l ls => exact h0 l rfl ((follows_insn hf.1 hf.2.1).1 hz)
  obtain ⟨file, hfile, H⟩ := Qt.C01_roundtrip_partial 0 _ hx
  refine ⟨file, hfile, fun beyond => ?_⟩
  obtain ⟨e, hfin⟩ := H beyond
  dsimp only at e hfin ⊢
  refine ⟨?_, hfin, fun i r hr => ?_⟩
  · have := congrArg List.length e
    rw [List.length_map, List.length_map] at this
    rw [this, hlen]
  · have e' := congrArg (·[i]?) e
    rw [List.getElem?_map, List.getElem?_map, hr] at e'
    cases hb : (buildSource pc lines).records[i]? with
    | none => rw [hb] at e'; cases e'
    | some r' =>
      rw [hb] at e'
      have e2 := Option.some.inj e'
      obtain ⟨e3, e4⟩ := Prod.mk.inj e2
      obtain ⟨l, a, h1, h2, h3⟩ := hflow.1 i r' hb
      refine ⟨l, a, h1, h2, by rw [e4]; exact h3.1, ?_⟩
      rw [e3]; exact h3.2.1

/-- The remaining hypotheses are met by `demo` too. -/
example : Words demo ∧ ∀ l, demo.head? = some l → l.word ≠ 0 :=
  ⟨⟨fun h => absurd h (by decide), fun h => absurd h (by decide), fun h => absurd h (by decide), fun h => absurd h (by decide), trivial⟩,
    fun l h => by injection h with h; subst h; decide⟩

/-! ## Violations -/

/-- C45 in full is violated: a second annotation behind an instruction (two `branch_to_abs` in a row) makes the
tool ignore all later annotations without any message. Here the last branch is recorded as going
to the next instruction although the map says that control goes to `0x5000`. -/
theorem C45_refuted : ∃ (words : List (BitVec 32)) (im : List IMap) (e : IMap), e ∈ im ∧ e.text = 8#64 ∧ e.btype = 0 ∧ e.dyn = 0x5000#64 ∧
    (build words im []).final = .done ∧ (build words im []).records.map (fun r => (r.insnAddr, r.insn)) =
      [(0x1000#64, 0x48001000#32), (0x2000#64, 0x48000000#32), (0x2004#64, 0x60000000#32)] :=
  ⟨[0x48000000#32, 0x48000000#32, 0x60000000#32],
    [⟨0, 0, 0x1000#64⟩, ⟨4, 0, 0x2000#64⟩, ⟨4, 0, 0x3000#64⟩, ⟨8, 0, 0x5000#64⟩], ⟨8, 0, 0x5000#64⟩,
    by simp, rfl, rfl, rfl, by decide +kernel, by decide +kernel⟩

/-- C45 is violated for `branch_taken` behind an absolute branch: `ba 0x100` at `0x1000` goes to `0x100`; in the trace
it goes to `0x1100`, and the instruction is changed accordingly. -/
theorem C45_absolute_refuted : Qt.Spec.target 0x48000102 0x1000#64 = 0x100#64 ∧
    (buildSource 0x1000#64 [⟨0x48000102#32, some .taken, none⟩, ⟨0x60000000#32, none, none⟩]).records.map
      (fun r => (r.insnAddr, r.insn)) = [(0x1000#64, 0x48001102#32), (0x1100#64, 0x60000000#32)] ∧
    (buildSource 0x1000#64 [⟨0x48000102#32, some .taken, none⟩, ⟨0x60000000#32, none, none⟩]).final = .done := by
  refine ⟨by decide, by decide +kernel, by decide +kernel⟩

/-- A load or store without any annotation left reads behind the end of the load/store map instead of being reported. -/
theorem C45_oob_refuted : (buildSource 0x1000#64 [⟨0x90a10008#32, none, none⟩]).final = .oob := by decide +kernel

end Qtb
