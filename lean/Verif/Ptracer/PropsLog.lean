import Verif.Ptracer.LogLemmas

/-!
# C74: the register log of the live tracer

Reading the log (`read`, `SpecLog.lean`) gives back the recorded instructions with the register values before
each of them.
-/

namespace Ptr.Log

/-- A call of the tracer together with the registers of the processor at that point. -/
structure Point where
  call : Call
  cpu : Cpu

/-- What a log should say about the point: the registers before the instruction, its address and word. -/
def Point.logged (v : Cpu → File) (x : Point) : File × Nat × Nat := (v x.cpu, x.call.pc.toNat, x.call.insn.toNat)

/-- The texts read as entries whose replay gives the points. -/
theorem run_dump (le : Bool) : ∀ (l : List Point) (s : Win) (prev : RState), (∀ x ∈ l, x.call.regs.For le x.cpu) →
    ∃ es, Reads (asciiRun le true s prev (l.map (·.call))) es ∧
      replay (prev.file le) es = (printAll s l).2.map (Point.logged (seen le))
  | [], _, _, _ => ⟨[], Reads.nil, rfl⟩
  | x :: l, s, prev, h => by
    have hx := h x List.mem_cons_self
    have hl : ∀ y ∈ l, y.call.regs.For le y.cpu := fun y hy => h y (List.mem_cons_of_mem _ hy)
    have e : asciiRun le true s prev ((x :: l).map (·.call)) =
      (printInsnAscii le true s prev x.call).2.2 ++
        asciiRun le true (printInsnAscii le true s prev x.call).1 (printInsnAscii le true s prev x.call).2.1
          (l.map (·.call)) := rfl
    have e2 : (printAll s (x :: l)).2 =
      if (printInsn s).2 = true then x :: (printAll (printInsn s).1 l).2 else (printAll (printInsn s).1 l).2 := rfl
    rw [e, e2]
    unfold printInsnAscii printInsn
    by_cases h1 : s.skip ≠ 0#64
    · rw [if_pos h1, if_pos h1]
      obtain ⟨es, hr, hp⟩ := run_dump le l { s with skip := s.skip - 1#64 } prev hl
      exact ⟨es, hr, hp⟩
    · rw [if_neg h1, if_neg h1]
      by_cases h2 : s.left ≠ -1#64
      · by_cases h3 : s.left = 0#64
        · rw [if_pos ⟨h2, h3⟩, if_pos h2, if_pos h3]
          obtain ⟨es, hr, hp⟩ := run_dump le l s prev hl
          exact ⟨es, hr, hp⟩
        · rw [if_pos h2, if_neg (fun c => h3 c.2), if_neg h3, if_pos rfl, if_pos h2]
          obtain ⟨es, hr, hp⟩ := run_dump le l { s with left := s.left - 1#64 } (getState le x.call.regs) hl
          refine ⟨_, (((reads_printState le prev _).append (reads_insn _ _)).append hr), ?_⟩
          rw [List.append_assoc, replay_all]
          show (_, _, _) :: replay _ es = _
          rw [hp, file_getState le _ _ hx]
          rfl
      · rw [if_neg h2, if_neg (fun c => h2 c.1), if_neg h2, if_pos rfl]
        obtain ⟨es, hr, hp⟩ := run_dump le l s (getState le x.call.regs) hl
        refine ⟨_, (((reads_printState le prev _).append (reads_insn _ _)).append hr), ?_⟩
        rw [List.append_assoc, replay_all]
        show (_, _, _) :: replay _ es = _
        rw [hp, file_getState le _ _ hx]
        rfl

theorem run_plain (le : Bool) (f : File) : ∀ (l : List Point) (s : Win) (prev : RState),
    ∃ es, Reads (asciiRun le false s prev (l.map (·.call))) es ∧
      replay f es = (printAll s l).2.map (Point.logged fun _ => f)
  | [], _, _ => ⟨[], Reads.nil, rfl⟩
  | x :: l, s, prev => by
    have e : asciiRun le false s prev ((x :: l).map (·.call)) =
      (printInsnAscii le false s prev x.call).2.2 ++
        asciiRun le false (printInsnAscii le false s prev x.call).1 (printInsnAscii le false s prev x.call).2.1
          (l.map (·.call)) := rfl
    have e2 : (printAll s (x :: l)).2 =
      if (printInsn s).2 = true then x :: (printAll (printInsn s).1 l).2 else (printAll (printInsn s).1 l).2 := rfl
    rw [e, e2]
    unfold printInsnAscii printInsn
    by_cases h1 : s.skip ≠ 0#64
    · rw [if_pos h1, if_pos h1]
      obtain ⟨es, hr, hp⟩ := run_plain le f l { s with skip := s.skip - 1#64 } prev
      exact ⟨es, hr, hp⟩
    · rw [if_neg h1, if_neg h1]
      by_cases h2 : s.left ≠ -1#64
      · by_cases h3 : s.left = 0#64
        · rw [if_pos ⟨h2, h3⟩, if_pos h2, if_pos h3]
          obtain ⟨es, hr, hp⟩ := run_plain le f l s prev
          exact ⟨es, hr, hp⟩
        · rw [if_pos h2, if_neg (fun c => h3 c.2), if_neg h3, if_neg (by decide), if_pos h2]
          obtain ⟨es, hr, hp⟩ := run_plain le f l { s with left := s.left - 1#64 } prev
          refine ⟨_, ((reads_insn _ _).append hr), ?_⟩
          show (_, _, _) :: replay _ es = _
          rw [hp]
          rfl
      · rw [if_neg h2, if_neg (fun c => h2 c.1), if_neg h2, if_neg (by decide)]
        obtain ⟨es, hr, hp⟩ := run_plain le f l s prev
        refine ⟨_, ((reads_insn _ _).append hr), ?_⟩
        show (_, _, _) :: replay _ es = _
        rw [hp]
        rfl

theorem read_of {text : List Char} {es : List Entry} (h : Reads text es) :
    read text = some (replay (fun _ => 0) es) := by
  obtain ⟨ls, hm, hl⟩ := h
  have := hl []
  rw [List.append_nil] at this
  unfold read
  rw [this]
  show Option.map _ (List.mapM readLine (ls ++ [])) = _
  rw [List.append_nil, hm]
  rfl

/-- **C74 (partial).** Let the tracer log instructions with the register dump, with any skip count and limit, at
points where the operating system answers for the processor's registers. Reading the log gives the instructions
that are to be recorded (`printAll`, see C46), in order, each with its address, its word and the register values
before it — all registers, not only the printed ones.

The full property has `Cpu.value` in place of `seen`. Missing: the upper half of FPSCR, and on little-endian
systems the order of the halves of VSR0 to VSR31 (`C74_fpscr_refuted`, `C74_vsr_refuted`). -/
theorem C74_registers_partial (le : Bool) (s : Win) (l : List Point) (h : ∀ x ∈ l, x.call.regs.For le x.cpu) :
    read (asciiRun le true s RState.zero (l.map (·.call))) = some ((printAll s l).2.map (Point.logged (seen le))) := by
  obtain ⟨es, hr, hp⟩ := run_dump le l s RState.zero h
  rw [read_of hr, ← file_zero le, hp]

/-- On big-endian systems whose FPSCR has no bit in its upper half, the values in the log are those of the
registers. -/
theorem C74_big_endian_partial (s : Win) (l : List Point)
    (h : ∀ x ∈ l, x.call.regs.For false x.cpu ∧ x.cpu.fpscr.toNat < 2 ^ 32) :
    read (asciiRun false true s RState.zero (l.map (·.call))) = some ((printAll s l).2.map (Point.logged Cpu.value)) := by
  rw [C74_registers_partial false s l (fun x hx => (h x hx).1)]
  congr 1
  have hmem : ∀ (l : List Point) (s : Win) (x : Point), x ∈ (printAll s l).2 → x ∈ l := by
    intro l
    induction l with
    | nil => intro s x hx; exact hx
    | cons y l ih =>
      intro s x hx
      have e2 : (printAll s (y :: l)).2 =
        if (printInsn s).2 = true then y :: (printAll (printInsn s).1 l).2 else (printAll (printInsn s).1 l).2 := rfl
      rw [e2] at hx
      split at hx
      · rcases List.mem_cons.1 hx with rfl | hx
        · exact List.mem_cons_self
        · exact List.mem_cons_of_mem _ (ih _ x hx)
      · exact List.mem_cons_of_mem _ (ih _ x hx)
  apply List.map_congr_left
  intro x hx
  have hf := (h x (hmem l s x hx)).2
  unfold Point.logged
  congr 1
  funext r
  cases r with
  | fpscr => exact Nat.mod_eq_of_lt hf
  | _ => rfl

/-- Without the register dump, reading the log gives the recorded instructions with their addresses. -/
theorem C74_instructions (le : Bool) (s : Win) (l : List Point) :
    (read (asciiRun le false s RState.zero (l.map (·.call)))).map (·.map (·.2)) =
      some ((printAll s l).2.map fun x => (x.call.pc.toNat, x.call.insn.toNat)) := by
  obtain ⟨es, hr, hp⟩ := run_plain le (fun _ => 0) l s RState.zero
  rw [read_of hr, hp]
  simp [Point.logged, Function.comp_def]

/-- Answers of an operating system for given registers. -/
def answer (le : Bool) (p : Cpu) : Answers where
  gpr i := if h : i < 32 then p.gpr ⟨i, h⟩ else 0
  ctr := p.ctr
  link := p.lr
  xer := p.xer
  ccr := p.cr.setWidth 64
  vr i := if h : i < 32 then p.vr ⟨i, h⟩ else if i = 32 then p.vscr.setWidth 128
    else if le = true then p.vrsave.setWidth 128 else p.vrsave.setWidth 128 <<< 96
  fpr i := if h : i < 32 then (p.vsr ⟨i, h⟩ >>> 64).setWidth 64 else p.fpscr
  vsr i := if h : i < 32 then (p.vsr ⟨i, h⟩).setWidth 64 else 0

/-- Every processor has answers: the hypothesis of the theorems can be met for all register values. -/
theorem answer_for (le : Bool) (p : Cpu) : (answer le p).For le p where
  gpr i := by simp [answer]
  ctr := rfl
  link := rfl
  xer := rfl
  ccr := by
    have := p.cr.isLt
    simp only [answer, BitVec.toNat_setWidth]
    omega
  vr i := by simp [answer]
  vscr := by
    have := p.vscr.isLt
    simp only [answer, BitVec.toNat_setWidth, Nat.lt_irrefl, dite_false, if_true]
    omega
  vrsave := by
    have hv := p.vrsave.isLt
    cases le
    · simp only [answer, BitVec.toNat_setWidth, BitVec.toNat_shiftLeft, Nat.shiftLeft_eq]
      simp
      omega
    · simp only [answer, BitVec.toNat_setWidth]
      simp
      omega
  fpr i := by
    have := (p.vsr i).isLt
    simp only [answer, i.isLt, dite_true, BitVec.toNat_setWidth, BitVec.toNat_ushiftRight, Nat.shiftRight_eq_div_pow]
    exact Nat.mod_eq_of_lt (by omega)
  vsr i := by
    simp only [answer, i.isLt, dite_true, BitVec.toNat_setWidth]
  fpscr := by simp [answer]

/-- A processor: VSR1 holds the floating-point number 1.0 in its upper half; decimal rounding mode 1, which is in
the upper half of FPSCR. -/
def exCpu (n : Nat) : Cpu where
  gpr i := BitVec.ofNat 64 (i * n)
  vr i := if i = 2 then 0x000102030405060708090a0b0c0d0e0f#128 else 0
  vscr := 0x10000#32
  vrsave := 0xffffffff#32
  vsr i := if i = 1 then 0x3ff00000000000000000000000000000#128 else 0
  ctr := BitVec.ofNat 64 n
  lr := 0x10000abc#64
  xer := 0
  cr := 0x24000448#32
  fpscr := 0x100000000#64

def exPoint (le : Bool) (n : Nat) : Point :=
  ⟨⟨BitVec.ofNat 64 (0x10000a00 + 4 * n), 0x38600000#32, answer le (exCpu n)⟩, exCpu n⟩

example : ∀ x ∈ [exPoint true 1, exPoint true 2, exPoint true 3], x.call.regs.For true x.cpu := by
  intro x hx
  simp only [List.mem_cons, List.not_mem_nil, or_false] at hx
  rcases hx with rfl | rfl | rfl <;> exact answer_for _ _

/-- **C74 refuted for the vector-scalar registers.** On a little-endian system the log gives VSR1 a value with the
halves exchanged. -/
theorem C74_vsr_refuted : ∃ x : Point, x.call.regs.For true x.cpu ∧
    ((read (asciiRun true true ⟨0, -1⟩ RState.zero [x.call])).map (·.map fun e => e.1 (.vsr 1))) =
      some [0x3ff0000000000000] ∧
    x.cpu.value (.vsr 1) = 0x3ff00000000000000000000000000000 := by
  refine ⟨exPoint true 1, answer_for _ _, ?_, by decide⟩
  have := C74_registers_partial true ⟨0, -1⟩ [exPoint true 1] (fun x hx => by
    rw [List.mem_singleton.1 hx]; exact answer_for _ _)
  rw [List.map_singleton] at this
  rw [this]
  decide +kernel

/-- **C74 refuted for FPSCR.** The decimal rounding mode in the upper half of FPSCR is never in the log. -/
theorem C74_fpscr_refuted : ∃ x : Point, x.call.regs.For false x.cpu ∧
    ((read (asciiRun false true ⟨0, -1⟩ RState.zero [x.call])).map (·.map fun e => e.1 .fpscr)) = some [0] ∧
    x.cpu.value .fpscr = 0x100000000 := by
  refine ⟨exPoint false 1, answer_for _ _, ?_, by decide⟩
  have := C74_registers_partial false ⟨0, -1⟩ [exPoint false 1] (fun x hx => by
    rw [List.mem_singleton.1 hx]; exact answer_for _ _)
  rw [List.map_singleton] at this
  rw [this]
  decide +kernel

/-- A log of two instructions behind a skipped one, as text. -/
example : String.ofList ((asciiRun true true ⟨1, 2⟩ (getState true (answer true (exCpu 1)))
      ([exPoint true 5, exPoint true 1, exPoint true 2, exPoint true 9].map (·.call))).take 109) =
    "0x10000a04\t0x38600000\n\tGPR01 0x0000000000000002\n\tGPR02 0x0000000000000004\n\tGPR03 0x0000000000000006\n\tGPR04 0x" := by
  decide +kernel

end Ptr.Log
