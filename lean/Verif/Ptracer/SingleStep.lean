/-!
# Stepping over a load-reserve / store-conditional sequence

Model of `ptracer/single_step.c` and of `read_insn` / `write_insn` of `ptracer/ptrace.c`.

The memory of the traced process is a partial function from addresses to instruction words; only
word-aligned addresses are used (the pc of a thread is aligned and so are branch targets). What the
process does between `PTRACE_CONT` and the stop reported by `waitpid` is an arbitrary function of the
memory it is started with (`Run`). Other threads are part of that function. Ignoring and restoring the
tracer's own signal handlers (ptracer/single_step.c:171-194) is not modelled.
-/

namespace Ptr

abbrev Addr := BitVec 64
abbrev Word := BitVec 32

/-- Memory of the traced process; `none` is unmapped. -/
abbrev Mem := Addr → Option Word

/-- `read_insn`, ptracer/ptrace.c:48-72: an eight-byte `PTRACE_PEEKDATA`; `none` is `exit(1)`, taken when
the eight bytes are not mapped and also when they are all ones (the returned value is compared with -1). -/
def readInsn (m : Mem) (a : Addr) : Option Word :=
  match m a, m (a + 4#64) with
  | some w, some v => if w = 0xffffffff#32 ∧ v = 0xffffffff#32 then none else some w
  | _, _ => none

/-- `write_insn`, ptracer/ptrace.c:74-101: read eight bytes (same failure), replace the word, write back. -/
def writeInsn (m : Mem) (a : Addr) (w : Word) : Option Mem :=
  match readInsn m a with
  | none => none
  | some _ => some fun x => if x = a then some w else m x

/-- `is_larx`, ptracer/single_step.c:47-59. -/
def isLarx (w : Word) : Bool :=
  let b := w &&& 0xfc0007fe#32
  b == 0x7c000068#32 || b == 0x7c0000e8#32 || b == 0x7c000028#32 || b == 0x7c0000a8#32 || b == 0x7c000228#32

/-- `is_stcx`, ptracer/single_step.c:61-73. -/
def isStcx (w : Word) : Bool :=
  let b := w &&& 0xfc0007ff#32
  b == 0x7c00056d#32 || b == 0x7c0005ad#32 || b == 0x7c00012d#32 || b == 0x7c0001ad#32 || b == 0x7c00016d#32

/-- `is_branch`, ptracer/single_step.c:76-84. -/
def isBc (w : Word) : Bool := w &&& 0xfc000000#32 == 0x40000000#32

/-- `branch_target`, ptracer/single_step.c:86-98. -/
def branchTarget (w : Word) (addr : Addr) : Addr :=
  let imm : BitVec 32 := ((w &&& 0xfffc#32) ^^^ 0x8000#32) - 0x8000#32
  if w &&& 2#32 ≠ 0#32 then imm.signExtend 64 else addr + imm.signExtend 64

/-- `BREAKPOINT_INSN`, ptracer/single_step.c:45. -/
def brk : Word := 0x00b00b00#32
/-- `(uint32_t *)-1`: a breakpoint that is not to be inserted. -/
def noAddr : Addr := -1#64

/-- The scan loop, ptracer/single_step.c:211-235, with `fuel` the iterations left, `p` the current
address, `b` the breakpoints so far. `none` is `exit(1)` (too many branches, no `stcx` within 32 words, or
unreadable text). On success: the address of the `stcx` and the breakpoints. -/
def scan (m : Mem) : Nat → Addr → List Addr → Option (Addr × List Addr)
  | 0, _, _ => none
  | fuel + 1, p, b =>
    match readInsn m p with
    | none => none
    | some w =>
      if isStcx w then some (p, b)
      else if isBc w then
        if b.length = 7 then none
        else scan m fuel (p + 4#64) (b ++ [branchTarget w p])
      else scan m fuel (p + 4#64) b

/-- The inner loop for one breakpoint, ptracer/single_step.c:252-255. -/
def dropIfLater (a : Addr) (later : List Addr) : Addr :=
  later.foldl (fun cur b => if cur = b then noAddr else cur) a

/-- Removing the breakpoints inside the region and the duplicates, ptracer/single_step.c:245-256. -/
def prune (start stop : Addr) : List Addr → List Addr
  | [] => []
  | a :: later =>
    (if start ≤ a ∧ a < stop then noAddr else dropIfLater a later) :: prune start stop later

/-- `insert_one_breakpoint` (ptracer/single_step.c:109-118): memory and the saved word; `none`
is `exit(1)`. -/
def insertOne (m : Mem) (a : Addr) : Option (Mem × Word) :=
  match readInsn m a with
  | none => none
  | some w =>
    match writeInsn m a brk with
    | none => none
    | some m' => some (m', w)

/-- The loop of `insert_breakpoints`, ptracer/single_step.c:134-153 (`insert_one_breakpoint` never returns
false). Left: the tracer exited, leaving the memory given. Right: memory and the saved words (an unused
breakpoint keeps an arbitrary word, here 0). -/
def insertAll : Mem → List Addr → Mem ⊕ (Mem × List (Addr × Word))
  | m, [] => .inr (m, [])
  | m, a :: t =>
    if a = noAddr then
      match insertAll m t with
      | .inl m' => .inl m'
      | .inr (m', s) => .inr (m', (a, 0#32) :: s)
    else
      match insertOne m a with
      | none => .inl m
      | some (m1, w) =>
        match insertAll m1 t with
        | .inl m' => .inl m'
        | .inr (m', s) => .inr (m', (a, w) :: s)

/-- `remove_one_breakpoint`, ptracer/single_step.c:120-132. -/
def removeOne (m : Mem) (a : Addr) (w : Word) : Option Mem :=
  match readInsn m a with
  | none => none
  | some v => if v = brk then writeInsn m a w else some m

/-- `remove_breakpoints`, ptracer/single_step.c:155-170. Left: the tracer exited half way. -/
def removeAll : Mem → List (Addr × Word) → Mem ⊕ Mem
  | m, [] => .inr m
  | m, (a, w) :: t =>
    if a = noAddr then removeAll m t
    else
      match removeOne m a w with
      | none => .inl m
      | some m1 => removeAll m1 t

/-- What happens between `PTRACE_CONT` and the return of `waitpid` (ptracer/single_step.c:261-281): the
memory afterwards, whether the thread was continued and stopped with SIGILL, and its pc. -/
structure Ran where
  mem : Mem
  sigill : Bool
  pc : Addr

abbrev Run := Mem → Ran

/-- Result of `step_over_atomic`. -/
inductive Stepped where
  /-- the tracer exited, leaving the process with this memory -/
  | exited (m : Mem)
  /-- not a load-reserve: returns 0, nothing done -/
  | notLarx
  /-- memory afterwards and the addresses handed to the callback, in order -/
  | done (m : Mem) (calls : List Addr)

/-- The callback loop `while (start <= pc) { fn(pid, start); start++; }`, ptracer/single_step.c:288-292.
(For a pc in the last four bytes of the address space the C loop would not end; such a pc is not a user
address.) -/
def calls (start pc : Addr) : List Addr :=
  if start ≤ pc then (List.range ((pc.toNat - start.toNat) / 4 + 1)).map fun k => start + BitVec.ofNat 64 (4 * k) else []

/-- The breakpoints of the sequence starting at `p`, ptracer/single_step.c:211-256: the end of the region
(the word after the `stcx`) and the pruned addresses. -/
def plan (m : Mem) (p : Addr) : Option (Addr × List Addr) :=
  match scan m 32 p [] with
  | none => none
  | some (s, b) => some (s + 4#64, prune p (s + 4#64) (b ++ [s + 4#64]))

/-- `step_over_atomic`, ptracer/single_step.c:196-309. -/
def stepOver (m : Mem) (p : Addr) (run : Run) : Stepped :=
  match readInsn m p with
  | none => .exited m
  | some w =>
    if isLarx w then
      match plan m p with
      | none => .exited m
      | some (_, b) =>
        match insertAll m b with
        | .inl m' => .exited m'
        | .inr (m1, saved) =>
          match removeAll (run m1).mem saved with
          | .inl m' => .exited m'
          | .inr m2 => if (run m1).sigill then .done m2 (calls p (run m1).pc) else .exited m2
    else .notLarx

end Ptr
