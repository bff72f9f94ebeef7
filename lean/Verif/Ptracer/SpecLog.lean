/-!
# What a register log says

The ASCII log of the live tracer is text: a line that begins with a tab gives a register a new value, any
other line is an instruction that is about to be executed. This file defines how a person (or a script) reads
such a log, what the registers of the processor are, and how the operating system hands them to a tracer. It
does not mention the tracer.
-/

namespace Ptr.Log

/-- The registers in a log. -/
inductive Reg where
  | gpr (i : Fin 32)
  | vr (i : Fin 32)
  | vscr
  | vrsave
  | vsr (i : Fin 32)
  | ctr
  | lr
  | xer
  | cr
  | fpscr
  deriving DecidableEq, Repr

/-- A number below 100 with two decimal digits. -/
def twoDigits (i : Nat) : List Char := [Nat.digitChar (i / 10), Nat.digitChar (i % 10)]

/-- The name of a register in a log. -/
def Reg.name : Reg → List Char
  | .gpr i => 'G' :: 'P' :: 'R' :: twoDigits i
  | .vr i => 'V' :: 'R' :: twoDigits i
  | .vscr => ['V', 'S', 'C', 'R']
  | .vrsave => ['V', 'R', 'S', 'A', 'V', 'E']
  | .vsr i => 'V' :: 'S' :: 'R' :: twoDigits i
  | .ctr => ['C', 'T', 'R']
  | .lr => ['L', 'R']
  | .xer => ['X', 'E', 'R']
  | .cr => ['C', 'R']
  | .fpscr => ['F', 'P', 'S', 'C', 'R']

/-- All registers. -/
def Reg.all : List Reg :=
  (List.finRange 32).map .gpr ++ (List.finRange 32).map .vr ++ [.vscr, .vrsave] ++
    (List.finRange 32).map .vsr ++ [.ctr, .lr, .xer, .cr, .fpscr]

/-- The value of a hexadecimal digit. -/
def hexVal (c : Char) : Option Nat :=
  if 48 ≤ c.toNat ∧ c.toNat ≤ 57 then some (c.toNat - 48)
  else if 97 ≤ c.toNat ∧ c.toNat ≤ 102 then some (c.toNat - 87)
  else none

/-- The value of a row of hexadecimal digits behind the value `a`. -/
def hexNum : Nat → List Char → Option Nat
  | a, [] => some a
  | a, c :: t => (hexVal c).bind fun d => hexNum (16 * a + d) t

/-- A number as written in a log: `0x` and at least one hexadecimal digit. -/
def number : List Char → Option Nat
  | '0' :: 'x' :: d :: t => hexNum 0 (d :: t)
  | _ => none

/-- An address as written in a log; the null address is written `(nil)`. -/
def address (l : List Char) : Option Nat := if l = ['(', 'n', 'i', 'l', ')'] then some 0 else number l

/-- A line of a log. -/
inductive Entry where
  /-- register `r` now has the value `v` -/
  | value (r : Reg) (v : Nat)
  /-- the instruction `word` at `pc` is executed next -/
  | insn (pc word : Nat)
  deriving DecidableEq, Repr

/-- The register with a given name. -/
def named (n : List Char) : Option Reg := Reg.all.find? (fun r => decide (r.name = n))

/-- Reads a line. -/
def readLine (l : List Char) : Option Entry :=
  if l.head? = some '\t' then
    let t := l.tail
    let name := t.takeWhile (fun c => decide (c ≠ ' '))
    let val := (t.dropWhile (fun c => decide (c ≠ ' '))).dropWhile (fun c => decide (c = ' '))
    (named name).bind fun r => (number val).map (.value r)
  else
    let addr := l.takeWhile (fun c => decide (c ≠ '\t'))
    let word := (l.dropWhile (fun c => decide (c ≠ '\t'))).tail
    (address addr).bind fun a => (number word).map (.insn a)

/-- The lines of a text. -/
def lines : List Char → List (List Char)
  | [] => []
  | c :: t =>
    if c = '\n' then [] :: lines t
    else
      match lines t with
      | [] => [[c]]
      | l :: ls => (c :: l) :: ls

/-- Register values. -/
abbrev File := Reg → Nat

/-- One register gets a new value. -/
def File.set (f : File) (r : Reg) (v : Nat) : File := fun q => if q = r then v else f q

/-- The instructions of a log, each with the register values at that point. -/
def replay : File → List Entry → List (File × Nat × Nat)
  | _, [] => []
  | f, .value r v :: t => replay (f.set r v) t
  | f, .insn pc w :: t => (f, pc, w) :: replay f t

/-- Reads a whole log: all registers are zero in the beginning. -/
def read (text : List Char) : Option (List (File × Nat × Nat)) :=
  ((lines text).mapM readLine).map (replay fun _ => 0)

/-- The registers of a processor that a log is about. -/
structure Cpu where
  gpr : Fin 32 → BitVec 64
  vr : Fin 32 → BitVec 128
  vscr : BitVec 32
  vrsave : BitVec 32
  /-- vector-scalar registers 0 to 31; the floating-point registers are their upper halves -/
  vsr : Fin 32 → BitVec 128
  ctr : BitVec 64
  lr : BitVec 64
  xer : BitVec 64
  cr : BitVec 32
  fpscr : BitVec 64

/-- The value of a register. -/
def Cpu.value (p : Cpu) : File
  | .gpr i => (p.gpr i).toNat
  | .vr i => (p.vr i).toNat
  | .vscr => p.vscr.toNat
  | .vrsave => p.vrsave.toNat
  | .vsr i => (p.vsr i).toNat
  | .ctr => p.ctr.toNat
  | .lr => p.lr.toNat
  | .xer => p.xer.toNat
  | .cr => p.cr.toNat
  | .fpscr => p.fpscr.toNat

/-- What the operating system answers when asked for the registers of a stopped thread (`PTRACE_GETREGS`,
`PTRACE_GETVRREGS`, `PTRACE_GETFPREGS`, `PTRACE_GETVSRREGS`). -/
structure Answers where
  gpr : Nat → BitVec 64
  ctr : BitVec 64
  link : BitVec 64
  xer : BitVec 64
  ccr : BitVec 64
  /-- 34 vectors: the vector registers, VSCR, VRSAVE -/
  vr : Nat → BitVec 128
  /-- 33 doublewords: the floating-point registers and FPSCR -/
  fpr : Nat → BitVec 64
  /-- 32 doublewords: the lower halves of the vector-scalar registers -/
  vsr : Nat → BitVec 64

/-- The answers for a processor with registers `p`, on a little-endian (`le`) or big-endian system. VSCR is the
last word of its vector register. VRSAVE is the first word in memory of its vector. -/
structure Answers.For (a : Answers) (le : Bool) (p : Cpu) : Prop where
  gpr : ∀ i : Fin 32, a.gpr i = p.gpr i
  ctr : a.ctr = p.ctr
  link : a.link = p.lr
  xer : a.xer = p.xer
  ccr : a.ccr.toNat % 2 ^ 32 = p.cr.toNat
  vr : ∀ i : Fin 32, a.vr i = p.vr i
  vscr : (a.vr 32).toNat % 2 ^ 32 = p.vscr.toNat
  vrsave : (if le = true then (a.vr 33).toNat % 2 ^ 32 else (a.vr 33).toNat / 2 ^ 96) = p.vrsave.toNat
  fpr : ∀ i : Fin 32, (a.fpr i).toNat = (p.vsr i).toNat / 2 ^ 64
  vsr : ∀ i : Fin 32, (a.vsr i).toNat = (p.vsr i).toNat % 2 ^ 64
  fpscr : a.fpr 32 = p.fpscr

/-- The two halves of a 128-bit value exchanged. -/
def exchanged (v : Nat) : Nat := v % 2 ^ 64 * 2 ^ 64 + v / 2 ^ 64

/-- The values that are seen in a log: those of the registers, but of FPSCR only the lower half, and on a
little-endian system the vector-scalar registers with exchanged halves. -/
def seen (le : Bool) (p : Cpu) : File
  | .vsr i => if le = true then exchanged (p.vsr i).toNat else (p.vsr i).toNat
  | .fpscr => p.fpscr.toNat % 2 ^ 32
  | r => p.value r

end Ptr.Log
