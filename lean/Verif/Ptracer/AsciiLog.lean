import Verif.Ptracer.Window
import Verif.Ptracer.SpecLog

/-!
# The ASCII log with register dumps

Model of the register dump of the live tracer (`ptracer/main.c:76-220`) and of the lines of its ASCII log
(`ptracer/ascii.c:260-300`) in the build without the BFD library, where an instruction is printed as address and
word. With the BFD library the rest of an instruction's line is made by the disassembler, which is not
modelled. Output is a list of characters; writing it out is assumed to succeed (the program does not check).
-/

namespace Ptr.Log

/-- `struct register_state`, ptracer/main.c:77-82. Of `struct pt_regs` only the members that are printed.
The arrays are functions of the index; `fpscr` is an `unsigned int`. -/
structure RState where
  gpr : Nat → BitVec 64
  ctr : BitVec 64
  link : BitVec 64
  xer : BitVec 64
  ccr : BitVec 64
  vmx : Nat → BitVec 128
  vsx : Nat → BitVec 128
  fpscr : BitVec 32

/-- `prev_state` has static storage, ptracer/main.c:83: it begins as zero. -/
def RState.zero : RState := ⟨fun _ => 0, 0, 0, 0, 0, fun _ => 0, fun _ => 0, 0⟩

/-- The element of `vsx_regs` made in `get_vsx_regs`, ptracer/main.c:138-144; `le` is
`__BYTE_ORDER__ == __ORDER_LITTLE_ENDIAN__`. -/
def vsxOf (le : Bool) (fpr vsx : BitVec 64) : BitVec 128 :=
  if le = true then (vsx.setWidth 128 <<< 64) ||| fpr.setWidth 128
  else (fpr.setWidth 128 <<< 64) ||| vsx.setWidth 128

/-- `get_state` with `get_gp_regs`, `get_vmx_regs` and `get_vsx_regs`, ptracer/main.c:105-156. The requests are
assumed to succeed (otherwise the program exits); every printed member is overwritten by the answers, so the
fill pattern is not modelled. `fpscr` keeps the lower half of `fpr[32]`. -/
def getState (le : Bool) (a : Answers) : RState where
  gpr := a.gpr
  ctr := a.ctr
  link := a.link
  xer := a.xer
  ccr := a.ccr
  vmx := a.vr
  vsx := fun i => vsxOf le (a.fpr i) (a.vsr i)
  fpscr := (a.fpr 32).setWidth 32

/-- `%x` or `%lx`. -/
def fmtX (v : Nat) : List Char := Nat.toDigits 16 v

/-- `%0<w>x` or `%0<w>lx`: zeros up to the width. -/
def fmtPad (w v : Nat) : List Char := List.replicate (w - (fmtX v).length) '0' ++ fmtX v

/-- `%02d` of a number below 100. -/
def fmt02d (i : Nat) : List Char := List.replicate (2 - (Nat.toDigits 10 i).length) '0' ++ Nat.toDigits 10 i

/-- `%p` of the C library: `(nil)` or `0x` and hexadecimal digits. -/
def fmtP (v : Nat) : List Char := if v = 0 then "(nil)".toList else '0' :: 'x' :: fmtX v

/-- `compare32`, ptracer/main.c:158-162. The arguments are converted to 32 bits by the call. -/
def compare32 (prev cur : BitVec 32) (str : List Char) : List Char :=
  if prev ≠ cur then '\t' :: str ++ [' ', '0', 'x'] ++ fmtPad 8 cur.toNat ++ ['\n'] else []

/-- `compare64`, ptracer/main.c:164-168. -/
def compare64 (prev cur : BitVec 64) (str : List Char) : List Char :=
  if prev ≠ cur then '\t' :: str ++ [' ', '0', 'x'] ++ fmtPad 16 cur.toNat ++ ['\n'] else []

/-- `compare128`, ptracer/main.c:170-177. -/
def compare128 (prev cur : BitVec 128) (str : List Char) : List Char :=
  if prev ≠ cur then
    '\t' :: str ++ [' ', '0', 'x'] ++ fmtPad 16 ((cur.sshiftRight 64).setWidth 64).toNat ++
      fmtPad 16 ((cur &&& 0xffffffffffffffff#128).setWidth 64).toNat ++ ['\n']
  else []

/-- The comparison of VRSAVE, ptracer/main.c:200-205. -/
def compareVrsave (le : Bool) (prev cur : BitVec 128) : List Char :=
  if le = true then compare32 (prev.setWidth 32) (cur.setWidth 32) "VRSAVE".toList
  else compare32 ((prev.sshiftRight 96).setWidth 32) ((cur.sshiftRight 96).setWidth 32) "VRSAVE".toList

/-- The text of `print_state`, ptracer/main.c:179-217, with `prev` the previous state and `cur` the state
just fetched. -/
def printState (le : Bool) (prev cur : RState) : List Char :=
  (List.range 32).flatMap (fun i => compare64 (prev.gpr i) (cur.gpr i) ("GPR".toList ++ fmt02d i)) ++
  (List.range 32).flatMap (fun i => compare128 (prev.vmx i) (cur.vmx i) ("VR".toList ++ fmt02d i ++ [' '])) ++
  compare32 ((prev.vmx 32).setWidth 32) ((cur.vmx 32).setWidth 32) "VSCR".toList ++
  compareVrsave le (prev.vmx 33) (cur.vmx 33) ++
  (List.range 32).flatMap (fun i => compare128 (prev.vsx i) (cur.vsx i) ("VSR".toList ++ fmt02d i)) ++
  compare64 prev.ctr cur.ctr "CTR".toList ++
  compare64 prev.link cur.link "LR".toList ++
  compare64 prev.xer cur.xer "XER".toList ++
  compare32 (prev.ccr.setWidth 32) (cur.ccr.setWidth 32) "CR".toList ++
  compare64 (prev.fpscr.setWidth 64) (cur.fpscr.setWidth 64) "FPSCR".toList

/-- The line of `ascii_add_record` without the BFD library, ptracer/ascii.c:297. -/
def asciiRecord (insn : BitVec 32) (pc : BitVec 64) : List Char :=
  fmtP pc.toNat ++ ['\t', '0', 'x'] ++ fmtX insn.toNat ++ ['\n']

/-- One call of `print_insn`: the instruction and what the operating system answers about the thread. -/
structure Call where
  pc : BitVec 64
  insn : BitVec 32
  regs : Answers

/-- `print_insn` with an ASCII log and no trace file, ptracer/main.c:221-247: the counters, the previous
register state, and the text added to the log. `dump` is the option `-r`. `read_insn` is called before the limit
is checked; its result is the word of the call. -/
def printInsnAscii (le dump : Bool) (s : Win) (prev : RState) (c : Call) : Win × RState × List Char :=
  if s.skip ≠ 0#64 then ({ s with skip := s.skip - 1#64 }, prev, [])
  else if s.left ≠ -1#64 ∧ s.left = 0#64 then (s, prev, [])
  else
    let s' := if s.left ≠ -1#64 then { s with left := s.left - 1#64 } else s
    if dump = true then
      (s', getState le c.regs, printState le prev (getState le c.regs) ++ asciiRecord c.insn c.pc)
    else (s', prev, asciiRecord c.insn c.pc)

/-- The log of a run of calls of `print_insn`. -/
def asciiRun (le dump : Bool) : Win → RState → List Call → List Char
  | _, _, [] => []
  | s, prev, c :: t =>
    let r := printInsnAscii le dump s prev c
    r.2.2 ++ asciiRun le dump r.1 r.2.1 t

end Ptr.Log
