import Verif.Stats.Stats
/-!
What the statistics of a trace mean.  A history is the list of the instructions, the newest first.
-/
namespace Stats.Spec

/-- The parts of the address space. -/
inductive Region where
  | kernel
  | firmware
  | library
  | binary
deriving Repr, DecidableEq

def region (ea : BitVec 64) : Region :=
  if ea.toNat ≥ 0xc000000000000000 then .kernel
  else if 0x30000000 ≤ ea.toNat ∧ ea.toNat < 0x31000000 then .firmware
  else if ea.toNat ≥ 0x700000000000 then .library
  else .binary

/-- The number of instructions of a history that have a property, which may depend on the history before. -/
def count (p : List Insn → Insn → Bool) : List Insn → Nat
  | [] => 0
  | x :: h => count p h + if p h x then 1 else 0

/-- The value that the newest `li r3,v` loaded. -/
def r3 : List Insn → Nat
  | [] => 0
  | x :: h => if x.insn.toNat / 65536 = 0x3860 then x.insn.toNat % 65536 else r3 h

/-- The value that the newest `li r0,v` loaded, or the value of r3 at the newest `mr r0,r3`. -/
def r0 : List Insn → Nat
  | [] => 0
  | x :: h => if x.insn.toNat / 65536 = 0x3800 then x.insn.toNat % 65536 else if x.insn.toNat = 0x7c601b78 then r3 h else r0 h

/-- `sc` and `sc 1`. -/
def sc : BitVec 32 := 0x44000002
def sc1 : BitVec 32 := 0x44000022

/-- Number `k` of `n`, where the last one stands for all that are too large. -/
def isKind (n k v : Nat) : Bool := v == k && v < n || n ≤ v && k + 1 == n

/-- Entry `k` of the table of tokens, where the last one stands for all that are not in the table. -/
def isToken (l : List (BitVec 64)) (k v : Nat) : Bool := l[k]? == some (BitVec.ofNat 64 v) || !l.contains (BitVec.ofNat 64 v) && k + 1 == l.length

/-- The instruction before was in the firmware. -/
def inFirmware : List Insn → Bool
  | [] => false
  | x :: _ => region x.ea == .firmware

/-- The exception vector `v`, at address 0 or where Linux has its relocated vectors. -/
def isVector (v : BitVec 64) (x : Insn) : Bool := x.ea == v || x.ea == v + 0xc000000000004000

/-- `mfspr rT,256` (VRSAVE) in the kernel. -/
def readsVrsave (x : Insn) : Bool := region x.ea == .kernel && (List.range 32).any fun t => x.insn.toNat == 0x7c0042a6 + t * 2 ^ 21

/-- `mftb rT` in the kernel, and `mr r31,r31` in the kernel: Linux executes them while it waits. -/
def readsTime (x : Insn) : Bool := region x.ea == .kernel && (List.range 32).any fun t => x.insn.toNat == 0x7c0c42a6 + t * 2 ^ 21
def lowPriority (x : Insn) : Bool := region x.ea == .kernel && x.insn.toNat == 0x7ffffb78

/-- The number of instructions since the newest one with a property, or since the start. -/
def since (p : Insn → Bool) : List Insn → Nat
  | [] => 0
  | x :: h => if p x then 0 else since p h + 1

/-- The instructions that belong to short loops around instructions with a property: fewer than 10 from one to the next. -/
def looping (p : Insn → Bool) : List Insn → Nat
  | [] => 0
  | x :: h => looping p h + if p x && decide (since p h + 1 < 10) then since p h + 1 else 0

end Stats.Spec
