import Verif.Qt.Reader
/-!
Model of branch/link_stack.c, the link stack simulator.  Line numbers are of that file.

`none` stands for an access outside the allocated entries.  The statistics counters are `uint64_t` in the code and
natural numbers here: they would wrap after 2^64 returns.
-/
namespace LinkStack
open Qt

/-- link_stack.c:40-46 `struct link_stack` (the unused collision counter is left out). -/
structure Stack where
  depth : Nat
  offset : Nat
  entries : List (BitVec 64)
  predictions : Nat := 0
  mispredictions : Nat := 0
deriving DecidableEq

/-- link_stack.c:48-68 `link_stack_init`.  `depth - 1` is unsigned 64-bit arithmetic.  A depth that cannot be allocated
ends the program and is not modelled. -/
def init (depth : Nat) : Stack :=
  { depth, offset := (depth + 2 ^ 64 - 1) % 2 ^ 64, entries := List.replicate depth 0 }

/-- link_stack.c:70-78 `link_stack_push`. -/
def push (p : Stack) (addr : BitVec 64) : Option Stack :=
  let offset := if p.offset = (p.depth + 2 ^ 64 - 1) % 2 ^ 64 then 0 else p.offset + 1
  if offset < p.entries.length then
    some { p with offset, entries := p.entries.set offset (addr + 4) }
  else none

/-- link_stack.c:80-96 `link_stack_pop`. -/
def pop (p : Stack) (addr : BitVec 64) : Option (Bool × Stack) :=
  match p.entries[p.offset]? with
  | none => none
  | some predicted =>
    let offset := if p.offset = 0 then (p.depth + 2 ^ 64 - 1) % 2 ^ 64 else p.offset - 1
    some (predicted == addr,
      { p with
        offset
        predictions := p.predictions + 1
        mispredictions := if predicted ≠ addr then p.mispredictions + 1 else p.mispredictions })

/-- What the simulator does with a record. -/
inductive Op where
  | call (addr : BitVec 64)
  | ret (addr : BitVec 64)
deriving DecidableEq

/-- link_stack.c:151-168: the part of a record that matters. -/
def toOp (r : Record) : Option Op :=
  if r.branchTaken = false then none
  else if r.branchType = .call then some (.call r.insnAddr)
  else if r.branchType = .ret then some (.ret r.nextInsnAddr)
  else none

/-- One call of push or pop; the outcome of a return is kept. -/
def step (p : Stack) : Op → Option (List Bool × Stack)
  | .call a => (push p a).map fun p => ([], p)
  | .ret a => (pop p a).map fun x => ([x.1], x.2)

/-- A sequence of them, with the outcomes of the returns in order. -/
def run (p : Stack) : List Op → Option (List Bool × Stack)
  | [] => some ([], p)
  | o :: l => do
    let (r, p) ← step p o
    let (rs, p) ← run p l
    return (r ++ rs, p)

/-- link_stack.c:150-169: the loop over the records of a trace. -/
def simulate (depth : Nat) (records : List Record) : Option (List Bool × Stack) :=
  run (init depth) (records.filterMap toOp)

end LinkStack
