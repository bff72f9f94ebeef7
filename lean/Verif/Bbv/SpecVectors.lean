import Verif.Bbv.Vectors
import Verif.Bbv.SpecMatrix
/-!
Basic-block vectors of a trace.
-/
namespace Bbv.Spec

/-- A basic block: the address of its first instruction, the number of its instructions, and the position of the last one in the trace. -/
structure Block where
  start : BitVec 64
  length : Nat
  last : Nat
deriving Repr, DecidableEq

/-- A trace cut into basic blocks: the complete ones, and the instructions after the last of them. -/
structure Cut where
  blocks : List Block := []
  rest : List Rec := []
deriving Repr, DecidableEq

def Cut.start (c : Cut) (r : Rec) : BitVec 64 := ((c.rest ++ [r]).map (·.addr)).headD 0

/-- A basic block ends with a branch. -/
def Cut.add (c : Cut) (n : Nat) (r : Rec) : Cut :=
  if r.branch then { blocks := c.blocks ++ [{ start := c.start r, length := c.rest.length + 1, last := n }], rest := [] }
  else { c with rest := c.rest ++ [r] }

/-- The first `n` instructions of a trace. -/
def cut (recs : List Rec) : Nat → Cut
  | 0 => {}
  | n + 1 =>
    match recs[n]? with
    | some r => (cut recs n).add n r
    | none => cut recs n

/-- The different addresses of blocks, in the order of the trace. -/
def starts : List Block → List (BitVec 64) := List.foldl (fun l b => if b.start ∈ l then l else l ++ [b.start]) []

/-- The number of instructions of the blocks at address `a` that end in interval `i`. -/
def executed (P : Nat) (l : List Block) (i : Nat) (a : BitVec 64) : Nat :=
  ((l.filter fun b => b.start == a && b.last / P == i).map (·.length)).sum

/-- The matrix of a trace: a row for every interval, and a column for every address of a block. -/
def vector (P : Nat) (l : List Block) (i j : Nat) : Nat :=
  match (starts l)[j]? with
  | some a => executed P l i a
  | none => 0

/-- The number of columns that the matrix has before the end of interval `i`: it is doubled if there are that many addresses. -/
def columns (P : Nat) (recs : List Rec) : Nat → Nat
  | 0 => 10000
  | i + 1 =>
    if (starts (cut recs ((i + 1) * P)).blocks).length ≥ columns P recs i then columns P recs i * 2 else columns P recs i

end Bbv.Spec
