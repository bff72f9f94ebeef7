import Verif.Bbv.Pam
import Verif.Bbv.Vectors
/-!
Model of the rest of qtrace-bbv: the random projection (pam.c:200-217, matrix.c:147-160), the clusterings that are tried and what is printed
(qtrace-bbv.c:132-197, pam.c:225-259), without the option `-v`.
-/
namespace Bbv

/-- matrix.c:154-156: one entry.  `coin n` tells whether the number from the call number `n` of `rand_r` is above `RAND_MAX/2`. -/
def putOne (coin : Nat → Bool) (row : BitVec 64) (s : Matrix × Nat) (col : BitVec 64) : Except Stop (Matrix × Nat) :=
  match s.1.store row col 1 with
  | .error e => .error e
  | .ok m =>
    if coin s.2 then
      match m.store row col (-1) with
      | .error e => .error e
      | .ok m => .ok (m, s.2 + 1)
    else .ok (m, s.2 + 1)

/-- matrix.c:147-160 `matrix_random_ones`. -/
def randomOnes (coin : Nat → Bool) (m : Matrix) : Except Stop Matrix :=
  match (loop m.rows (m, 0) fun s row => loop m.cols s (putOne coin row)) with
  | .error e => .error e
  | .ok s => .ok s.1

/-- pam.c:200-217 `random_projection`. -/
def projection (h : Heap) (coin : Nat → Bool) (a : Matrix) (dims : BitVec 64) : Except Stop Matrix :=
  match Matrix.create h true a.cols dims with
  | .error e => .error e
  | .ok b =>
    match Matrix.create h true a.rows dims with
    | .error e => .error e
    | .ok c =>
      match randomOnes coin b with
      | .error e => .error e
      | .ok b =>
        match multiply false false c a b with
        | .error e => .error e
        | .ok (c, _) => .ok c

/-- A line that `print_medoids` prints (pam.c:253-254): an interval of the trace, and a weight. -/
structure Line where
  first : BitVec 64
  last : BitVec 64
  count : Nat
deriving Repr, DecidableEq

/-- What `do_one_pam` prints (qtrace-bbv.c:137-155). -/
structure Report where
  k : Nat
  cost : BitVec 64
  lines : List Line
deriving Repr, DecidableEq

/-- How the program ends: by returning from `main`, by `exit(1)`, with undefined behaviour, or not at all. -/
inductive Ending where
  | done
  | exit
  | undefined
  | loops
deriving Repr, DecidableEq

/-- pam.c:254. -/
def line (period : BitVec 64) (w : Weight) : Line :=
  { first := BitVec.ofNat 64 w.offset * period, last := (BitVec.ofNat 64 w.offset + 1) * period - 1, count := w.count }

/-- qtrace-bbv.c:132-163 `do_one_pam`; its value is whether the printed cost is 0.  The loop of lines 145-148 is given as many iterations as the
cost tells: by `C33_terminates_partial` it ends within them. -/
def onePam (period : BitVec 64) (points : List Row) (k : Nat) : Except Ending Report :=
  match initialise points k with
  | none => .error .undefined
  | some none => .error .exit
  | some (some p) =>
    match iterate (p.cost.toNat + 1) p with
    | none => .error .undefined
    | some none => .error .loops
    | some (some p) =>
      match weights p with
      | none => .error .undefined
      | some ws => .ok { k := k, cost := p.cost, lines := ws.map (line period) }

/-- qtrace-bbv.c:190-193: `n` numbers of medoids from `k` on. -/
def sweep (period : BitVec 64) (points : List Row) : Nat → Nat → List Report × Ending
  | 0, _ => ([], .done)
  | n + 1, k =>
    match onePam period points k with
    | .error e => ([], e)
    | .ok r => if r.cost = 0 then ([r], .done) else (r :: (sweep period points n (k + 1)).1, (sweep period points n (k + 1)).2)

/-- qtrace-bbv.c:185-194: with the option `-k`, or all numbers up to `MAX_K` (line 37). -/
def clusterings (period : BitVec 64) (points : List Row) (k : BitVec 32) : List Report × Ending :=
  if k ≠ 0 then
    match onePam period points k.toNat with
    | .error e => ([], e)
    | .ok r => ([r], .done)
  else sweep period points 32 1

def Stop.ending : Stop → Ending
  | .exit => .exit
  | .bounds => .undefined

/-- qtrace-bbv.c:175-178. -/
def reduced (h : Heap) (coin : Nat → Bool) (m : Matrix) (dims : BitVec 32) : Except Stop Matrix :=
  if dims ≠ 0 then projection h coin m (dims.setWidth 64) else .ok m

/-- qtrace-bbv.c:165-197 `do_pam`. -/
def doPam (e : Env) (s : St) (coin : Nat → Bool) (dims k : BitVec 32) : List Report × Ending :=
  match vectors e s with
  | .error x => ([], x.ending)
  | .ok m =>
    match reduced e.heap coin m dims with
    | .error x => ([], x.ending)
    | .ok b => clusterings e.period (rowsOf b) k

/-- qtrace-bbv.c:287-288: `main` after the options, for the records of a trace. -/
def summarise (e : Env) (recs : List Rec) (coin : Nat → Bool) (dims k : BitVec 32) : List Report × Ending :=
  match parse e recs with
  | .error x => ([], x.ending)
  | .ok s => doPam e s coin dims k

end Bbv
