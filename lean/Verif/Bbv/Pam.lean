import Verif.Bbv.Matrix
/-!
Model of qtrace-bbv/pam.c and of the clustering part of qtrace-bbv.c.  Points and medoids are pointers to rows of a matrix that does
not change meanwhile, so a pointer is represented by the row.  `none` is the undefined `llabs` of the least number, or an access
outside an array.
-/
namespace Bbv

abbrev Row := List (BitVec 64)

/-- pam.h:10-18. -/
structure Pam where
  points : List Row
  medoids : List Row
  cost : BitVec 64
deriving Repr, DecidableEq

/-- `llabs` on a 64 bit difference (pam.c:16). -/
def llabs (x : BitVec 64) : Option (BitVec 64) := if x = 0x8000000000000000 then none else some (if x.msb then -x else x)

/-- pam.c:10-19 `manhattan_distance`; rows have the same length. -/
def distanceFrom : BitVec 64 → Row → Row → Option (BitVec 64)
  | d, x :: a, y :: b =>
    match llabs (x - y) with
    | none => none
    | some v => distanceFrom (d + v) a b
  | d, _, _ => some d

def distance (a b : Row) : Option (BitVec 64) := distanceFrom 0 a b

/-- pam.c:34-43, from medoid number `i` on. -/
def findFrom (point : Row) : List Row → Nat → Option Nat → BitVec 64 → Option (Option Nat × BitVec 64)
  | [], _, ret, cost => some (ret, cost)
  | m :: l, i, ret, cost =>
    match distance point m with
    | none => none
    | some s => if s < cost then findFrom point l (i + 1) (some i) s else findFrom point l (i + 1) ret cost

/-- pam.c:25-49 `find_medoid`: the number of the nearest medoid (`none` is -1) and its distance. -/
def findMedoid (medoids : List Row) (point : Row) : Option (Option Nat × BitVec 64) :=
  findFrom point medoids 0 none 0xffffffffffffffff

/-- pam.c:56-64, with the sum so far. -/
def costFrom (medoids : List Row) : List Row → BitVec 64 → Option (BitVec 64)
  | [], sum => some sum
  | p :: l, sum =>
    match findMedoid medoids p with
    | none => none
    | some (_, c) => costFrom medoids l (sum + c)

/-- pam.c:51-65 `calculate_total_cost`. -/
def totalCost (points medoids : List Row) : Option (BitVec 64) := costFrom medoids points 0

/-- pam.c:67-77 `is_medoid`. -/
def isMedoid (point : Row) : List Row → Option Bool
  | [] => some false
  | m :: l =>
    match distance point m with
    | none => none
    | some s => if s = 0 then some true else isMedoid point l

/-- What changes in pam.c:84-108. -/
structure Swap where
  medoids : List Row
  cost : BitVec 64
  progress : Bool
deriving Repr, DecidableEq

/-- pam.c:92-102: medoid number `m` is replaced if that lowers the cost. -/
def trySwap (points : List Row) (m : Nat) (point : Row) (s : Swap) : Option Swap :=
  match totalCost points (s.medoids.set m point) with
  | none => none
  | some cost => some (if cost < s.cost then { medoids := s.medoids.set m point, cost := cost, progress := true } else s)

/-- pam.c:85-107: the points from some point on, for medoid number `m`; true for the return in line 106. -/
def swapPoints (points : List Row) (m : Nat) : List Row → Swap → Option (Swap × Bool)
  | [], s => some (s, false)
  | p :: l, s =>
    match isMedoid p s.medoids with
    | none => none
    | some true => swapPoints points m l s
    | some false =>
      match trySwap points m p s with
      | none => none
      | some s => if s.cost = 0 then some (s, true) else swapPoints points m l s

/-- pam.c:84-108: `n` medoids from number `m` on. -/
def swapMedoids (points : List Row) : Nat → Nat → Swap → Option (Swap × Bool)
  | 0, _, s => some (s, false)
  | n + 1, m, s =>
    match swapPoints points m points s with
    | none => none
    | some (s, true) => some (s, true)
    | some (s, false) => swapMedoids points n (m + 1) s

/-- pam.c:79-111 `pam_iteration`. -/
def iteration (p : Pam) : Option (Pam × Bool) :=
  match swapMedoids p.points p.medoids.length 0 { medoids := p.medoids, cost := p.cost, progress := false } with
  | none => none
  | some (s, ret) => some ({ p with medoids := s.medoids, cost := s.cost }, !ret && s.progress)

/-- pam.c:159-168: the first points that are different, up to `k` of them. -/
def firstPoints (k : Nat) : List Row → List Row → Option (List Row)
  | [], ms => some ms
  | p :: l, ms =>
    match isMedoid p ms with
    | none => none
    | some true => firstPoints k l ms
    | some false => if (ms ++ [p]).length = k then some (ms ++ [p]) else firstPoints k l (ms ++ [p])

/-- pam.c:120-179 `pam_initialise`, if there is enough memory; the inner `none` is `return NULL`. -/
def initialise (points : List Row) (k : Nat) : Option (Option Pam) :=
  if k = 0 then some none
  else
    match firstPoints k points [] with
    | none => none
    | some ms =>
      if k > ms.length then some none
      else
        match totalCost points ms with
        | none => none
        | some c => some (some { points := points, medoids := ms, cost := c })

/-- qtrace-bbv.c:145-148, with a bound on the number of iterations; the inner `none` means that the bound was reached. -/
def iterate : Nat → Pam → Option (Option Pam)
  | 0, _ => some none
  | n + 1, p =>
    match iteration p with
    | none => none
    | some (p, true) => iterate n p
    | some (p, false) => some (some p)

/-- pam.c:219-223. -/
structure Weight where
  found : Bool := false
  offset : Nat := 0
  count : Nat := 0
deriving Repr, DecidableEq

/-- pam.c:245-250. -/
def weigh (w : Weight) (p : Nat) (cost : BitVec 64) : Weight :=
  let w := if cost = 0 && !w.found then { w with found := true, offset := p } else w
  { w with count := w.count + 1 }

/-- pam.c:240-251: the points from number `p` on.  `tmp[-1]` is outside the array. -/
def weighPoints (medoids : List Row) : List Row → Nat → List Weight → Option (List Weight)
  | [], _, ws => some ws
  | x :: l, p, ws =>
    match findMedoid medoids x with
    | some (some m, cost) =>
      match ws[m]? with
      | some w => weighPoints medoids l (p + 1) (ws.set m (weigh w p cost))
      | none => none
    | _ => none

/-- pam.c:225-259 `print_medoids`: the table that is printed. -/
def weights (p : Pam) : Option (List Weight) :=
  weighPoints p.medoids p.points 0 (List.replicate p.medoids.length {})

/-- pam.c:135-146: the points of a matrix. -/
def rowsOf (m : Matrix) : List Row :=
  (List.range m.rows.toNat).map fun p => (m.data.drop (m.entry (BitVec.ofNat 64 p) 0)).take m.cols.toNat

end Bbv
