import Verif.Bbv.Output
/-!
Model of `dump_pam` and `print_raw_medoids` of pam.c.
-/
namespace Bbv

/-- pam.c:270-279: the nearest medoid from number `i` on, `nearest_medoid` and `nearest_medoid_cost`. -/
def dumpFrom (point : Row) : List Row → BitVec 64 → BitVec 64 → BitVec 64 → Option (BitVec 64)
  | [], _, near, _ => some near
  | m :: l, i, near, cost =>
    match distance point m with
    | none => none
    | some s => if s < cost then dumpFrom point l (i + 1) i s else dumpFrom point l (i + 1) near cost

/-- pam.c:265-282, from a point on: a number for each point.  `none` is the undefined `llabs`. -/
def dumpPoints (medoids : List Row) : List Row → Option (List Char)
  | [] => some []
  | p :: l =>
    match dumpFrom p medoids 0 0xffffffffffffffff 0xffffffffffffffff, dumpPoints medoids l with
    | some n, some t => some (ld n ++ ' ' :: t)
    | _, _ => none

/-- pam.c:261-283 `dump_pam`; its argument `period` is not used. -/
def dumpPam (p : Pam) : Option (List Char) := dumpPoints p.medoids p.points

/-- pam.c:180-188 `print_point`. -/
def pointText (r : Row) : List Char := (r.map fun v => ld v ++ [' ']).flatten ++ ['\n']

/-- pam.c:190-196 `print_raw_medoids`. -/
def rawMedoids (p : Pam) : List Char := (p.medoids.map pointText).flatten

end Bbv
