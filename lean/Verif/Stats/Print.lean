import Verif.Stats.Stats
import Verif.Stats.QSort
/-!
Model of how qtlib/ppcstats.c sorts and prints its tables of counters.  An entry is its position in the table and its counter.
-/
namespace Stats

/-- A line of a table. -/
abbrev Line := Nat × BitVec 64

/-- ppcstats.c:328-350 `exceptions_compare`, `call_compare`, `hcall_compare`, `insn_compare`: the difference of two 64 bit counters, returned as an `int`. -/
def compare (a b : Line) : Int := ((b.2 - a.2).setWidth 32).toInt

/-- The lines of a table of counters. -/
def linesOf (c : List (BitVec 64)) : List Line := c.mapIdx fun i v => (i, v)

/-- ppcstats.c:381-388, 400-406, 411-417: exceptions, OPAL calls and hypervisor calls; entries with counter 0 are skipped. -/
def printSkip (out : List Line) : List Line := out.filter fun a => a.2 ≠ 0

/-- ppcstats.c:391-397 and 433-443: system calls and instructions; printing ends at the first entry with counter 0. -/
def printStop (out : List Line) : List Line := out.takeWhile fun a => a.2 ≠ 0

end Stats
