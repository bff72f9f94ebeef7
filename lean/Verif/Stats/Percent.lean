import Verif.Num.Double
import Verif.Stats.Imix
import Verif.Stats.Bb
import Verif.Stats.Script
import Verif.Branch.LinkStack
/-!
The percentages that the tools print.
-/

/-- branch/link_stack.c:101: the difference is one of `uint64_t`. -/
def LinkStack.rate (p : Stack) : Num.Shown := Num.percent ((p.predictions + 2 ^ 64 - p.mispredictions) % 2 ^ 64) p.predictions

namespace Stats

/-- ppcstats.c:361, 369, 371: `whole ? 100.0*part/whole : 0`. -/
def partOf (part whole : BitVec 64) : Num.Shown := if whole = 0 then .hundredths 0 else Num.percent part.toNat whole.toNat

/-- What ppcstats.c:357-371 print after the counters. -/
structure Percentages where
  system : Num.Shown
  idle : Num.Shown
  opal : Num.Shown
  user : Num.Shown
  bin : Num.Shown
  lib : Num.Shown
deriving DecidableEq

/-- ppcstats.c:357-371. -/
def Stats.percentages (s : Stats) : Percentages where
  system := Num.percent s.system.toNat s.total.toNat
  idle := partOf s.idle s.system
  opal := Num.percent s.opal.toNat s.total.toNat
  user := Num.percent s.user.toNat s.total.toNat
  bin := partOf s.userbin s.user
  lib := partOf s.userlib s.user

/-- ppcstats.c:375-377: the warning, if there is one.  Comparisons with a NaN are false. -/
def Stats.warning (s : Stats) : Option Num.Shown :=
  if s.ctxswitch = 0 then (if s.ctxswitchEaMultiple = 0 then none else some .inf)
  else if 10 * (Num.single s.ctxswitchEaMultiple.toNat s.ctxswitch.toNat).den < (Num.single s.ctxswitchEaMultiple.toNat s.ctxswitch.toNat).num then
    some (.hundredths (Num.hundredths (Num.single s.ctxswitchEaMultiple.toNat s.ctxswitch.toNat)))
  else none

/-- ppcstats.c:444-446: the share of an entry of the table of instructions; `total` is `s.total`. -/
def Imix.share (s : Imix) (total : BitVec 64) (k : Nat) : Option Num.Shown := s.counts[k]?.map fun c => Num.percent c.toNat total.toNat

end Stats

/-- bb.c:71-75. -/
def Bb.Cache.usage (s : Bb.Cache) (t : Bb.Bbe) : Num.Shown := Num.usage t.num.toNat s.num.toNat

namespace Script

/-- tools/qtrace_statistics.py:115-118, without the sign of the share of the system. -/
def Shares.printed (r : Shares) : List Num.Shown :=
  [Num.percent r.user r.total, Num.percent r.opal r.total, Num.percent r.system.natAbs r.total, Num.percent r.idle r.total]

end Script
