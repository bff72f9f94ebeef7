import Verif.Htm.TlbDump
import Verif.Htm.Summary
/-!
htm/htmdecoder.c: everything that `htmdecode -d` prints after a dump is decoded.
-/
namespace Htm

/-- htmdecoder.c:159-208, 319-321: the summary, and what `tlb_dump` prints (207).  The translation cache starts empty (tlb.c:40), and
the decoder makes the calls that are in its output. -/
def printedAll (c : Conf) (eof : Bool) (bytes : List (BitVec 8)) (failing : Bool) (fill phantom : BitVec 64) : Option (List Char) :=
  match decode c eof bytes failing fill phantom with
  | .ok (_, r) => (Tlb.countedRun {} (lookups r.out)).map fun t => printStat r (Tlb.dump t)
  | .error _ => none

end Htm
