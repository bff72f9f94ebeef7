import Verif.Htm.Decode
import Verif.Htm.PropsSource
import Verif.Qt.Writer
/-!
htm/htmdecoder.c: converting an HTM dump to a trace (line numbers are of that file).

Modelled is the conversion: not the options `-s`, `-i` and `-b`, which write no trace (Counts.lean), and not what is printed (Listing.lean, Summary.lean).  The system
calls on the output file succeed.  When decoding ends in the middle, the file that stays behind is not described.
-/
namespace Htm

/-- How the conversion ends. -/
inductive Converted where
  | file (bytes : Qt.Bytes)
  /-- The decoder stopped the program. -/
  | decoder (h : Halt)
  /-- An assertion of the writer failed. -/
  | writerAbort
  /-- The writer did something undefined. -/
  | writerUndefined
deriving DecidableEq

/-- 147-152, 305-314, 330: `print_record` hands the instructions to the writer, in their order, and nothing else; the result
of the writer is ignored.  The writer is opened with the magic number 0. -/
def convert (junk : Qt.Record) (eof : Bool) (bytes : List (BitVec 8)) (failing : Bool) (fill phantom : BitVec 64) : Converted :=
  match decode { fn := true, private_ := true, junk := junk } eof bytes failing fill phantom with
  | .error h => .decoder h
  | .ok (_, r) =>
    match Qt.writeTrace 0 (instructions r.out) with
    | .ok file => .file file
    | .abort => .writerAbort
    | .ub => .writerUndefined

end Htm
