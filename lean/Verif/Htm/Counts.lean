import Verif.Htm.Decode
import Verif.Stats.Stats
import Verif.Stats.Imix
import Verif.Stats.Bb
/-!
htm/htmdecoder.c with `-s`, `-i` and `-b`: counting instead of converting (line numbers are of that file).

`htm_decode` is called without a callback; on the way it gives every instruction to the counters.  `none` stands for a program that
does not come to the point where it prints.
-/
namespace Htm

/-- htm.c:1335, 1817: `ppcstats_log_inst(state->insn_addr, state->insn)`. -/
def logged (es : List Ev) : List Stats.Insn := es.filterMap fun
  | .inst a w => some ⟨a, w⟩
  | _ => none

/-- htm.c:1333, 1683: `bb_ea_log(state->insn_addr)`. -/
def places (es : List Ev) : List (BitVec 64) := es.filterMap fun
  | .ea a => some a
  | _ => none

/-- 315-316: `htm_decode(fd, NULL, NULL, &stat)`; the record of the decoder is not used then.  What the counters are told. -/
def counting (eof : Bool) (bytes : List (BitVec 8)) (failing : Bool) (fill phantom : BitVec 64) : Option (List Stats.Insn × List (BitVec 64)) :=
  match decode { fn := false, private_ := false, junk := {} } eof bytes failing fill phantom with
  | .error _ => none
  | .ok (_, r) => some (logged r.out, places r.out)

/-- 295-303, 323-324 with `-s`: the counters that are printed. -/
def statistics (eof : Bool) (bytes : List (BitVec 8)) (failing : Bool) (fill phantom : BitVec 64) : Option Stats.Stats :=
  (counting eof bytes failing fill phantom).bind fun x => Stats.run Stats.tables (Stats.init Stats.tables) x.1

/-- 295-303, 323-324 with `-i`: the instruction mix. -/
def mix (eof : Bool) (bytes : List (BitVec 8)) (failing : Bool) (fill phantom : BitVec 64) : Option Stats.Imix :=
  (counting eof bytes failing fill phantom).bind fun x =>
    (Stats.Imix.init Stats.opcodeTable).run Stats.opcodeTable (Stats.majors Stats.opcodeTable) (x.1.map (·.insn))

/-- 326-327 with `-b`: the counts of the addresses, from which the blocks are made. -/
def blocks (eof : Bool) (bytes : List (BitVec 8)) (failing : Bool) (fill phantom : BitVec 64) : Option Bb.Cache :=
  (counting eof bytes failing fill phantom).bind fun x => Bb.run Bb.init x.2

end Htm
