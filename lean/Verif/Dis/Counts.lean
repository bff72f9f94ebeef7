import Verif.Dis.Model
import Verif.Stats.Stats
import Verif.Stats.Imix
import Verif.Stats.Bb
/-! # qtdis with -s, -i and -c: counting instead of listing

The loop over the trace is that of the listing (`Dis.list`).  `none` stands for a crash of the program. -/

namespace Dis
open Qt

/-- qtdis.c:277-284: with these options `disasm`, which is called once for every instruction shown (lines 366-376), gives the
address and the first word to the counters.  They are printed (lines 541-547) when the loop has come to its end. -/
def counted (m : Mem) : Option (List Stats.Insn) :=
  let l := list m
  match l.final with
  | .fail => some (l.shown.map fun x => ⟨x.ea, x.rcd.insn⟩)
  | _ => none

/-- qtdis.c:528-542 with -s: the counters that are printed, from ppcstats.c:318-326. -/
def statistics (m : Mem) : Option Stats.Stats := (counted m).bind (Stats.run Stats.tables (Stats.init Stats.tables))

/-- qtdis.c:528-542 with -i: the instruction mix. -/
def mix (m : Mem) : Option Stats.Imix :=
  (counted m).bind fun l => (Stats.Imix.init Stats.opcodeTable).run Stats.opcodeTable (Stats.majors Stats.opcodeTable) (l.map (·.insn))

/-- qtdis.c:537-547 with -c: the counts of the addresses, from which the blocks are made. -/
def blocks (m : Mem) : Option Bb.Cache := (counted m).bind fun l => Bb.run Bb.init (l.map (·.ea))

end Dis
