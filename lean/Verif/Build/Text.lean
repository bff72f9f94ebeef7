import Verif.Build.Model
import Verif.Build.SpecText
import Verif.Dis.Model

/-!
# A trace as assembler text

Model of `qtdis -b` (`qtdis/qtdis.c:338-363`), and of the way from there to a new trace: the assembler with the macros
of `qtbuild/qtb.h` (`SpecText.lean`), and `qtbuild`. The text of a statement is not modelled, and neither are comments.
-/

namespace Qtb
open AsmSpec

/-- The words handed to the disassembler for one instruction, qtdis/qtdis.c:306-313 and 360. -/
def shownWords (x : Dis.Shown) : List (BitVec 32) := (Dis.line x).word :: (Dis.line x).suffix.toList

/-- What `print_qt_record` prints about one instruction, qtdis/qtdis.c:360-362. -/
def shownInsn (x : Dis.Shown) : List Stmt :=
  .insn (shownWords x) :: if x.rcd.dataAddrValid = true then [.ldst x.rcd.dataAddr] else []

/-- The calls of `print_qt_record` behind the first, qtdis/qtdis.c:349-362; `last` is `last_ea`. -/
def textFrom (last : BitVec 64) : List Dis.Shown → List Stmt
  | [] => []
  | x :: l => (if last + 4 ≠ x.ea then [.branchToAbs x.ea] else []) ++ shownInsn x ++ textFrom x.ea l

/-- All calls of `print_qt_record`, qtdis/qtdis.c:338-362. -/
def text : List Dis.Shown → List Stmt
  | [] => []
  | x :: l => .startTrace x.ea :: (shownInsn x ++ textFrom x.ea l)

/-- `qtdis -b`, the assembler, `qtbuild`: `none` if the text is not assembled. -/
def rebuild (m : Qt.Mem) : Option Result :=
  (object (text (Dis.list m).shown)).map fun o =>
    build o.words (o.insnmap.map fun e => ⟨e.1, 0, e.2⟩) (o.ldstmap.map fun e => ⟨e.1, e.2⟩)

end Qtb
