import Verif.Stats.SpecStats
/-!
What is expected of the statistics of a listing (`tools/qtrace_statistics.py`), which a user pipes from `qtdis -e vmlinux`.
-/
namespace Script

/-- An instruction of a listing: its address, the symbol it is printed with and the distance from it, and the text of the disassembler. -/
structure Item where
  addr : BitVec 64
  sym : Option (List Char × BitVec 64)
  text : List Char
deriving DecidableEq, Repr

/-- A blank: what `\s` of the regular expressions of Python means for ASCII text. -/
def isSpace (c : Char) : Bool := (9 ≤ c.toNat && c.toNat ≤ 13) || (28 ≤ c.toNat && c.toNat ≤ 32)

namespace Spec

/-- Items as a disassembler makes them: names without blanks and without `+`, and a text that starts neither with a blank nor with `<` and has one
line. -/
structure Plain (x : Item) : Prop where
  name : ∀ n o, x.sym = some (n, o) → ∀ c ∈ n, isSpace c = false ∧ c ≠ '+'
  first : ∀ c, x.text.head? = some c → isSpace c = false ∧ c ≠ '<'
  line : '\n' ∉ x.text

/-- `w` is somewhere in `n`. -/
def Within (w n : List Char) : Prop := ∃ a b, n = a ++ w ++ b

/-- A name in which nothing looks like the prefix of a system call. -/
def Clean (n : List Char) : Prop := ¬Within "sys_".toList n ∧ ¬Within "SyS_".toList n

/-- `f` is the name under which a function is reported: Linux names the function of a system call after it, with one of two prefixes. -/
inductive Reported : List Char → List Char → Prop where
  | same (n : List Char) : Clean n → Reported n n
  | sys (n : List Char) : Clean n → Reported ("sys_".toList ++ n) n
  | SyS (n : List Char) : Clean n → Reported ("SyS_".toList ++ n) n

/-- The kernel was entered for a system call (or a hypervisor for a call of a guest): vector 0xc00, at address 0 or where Linux has its relocated
vectors. -/
def entersCall (x : Item) : Bool := x.addr == 0xc00 || x.addr == 0xc000000000004c00

/-- `bctrl`, by which the code behind that vector calls the function for the number of the call. -/
def callsOut (x : Item) : Bool := x.text == "bctrl".toList

/-- A part of a trace: an instruction, or a system call from its entry up to the first instruction of the function that serves it. -/
inductive Piece where
  | insn (x : Item)
  | call (entry : Item) (path : List Item) (branch handler : Item)

/-- The instructions of a part. -/
def Piece.items : Piece → List Item
  | .insn x => [x]
  | .call e p b h => e :: (p ++ [b, h])

/-- The parts are what they are called. -/
def Piece.Good : Piece → Prop
  | .insn x => entersCall x = false
  | .call e p b h => entersCall e = true ∧ callsOut e = false ∧ (∀ x ∈ p, entersCall x = false ∧ callsOut x = false) ∧
      (callsOut b = true ∧ entersCall b = false) ∧ entersCall h = false

/-- The function that serves the system call of a part. -/
def Piece.handler : Piece → Option Item
  | .insn _ => none
  | .call _ _ _ h => some h

/-- A part is a system call that is served by a function that is reported as `f`. -/
def Piece.ServedBy (f : List Char) (p : Piece) : Prop := ∃ h n o, p.handler = some h ∧ h.sym = some (n, o) ∧ Reported n f

end Spec
end Script
