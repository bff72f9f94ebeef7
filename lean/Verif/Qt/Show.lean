import Verif.Qt.Reader

/-! Model of the programs qtlib/tests/test1.c and qtlib/tests/test2.c, which print the records of a trace. -/
namespace Show
open Qt

/-- `%x` and `%lx` -/
def hex (n : Nat) : List Char := Nat.toDigits 16 n

/-- `%08x` -/
def hex8 (n : Nat) : List Char := List.replicate (8 - (hex n).length) '0' ++ hex n

/-- `%d` of a small number that is not negative: page shifts are read as single bytes. -/
def dec (n : Nat) : List Char := Nat.toDigits 10 n

/-- qtlib/tests/test1.c:44. -/
def line1 (r : Record) : List Char := '0' :: 'x' :: (hex8 r.insn.toNat ++ ['\n'])

/-- The fields of qtlib/tests/test2.c:28-31, in the order in which they are printed. -/
def words (r : Record) : List (List Char) :=
  [hex r.insn.toNat, hex r.insnAddr.toNat, hex r.insnRa.toNat, dec r.insnPageShift, hex r.dataAddr.toNat, hex r.dataRa.toNat, dec r.dataPageShift, dec r.branch.toNat,
    dec r.conditionalBranch.toNat, dec r.branchTaken.toNat]

/-- qtlib/tests/test2.c:28-31. -/
def line2 (r : Record) : List Char := List.intercalate [' '] (words r) ++ ['\n']

/-- How a program ends. -/
inductive Ending where
  /-- `return 0` -/
  | done
  /-- `exit(1)` -/
  | exit
  /-- an assertion fails, or the behaviour is undefined -/
  | broken
  deriving DecidableEq, Repr

/-- The two programs, after the file was opened and mapped (test1.c:35-46, test2.c:22-34): what is printed, and the end. -/
def show_ (line : Record → List Char) (m : Mem) : List Char × Ending :=
  match readerInit m with
  | .err .fail _ => ([], .exit)
  | .err _ _ => ([], .broken)
  | .ok _ _ => (((readTrace m false false).records.map line).flatten, if (readTrace m false false).final = .fail then .done else .broken)

end Show
