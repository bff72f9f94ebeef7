import Verif.Qt.Reader
import Verif.Qt.Writer
/-
A program that copies a trace record by record.  Models qtlib/tests/test3.c (line numbers below are of that file).
-/
namespace Qt

/-- How the program ends: normally, with the file it wrote; with an error message and status 1; by a failed assertion; or with
undefined behaviour. -/
inductive Copied where
  | done (file : Bytes)
  | error
  | abort
  | undefined
  deriving DecidableEq, Repr

/-- test3.c:42-44: the end, when the reader returns false. -/
def copyEnd (w : WState) (growOk : Bool) : Copied :=
  match writerClose w growOk with
  | .ok file => .done file
  | .abort => .abort
  | .ub => .undefined

/-- test3.c:35-44: the loop and the end.  `fuel` bounds the number of records as in `readLoop`, and does not run out; `grow n` tells
whether the output file can be grown when the `n`th call of the writer wants it. -/
def copyLoop (m : Mem) (grow : Nat → Bool) : (fuel n : Nat) → RState → WState → Copied
  | 0, n, _, w => copyEnd w (grow n)
  | fuel + 1, n, s, w =>
    match nextRecord m s with
    | .ok _ c =>
      match writeRecord w c.rcd (grow n) with
      | .ok (true, w') => copyLoop m grow fuel (n + 1) c.st w'
      | .ok (false, _) => .error
      | .abort => .abort
      | .ub => .undefined
    | .err .fail _ => copyEnd w (grow n)
    | .err .abort _ => .abort
    | .err _ _ => .undefined

/-- test3.c:12-45.  Simplified: opening the files succeeds (the failures of `open`, `fstat` and `mmap` are those of the system). -/
def copyTrace (m : Mem) (grow : Nat → Bool) : Copied :=
  match readerInit m with
  | .ok _ c => copyLoop m grow (m.bytes.length + 1) 0 c.st (writerOpen 0)
  | .err .fail _ => .error
  | .err .abort _ => .abort
  | .err _ _ => .undefined

/-! ### The programs that write a trace and check what is read back -/

/-- qtlib/tests/test1.c:17-46, the loop of line 43: the instruction words printed, when the trace can be opened. -/
def printedWords (m : Mem) : Option (List (BitVec 32)) :=
  match readerInit m with
  | .ok _ c => some ((readLoop m (m.bytes.length + 1) c.st).records.map (·.insn))
  | .err _ _ => none

end Qt
