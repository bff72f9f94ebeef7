import Verif.Branch.LinkStack
import Verif.Qt.Reader
/-!
Model of the program of branch/link_stack.c: reading a trace file and simulating the link stack on it.
-/
namespace LinkStack
open Qt

/-- How a run of the program ends. -/
inductive Ran where
  /-- the trace header cannot be read: exit status 1 -/ | refused
  /-- a failed assertion, or an access outside the file or the stack -/ | crashed
  /-- the answers for the returns, in order, and the stack with the counts that are printed -/ | done (outs : List Bool) (p : Stack)

/-- link_stack.c:121-174 `main`, on a readable file of these bytes.  The lines printed on the way are the answers for the
returns; the final percentage is `LinkStack.rate` (Stats/Percent.lean). -/
def tool (depth : Nat) (m : Mem) : Ran :=
  match readerInit m with
  | .err .fail _ => .refused
  | .err _ _ => .crashed
  | .ok _ _ =>
    let r := readTrace m true false
    match r.final with
    | .fail =>
      match simulate depth r.records with
      | some (outs, p) => .done outs p
      | none => .crashed
    | _ => .crashed

end LinkStack
