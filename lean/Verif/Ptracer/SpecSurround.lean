import Verif.Ptracer.Surround

/-! What a program inherits from the process that starts it, from execve(2). -/

namespace Ptr.Sur.Spec
open Ptr Ptr.Sur

/-- Ignored signals stay ignored, handled ones get the default action. -/
def kept (a : Action) : Action := ⟨if a.handler = .ignore then .ignore else .default, 0⟩

/-- `execve`. -/
def exec (p : Proc) : Proc := { actions := fun i => kept (p.actions i), limit := p.limit, files := p.files.filter fun f => !f.cloexec }

/-- The files opened for the user: those that were asked for and could be opened. -/
def opened (trace log : Option (Nat × Option Nat)) : List File :=
  (match log with | some (n, some fd) => [⟨fd, n, false⟩] | _ => []) ++ (match trace with | some (n, some fd) => [⟨fd, n, false⟩] | _ => [])

end Ptr.Sur.Spec
