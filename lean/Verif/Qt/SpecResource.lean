import Verif.Qt.Resource

/-! What is in the hands of a writer. -/
namespace Res.Spec
open Qt

/-- The descriptor is open and the mapping is there, with the length the writer knows. -/
def Owned (w : Wr) (os : Os) : Prop := w.fd ≠ -1 ∧ w.fd ∈ os.fds ∧ (w.mem, w.st.mapped) ∈ os.maps

/-- What the rest of the program does leaves the descriptor and the mapping alone. -/
def Fair : Wr → Os → List Ev → Prop
  | _, _, [] => True
  | w, _, .others os' :: l => Owned w os' ∧ Fair w os' l
  | w, os, .write r e :: l => ∀ b w' os', writeW w r e os = .ok (b, w', os') → Fair w' os' l

/-- Nobody else does anything. -/
def Alone : List Ev → Prop
  | [] => True
  | .others _ :: _ => False
  | .write _ _ :: l => Alone l

end Res.Spec
