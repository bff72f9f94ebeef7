import Verif.Htm.SpecGuest
import Verif.Htm.SpecSummary
/-!
What the summary has to say of the dump of a guest process with page-table walks.
-/
namespace Htm.Guest
open Htm Htm.Spec

/-- Each instruction, with what was in the dump before it. -/
def each (P : Space) : Ctx → List Item → List (Ctx × Item)
  | _, [] => []
  | c, i :: l => (c, i) :: each P (i.after P c) l

/-- How many instructions there are of a kind. -/
noncomputable def number (p : Ctx → Item → Prop) (l : List (Ctx × Item)) : Nat :=
  open Classical in l.countP fun x => decide (p x.1 x.2)

/-- There is a walk in the dump up to the end of the instruction. -/
def Begun (P : Space) (c : Ctx) (i : Item) : Prop := (i.after P c).walked ≠ []

/-- The translation of the address of the instruction is known. -/
def InsnKnown (P : Space) (c : Ctx) (i : Item) : Prop := (i.fetched P c).known

/-- The instruction accesses data, and the translation of the first address is known. -/
def DataKnown (P : Space) (c : Ctx) (i : Item) : Prop :=
  ∃ d, i.data.head? = some d ∧ P.InPages ((i.fetched P c).walk P d.walk).walked d.ea

/-- The numbers of the instructions, by whether translations of their addresses are known.  Those that are not are counted from the first walk on.
Pages are counted once for each walk, but not for those of second accesses: by the size of the host's page. -/
noncomputable def numbersG (P : Space) (items : List Item) : Numbers where
  withIXlate := number (InsnKnown P) (each P {} items)
  withoutIXlateErat := number (fun c i => Begun P c i ∧ i.line ≠ none ∧ ¬ InsnKnown P c i) (each P {} items)
  withoutIXlateIeara := number (fun c i => Begun P c i ∧ i.line = none ∧ ¬ InsnKnown P c i) (each P {} items)
  withDXlate := number (DataKnown P) (each P {} items)
  withoutDXlateErat := number (fun c i => Begun P c i ∧ i.data ≠ [] ∧ ¬ DataKnown P c i) (each P {} items)
  insnPages := fun n => number (fun c i => i.walk ≠ none ∧ P.hostSize (i.base.addr c.prev) = n) (each P {} items)
  dataPages := fun n => number (fun _ i => ∃ d, i.data.head? = some d ∧ d.walk ≠ none ∧ P.hostSize d.ea = n) (each P {} items)

end Htm.Guest
