import Verif.Bbv.SpecOutput
/-!
How the lists of points and medoids of qtrace-bbv are read.
-/
namespace BbvText

/-- The numbers of a line. -/
def numbers (l : List Char) : Option (List Int) := every whole (split ' ' [] l)

/-- The numbers of all lines. -/
def lists (t : List Char) : Option (List (List Int)) := every numbers (split '\n' [] t)

end BbvText
