import Verif.Bbv.SpecOutput
/-!
Reading the text that `qtrace-bbv -v` prints: first the basic blocks, then the matrix, then the clusterings with the costs on the way to them.
-/
namespace BbvText

/-- A digit of a hexadecimal number in lower case. -/
def hexDigit (c : Char) : Option Nat :=
  if c.isDigit then some (c.toNat - 48) else if 'a' ≤ c ∧ c ≤ 'f' then some (c.toNat - 87) else none

/-- The value of hexadecimal digits. -/
def hexValue (l : List Char) : Nat := l.foldl (fun a c => 16 * a + (hexDigit c).getD 0) 0

/-- The rest of a text behind a title. -/
def after (title l : List Char) : Option (List Char) := if title.isPrefixOf l then some (l.drop title.length) else none

/-- A basic block: its address and its length. -/
def block (l : List Char) : Option (Nat × Int) :=
  match after "BB 0x".toList l with
  | none => none
  | some l =>
    if l.takeWhile (fun c => (hexDigit c).isSome) = [] then none
    else
      match field " length ".toList (l.dropWhile fun c => (hexDigit c).isSome) with
      | none => none
      | some n => some (hexValue (l.takeWhile fun c => (hexDigit c).isSome), n)

/-- What is told by the option `-v`. -/
structure Told where
  blocks : List (Nat × Int)
  matrix : List (List Int)
  tables : List (Shown × List Int)
deriving DecidableEq, Repr

/-- A clustering with the costs that are printed before it. -/
def searched : List (List Char) → Option (Shown × List Int)
  | [] => none
  | a :: rest =>
    match clustering (a :: rest.dropWhile fun l => !("Cost: ".toList.isPrefixOf l)), every whole (rest.takeWhile fun l => !("Cost: ".toList.isPrefixOf l)) with
    | some t, some cs => some (t, cs)
    | _, _ => none

/-- The lines of the output. -/
def told (t : List Char) : Option Told :=
  let lines := split '\n' [] t
  let rest := (lines.dropWhile fun l => l != "Matrix:".toList).drop 1
  match every block (lines.takeWhile fun l => l != "Matrix:".toList),
    every (fun l => every whole (split '\t' [] l)) (rest.takeWhile fun l => !("Testing K=".toList.isPrefixOf l)),
    every searched (paragraphs [] (rest.dropWhile fun l => !("Testing K=".toList.isPrefixOf l))) with
  | some b, some m, some ts => some { blocks := b, matrix := m, tables := ts }
  | _, _, _ => none

end BbvText
