/-!
Reading the text that `qtrace-bbv` prints: lines, numbers, tables.
-/
namespace BbvText

/-- The parts of a text that end with a given character; what comes after the last one is left out. -/
def split (sep : Char) : List Char → List Char → List (List Char)
  | _, [] => []
  | part, c :: rest => if c = sep then part :: split sep [] rest else split sep (part ++ [c]) rest

/-- The value of decimal digits. -/
def value (ds : List Char) : Nat := ds.foldl (fun a c => 10 * a + (c.toNat - 48)) 0

/-- Decimal digits at the start of a text, and the rest. -/
def natural (l : List Char) : Option (Nat × List Char) :=
  if l.takeWhile Char.isDigit = [] then none else some (value (l.takeWhile Char.isDigit), l.dropWhile Char.isDigit)

/-- A number with or without a sign at the start of a text. -/
def integer : List Char → Option (Int × List Char)
  | '-' :: l => (natural l).map fun p => (-(p.1 : Int), p.2)
  | l => (natural l).map fun p => ((p.1 : Int), p.2)

/-- A text that is a number. -/
def whole (l : List Char) : Option Int :=
  match integer l with
  | some (v, []) => some v
  | _ => none

/-- A line of a table: first and last instruction of an interval, and its weight. -/
def range (l : List Char) : Option (Int × Int × Int) :=
  match integer l with
  | some (a, '-' :: l) =>
    match integer l with
    | some (b, '\t' :: l) => (whole l).map fun c => (a, b, c)
    | _ => none
  | _ => none

/-- The number behind a title. -/
def field (title l : List Char) : Option Int := if title.isPrefixOf l then whole (l.drop title.length) else none

/-- A clustering: the number of clusters, its cost, the table. -/
structure Shown where
  k : Int
  cost : Int
  table : List (Int × Int × Int)
deriving DecidableEq, Repr

/-- All elements, if none fails. -/
def every {α β : Type} (f : α → Option β) : List α → Option (List β)
  | [] => some []
  | a :: l =>
    match f a, every f l with
    | some b, some bs => some (b :: bs)
    | _, _ => none

/-- The lines between empty lines. -/
def paragraphs : List (List Char) → List (List Char) → List (List (List Char))
  | _, [] => []
  | part, l :: rest => if l = [] then part :: paragraphs [] rest else paragraphs (part ++ [l]) rest

/-- One clustering. -/
def clustering : List (List Char) → Option Shown
  | a :: b :: c :: rest =>
    match field "Testing K=".toList a, field "Cost: ".toList b, every range rest with
    | some k, some cost, some table => if c = "Medoids:".toList then some { k := k, cost := cost, table := table } else none
    | _, _, _ => none
  | _ => none

/-- The clusterings of an output. -/
def clusterings (t : List Char) : Option (List Shown) := every clustering (paragraphs [] (split '\n' [] t))

/-- The rows of a printed matrix. -/
def matrix (t : List Char) : Option (List (List Int)) := every (fun l => every whole (split '\t' [] l)) (split '\n' [] t)

end BbvText
