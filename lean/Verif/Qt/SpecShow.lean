import Verif.Bbv.SpecVerbose

/-! How the lists that test1 and test2 print are read. -/
namespace ShowSpec
open BbvText

/-- A hexadecimal number. -/
def hex (w : List Char) : Option Nat := if w ≠ [] ∧ w.all (fun c => (hexDigit c).isSome) then some (hexValue w) else none

/-- A decimal number. -/
def dec (w : List Char) : Option Nat := if w ≠ [] ∧ w.all Char.isDigit then some (value w) else none

/-- The list of test1: instruction words of eight digits. -/
def insns (t : List Char) : Option (List Nat) :=
  every (fun l => match l with
    | '0' :: 'x' :: w => if w.length = 8 then hex w else none
    | _ => none) (split '\n' [] t)

/-- A line of test2. -/
structure Row where
  insn : Nat
  addr : Nat
  ra : Nat
  shift : Nat
  dataAddr : Nat
  dataRa : Nat
  dataShift : Nat
  branch : Nat
  conditional : Nat
  taken : Nat
  deriving DecidableEq, Repr

/-- The ten words of a line. -/
def row (l : List Char) : Option Row :=
  match split ' ' [] (l ++ [' ']) with
  | [a, b, c, d, e, f, g, h, i, j] =>
    match hex a, hex b, hex c, dec d, hex e, hex f, dec g, dec h, dec i, dec j with
    | some a, some b, some c, some d, some e, some f, some g, some h, some i, some j => some ⟨a, b, c, d, e, f, g, h, i, j⟩
    | _, _, _, _, _, _, _, _, _, _ => none
  | _ => none

/-- The list of test2. -/
def rows (t : List Char) : Option (List Row) := every row (split '\n' [] t)

end ShowSpec
