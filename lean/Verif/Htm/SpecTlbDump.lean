import Verif.Htm.SpecTlb
/-! Specification of the report about the translation cache: what is counted, and the text. -/
namespace Htm.TlbSpec
open Htm.Tlb (Op)

/-- A page with the number of uses since it was inserted, and the number of times it was inserted again. -/
structure Row where
  page : Page
  uses : Nat
  again : Nat
deriving DecidableEq

structure Tally where
  rows : List Row := []
  lookups : Nat := 0
  failed : Nat := 0
  replaced : Nat := 0

def Tally.has (t : Tally) (a : Nat) : Bool := t.rows.any fun r => r.page.Covers a

/-- A lookup of an address uses the page it is in.  Inserting a page that is there already is another use of it.  Inserting a page
replaces the one that covers the address. -/
def Tally.step (t : Tally) : Op → Tally
  | .get a flags =>
    if flags = 1 then
      { t with
        rows := t.rows.map fun r => if r.page.Covers a.toNat then { r with uses := r.uses + 1 } else r
        lookups := t.lookups + 1
        failed := t.failed + if t.has a.toNat then 0 else 1 }
    else t
  | .set ea flags ra size =>
    if flags = 1 then
      let p := pageOf ea.toNat ra.toNat size.toNat
      if (t.rows.any fun r => r.page = p) then
        { t with rows := t.rows.map fun r => if r.page = p then { r with uses := r.uses + 1, again := r.again + 1 } else r }
      else
        { t with
          rows := ⟨p, 0, 0⟩ :: t.rows.filter fun r => ¬ r.page.Covers ea.toNat
          replaced := t.replaced + if t.has ea.toNat then 1 else 0 }
    else t

def tally (history : List Op) : Tally := history.foldl Tally.step {}

/-- A number with leading zeros. -/
def zeros (w : Nat) (digits : List Char) : List Char := List.replicate (w - digits.length) '0' ++ digits

/-- The line for the row with number `n`. -/
def Row.text (r : Row) (n : Nat) : List Char :=
  "TLBDUMP ".toList ++ zeros 2 (Nat.toDigits 10 n) ++ ": ea:".toList ++ zeros 16 (Nat.toDigits 16 r.page.ea) ++ " ra:".toList ++ zeros 16 (Nat.toDigits 16 r.page.ra) ++
    " size:".toList ++ zeros 8 (Nat.toDigits 16 r.page.size) ++ " miss:".toList ++ Nat.toDigits 10 r.again ++ " hit:".toList ++ Nat.toDigits 10 r.uses ++ ['\n']

/-- The lines for the rows. -/
def rowsText (rows : List Row) : List Char := rows.zipIdx.flatMap fun p => p.1.text p.2

/-- The last two lines. -/
def Tally.text (t : Tally) : List Char :=
  "TLBDUMP no translation: ".toList ++ Nat.toDigits 10 t.failed ++ " of ".toList ++ Nat.toDigits 10 t.lookups ++ ['\n'] ++
    "TLBDUMP replaced translations: ".toList ++ Nat.toDigits 10 t.replaced ++ ['\n']

end Htm.TlbSpec
