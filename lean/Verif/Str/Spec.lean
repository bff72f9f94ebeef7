import Verif.Str.Model

/-! What the string helpers are for. -/
namespace Str.Spec

/-- The array holds the string: its bytes, none of them 0, then a 0, then anything. -/
def Holds (array text : List Byte) : Prop := 0#8 ∉ text ∧ ∃ junk, array = text ++ 0#8 :: junk

/-- Occurrences of `t` in `h` at increasing positions, none before `start`, that do not overlap. -/
def Apart (t h : List Byte) : Nat → List Nat → Prop
  | _, [] => True
  | start, p :: ps => start ≤ p ∧ (∃ before after, before.length = p ∧ h = before ++ t ++ after) ∧ Apart t h (p + t.length) ps

/-- The largest number of occurrences that do not overlap. -/
def Most (t h : List Byte) (n : Nat) : Prop := (∃ ps, Apart t h 0 ps ∧ ps.length = n) ∧ ∀ ps, Apart t h 0 ps → ps.length ≤ n

end Str.Spec
