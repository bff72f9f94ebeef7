/-!
What a percentage with two decimals should say.  Independent of floating point.
-/
namespace Num.Spec

/-- `c` hundredths of a percent are the share `a` of `b`, rounded: they are not further than half a hundredth from it. -/
def Right (c a b : Nat) : Prop := 20000 * a ≤ (2 * c + 1) * b ∧ 2 * c * b ≤ 20000 * a + b

/-- They are not further from it than half a hundredth and the `2 * k`-th part of `a / b` hundredths. -/
def Near (k c a b : Nat) : Prop := 20000 * a * k ≤ (2 * c + 1) * b * k + a ∧ 2 * c * b * k ≤ 20000 * a * k + b * k + a

instance (c a b : Nat) : Decidable (Right c a b) := by unfold Right; infer_instance
instance (k c a b : Nat) : Decidable (Near k c a b) := by unfold Near; infer_instance

/-- The number that decimal digits stand for. -/
def number (l : List Char) : Nat := l.foldl (fun n c => 10 * n + (c.toNat - 48)) 0

/-- The hundredths that a text with two decimals stands for, after blanks. -/
def reading (t : List Char) : Option Nat :=
  let t := t.dropWhile (· == ' ')
  let whole := t.takeWhile Char.isDigit
  match t.dropWhile Char.isDigit with
  | ['.', x, y] => if whole ≠ [] ∧ x.isDigit ∧ y.isDigit then some (100 * number whole + number [x, y]) else none
  | _ => none

end Num.Spec
