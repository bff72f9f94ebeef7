/-! # When the links of a list are right -/

namespace ClistSpec

/-- Objects and their links. -/
structure Links where
  live : Nat → Bool
  next : Nat → Nat
  prev : Nat → Nat

/-- The node reached from `h` by `k` links forward. -/
def reach (l : Links) (h : Nat) : Nat → Nat
  | 0 => h
  | k + 1 => l.next (reach l h k)

/-- The first `k` nodes behind the head are objects other than the head, and each points back to the one before. -/
def Fine (l : Links) (h k : Nat) : Prop :=
  l.live h = true ∧ ∀ j < k, reach l h (j + 1) ≠ h ∧ l.live (reach l h (j + 1)) = true ∧ l.prev (reach l h (j + 1)) = reach l h j

/-- A list of `k` nodes whose links are right all around. -/
def Sound (l : Links) (h k : Nat) : Prop := Fine l h k ∧ reach l h (k + 1) = h ∧ l.prev h = reach l h k

/-- Going forward, the first wrong link back is that of the node number `k + 1`. -/
def WrongAt (l : Links) (h k : Nat) : Prop :=
  Fine l h k ∧ reach l h (k + 1) ≠ h ∧ l.live (reach l h (k + 1)) = true ∧ l.prev (reach l h (k + 1)) ≠ reach l h k

/-- All links are right but that of the head to the last of `k` nodes. -/
def WrongHead (l : Links) (h k : Nat) : Prop := Fine l h k ∧ reach l h (k + 1) = h ∧ l.prev h ≠ reach l h k

/-- Going forward, a link leads to where no object is, before any wrong link back. -/
def Lost (l : Links) (h k : Nat) : Prop := Fine l h k ∧ reach l h (k + 1) ≠ h ∧ l.live (reach l h (k + 1)) = false

end ClistSpec
