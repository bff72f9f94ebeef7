import Verif.Qt.SpecBranch
/-!
Calls and returns of a program, in terms of the instructions it executed one after the other.  Independent of the trace
format, of the reader and of the simulator.
-/
namespace CallSpec
open Qt.Spec

/-- An executed instruction. -/
structure Step where
  addr : BitVec 64
  word : BitVec 32
deriving DecidableEq

/-- Where control went from `x`, when `l` was executed after it.  Nothing is known of the last instruction: take it to have
gone on to the next word. -/
def goes (x : Step) : List Step → BitVec 64
  | y :: _ => y.addr
  | [] => x.addr + 4

/-- Control left the sequence of words after `x`. -/
def Jumps (x : Step) (l : List Step) : Prop := goes x l ≠ x.addr + 4

/-- A subroutine call: a branch that sets the link register, other than `bcl 20,31,$+4` (which reads the address of the
instruction) and other than those which `BH` marks as a subroutine return. -/
def IsCall (w : Nat) : Prop :=
  lk w = 1 ∧ ¬ addressing w ∧ (kind w = .b ∨ kind w = .bc ∨ kind w = .bcctr ∨ kind w = .bctar ∨ (kind w = .bclr ∧ bh w ≠ 0))

/-- A subroutine return: a branch to the link register which `BH` marks as such. -/
def IsReturn (w : Nat) : Prop := kind w = .bclr ∧ bh w = 0

/-- `x` was a call that was made. -/
def Calls (x : Step) (l : List Step) : Prop := Jumps x l ∧ IsCall x.word.toNat
/-- `x` was a return that was made. -/
def Returns (x : Step) (l : List Step) : Prop := Jumps x l ∧ IsReturn x.word.toNat

instance (w : Nat) : Decidable (IsCall w) := by unfold IsCall; infer_instance
instance (w : Nat) : Decidable (IsReturn w) := by unfold IsReturn; infer_instance
instance (x l) : Decidable (Jumps x l) := by unfold Jumps; infer_instance
instance (x l) : Decidable (Calls x l) := by unfold Calls; infer_instance
instance (x l) : Decidable (Returns x l) := by unfold Returns; infer_instance

/-- The number of returns made. -/
def returnsMade : List Step → Nat
  | [] => 0
  | x :: l => (if Returns x l then 1 else 0) + returnsMade l

/-- `outs` are the answers that a stack of at most `depth` return addresses gives for the returns, one each, when `s` is on
it: whether the return went to the address on top.  A call puts the address after it on the stack and the oldest one falls
out of a full stack; a return takes the top off.  Nothing is said of a return that finds the stack empty. -/
def Answers (depth : Nat) : List (BitVec 64) → List Step → List Bool → Prop
  | _, [], outs => outs = []
  | s, x :: l, outs =>
    if Calls x l then Answers depth (((x.addr + 4) :: s).take depth) l outs
    else if Returns x l then ∃ b outs', outs = b :: outs' ∧ (∀ a ∈ s.head?, b = true ↔ goes x l = a) ∧ Answers depth s.tail l outs'
    else Answers depth s l outs

/-- The answers in full, with the stack as a ring `r` of return addresses, the one to be used next in front: a call puts the
address after it in front and the last address of the ring falls out; a return goes where the front says or not, and turns
the ring by one, so that what was used comes last.  A stack that no call has filled holds zeros. -/
def ringAnswers : List (BitVec 64) → List Step → List Bool
  | _, [] => []
  | r, x :: l =>
    if Calls x l then ringAnswers ((x.addr + 4) :: r.dropLast) l
    else if Returns x l then (r.head? == some (goes x l)) :: ringAnswers (r.tail ++ r.take 1) l
    else ringAnswers r l

/-- Every return goes to the address after the last call not returned from, and never more than `depth` calls are open.
`s` are the addresses to return to, the last first. -/
def NestedCalls (depth : Nat) : List (BitVec 64) → List Step → Prop
  | _, [] => True
  | s, x :: l =>
    if Calls x l then s.length < depth ∧ NestedCalls depth ((x.addr + 4) :: s) l
    else if Returns x l then s.head? = some (goes x l) ∧ NestedCalls depth s.tail l
    else NestedCalls depth s l

instance decNested (depth : Nat) : ∀ s l, Decidable (NestedCalls depth s l)
  | _, [] => isTrue trivial
  | s, x :: l => by
    have := decNested depth ((x.addr + 4) :: s) l
    have := decNested depth s.tail l
    have := decNested depth s l
    unfold NestedCalls
    infer_instance

/-- A branch of B form that is always taken, other than `bcl 20,31,$+4`. -/
def AlwaysBc (w : Nat) : Prop := kind w = .bc ∧ always w ∧ ¬ addressing w

end CallSpec
