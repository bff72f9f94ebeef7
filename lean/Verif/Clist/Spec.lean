/-! # What linked lists are: sequences of elements under heads -/

namespace ClistSpec

/-- Which addresses hold an object, and the elements of every list, by the address of its head. -/
structure State where
  live : Nat → Bool
  lists : Nat → Option (List Nat)

/-- Nothing allocated, no lists. -/
def State.start : State := { live := fun _ => false, lists := fun _ => none }

/-- What a program may do with lists. -/
inductive Op where
  /-- Allocate a node or head; what it contains is not known. -/
  | alloc (a x y : Nat)
  | free (a : Nat)
  | init (h : Nat)
  | add (h n : Nat)
  | addTail (h n : Nat)
  | addAfter (h p n : Nat)
  | addBefore (h p n : Nat)
  /-- `h` is the list `n` is on; only `delFrom` is told. -/
  | del (h n : Nat)
  | delInit (h n : Nat)
  | delFrom (h n : Nat)
  | swap (h o n : Nat)
  | pop (h : Nat)
  | append (to frm : Nat)
  | prepend (to frm : Nat)
  /-- Go through a list with `list_for_each_safe`, taking off and freeing elements; `fuel` bounds the steps of the model. -/
  | sweep (h : Nat) (rm : Nat → Bool) (fuel : Nat)

/-- An object that is not a head and on no list. -/
def Unused (s : State) (n : Nat) : Prop :=
  s.live n = true ∧ s.lists n = none ∧ ∀ h xs, s.lists h = some xs → n ∉ xs

/-- `n` is on list `h`. -/
def On (s : State) (h n : Nat) : Prop := ∃ xs, s.lists h = some xs ∧ n ∈ xs

/-- `h` is a head. -/
def Head (s : State) (h : Nat) : Prop := ∃ xs, s.lists h = some xs

/-- What a program must see to. -/
def Allowed (s : State) : Op → Prop
  | .alloc a _ _ => s.live a = false
  | .free a => Unused s a
  | .init h => s.live h = true ∧ ∀ k xs, s.lists k = some xs → h ∉ xs
  | .add h n => Head s h ∧ Unused s n
  | .addTail h n => Head s h ∧ Unused s n
  | .addAfter h p n => On s h p ∧ Unused s n
  | .addBefore h p n => On s h p ∧ Unused s n
  | .del h n => On s h n
  | .delInit h n => On s h n
  | .delFrom h n => On s h n
  | .swap h o n => On s h o ∧ Unused s n
  | .pop h => Head s h
  | .append to frm => Head s to ∧ Head s frm ∧ to ≠ frm
  | .prepend to frm => Head s to ∧ Head s frm ∧ to ≠ frm
  | .sweep h _ fuel => ∃ xs, s.lists h = some xs ∧ xs.length ≤ fuel

/-- `n` put behind `p`. -/
def behind (p n : Nat) : List Nat → List Nat
  | [] => []
  | x :: xs => if x = p then x :: n :: xs else x :: behind p n xs

/-- `n` put before `p`. -/
def before (p n : Nat) : List Nat → List Nat
  | [] => []
  | x :: xs => if x = p then n :: x :: xs else x :: before p n xs

/-- The elements of a list. -/
def State.at (s : State) (h : Nat) : List Nat := (s.lists h).getD []

def State.put (s : State) (h : Nat) (xs : List Nat) : State :=
  { s with lists := fun k => if k = h then some xs else s.lists k }

/-- What each operation does. -/
def after (s : State) : Op → State
  | .alloc a _ _ => { s with live := fun b => if b = a then true else s.live b }
  | .free a => { s with live := fun b => if b = a then false else s.live b }
  | .init h => s.put h []
  | .add h n => s.put h (n :: s.at h)
  | .addTail h n => s.put h (s.at h ++ [n])
  | .addAfter h p n => s.put h (behind p n (s.at h))
  | .addBefore h p n => s.put h (before p n (s.at h))
  | .del h n => s.put h ((s.at h).erase n)
  | .delInit h n => s.put h ((s.at h).erase n)
  | .delFrom h n => s.put h ((s.at h).erase n)
  | .swap h o n => s.put h ((s.at h).map fun x => if x = o then n else x)
  | .pop h => s.put h (s.at h).tail
  | .append to frm => (s.put to (s.at to ++ s.at frm)).put frm []
  | .prepend to frm => (s.put to (s.at frm ++ s.at to)).put frm []
  | .sweep h rm _ =>
    { live := fun b => s.live b && !((s.at h).contains b && rm b)
      lists := (s.put h ((s.at h).filter fun x => !rm x)).lists }

/-- A history: every operation is allowed when it happens. -/
inductive History : State → List Op → State → Prop
  | nil (s) : History s [] s
  | cons (s o ops s') : Allowed s o → History (after s o) ops s' → History s (o :: ops) s'

end ClistSpec
