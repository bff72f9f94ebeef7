import Verif.Tap.Model
import Verif.Num.SpecPercent
/-!
Specification of the report of a test program: what the tests were, told from the calls; and how a harness reads the report (the Test
Anything Protocol), told from the text.
-/
namespace Tap.Spec

/-- A test: whether it passed, its name, why it is only to do, why it was skipped. -/
structure Test where
  passed : Bool
  name : Option Text := none
  todo : Option Text := none
  skipped : Option Text := none
  deriving DecidableEq, Repr

/-- A test is good unless it failed and was expected to pass. -/
def Test.good (t : Test) : Bool := t.passed || t.todo.isSome

/-- The tests that calls make; `todo` is the reason given at the start of the block of things to do that the calls are in. -/
def tests (todo : Option Text) : List Call → List Test
  | [] => []
  | .result ok _ _ _ name :: cs => { passed := ok, name, todo } :: tests todo cs
  | .skip n why :: cs => List.replicate n.toNat { passed := true, skipped := some why } ++ tests todo cs
  | .todoStart t :: cs => tests (some t) cs
  | .todoEnd :: cs => tests none cs
  | .planTests _ :: cs => tests todo cs
  | .planNone :: cs => tests todo cs
  | .planSkip _ :: cs => tests todo cs
  | .diag _ :: cs => tests todo cs

/-- The plans that calls make: a number of tests, or `none` for a plan to count them. -/
def plans : List Call → List (Option Nat)
  | [] => []
  | .planTests n :: cs => some n.toNat :: plans cs
  | .planNone :: cs => none :: plans cs
  | _ :: cs => plans cs

/-- Whether the plan is to skip everything. -/
def skipsAll (cs : List Call) : Prop := ∃ r, Call.planSkip r ∈ cs

/-- No line ends within the texts of a call. -/
def OneLine : Call → Prop
  | .result _ func file _ name => '\n' ∉ func ∧ '\n' ∉ file ∧ '\n' ∉ name.getD []
  | .skip _ why => '\n' ∉ why
  | .todoStart t => '\n' ∉ t
  | .planSkip r => '\n' ∉ r.getD []
  | .diag t => '\n' ∉ t
  | _ => True

/-- Whether there was a block of things to do: never, and the last one is open, or it was ended. -/
inductive Held where
  | never
  | open_
  | ended
  deriving DecidableEq, Repr

/-- Blocks of things to do are not ended a second time. -/
def Blocks : Held → List Call → Prop
  | _, [] => True
  | _, .todoStart _ :: cs => Blocks .open_ cs
  | .never, .todoEnd :: cs => Blocks .never cs
  | .open_, .todoEnd :: cs => Blocks .ended cs
  | .ended, .todoEnd :: _ => False
  | h, .result .. :: cs => Blocks h cs
  | h, .skip .. :: cs => Blocks h cs
  | h, .planTests _ :: cs => Blocks h cs
  | h, .planNone :: cs => Blocks h cs
  | h, .planSkip _ :: cs => Blocks h cs
  | h, .diag _ :: cs => Blocks h cs

/-! ### The harness -/

/-- The lines of a text. -/
def lines : Text → List Text
  | [] => []
  | c :: l =>
    if c = '\n' then [] :: lines l
    else match lines l with
      | [] => [[c]]
      | x :: r => (c :: x) :: r

/-- What a line of a report says. -/
inductive Entry where
  | plan (n : Nat)
  | test (number : Nat) (t : Test)
  deriving DecidableEq, Repr

/-- The text behind a prefix. -/
def behind (p l : Text) : Option Text := if p.isPrefixOf l then some (l.drop p.length) else none

/-- The text up to the first `#` without a backslash before it, with the other `#` without their backslash; and the text behind that `#`.
`slash` is whether there was a backslash just before. -/
def cut (slash : Bool) : Text → Text × Option Text
  | [] => (if slash then ['\\'] else [], none)
  | c :: t =>
    if c = '#' then if slash then ('#' :: (cut false t).1, (cut false t).2) else ([], some t)
    else
      let r := if c = '\\' then cut true t else (c :: (cut false t).1, (cut false t).2)
      (if slash then '\\' :: r.1 else r.1, r.2)

/-- A test line behind the `ok`: the number, ` - ` and the name, and ` # ` with what is special about the test. -/
def readTest (passed : Bool) (l : Text) : Entry :=
  let n := Num.Spec.number (l.takeWhile Char.isDigit)
  match cut false (l.dropWhile Char.isDigit) with
  | (a, none) => .test n { passed, name := behind " - ".toList a }
  | (a, some d) => .test n { passed, name := behind " - ".toList a.dropLast, todo := behind " TODO ".toList d, skipped := behind " skip ".toList d }

/-- A line of a report. -/
def readLine (l : Text) : Option Entry :=
  match behind "ok ".toList l with
  | some r => some (readTest true r)
  | none =>
    match behind "not ok ".toList l with
    | some r => some (readTest false r)
    | none => (behind "1..".toList l).map fun r => .plan (Num.Spec.number (r.takeWhile Char.isDigit))

def read (t : Text) : List Entry := (lines t).filterMap readLine

/-- The tests of a report with their numbers, and the plans. -/
def readTests (t : Text) : List (Nat × Test) := (read t).filterMap fun | .test n x => some (n, x) | .plan _ => none

def readPlans (t : Text) : List Nat := (read t).filterMap fun | .plan n => some n | .test .. => none

/-- Tests numbered from one. -/
def numbered (ts : List Test) : List (Nat × Test) := ts.mapIdx fun i t => (i + 1, t)

/-- The harness accepts a report with one plan, as many tests numbered from one, and all of them good. -/
def accepted (t : Text) : Prop :=
  ∃ ts, readTests t = numbered ts ∧ readPlans t = [ts.length] ∧ ∀ x ∈ ts, x.good = true

end Tap.Spec
