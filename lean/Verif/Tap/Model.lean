/-!
Model of the library for test programs (`qtrace-bbv/ccan/tap/tap.c`) and of the test program of the decoder that uses it
(`htm/tests/radixtest.c`).

Simplifications: texts are the results of the `printf` expansions, allocation does not fail (so that the fixed messages of tap.c:43 and 386
are not printed), the output is the sequence of characters written to `stdout` in the process that made the plan, `tap_fail_callback` is
not set, and there is one thread.
-/
namespace Tap

abbrev Text := List Char

/-- `todo_msg` (tap.c:42): the null pointer, an allocated text, or a pointer to freed memory. -/
inductive Msg where
  | null
  | live (t : Text)
  | freed
  deriving DecidableEq, Repr

/-- The variables of tap.c:36-46; `hooked` is `run_once` (262), `out` what has been printed. -/
structure State where
  noPlan : Bool := false
  skipAll : Bool := false
  havePlan : Bool := false
  count : BitVec 32 := 0
  expected : BitVec 32 := 0
  failures : BitVec 32 := 0
  msg : Msg := .null
  todo : Bool := false
  died : Bool := false
  hooked : Bool := false
  out : Text := []
  deriving DecidableEq, Repr

/-- The calls of a test program: `_gen_result` behind `ok`, `ok1`, `pass` and `fail` (tap.h:56-102), and the others of tap.h. -/
inductive Call where
  | result (ok : Bool) (func file : Text) (line : BitVec 32) (name : Option Text)
  | skip (n : BitVec 32) (why : Text)
  | todoStart (t : Text)
  | todoEnd
  | planTests (n : BitVec 32)
  | planNone
  | planSkip (reason : Option Text)
  | diag (t : Text)
  deriving DecidableEq, Repr

/-- `%d` of a 32 bit number. -/
def showInt (v : BitVec 32) : Text :=
  if v.toInt < 0 then '-' :: Nat.toDigits 10 v.toInt.natAbs else Nat.toDigits 10 v.toInt.natAbs

def State.print (s : State) (t : Text) : State := { s with out := s.out ++ t }

/-- `diagv`, `_diag` (tap.c:74-89). -/
def State.note (s : State) (t : Text) : State := s.print ("# ".toList ++ t ++ ['\n'])

/-- The name with every `#` escaped (tap.c:153-157). -/
def escape : Text → Text
  | [] => []
  | c :: t => if c = '#' then '\\' :: '#' :: escape t else c :: escape t

/-- `isdigit` and `isspace` in the C locale (tap.c:125-126). -/
def digitOrSpace (c : Char) : Bool := c.isDigit || c == ' ' || (9 ≤ c.toNat && c.toNat ≤ 13)

/-- What a call does: it returns, ends the program with status 255, or is undefined. -/
inductive Out where
  | on (s : State)
  | exit (s : State)
  | undefined
  deriving DecidableEq, Repr

/-- The remarks about names of digits and spaces (tap.c:113-137). -/
def State.remark (s : State) : Option Text → State
  | none => s
  | some n =>
    if n.all digitOrSpace then
      (s.note ("    You named your test '".toList ++ n ++ "'.  You shouldn't use numbers for your test names.".toList)).note
        "    Very confusing.".toList
    else s

/-- The name as printed (tap.c:146-162). -/
def nameText : Option Text → Text
  | none => []
  | some n => " - ".toList ++ escape n

/-- `_gen_result` (tap.c:98-193). -/
def result (s : State) (ok : Bool) (func file : Text) (line : BitVec 32) (name : Option Text) : Out :=
  let s := { s with count := s.count + 1 }
  let s := s.remark name
  let s := if ok then s else { s.print "not ".toList with failures := s.failures + 1 }
  let s := s.print ("ok ".toList ++ showInt s.count)
  let s := s.print (nameText name)
  let after (s : State) : Out :=
    let s := s.print ['\n']
    .on (if ok then s else
      s.note ("    Failed ".toList ++ (if s.todo then "(TODO) ".toList else []) ++ "test (".toList ++ file ++ ":".toList ++ func ++
        "() at line ".toList ++ showInt line ++ ")".toList))
  if s.todo then
    match s.msg with
    | .freed => .undefined
    | .null => after { s.print " # TODO libtap malloc issue".toList with failures := if ok then s.failures else s.failures - 1 }
    | .live t => after { s.print (" # TODO ".toList ++ t) with failures := if ok then s.failures else s.failures - 1 }
  else after s

/-- The loop of `skip` (tap.c:382-387). -/
def skips (why : Text) : Nat → State → State
  | 0, s => s
  | n + 1, s => skips why n
      ({ s with count := s.count + 1 }.print ("ok ".toList ++ showInt (s.count + 1) ++ " # skip ".toList ++ why ++ ['\n']))

/-- The reason for skipping everything (tap.c:315-316). -/
def skipReason : Option Text → Text
  | none => []
  | some r => " # Skip ".toList ++ r

/-- One call (tap.c:98-421). -/
def step (s : State) : Call → Out
  | .result ok func file line name => result s ok func file line name
  | .skip n why => .on (skips why n.toNat s)
  | .todoStart t => .on { s with msg := .live t, todo := true }
  | .todoEnd =>
    match s.msg with
    | .null => .on { s with todo := false }
    | .live _ => .on { s with todo := false, msg := .freed }
    | .freed => .undefined
  | .planTests n =>
    let s := { s with hooked := true }
    if s.havePlan then .exit { s with died := true }
    else if n = 0 then .exit { s with died := true }
    else .on { s.print ("1..".toList ++ showInt n ++ ['\n']) with havePlan := true, expected := n }
  | .planNone =>
    let s := { s with hooked := true }
    if s.havePlan then .exit { s with died := true }
    else .on { s with havePlan := true, noPlan := true }
  | .planSkip reason =>
    let s := { s with hooked := true, skipAll := true }
    .on (s.print ("1..0".toList ++ skipReason reason ++ ['\n']))
  | .diag t => .on (s.note t)

/-- `_cleanup` (tap.c:199-253), which runs at the end if a plan was made or tried (266). -/
def cleanup (s : State) : State :=
  if !s.hooked then s
  else if !s.noPlan && !s.havePlan && !s.skipAll then s.note "Looks like your test died before it could output anything.".toList
  else if s.died then s.note ("Looks like your test died just after ".toList ++ showInt s.count ++ ".".toList)
  else
    let s := if !s.skipAll && (s.noPlan || !s.havePlan) then s.print ("1..".toList ++ showInt s.count ++ ['\n']) else s
    if (s.havePlan && !s.noPlan) && s.expected.ult s.count then
      s.note ("Looks like you planned ".toList ++ showInt s.expected ++ " tests but ran ".toList ++ showInt (s.count - s.expected) ++
        " extra.".toList)
    else if (s.havePlan || !s.noPlan) && s.count.ult s.expected then
      let s := s.note ("Looks like you planned ".toList ++ showInt s.expected ++ " tests but only ran ".toList ++ showInt s.count ++
        ".".toList)
      if s.failures ≠ 0 then
        s.note ("Looks like you failed ".toList ++ showInt s.failures ++ " tests of ".toList ++ showInt s.count ++ " run.".toList)
      else s
    else if s.failures ≠ 0 then
      s.note ("Looks like you failed ".toList ++ showInt s.failures ++ " tests of ".toList ++ showInt s.count ++ ".".toList)
    else s

/-- `exit_status_` (tap.c:423-450): the value as an `int`. -/
def status_ (s : State) : Int :=
  if s.noPlan || !s.havePlan then s.failures.toInt
  else if s.expected.ult s.count then (s.count - s.expected).toInt
  else (s.failures + s.expected - s.count).toInt

/-- `exit_status` (tap.c:452-459). -/
def status (s : State) : Int := if 255 < status_ s then 255 else status_ s

/-- What is left of a program that ended: what it printed and its exit status, of which the system keeps eight bits. -/
structure Ended where
  text : Text
  code : Nat
  deriving DecidableEq, Repr

/-- A program that makes the calls and then returns `exit_status()` from `main`; `none` is undefined behaviour. -/
def run (s : State) : List Call → Option Ended
  | [] => some ⟨(cleanup s).out, (status s % 256).toNat⟩
  | c :: cs =>
    match step s c with
    | .on s => run s cs
    | .exit s => some ⟨(cleanup s).out, 255⟩
    | .undefined => none

/-! ### The test program of the decoder -/

/-- One expectation of radixtest.c: the name of a field, and whether the bytes at its offset are those expected (`memcmp`, 1350-1351). -/
structure Expectation where
  name : Text
  same : Bool
  deriving DecidableEq, Repr

/-- `test_record` (radixtest.c:1341-1359): the calls it makes for a record. -/
def testRecord (func file : Text) (line : BitVec 32) (name : Text) : List Expectation → List Call
  | [] => [.result true func file line (some name)]
  | e :: es =>
    if e.same then testRecord func file line name es
    else [.result false func file line (some name), .diag (e.name ++ " differs".toList)]

/-- Calls that are made one after the other. -/
def runAll (s : State) : List Call → Option State
  | [] => some s
  | c :: cs => match step s c with | .on s => runAll s cs | _ => none

/-- `main` of radixtest.c (1393-1402), given the expectations of the records that were found: no plan is made and 0 is returned. -/
def radixtest (func file : Text) (line : BitVec 32) (tests : List (Text × List Expectation)) : Option Ended :=
  (runAll {} (tests.flatMap fun t => testRecord func file line t.1 t.2)).map fun s => ⟨(cleanup s).out, 0⟩

end Tap
