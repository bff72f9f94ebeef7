/-! # Command lines

The option loops of the programs.  The functions of the C library they use are described in `getopt`, `strtol`, `strtoul` and `atoi`
below as far as the programs depend on them; that is an assumption about the library. -/

namespace Cmd

/-- An argument; never contains a zero character. -/
abbrev Arg := List Char

/-- What an option string such as `"e:d:rv"` says about a letter: nothing, or whether it takes an argument.  Option strings are those of
ptracer/main.c:319, qtdis/qtdis.c:476, htm/htmdecoder.c:234 and qtrace-bbv/qtrace-bbv.c:253. -/
def takes (c : Char) : List Char → Option Bool
  | [] => none
  | x :: l => if x = c then (if c = ':' then none else some (l.head? == some ':')) else takes c l

/-- How a word of options ends. -/
inductive Tail where
  | done
  | wants (c : Char)
  | bad
  deriving DecidableEq, Repr

/-- `getopt` within one word, behind the `-`: the options found, each with its argument (empty if it has none), and how the word ends. -/
def group (s : List Char) : List Char → List (Char × Arg) × Tail
  | [] => ([], .done)
  | c :: cs =>
    match takes c s with
    | none => ([], .bad)
    | some false => ((c, []) :: (group s cs).1, (group s cs).2)
    | some true => if cs = [] then ([], .wants c) else ([(c, cs)], .done)

/-- All that a loop over `getopt` sees, up to the first `?`. -/
structure Got where
  opts : List (Char × Arg)
  bad : Bool
  operands : List Arg
  deriving DecidableEq, Repr

/-- `getopt` called until it returns -1 or `?`.  `plus`: the option string starts with `+`, the first operand ends the options; otherwise
operands are moved behind the options, in the order given.  The environment variable POSIXLY_CORRECT is assumed not to be set.
The second argument is the option, if any, that waits for its argument. -/
def getopt (s : List Char) (plus : Bool) : Option Char → List Arg → Got
  | some _, [] => ⟨[], true, []⟩
  | none, [] => ⟨[], false, []⟩
  | some c, v :: as =>
    let r := getopt s plus none as
    { r with opts := (c, v) :: r.opts }
  | none, a :: as =>
    if a = ['-', '-'] then ⟨[], false, as⟩
    else if a.head? = some '-' ∧ a.tail ≠ [] then
      match (group s a.tail).2 with
      | .bad => ⟨(group s a.tail).1, true, []⟩
      | .done =>
        let r := getopt s plus none as
        { r with opts := (group s a.tail).1 ++ r.opts }
      | .wants c =>
        let r := getopt s plus (some c) as
        { r with opts := (group s a.tail).1 ++ r.opts }
    else if plus then ⟨[], false, a :: as⟩
    else
      let r := getopt s plus none as
      { r with operands := a :: r.operands }

/-- `isspace` in the C locale. -/
def isSpace (c : Char) : Bool := c = ' ' || (9 ≤ c.toNat && c.toNat ≤ 13)

/-- The digits at the start, as a number. -/
def digits : Nat → List Char → Nat
  | n, [] => n
  | n, c :: l => if c.isDigit then digits (10 * n + (c.toNat - 48)) l else n

/-- Space, a sign and digits, whatever follows: whether there is a minus, and the number. -/
def number (a : Arg) : Bool × Nat :=
  let a := a.dropWhile isSpace
  if a.head? = some '-' then (true, digits 0 a.tail)
  else if a.head? = some '+' then (false, digits 0 a.tail)
  else (false, digits 0 a)

/-- `strtol(a, NULL, 10)`. -/
def strtol (a : Arg) : Int :=
  if (number a).1 then max (-(2 ^ 63)) (-(number a).2) else min (2 ^ 63 - 1) (number a).2

/-- `strtoul(a, NULL, 10)`. -/
def strtoul (a : Arg) : BitVec 64 :=
  if (number a).2 ≥ 2 ^ 64 then -1 else if (number a).1 then -BitVec.ofNat 64 (number a).2 else BitVec.ofNat 64 (number a).2

/-- `atoi(a)`: undefined if the number is not an `int`. -/
def atoi (a : Arg) : Option Int :=
  let v := if (number a).1 then -((number a).2 : Int) else (number a).2
  if -(2 ^ 31) ≤ v ∧ v < 2 ^ 31 then some v else none

/-- What becomes of a program behind its option loop. -/
inductive Start (κ : Type) where
  | exit (code : Nat)
  | undefined
  | run (c : κ) (operands : List Arg)
  deriving DecidableEq, Repr

/-- One round of the loop after the other. -/
def rounds {κ} (f : κ → Char → Arg → Start κ) : κ → List (Char × Arg) → Start κ
  | k, [] => .run k []
  | k, (c, v) :: l =>
    match f k c v with
    | .run k' _ => rounds f k' l
    | x => x

/-! ## ptracer -/

/-- ptracer/main.c:66-78, 227, 312-313: what the options set. -/
@[ext] structure Tracer where
  ascii : Option Arg := none
  qtrace : Option Arg := none
  pid : Int := 0
  left : BitVec 64 := -1
  skip : BitVec 64 := 0
  regs : Bool := false
  xlate : Bool := false
  checkpoint : Option Arg := none
  deriving DecidableEq, Repr

/-- ptracer/main.c:323-362: one round. -/
def tracerRound (k : Tracer) (c : Char) (v : Arg) : Start Tracer :=
  if c = 'a' then .run { k with ascii := some v } []
  else if c = 'q' then .run { k with qtrace := some v } []
  else if c = 'p' then
    match atoi v with
    | some n => .run { k with pid := n } []
    | none => .undefined
  else if c = 'n' then .run { k with left := BitVec.ofInt 64 (strtol v) } []
  else if c = 'r' then .run { k with regs := true } []
  else if c = 'x' then .run { k with xlate := true } []
  else if c = 's' then .run { k with skip := BitVec.ofInt 64 (strtol v) } []
  else if c = 'c' then .run { k with checkpoint := some v } []
  else .exit 1

/-- ptracer/main.c:318-374.  `args` does not include the name of the program. -/
def tracer (args : List Arg) : Start Tracer :=
  let g := getopt "a:q:p:fn:s:rxc:h".toList true none args
  match rounds tracerRound {} g.opts with
  | .run k _ =>
    if g.bad then .exit 1
    else if k.pid ≠ 0 ∧ g.operands.length ≠ 0 then .exit 1
    else if k.pid = 0 ∧ g.operands.length = 0 then .exit 1
    else .run k g.operands
  | x => x

/-- ptracer/main.c:376-386: where the text and the trace go; `none` for the text is that there is none. -/
inductive Text where
  | none
  | stdout
  | file (f : Arg)
  deriving DecidableEq, Repr

/-- ptracer/main.c:376-386. -/
def Tracer.text (k : Tracer) : Text :=
  match k.ascii, k.qtrace with
  | .none, .none => .stdout
  | some f, _ => .file f
  | .none, some _ => .none

/-! ## qtdis -/

/-- qtdis/qtdis.c:55-62, 79, 177-194: what the options set; the files whose symbols are loaded, in this order. -/
@[ext] structure Lister where
  elf : List Arg := []
  qtbuild : Bool := false
  dump : Int := 0
  raw : Bool := false
  stats : Bool := false
  mix : Bool := false
  blocks : Bool := false
  verbose : BitVec 32 := 0
  deriving DecidableEq, Repr

/-- qtdis/qtdis.c:480-515: one round, in a program built with BFD; that `syminit` can load the file is assumed. -/
def listerRound (k : Lister) (c : Char) (v : Arg) : Start Lister :=
  if c = 'e' then .run { k with elf := k.elf ++ [v] } []
  else if c = 'b' then .run { k with qtbuild := true } []
  else if c = 'd' then
    match atoi v with
    | some n => .run { k with dump := n } []
    | none => .undefined
  else if c = 'r' then .run { k with raw := true } []
  else if c = 's' then .run { k with stats := true } []
  else if c = 'i' then .run { k with mix := true } []
  else if c = 'c' then .run { k with blocks := true } []
  else if c = 'v' then .run { k with verbose := k.verbose + 1 } []
  else .exit 1

/-- qtdis/qtdis.c:475-527. -/
def lister (args : List Arg) : Start Lister :=
  let g := getopt "e:d:rvbsci".toList false none args
  match rounds listerRound {} g.opts with
  | .run k _ =>
    if g.bad then .exit 1
    else if g.operands.length ≠ 1 then .exit 1
    else if (k.stats || k.blocks || k.mix) && (k.verbose != 0 || k.raw) then .exit 1
    else .run k g.operands
  | x => x

/-! ## htmdecode -/

/-- htm/htmdecoder.c:224-232: what the options set. -/
@[ext] structure Decoder where
  out : Option Arg := none
  debug : Bool := false
  detail : Bool := false
  stats : Bool := false
  mix : Bool := false
  blocks : Bool := false
  deriving DecidableEq, Repr

/-- htm/htmdecoder.c:235-263: one round. -/
def decoderRound (k : Decoder) (c : Char) (v : Arg) : Start Decoder :=
  if c = 'D' then .run { k with debug := true, detail := true } []
  else if c = 'd' then .run { k with detail := true } []
  else if c = 'o' then .run { k with out := some v } []
  else if c = 's' then .run { k with stats := true } []
  else if c = 'i' then .run { k with mix := true } []
  else if c = 'b' then .run { k with blocks := true } []
  else .exit 0

/-- What htmdecode does: the dump, the trace to write (if there is one), and the numbers to print. -/
structure Job where
  input : Arg
  output : Option Arg
  detail : Bool
  debug : Bool
  stats : Bool
  mix : Bool
  blocks : Bool
  deriving DecidableEq, Repr

/-- htm/htmdecoder.c:265-334, PATH_MAX is 4096. -/
def decoder (args : List Arg) : Start Job :=
  let g := getopt "Ddo:sib".toList false none args
  match rounds decoderRound {} g.opts with
  | .run k _ =>
    if g.bad then .exit 0
    else
      match g.operands with
      | [] => .exit 1
      | input :: rest =>
        let count := k.stats || k.blocks || k.mix
        if k.out.isSome && count then .exit 1
        else
          let path := k.out.getD (input ++ ".qt".toList)
          if path.length ≥ 4096 then .exit 1
          else .run ⟨input, if count then none else some path, k.detail || k.debug, k.debug, k.stats, k.mix, k.blocks⟩ rest
  | .exit n => .exit n
  | .undefined => .undefined

/-! ## qtrace-bbv -/

/-- qtrace-bbv/qtrace-bbv.c:71-77: what the options set. -/
@[ext] structure Bbv where
  dimensions : BitVec 32
  k : BitVec 32 := 0
  period : BitVec 64
  verbose : BitVec 32 := 0
  deriving DecidableEq, Repr

/-- qtrace-bbv/qtrace-bbv.c:257-277: one round. -/
def bbvRound (k : Bbv) (c : Char) (v : Arg) : Start Bbv :=
  if c = 'd' then .run { k with dimensions := (strtoul v).setWidth 32 } []
  else if c = 'k' then .run { k with k := (strtoul v).setWidth 32 } []
  else if c = 'p' then .run { k with period := strtoul v } []
  else if c = 'v' then .run { k with verbose := k.verbose + 1 } []
  else .exit 1

/-- qtrace-bbv/qtrace-bbv.c:29-31, 70-72, 252-284. -/
def bbv (args : List Arg) : Start Bbv :=
  let g := getopt "d:k:p:v".toList false none args
  match rounds bbvRound { dimensions := 127, period := 10000000 } g.opts with
  | .run k _ =>
    if g.bad then .exit 1
    else if g.operands.length ≠ 1 then .exit 1
    else .run k g.operands
  | x => x

end Cmd
