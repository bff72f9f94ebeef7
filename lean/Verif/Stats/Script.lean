import Verif.Stats.SpecScript
import Verif.Ptracer.LogLemmas
/-!
Model of `tools/qtrace_statistics.py`, and of the lines of qtdis that it reads.  Texts are ASCII.
-/
namespace Script

/-- qtdis.c:204-212 `__print_address`, and 366-370 without option -r: `"%016lx <%s+0x%lx> "` or `"%016lx "`, a tab, the disassembly, and the line
end of line 429.  Without binutils (372-380) the line is `"%016lx\t0x%x"`, see `printWord`. -/
def printItem (x : Item) : List Char :=
  Ptr.Log.fmtPad 16 x.addr.toNat ++ ' ' ::
    ((match x.sym with
      | some (n, o) => '<' :: (n ++ '+' :: '0' :: 'x' :: Ptr.Log.fmtX o.toNat ++ ['>', ' '])
      | none => []) ++ '\t' :: x.text ++ ['\n'])

/-- qtdis.c:373-379: a line without binutils. -/
def printWord (addr : BitVec 64) (word : BitVec 32) (suffix : Option (BitVec 32)) : List Char :=
  Ptr.Log.fmtPad 16 addr.toNat ++ '\t' :: '0' :: 'x' :: (Ptr.Log.fmtX word.toNat ++
    (match suffix with
     | some w => ' ' :: '0' :: 'x' :: Ptr.Log.fmtX w.toNat
     | none => []) ++ ['\n'])

/-- The listing. -/
def listing (l : List Item) : List Char := (l.map printItem).flatten

/-- qtrace_statistics.py:146, `for line in f`: every line with its line end, if it has one. -/
def fileLines : List Char → List (List Char)
  | [] => []
  | c :: t =>
    if c = '\n' then [c] :: fileLines t
    else match fileLines t with
      | [] => [[c]]
      | l :: ls => (c :: l) :: ls

/-- `[\dA-Fa-f]` for ASCII text. -/
def isHex (c : Char) : Bool := (48 ≤ c.toNat && c.toNat ≤ 57) || (65 ≤ c.toNat && c.toNat ≤ 70) || (97 ≤ c.toNat && c.toNat ≤ 102)

/-- The value of such a digit, as `int(_, 16)` has it. -/
def digit (c : Char) : Nat := if c.toNat ≤ 57 then c.toNat - 48 else if c.toNat ≤ 70 then c.toNat - 55 else c.toNat - 87

/-- `int(s, 16)`, lines 149 and 158. -/
def int16 (s : List Char) : Nat := s.foldl (fun a c => 16 * a + digit c) 0

/-- `\s+(.*)$` at the end of both expressions: `\s+` takes all blanks, and `.` is any character but the line end.  A line has no line end but at its
end, so `$` holds behind that. -/
def afterBlanks (r : List Char) : Option (List Char) :=
  if r.takeWhile isSpace = [] then none else some ((r.dropWhile isSpace).takeWhile (· ≠ '\n'))

/-- Line 133, `^([\dA-Fa-f]+)\s+<([\S]+)>\s+(.*)$`.  No blank is a hexadecimal digit or `<`, so the first two repetitions take all they can; `\S+`
stops at a blank, and the `>` behind it is followed by a blank, so this is the last character before the blank. -/
def matchSym (l : List Char) : Option (List Char × List Char × List Char) :=
  if l.takeWhile isHex = [] ∨ (l.dropWhile isHex).takeWhile isSpace = [] then none
  else
    match (l.dropWhile isHex).dropWhile isSpace with
    | c :: r =>
      if c = '<' ∧ (r.takeWhile fun c => !isSpace c).getLast? = some '>' ∧ 2 ≤ (r.takeWhile fun c => !isSpace c).length then
        (afterBlanks (r.dropWhile fun c => !isSpace c)).map fun t => (l.takeWhile isHex, (r.takeWhile fun c => !isSpace c).dropLast, t)
      else none
    | [] => none

/-- Line 134, `^([\dA-Fa-f]+)\s+(.*)$`. -/
def matchNoSym (l : List Char) : Option (List Char × List Char) :=
  if l.takeWhile isHex = [] then none else (afterBlanks (l.dropWhile isHex)).map fun t => (l.takeWhile isHex, t)

/-- `s.replace(pat, '')` from a place on; the next `skip` characters belong to an occurrence that is left out. -/
def removeFrom (pat : List Char) : (skip : Nat) → List Char → List Char
  | _, [] => []
  | k + 1, _ :: l => removeFrom pat k l
  | 0, c :: l => if pat.isPrefixOf (c :: l) then removeFrom pat (pat.length - 1) l else c :: removeFrom pat 0 l

/-- Lines 151-153. -/
def functionName (n : List Char) : List Char :=
  removeFrom "SyS_".toList 0 (removeFrom "sys_".toList 0 (n.takeWhile (· ≠ '+')))

/-- What line 166 passes to `parse_one`. -/
structure Parsed where
  addr : Nat
  insn : List Char
  function : List Char
deriving DecidableEq, Repr

/-- Lines 147-164; `none` is the error of lines 162-164, which ends the script. -/
def parseLine (l : List Char) : Option Parsed :=
  match matchSym l with
  | some (a, n, t) => some { addr := int16 a, insn := t, function := functionName n }
  | none =>
    match matchNoSym l with
    | some (a, t) => some { addr := int16 a, insn := t, function := [] }
    | none => none

/-- `w in s` for strings. -/
def occurs (w : List Char) : List Char → Bool
  | [] => w.isEmpty
  | c :: l => w.isPrefixOf (c :: l) || occurs w l

/-- `d[k] = d[k] + 1` for a `defaultdict(int)`, which keeps the order of insertion. -/
def bump {α : Type} [DecidableEq α] (k : α) : List (α × Nat) → List (α × Nat)
  | [] => [(k, 1)]
  | (a, n) :: d => if a = k then (a, n + 1) :: d else (a, n) :: bump k d

/-- `d[k]`, 0 if it is not there. -/
def look {α : Type} [DecidableEq α] (k : α) : List (α × Nat) → Nat
  | [] => 0
  | (a, n) :: d => if a = k then n else look k d

/-- Lines 15-48 `exception_lookup`. -/
def exceptionLookup : List Nat :=
  [0x100, 0x200, 0x300, 0x380, 0x400, 0x480, 0x500, 0x600, 0x700, 0x800, 0x900, 0x980, 0xa00, 0xb00, 0xc00, 0xd00, 0xe00, 0xe20, 0xe40, 0xe60, 0xe80,
   0xea0, 0xec0, 0xee0, 0xf00, 0xf20, 0xf40, 0xf60, 0xf80, 0xfa0, 0xfc0, 0xfe0]

/-- Lines 51-61 `__init__`. -/
structure State where
  idle : Nat := 0
  system : Nat := 0
  user : Nat := 0
  opal : Nat := 0
  contextSwitches : Nat := 0
  exceptions : List (Nat × Nat) := []
  systemCalls : List (List Char × Nat) := []
  inEntry : Bool := false
  branch : Bool := false
deriving DecidableEq, Repr

/-- Lines 64-72 `is_exception_entry`. -/
def isExceptionEntry (addr : Nat) : Bool :=
  if addr &&& 0xfffffffffffff000 ≠ 0xc000000000004000 ∧ addr &&& 0xfffffffffffff000 ≠ 0 then false else exceptionLookup.contains (addr &&& 0xfff)

/-- Lines 76-77. -/
def countIdle (x : Parsed) (s : State) : State := if occurs "snooze_loop".toList x.function then { s with idle := s.idle + 1 } else s

/-- Lines 79-84. -/
def countSpace (x : Parsed) (s : State) : State :=
  if x.addr >>> 60 = 0xc then { s with system := s.system + 1 }
  else if x.addr &&& 0xFFFFFFFFFF000000 = 0x30000000 then { s with opal := s.opal + 1 }
  else { s with user := s.user + 1 }

/-- Lines 86-87. -/
def countSwitch (x : Parsed) (s : State) : State :=
  if occurs "__switch_to".toList x.function && occurs "mflr".toList x.insn then { s with contextSwitches := s.contextSwitches + 1 } else s

/-- Lines 89-95. -/
def countException (x : Parsed) (s : State) : State :=
  if isExceptionEntry x.addr then
    { s with exceptions := bump (x.addr &&& 0xfff) s.exceptions, inEntry := if x.addr &&& 0xfff = 0xc00 then true else s.inEntry }
  else s

/-- Lines 98-101. -/
def countCall (x : Parsed) (s : State) : State :=
  if s.branch then { s with systemCalls := bump x.function s.systemCalls, branch := false } else s

/-- Lines 103-106. -/
def watchBranch (x : Parsed) (s : State) : State :=
  if s.inEntry then if x.insn = "bctrl".toList then { s with branch := true, inEntry := false } else s else s

/-- Lines 75-106 `parse_one`. -/
def parseOne (s : State) (x : Parsed) : State :=
  watchBranch x (countCall x (countException x (countSwitch x (countSpace x (countIdle x s)))))

/-- Lines 146-166: the loop over the lines. -/
def runLines (s : State) : List (List Char) → Option State
  | [] => some s
  | l :: ls =>
    match parseLine l with
    | none => none
    | some x => runLines (parseOne s x) ls

/-- The script up to line 166. -/
def run (text : List Char) : Option State := runLines {} (fileLines text)

/-- What lines 110-118 print: the total, and of every share the number that is multiplied by 100 and divided by the total. -/
structure Shares where
  total : Nat
  user : Nat
  opal : Nat
  system : Int
  idle : Nat
deriving DecidableEq, Repr

/-- Lines 110-118; nothing is printed for `none`. -/
def shares (s : State) : Option Shares :=
  if s.system + s.user = 0 then none
  else some { total := s.system + s.user, user := s.user, opal := s.opal, system := (s.system : Int) - s.idle, idle := s.idle }

end Script
