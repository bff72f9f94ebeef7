/-! Model of qtrace-bbv/ccan/asprintf/asprintf.c.  What a format and its arguments stand for is left to the library: it is the text `text`, or `none` if a character cannot
be converted. -/
namespace Fmt

abbrev Byte := BitVec 8

/-- INT_MAX -/
def intMax : Nat := 2147483647

/-- Memory that was allocated: bytes not yet written are `none`. -/
abbrev Buffer := List (Option Byte)

/-- `vsnprintf(NULL, 0, …)`: the number of characters; -1 if there is an error or the number does not fit in an int. -/
def measure (text : Option (List Byte)) : Int :=
  match text with
  | none => -1
  | some t => if t.length ≤ intMax then t.length else -1

/-- `vsprintf` into a buffer: the text and a zero are stored from its beginning on; `none` is a store behind its end. -/
def store (b : Buffer) (text : Option (List Byte)) : Option (Int × Buffer) :=
  match text with
  | none => some (-1, b)
  | some t => if b.length < t.length + 1 then none else some (measure (some t), t.map some ++ some 0#8 :: b.drop (t.length + 1))

/-- Where a pointer points: to what it pointed before the call, nowhere, or to new memory. -/
inductive Ptr where
  | before
  | null
  | new (b : Buffer)
  deriving DecidableEq, Repr

/-- How a call ends: `undefined` is an overflow of an int or a store behind the end of the memory. -/
inductive Res where
  | undefined
  | ok (ret : Int) (strp : Ptr)
  deriving DecidableEq, Repr

/-- asprintf.c:23-43 `vasprintf`; `malloc` says whether there is memory of a size. -/
def vasprintf (malloc : Nat → Bool) (text : Option (List Byte)) : Res :=
  if measure text < 0 then .ok (-1) .before
  else if measure text + 1 > intMax then .undefined
  else if malloc (measure text + 1).toNat = false then .ok (-1) .null
  else
    match store (List.replicate (measure text + 1).toNat none) text with
    | none => .undefined
    | some (n, b) => .ok n (.new b)

/-- asprintf.c:45-55 `asprintf`. -/
def asprintf (malloc : Nat → Bool) (text : Option (List Byte)) : Res := vasprintf malloc text

/-- asprintf.c:6-17 `afmt`: the pointer it returns.  The variable is not initialised, so that `before` is no pointer at all. -/
def afmt (malloc : Nat → Bool) (text : Option (List Byte)) : Option Ptr :=
  match vasprintf malloc text with
  | .undefined => none
  | .ok n p => some (if n < 0 then .null else p)

end Fmt
