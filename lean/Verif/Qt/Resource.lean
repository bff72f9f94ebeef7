import Verif.Qt.Writer

/-! Descriptors and mappings: how readers and writers of traces get them and give them back. -/
namespace Res
open Qt

/-- What the process has open and mapped.  A mapping is its address and its length.  `strange`: something was given back that was not there. -/
structure Os where
  fds : List Int
  maps : List (Nat × Nat)
  strange : Bool := false
deriving DecidableEq, Repr

/-- `close`: fails without effect for -1. -/
def Os.close (os : Os) (fd : Int) : Os :=
  if fd = -1 then os else if fd ∈ os.fds then { os with fds := os.fds.erase fd } else { os with strange := true }

/-- `munmap`: fails without effect for the length 0. -/
def Os.munmap (os : Os) (mem size : Nat) : Os :=
  if size = 0 then os else if (mem, size) ∈ os.maps then { os with maps := os.maps.erase (mem, size) } else { os with strange := true }

/-- What `fallocate` says: success, not supported by the file system, or another error. -/
inductive Falloc where
  | ok
  | unsupported
  | failed
deriving DecidableEq, Repr

/-- fallocate_or_ftruncate, qtwriter.c:30-42. -/
def allocate (f : Falloc) (ftruncate : Bool) : Bool :=
  match f with
  | .ok => true
  | .failed => false
  | .unsupported => ftruncate

/-- What the system answers when a file is grown: `map` is the address that `mmap` or `mremap` returns, never 0, or a failure. -/
structure Env where
  falloc : Falloc
  ftruncate : Bool
  map : Option { a : Nat // a ≠ 0 }
deriving DecidableEq

/-- The descriptor, the address (0 is NULL) and the rest of struct qtwriter_state, qtwriter.h:13-22. -/
structure Wr where
  fd : Int
  mem : Nat
  st : WState

/-- qtwriter_open, qtwriter.c:53-88; `fd` is what `open` returns.  What is stored in the state before an error stays there. -/
def openW (magic : BitVec 32) (fd : Option Nat) (e : Env) (os : Os) : Bool × Wr × Os :=
  match fd with
  | none => (false, ⟨-1, 0, { writerOpen magic with mapped := 0 }⟩, os)
  | some fd =>
    let os' := { os with fds := (fd : Int) :: os.fds }
    if !allocate e.falloc e.ftruncate then (false, ⟨fd, 0, writerOpen magic⟩, os')
    else match e.map with
      | none => (false, ⟨fd, 0, writerOpen magic⟩, os')
      | some a => (true, ⟨fd, a.1, writerOpen magic⟩, { os' with maps := (a.1, BUFFER) :: os'.maps })

/-- How a call ends: it returns, an assertion fails, it is undefined, or it stores at a null pointer. -/
inductive Step (α : Type) where
  | ok (a : α)
  | abort
  | ub
  | null

/-- The check of line 248: is there room for another record? -/
def Wr.full (w : Wr) : Bool := decide (w.st.out.length + BUFFER > w.st.mapped)

/-- The storing part of qtwriter_write_record, qtwriter.c:273-496. -/
def store (w : Wr) (r : Record) (os : Os) : Step (Bool × Wr × Os) :=
  if w.mem = 0 then .null
  else match writeRecord w.st r true with
    | .ok (b, st) => .ok (b, { w with st := st }, os)
    | .abort => .abort
    | .ub => .ub

/-- qtwriter_write_record, qtwriter.c:235-496: the file and the mapping are grown if there is not enough room (lines 247-271).  Nothing can be allocated for the
descriptor -1.  The new size is set by `writeRecord`. -/
def writeW (w : Wr) (r : Record) (e : Env) (os : Os) : Step (Bool × Wr × Os) :=
  if w.full then
    if !(allocate e.falloc e.ftruncate && w.fd != -1) then .ok (false, w, os)
    else match e.map with
      | none => .ok (false, w, os)
      | some a => store { w with mem := a.1 } r { os with maps := (a.1, w.st.mapped + BUFFER) :: os.maps.erase (w.mem, w.st.mapped) }
  else store w r os

/-- qtwriter_close, qtwriter.c:535-553: the result of the last write is ignored. -/
def closeW (w : Wr) (e : Env) (os : Os) : Step Os :=
  match writeW w { Record.zero with insnAddr := w.st.prev.insnAddr + 4 } e os with
  | .ok (_, w', os') => .ok ((os'.munmap w'.mem w'.st.mapped).close w'.fd)
  | .abort => .abort
  | .ub => .ub
  | .null => .null

/-- What happens between opening and closing: records are written, and the rest of the program opens, closes, maps and unmaps other things. -/
inductive Ev where
  | write (r : Record) (e : Env)
  | others (os : Os)

/-- A history of them. -/
def runW : Wr → Os → List Ev → Step (Wr × Os)
  | w, os, [] => .ok (w, os)
  | w, _, .others os' :: l => runW w os' l
  | w, os, .write r e :: l =>
    match writeW w r e os with
    | .ok (_, w', os') => runW w' os' l
    | .abort => .abort
    | .ub => .ub
    | .null => .null

/-- The fields of struct qtreader_state, qtreader.h:16-57, that are about the file. -/
structure Rd where
  mem : Nat
  size : Nat
  fd : Int
deriving DecidableEq, Repr

/-- qtreader_initialize, qtreader.c:394-412: memory of the caller. -/
def initMem (mem size : Nat) : Rd := ⟨mem, size, -1⟩

/-- qtreader_initialize_fd, qtreader.c:949-974.  `stat` is the size of the file or a failure, `map` what `mmap` returns (always a failure for the length 0),
`header` what qtreader_parse_header returns.  The state is not touched before the file is mapped. -/
def initFd (s : Rd) (fd : Int) (stat map : Option Nat) (header : Bool) (os : Os) : Bool × Rd × Os :=
  match stat with
  | none => (false, s, os)
  | some size =>
    match (if size = 0 then none else map) with
    | none => (false, s, os)
    | some p => (header, { initMem p size with fd := fd }, { os with maps := (p, size) :: os.maps })

/-- qtreader_destroy, qtreader.c:976-982. -/
def destroy (s : Rd) (os : Os) : Os := if s.fd ≠ -1 then (os.munmap s.mem s.size).close s.fd else os

end Res
