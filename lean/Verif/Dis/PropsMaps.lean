import Verif.Dis.MapsLemmas
import Verif.Dis.PropsSymbols
/-! # C94: the mappings that the text form of the tracer takes from /proc/pid/maps -/
namespace Sym
open Sym.Spec SymSpec

/-- **C94**, partial: whatever the variables of the program held before, the executable mappings of the process are taken, each with its
address and the symbols of its file, as long as the lines fit in the buffer and executable mappings have names without white space. -/
theorem C94_maps_partial (junk : Nat → Locals) (files : List Char → Option (List Symbol)) (es : List Entry) (he : ∀ e ∈ es, Readable e) :
    initMaps junk files (text es) = tablesOf (es.map (Entry.mapping files)) := by
  refine readMaps_text junk files es he _ 0 true [] ?_
  have : ∀ es : List Entry, es.length ≤ (text es).length := by
    intro es
    induction es with
    | nil => simp
    | cons e es ih =>
      have h1 : 1 ≤ e.line.length := by rw [line_split, List.length_append, List.length_singleton]; omega
      show es.length + 1 ≤ (e.line ++ text es).length
      rw [List.length_append]
      omega
  have := this es
  omega

/-- **C94**: then a name that is printed for an address is the name of a symbol in the file of an executable mapping which begins at or
before the address. -/
theorem C94_names_partial (junk : Nat → Locals) (files : List Char → Option (List Symbol)) (es : List Entry) (he : ∀ e ∈ es, Readable e)
    (tables : List Table) (h : initMaps junk files (text es) = some tables) (hs : ∀ t ∈ tables, Sorted t.syms) (addr : BitVec 64)
    (name : String) (dist : BitVec 64) (hp : printAddress tables addr = some (name, dist)) :
    ∃ e ∈ es, e.exec = true ∧ e.start ≤ addr ∧ ∃ syms, files e.path = some syms ∧ ∃ s ∈ syms, s.name = name := by
  rw [C94_maps_partial junk files es he] at h
  obtain ⟨m, hm, h1, h2, syms, h3, h4⟩ := C66_mapped_partial _ tables h hs addr name dist hp
  obtain ⟨e, hem, rfl⟩ := List.mem_map.1 hm
  exact ⟨e, hem, h1, h2, syms, h3, h4⟩

/-! ### A concrete process -/

/-- A program, its data, a library and the stack. -/
def process : List Entry :=
  [{ start := 0x10000000, stop := 0x10010000, read := true, write := false, exec := true, shared := false, offset := 0, major := 8, minor := 2,
     inode := 1234, path := "/bin/a".toList },
   { start := 0x10010000, stop := 0x10020000, read := true, write := true, exec := false, shared := false, offset := 0, major := 0, minor := 0,
     inode := 0, path := [] },
   { start := 0x7fff80000000, stop := 0x7fff80200000, read := true, write := false, exec := true, shared := false, offset := 0, major := 8,
     minor := 2, inode := 99, path := "/lib/c".toList },
   { start := 0x7ffffff00000, stop := 0x7ffffff30000, read := true, write := true, exec := false, shared := false, offset := 0, major := 0,
     minor := 0, inode := 0, path := "[stack]".toList }]

def symbolFiles : List Char → Option (List Symbol) := fun name =>
  if name = "/bin/a".toList then some [⟨0x10000100, "main"⟩] else if name = "/lib/c".toList then some [⟨0x400, "puts"⟩] else none

/-- Variables that hold nothing but zeroes. -/
def blank : Locals := { start := 0, stop := 0, perm := fun _ => '\x00', library := fun _ => '\x00' }

example : (∀ e ∈ process, Readable e) ∧ (tablesOf (process.map (Entry.mapping symbolFiles))).isSome = true ∧
    ∃ tables, initMaps (fun _ => blank) symbolFiles (text process) = some tables ∧ tables.length = 2 := by
  have h : ∀ e ∈ process, Readable e := by unfold Readable Plain process; decide +kernel
  refine ⟨h, by decide +kernel, ?_⟩
  rw [C94_maps_partial _ _ _ h]
  exact ⟨_, rfl, rfl⟩

/-! ### What is missing -/

/-- A program, and executable memory that belongs to no file, such as the code of a just-in-time compiler. -/
def jit : List Entry :=
  [{ start := 0x10000000, stop := 0x10010000, read := true, write := false, exec := true, shared := false, offset := 0, major := 8, minor := 2,
     inode := 1234, path := "/bin/a".toList },
   { start := 0x20000000, stop := 0x20010000, read := true, write := true, exec := true, shared := false, offset := 0, major := 0, minor := 0,
     inode := 0, path := [] }]

/-- The variables are where they were in the turn before, and hold what it left. -/
def left (es : List Entry) : Nat → Locals
  | 0 => blank
  | k + 1 => match es[k]? with | none => left es k | some e => scanLine (left es k) e.line

/-- Variables with no end of a string. -/
def full : Locals := { start := 0, stop := 0, perm := fun _ => 'a', library := fun _ => 'a' }

/-- An executable mapping without a name takes the name that an earlier turn left in a variable which is not initialised: its addresses get
the names of the program. -/
theorem C94_anonymous_refuted :
    tablesOf (jit.map (Entry.mapping symbolFiles)) = some [{ syms := [⟨0x10000100, "main"⟩], base := 0x10000000, offset := 0 }] ∧
    initMaps (left jit) symbolFiles (text jit) = some [{ syms := [⟨0x10000100, "main"⟩], base := 0x10000000, offset := 0 },
      { syms := [⟨0x10000100, "main"⟩], base := 0x20000000, offset := 0x20000000 }] := by decide +kernel

/-- If that variable holds no end of a string, the program reads behind it. -/
theorem C94_indeterminate_refuted : initMaps (fun _ => full) symbolFiles (text jit) = none := by decide +kernel

/-- A name with a space in it is cut there: the symbols are those of another file, or none. -/
theorem C94_space_refuted : ∃ e : Entry, e.exec = true ∧ e.path = "/bin/a b".toList ∧ symbolFiles e.path = none ∧
    initMaps (fun _ => blank) symbolFiles (text [e]) = some [{ syms := [⟨0x10000100, "main"⟩], base := 0x10000000, offset := 0 }] :=
  ⟨{ start := 0x10000000, stop := 0x10010000, read := true, write := false, exec := true, shared := false, offset := 0, major := 8, minor := 2,
     inode := 1234, path := "/bin/a b".toList }, by decide +kernel⟩

end Sym
