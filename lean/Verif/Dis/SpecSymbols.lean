import Verif.Dis.Symbols

/-! # Specification vocabulary for symbol lookup -/

namespace SymSpec
open Sym

/-- In order of addresses. -/
def Sorted : List Symbol → Prop
  | [] => True
  | [_] => True
  | a :: b :: l => a.value ≤ b.value ∧ Sorted (b :: l)

/-- `s` is a symbol of the table, not above the address, and none of the others is closer. -/
def Closest (syms : List Symbol) (addr : BitVec 64) (s : Symbol) : Prop :=
  s ∈ syms ∧ s.value ≤ addr ∧ ∀ t ∈ syms, t.value ≤ addr → t.value ≤ s.value

/-- The address is below all symbols or above all of them. -/
def Outside (syms : List Symbol) (addr : BitVec 64) : Prop :=
  (∀ s ∈ syms, addr < s.value) ∨ (∀ s ∈ syms, s.value < addr)

/-- `q` sorts by address. -/
def Sorts (q : List Symbol → List Symbol) : Prop := ∀ l, (q l).Perm l ∧ Sorted (q l)

/-- `t` is a table that starts at or below the address, and none of the others starts closer. -/
def Nearest (tables : List Table) (addr : BitVec 64) (t : Table) : Prop :=
  t ∈ tables ∧ t.base ≤ addr ∧ ∀ u ∈ tables, u.base ≤ addr → u.base ≤ t.base

/-- What a comparison function for `qsort` has to satisfy (C11, 7.22.5.2): exchanging the arguments changes the sign. -/
def Comparison (cmp : Symbol → Symbol → Int) : Prop := ∀ a b, (0 < cmp a b ↔ cmp b a < 0)

end SymSpec
