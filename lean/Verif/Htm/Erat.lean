import Verif.Htm.Cache
import Verif.Htm.Pages
/-!
htm/erat.c: the cache of decoded translations (line numbers are of that file).  `R` is the type of the records
(`struct qtrace_radix`), which the cache only copies.
-/
namespace Htm.Erat
open Htm

/-- 47-51 `struct eara_key`. -/
structure Key where
  address : BitVec 64
  real : BitVec 64
  shift : Nat
deriving DecidableEq, Repr

/-- 56-60 `struct eara_val`. -/
structure Val (R : Type) where
  rcd : R
  host : Nat
  guest : Nat
deriving DecidableEq, Repr

abbrev St (R : Type) := Cache Key (Val R)

/-- The cases of the switches 146-165 and 193-212. -/
def sizes : List Nat := [12, 16, 21, 30]

/-- 146-167, 192-212: the key of a page of `2^shift` bytes; `none` is `assert(0)`. -/
def mkKey (shift : Nat) (address real : BitVec 64) : Option Key :=
  if shift ∈ sizes then some ⟨aligned shift address, aligned shift real, shift⟩ else none

/-- 217-224: a new entry, or the record and the guest page size of the old entry replaced. -/
def update {R : Type} (rcd : R) (host guest : Nat) : Option (Val R) → Val R
  | none => ⟨rcd, host, guest⟩
  | some v => { v with rcd := rcd, guest := guest }

/-- 185-225 `erat_insert`; `none` is `assert(0)`. -/
def insert {R : Type} (st : St R) (host : Nat) (address real : BitVec 64) (rcd : R) (guest : Nat) : Option (St R) :=
  match mkKey (min host guest) address real with
  | none => none
  | some k => some (st.put k (update rcd host guest))

/-- 138-178 `erat_get`: the record and both page sizes; the outer `none` is `assert(0)`. -/
def get {R : Type} (st : St R) (shift : Nat) (address real : BitVec 64) : Option (Option (Val R)) :=
  match mkKey shift address real with
  | none => none
  | some k => some (st k)

/-- 230-233 `erat_init`. -/
def init {R : Type} : St R := Cache.empty

/-- A call of `erat_insert`. -/
structure Ins (R : Type) where
  host : Nat
  address : BitVec 64
  real : BitVec 64
  rcd : R
  guest : Nat
deriving DecidableEq, Repr

/-- A history of calls of `erat_insert`. -/
def run {R : Type} : St R → List (Ins R) → Option (St R)
  | st, [] => some st
  | st, i :: l => (insert st i.host i.address i.real i.rcd i.guest).bind fun st => run st l

end Htm.Erat
