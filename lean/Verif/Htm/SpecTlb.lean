import Verif.Htm.Tlb
/-! Specification of the translation cache: a set of pages of natural-number addresses. -/
namespace Htm.TlbSpec
open Htm.Tlb (Op)

structure Page where
  ea : Nat
  ra : Nat
  size : Nat
deriving DecidableEq

def Page.Covers (p : Page) (a : Nat) : Prop := p.ea ≤ a ∧ a < p.ea + p.size
instance (p : Page) (a : Nat) : Decidable (p.Covers a) := by unfold Page.Covers; infer_instance

def Page.Overlaps (p q : Page) : Prop := ∃ a, p.Covers a ∧ q.Covers a

/-- The page of size `size` that contains `ea`, mapped to the real page of that size that contains `ra`. -/
def pageOf (ea ra size : Nat) : Page := { ea := ea - ea % size, ra := ra - ra % size, size := size }

/-- The translation of `a` by the page. -/
def Page.translate (p : Page) (a : Nat) : Nat := p.ra + (a - p.ea)

/-- Inserting a translation replaces the page that covers the address. -/
def insert (s : List Page) (ea ra size : Nat) : List Page :=
  pageOf ea ra size :: s.filter fun p => ¬ p.Covers ea

/-- The pages after a history; only relocated (flag bit 0) insertions count. -/
def pages : List Page → List Op → List Page
  | s, [] => s
  | s, .set ea flags ra size :: l =>
    pages (if flags = 1 then insert s ea.toNat ra.toNat size.toNat else s) l
  | s, .get _ _ :: l => pages s l

def PageSize (n : Nat) : Prop := n = 4096 ∨ n = 65536 ∨ n = 16777216

/-- The history uses the interface properly: flags are 0 or 1, page sizes are supported ones, no page is inserted over
pages it does not replace, and no lookup goes to the last page of the address space. -/
def Proper : List Page → List Op → Prop
  | _, [] => True
  | s, .set ea flags ra size :: l =>
    flags = 0 ∧ Proper s l ∨
    flags = 1 ∧ PageSize size.toNat ∧
      (∀ p ∈ s, p.Overlaps (pageOf ea.toNat ra.toNat size.toNat) → p.Covers ea.toNat) ∧
      Proper (insert s ea.toNat ra.toNat size.toNat) l
  | s, .get ea flags :: l =>
    (flags = 0 ∨ flags = 1 ∧ ∀ p ∈ s, p.Covers ea.toNat → p.ea + p.size < 2 ^ 64) ∧ Proper s l

/-- The real address of the most recent insertion (of pages of size `size`) for the page of `a`; `set` is the list of
(effective, real) addresses inserted, oldest first. -/
def latest (size a : Nat) : List (BitVec 64 × BitVec 64) → Option Nat
  | [] => none
  | x :: l => (latest size a l).or (if x.1.toNat / size = a / size then some (x.2.toNat / size * size + a % size) else none)

end Htm.TlbSpec
