import Verif.Stats.Imix
/-!
What the instruction mix means: an instruction belongs to the first entry of the table that has its bits.
-/
namespace Stats.Spec

/-- The instruction has the value of the opcode in every bit of the mask, and the entry is for this processor. -/
def Has (e : Entry) (w : BitVec 32) : Prop :=
  (∀ j, e.mask.getLsbD j = true → w.getLsbD j = e.opcode.getLsbD j) ∧ ∃ j, e.flags.getLsbD j = true ∧ dialect.getLsbD j = true

/-- Entry `k` is the first one that has the bits of the instruction. -/
def First (tbl : List Entry) (w : BitVec 32) (k : Nat) : Prop :=
  (∃ e, tbl[k]? = some e ∧ Has e w) ∧ ∀ j e, j < k → tbl[j]? = some e → ¬ Has e w

/-- The entry of an instruction. -/
def kind (tbl : List Entry) (w : BitVec 32) : Option Nat := tbl.findIdx? (Entry.fits w)

end Stats.Spec
