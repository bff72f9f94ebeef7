import Verif.Htm.SpecReal9
import Verif.Htm.SpecTlbDump
/-! The numbers of the report about the translation cache, from the dump. -/
namespace Htm.Spec

/-- Instructions with translated addresses for which the dump has the address but not the page. -/
def asked9 (items : List Item9r) : Nat := items.countP fun i => decide (i.ira = none ∧ i.Translated)

/-- Those whose page the dump did not have before. -/
def failed9 (t : Layout) (seen : List (Nat × Nat)) (prev : BitVec 64) : List Item9r → Nat
  | [] => 0
  | i :: l => (if i.ira = none ∧ i.Translated ∧ t.latest (i.addr prev).toNat seen = none then 1 else 0) + failed9 t (i.seen seen prev) (i.addr prev) l

/-- Instructions for which the dump has a page that is elsewhere than it was before. -/
def Item9r.Moves (i : Item9r) (t : Layout) (seen : List (Nat × Nat)) (prev : BitVec 64) : Prop :=
  i.Translated ∧ ∃ v f, i.ira = some v ∧ t.latest (i.addr prev).toNat seen = some f ∧ f ≠ irFrame v

instance (i : Item9r) (t : Layout) (seen : List (Nat × Nat)) (prev : BitVec 64) : Decidable (i.Moves t seen prev) :=
  match hi : i.ira, hf : t.latest (i.addr prev).toNat seen with
  | none, _ => isFalse (fun ⟨_, v, f, h, _⟩ => by rw [hi] at h; cases h)
  | some _, none => isFalse (fun ⟨_, v, f, _, h, _⟩ => by rw [hf] at h; cases h)
  | some v, some f =>
    if g : i.Translated ∧ f ≠ irFrame v then isTrue ⟨g.1, v, f, hi, hf, g.2⟩
    else isFalse (fun ⟨h, v', f', h1, h2, h3⟩ => by rw [hi] at h1; rw [hf] at h2; cases h1; cases h2; exact g ⟨h, h3⟩)

def moves9 (t : Layout) (seen : List (Nat × Nat)) (prev : BitVec 64) : List Item9r → Nat
  | [] => 0
  | i :: l => (if i.Moves t seen prev then 1 else 0) + moves9 t (i.seen seen prev) (i.addr prev) l

end Htm.Spec
