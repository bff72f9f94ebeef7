import Verif.Htm.SpecTlbDump
/-!
Specification of the report about the translation cache for pages that may overlap.  Which one of several pages is found for an
address is left open, so every call is considered together with the page that it found.
-/
namespace Htm.TlbSpec
open Htm.Tlb (Op)

def Op.addr : Op → Nat
  | .get a _ => a.toNat
  | .set ea _ _ _ => ea.toNat

/-- Calls for addresses that are translated: bit 0 of the flags. -/
def Op.Relocated : Op → Prop
  | .get _ flags => flags.toNat % 2 = 1
  | .set _ flags _ _ => flags.toNat % 2 = 1

instance (o : Op) : Decidable (Op.Relocated o) := by cases o <;> (unfold Op.Relocated; infer_instance)

/-- A lookup uses the page it finds.  Inserting the page that is found is another use of it.  Otherwise it replaces the one that is
found. -/
def Tally.after (t : Tally) (found : Option Page) : Op → Tally
  | .get _ _ =>
    { t with
      rows := t.rows.map fun r => if found = some r.page then { r with uses := r.uses + 1 } else r
      lookups := t.lookups + 1
      failed := t.failed + if found = none then 1 else 0 }
  | .set ea _ ra size =>
    if found = some (pageOf ea.toNat ra.toNat size.toNat) then
      { t with rows := t.rows.map fun r => if found = some r.page then { r with uses := r.uses + 1, again := r.again + 1 } else r }
    else
      { t with
        rows := ⟨pageOf ea.toNat ra.toNat size.toNat, 0, 0⟩ :: t.rows.filter fun r => found ≠ some r.page
        replaced := t.replaced + if found = none then 0 else 1 }

/-- A page of the cache is found that covers the address; if there is one and none is found, then some pages overlap. -/
def Tally.Finds (t : Tally) (a : Nat) : Option Page → Prop
  | some p => (∃ r ∈ t.rows, r.page = p) ∧ p.Covers a
  | none => (∃ r ∈ t.rows, r.page.Covers a) → ∃ r ∈ t.rows, ∃ q ∈ t.rows, r.page ≠ q.page ∧ r.page.Overlaps q.page

/-- A history of calls, each with the page that it found, and what is counted. -/
inductive Counting : Tally → List (Op × Option Page) → Tally → Prop
  | nil (t : Tally) : Counting t [] t
  | skip {t t' : Tally} {o : Op} {found : Option Page} {l : List (Op × Option Page)} : ¬ Op.Relocated o → Counting t l t' → Counting t ((o, found) :: l) t'
  | call {t t' : Tally} {o : Op} {found : Option Page} {l : List (Op × Option Page)} : Op.Relocated o → t.Finds (Op.addr o) found →
      Counting (t.after found o) l t' → Counting t ((o, found) :: l) t'

end Htm.TlbSpec
