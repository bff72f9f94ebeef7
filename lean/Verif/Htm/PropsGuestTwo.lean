import Verif.Htm.PropsGuestCounts
/-!
C73: two accesses of one instruction, one of which has a walk.
-/
namespace Htm.Guest
open Htm Htm.Spec Htm.Mmu Htm.Pwc
open Htm.Xl (Res St)

/-- A load across two lines, which has one walk, and a load from the same page. -/
def exItems4 : List Item :=
  [exEnter 0x212200 [exAccess 0x21307c, { exAccess 0x213080 with walk := none }], exNext 0x212204 [{ exAccess 0x213100 with walk := none }]]

def exFile4 : List (BitVec 8) := (exItems4.flatMap Item.words).flatMap bytesOf

theorem exItems4_ok : Trace exP {} exItems4 := by
  have a1 : Item10.addr (Item.base exItems4[0]) 0 = 0x212200 := by decide +kernel
  refine ⟨⟨⟨allOf (by decide +kernel), allOf (by decide +kernel), by decide +kernel, by decide +kernel, by decide +kernel, by decide +kernel⟩,
    by decide +kernel, fun _ => rfl, ?_, ?_, ⟨⟨by decide +kernel, ?_⟩, ⟨by decide +kernel, fun w h => (by cases h)⟩, trivial⟩, ?_⟩,
    ⟨⟨allOf (by decide +kernel), allOf (by decide +kernel), by decide +kernel, by decide +kernel, by decide +kernel, ?_⟩,
    by decide +kernel, fun h => (by cases h), fun p h => (by cases h), fun p w h => (by cases h), ⟨⟨by decide +kernel, fun w h => (by cases h)⟩, trivial⟩, fun d e h => (by cases h)⟩, trivial⟩
  · intro p hp
    cases hp
    decide +kernel
  · intro p w hp hw
    cases hp
    cases hw
    show (exWalk false (exT 0x212200)).Ok exP _ false (Item10.addr (Item.base exItems4[0]) 0) _
    rw [a1]
    exact exWalk_ok (by decide +kernel) _ (by decide +kernel)
  · intro w hw
    cases hw
    exact exWalk_ok (by decide +kernel) _ (by decide +kernel)
  · intro d e h
    cases h
    exact Or.inr (Or.inr ⟨by decide +kernel, rfl⟩)
  · show Htm.Spec.fld _ 56 56 = Item10.line _ (Item10.addr (Item.base exItems4[0]) 0) % 2
    rw [a1]
    decide +kernel

example : exP.tables.Ok ∧ Trace exP {} exItems4 ∧ plain (stream exFile4 false true 0 0) = exItems4.flatMap Item.words ++ [] ∧
    ((stream exFile4 false true 0 0).all fun v => !isStamp v || (stampOf v).toOption.join.isSome) = true ∧
    (decoded { fn := true, private_ := true, junk := {} } true exFile4 false 0 0).map (·.map fun r => (r.dataAddr, r.dataRaValid, r.dataRa)) =
      some [(0x21307c, true, 0x5307c), (0x213100, true, 0x53100)] :=
  ⟨exS_ok, exItems4_ok, by decide +kernel, by decide +kernel, by decide +kernel⟩

/-- Two accesses to pages that are mapped to the same page of real memory, the first with a walk, and then one to the second page. -/
def exItems5 : List Item :=
  [exEnter 0x212200 [⟨0x8100, 0x000000002b800000, some (exWalk true { exI with address := 0x8100 })⟩, ⟨0x9100, 0x000000002b800000, none⟩],
   exNext 0x212204 [⟨0x9200, 0x000000002b800000, none⟩]]

def exFile5 : List (BitVec 8) := (exItems5.flatMap Item.words).flatMap bytesOf

/-- **C73 needs the condition on two accesses**: `8100` and `9100` are addresses of two pages of 4 kB that are mapped to the same
page of real memory.  The dump has a walk for the first only.  It is taken for that of the second as well, and the record of
the next instruction, which accesses the second page, has a translation, with the entry that maps the first page. -/
theorem C73_alias_refuted : plain (stream exFile5 false true 0 0) = exItems5.flatMap Item.words ∧
    (exP.real 0x8100).toNat / 4096 = (exP.real 0x9100).toNat / 4096 ∧ ¬ exP.InPages [0x212200, 0x8100] 0x9200 ∧
    exP.guest.entry 3 0x8100 = 0x240040 ∧ exP.guest.entry 3 0x9200 = 0x240048 ∧
    (decoded { fn := true, private_ := true, junk := {} } true exFile5 false 0 0).map (·.map fun r =>
        (r.dataAddr, r.dataPageShiftValid, r.guestDataPageShiftValid, r.radixData.guestRas 3)) =
      some [(0x8100, true, true, 0x240040), (0x9200, true, true, 0x240040)] := by
  refine ⟨by decide +kernel, by decide +kernel, ?_, by decide +kernel, by decide +kernel, by decide +kernel⟩
  rintro ⟨b, hb, h⟩
  simp only [List.mem_cons, List.not_mem_nil, or_false] at hb
  rcases hb with rfl | rfl
  · revert h; decide +kernel
  · revert h; decide +kernel

end Htm.Guest
