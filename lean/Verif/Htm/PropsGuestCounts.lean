import Verif.Htm.GuestCounts
import Verif.Htm.PropsCounts
import Verif.Htm.PropsGuestFile
/-!
C93 for dumps of a guest process, with page-table walks.
-/
namespace Htm.Guest
open Htm Htm.Spec Htm.Mmu Htm.Pwc

/-- **C93**, dumps with page-table walks: the counters of `htmdecode -s`, `-i` and `-b` are told of exactly the instructions that are converted
without these options, if the second data address of an instruction does not look like an instruction record. -/
theorem C93_guest (P : Space) (hS : P.tables.Ok) {junk : Qt.Record} {eof failing : Bool} {bytes : List (BitVec 8)} {fill phantom : BitVec 64}
    (items : List Item) (tail : List (BitVec 64)) (hk : AllKnown (stream bytes failing eof fill phantom)) (hi : Trace P {} items)
    (h2 : ∀ i ∈ items, ∀ d ∈ i.data.drop 1, Other d.ea ∧ Other d.ra)
    (hw : plain (stream bytes failing eof fill phantom) = items.flatMap Item.words ++ tail) (htail : ∀ v ∈ tail, Other v) :
    ∃ l m, decoded { fn := true, private_ := true, junk := junk } eof bytes failing fill phantom = some l ∧ AllAppear P l (views P {} items) ∧
      counting eof bytes failing fill phantom = some (m, m.map (·.ea)) ∧ Counted (items.map Item.base) l m := by
  obtain ⟨s, es, a1, a2, a3, -⟩ := loop_ok hS (conf := { fn := true, private_ := true, junk := junk }) rfl htail items
    ((items.flatMap Item.words ++ tail).length + 1) 0 {} {}
    ⟨Caches.init P, rfl, ⟨fun _ => ⟨rfl, fun h => h⟩, fun h => (by cases h)⟩, ⟨⟨{ ok := false }, Or.inr ⟨fun h => h, rfl, rfl⟩, rfl, rfl, rfl⟩, fun h => h.elim⟩⟩ hi (Nat.lt_succ_self _)
  obtain ⟨s', es', b1, b2, b3⟩ := loop_count (conf := { fn := false, private_ := false, junk := {} }) rfl htail items
    ((items.flatMap Item.words ++ tail).length + 1) 0 {} {} rfl hi h2 (Nat.lt_succ_self _)
  refine ⟨instructions es, counts10 0 (items.map Item.base), decoded_pure hk (s := s) (by rw [hw]; exact a1), a2, ?_, counted_of _ 0 _ a3⟩
  rw [counting_pure hk (s := s') (by rw [hw]; exact b1), b2, b3]

/-- The example of C83: the instruction of two words is counted once. -/
example : exP.tables.Ok ∧ Trace exP {} exItems2 ∧ (∀ i ∈ exItems2, ∀ d ∈ i.data.drop 1, Other d.ea ∧ Other d.ra) ∧
    plain (stream exFile2 false true 0 0) = exItems2.flatMap Item.words ++ [] ∧
    ((stream exFile2 false true 0 0).all fun v => !isStamp v || (stampOf v).toOption.join.isSome) = true ∧
    (counting true exFile2 false 0 0).map (·.1) = some [⟨0x212200, 0xe8630000⟩, ⟨0x212204, 0xe8630000⟩, ⟨0x222200, 0xe8630000⟩] := by
  refine ⟨exS_ok, exItems2_ok, ?_, by decide +kernel, by decide +kernel, by decide +kernel⟩
  intro i hi d hd
  unfold exItems2 at hi
  simp only [List.mem_cons, List.not_mem_nil, or_false] at hi
  rcases hi with rfl | rfl | rfl <;> cases hd

/-- **C93**, dumps with page-table walks: `htmdecode -s`, `-i` and `-b` print the numbers that `qtdis -s`, `-i` and `-c` print for the trace
that the dump is converted to, if it has no prefixed instructions and its translations can be stored (`C83_guest_partial`). -/
theorem C93_agree_guest_partial (P : Space) (hS : P.tables.Ok) {junk : Qt.Record} (hq : QuietJunk junk) {eof failing : Bool} {bytes : List (BitVec 8)}
    {fill phantom : BitVec 64} (items : List Item) (tail : List (BitVec 64)) (hk : AllKnown (stream bytes failing eof fill phantom)) (hi : Trace P {} items)
    (h2 : ∀ i ∈ items, ∀ d ∈ i.data.drop 1, Other d.ea ∧ Other d.ra)
    (hw : plain (stream bytes failing eof fill phantom) = items.flatMap Item.words ++ tail) (htail : ∀ v ∈ tail, Other v)
    (hstart : Starts (views P {} items)) (hfits : ∀ v ∈ views P {} items, v.Fits P) (hfol : Qt.Spec.Chain (View.Follows P) (views P {} items))
    (hp : ∀ i ∈ items, i.pre = none)
    (hx : ∀ m, counting eof bytes failing fill phantom = some m → ∀ x ∈ m.1, ¬ DisSpec.IsPrefix x.insn) :
    ∃ file, convert junk eof bytes failing fill phantom = .file file ∧ ∀ beyond, Agree eof bytes failing fill phantom { bytes := file, beyond := beyond } := by
  obtain ⟨l, m, hd, hl, hm, hc⟩ := C93_guest P hS (junk := junk) items tail hk hi h2 hw htail
  have hm' := counted_unprefixed hc (by
    intro i hi
    obtain ⟨j, hj, rfl⟩ := List.mem_map.1 hi
    exact hp j hj)
  generalize views P {} items = vs at hl hstart hfits hfol
  obtain ⟨l', hw', hl', hs', hpair⟩ := filled hS hl (decoded_storable hq hd) hstart hfol
  have hex := expressible_known P hS hl' hs' (by
    intro v hv
    obtain ⟨w, hw, rfl⟩ := List.mem_map.1 hv
    have := hfits w hw
    exact ⟨trivial, this.word, this.fits, this.data⟩) (chain_known hfol)
  have hml : m = l'.map fun r => ⟨r.insnAddr, r.insn⟩ := by
    rw [hm', show (fun r : Qt.Record => (⟨r.insnAddr, r.insn⟩ : Stats.Insn)) = (fun p : BitVec 64 × BitVec 32 => ⟨p.1, p.2⟩) ∘ pairOf from rfl,
      ← List.map_map, ← List.map_map, hpair]
  obtain ⟨file, h3, h4⟩ := agree_of hex (by rw [hm, hml, List.map_map]; rfl)
    (fun r hr => hx _ hm _ (by rw [hml]; exact List.mem_map_of_mem (f := fun r : Qt.Record => (⟨r.insnAddr, r.insn⟩ : Stats.Insn)) hr))
  exact ⟨file, convert_decoded hd (hw' ▸ h3), h4⟩

/-- A load and the next instruction. -/
def exItems3 : List Item := [exEnter 0x212200 [exAccess 0x213000], exNext 0x212204 []]

def exFile3 : List (BitVec 8) := (exItems3.flatMap Item.words).flatMap bytesOf

theorem exItems3_ok : Trace exP {} exItems3 := by
  have a1 : Item10.addr (Item.base exItems3[0]) 0 = 0x212200 := by decide +kernel
  refine ⟨⟨⟨allOf (by decide +kernel), allOf (by decide +kernel), by decide +kernel, by decide +kernel, by decide +kernel, by decide +kernel⟩,
    by decide +kernel, fun _ => rfl, ?_, ?_, ⟨⟨by decide +kernel, ?_⟩, trivial⟩, fun d e h => (by cases h)⟩,
    ⟨⟨allOf (by decide +kernel), allOf (by decide +kernel), by decide +kernel, by decide +kernel, by decide +kernel, ?_⟩,
      by decide +kernel, fun h => (by cases h), fun p h => (by cases h), fun p w h => (by cases h), trivial, fun d e h => (by cases h)⟩, trivial⟩
  · intro p hp; cases hp; decide +kernel
  · intro p w hp hw; cases hp; cases hw
    show (exWalk false (exT 0x212200)).Ok exP _ false (Item10.addr (Item.base exItems3[0]) 0) _
    rw [a1]
    exact exWalk_ok (by decide +kernel) _ (by decide +kernel)
  · intro w hw; cases hw
    exact exWalk_ok (by decide +kernel) _ (by decide +kernel)
  · show Htm.Spec.fld _ 56 56 = Item10.line _ (Item10.addr (Item.base exItems3[0]) 0) % 2
    rw [a1]; decide +kernel

theorem exViews3 : views exP {} exItems3 =
    [{ base := { addr := 0x212200, data := some 0x213000, word := some 0xe8630000, nonzero := true }
       insn := exP.InPages [0x212200] 0x212200, data := exP.InPages [0x213000, 0x212200] 0x213000 },
     { base := { addr := 0x212204, data := none, word := some 0xe8630000, nonzero := true }, insn := exP.InPages [0x212200] 0x212200, data := False }] := by
  rfl

/-- All that the agreement needs. -/
example : exP.tables.Ok ∧ QuietJunk {} ∧ Trace exP {} exItems3 ∧ (∀ i ∈ exItems3, ∀ d ∈ i.data.drop 1, Other d.ea ∧ Other d.ra) ∧
    plain (stream exFile3 false true 0 0) = exItems3.flatMap Item.words ++ [] ∧
    ((stream exFile3 false true 0 0).all fun v => !isStamp v || (stampOf v).toOption.join.isSome) = true ∧
    Starts (views exP {} exItems3) ∧ (∀ v ∈ views exP {} exItems3, v.Fits exP) ∧ Qt.Spec.Chain (View.Follows exP) (views exP {} exItems3) ∧
    (∀ i ∈ exItems3, i.pre = none) ∧ (counting true exFile3 false 0 0).map (·.1) = some [⟨0x212200, 0xe8630000⟩, ⟨0x212204, 0xe8630000⟩] := by
  have hin : ∀ (l : List (BitVec 64)) a, a ∈ l → exP.InPages l a := fun l a h => ⟨a, h, rfl⟩
  refine ⟨exS_ok, ⟨rfl, rfl, rfl, rfl⟩, exItems3_ok, ?_, by decide +kernel, by decide +kernel, ?_, ?_, ?_, ?_, by decide +kernel⟩
  · intro i hi d hd
    unfold exItems3 at hi
    simp only [List.mem_cons, List.not_mem_nil, or_false] at hi
    rcases hi with rfl | rfl <;> cases hd
  · rw [exViews3]
    intro v hv
    cases hv
    exact hin _ _ (by simp)
  · rw [exViews3]
    intro v hv
    simp only [List.mem_cons, List.not_mem_nil, or_false] at hv
    rcases hv with rfl | rfl
    · refine ⟨rfl, (by decide +kernel : exP.Fits 0x212200), fun a ha => ?_⟩
      cases ha
      exact ⟨hin _ _ (by simp), by decide +kernel⟩
    · exact ⟨rfl, (by decide +kernel : exP.Fits 0x212204), fun a ha => (by cases ha)⟩
  · rw [exViews3]
    exact ⟨⟨fun _ => (by decide +kernel : exP.Together 0x212200 0x212204), fun h => absurd rfl h⟩, trivial⟩
  · intro i hi
    unfold exItems3 at hi
    simp only [List.mem_cons, List.not_mem_nil, or_false] at hi
    rcases hi with rfl | rfl <;> rfl

end Htm.Guest
