import Verif.Htm.Order
/-! # The order of the lines of a listing -/
namespace Htm
open Htm.Spec Guest

theorem listing_kinds (detail : Bool) : ∀ out : List Ev, (∀ r ∈ instructions out, Sized r) → (∀ s ∈ stamps out, SmallStamp s) →
    (textLines (listing true detail out)).map (fun l => (shown l).isSome) = kinds out
  | [], _, _ => by cases detail <;> rfl
  | e :: out, hi, hs => by
    have key : ∀ l : Text, listLine true detail e = l ++ ['\n'] → (∀ c ∈ l, c ≠ '\n') →
        textLines (listing true detail (e :: out)) = l :: textLines (listing true detail out) := by
      intro l h1 h2
      show textLines (listLine true detail e ++ listing true detail out) = _
      rw [h1, List.append_assoc, List.singleton_append, textLines_line l _ h2]
    have skip : listLine true detail e = [] → listing true detail (e :: out) = listing true detail out := by
      intro h
      show listLine true detail e ++ listing true detail out = _
      rw [h, List.nil_append]
    cases e with
    | stamp s =>
      have hs' : SmallStamp s := hs s List.mem_cons_self
      rw [key (stampText s) rfl (stamp_line hs'), List.map_cons, shown_stamp hs', listing_kinds detail out hi fun x hx => hs x (List.mem_cons_of_mem _ hx)]
      rfl
    | insn r =>
      have hr : Sized r := hi r List.mem_cons_self
      rw [key (insnText r) rfl (insn_line hr), List.map_cons, shown_insn hr, listing_kinds detail out (fun x hx => hi x (List.mem_cons_of_mem _ hx)) hs]
      rfl
    | count k => rw [skip rfl]; exact listing_kinds detail out hi hs
    | cycles n => rw [skip rfl]; exact listing_kinds detail out hi hs
    | ea a => rw [skip rfl]; exact listing_kinds detail out hi hs
    | inst a b => rw [skip rfl]; exact listing_kinds detail out hi hs
    | tlb o => rw [skip rfl]; exact listing_kinds detail out hi hs

theorem chain_listed {junk : Qt.Record} (hq : QuietJunk junk) (detail : Bool) {eof failing : Bool} {bytes : List (BitVec 8)} {fill phantom : BitVec 64}
    (items : List (List (BitVec 64) × Nat)) (tail : List (BitVec 64)) (hk : AllKnown (stream bytes failing eof fill phantom))
    (hch : Chain { fn := true, private_ := true, junk := junk } {} items)
    (hw : plain (stream bytes failing eof fill phantom) = items.flatMap (·.1) ++ tail) (htail : ∀ v ∈ tail, Other v) :
    ∃ text, listed junk true detail eof bytes failing fill phantom = some text ∧
      (textLines text).map (fun l => (shown l).isSome) = order (items.map fun x => (x.1.length, x.2)) (stream bytes failing eof fill phantom) := by
  obtain ⟨s, r, h1, h2⟩ := loop_order (cf := { fn := true, private_ := true, junk := junk }) rfl ((start eof bytes failing fill phantom).left + 1) 0 tail {} []
    (start eof bytes failing fill phantom) items htail (between_start eof bytes failing fill phantom).acc
    (by have := pending_left (start eof bytes failing fill phantom); omega) hk hw hch
  have hr : decode { fn := true, private_ := true, junk := junk } eof bytes failing fill phantom = .ok (s, r) := h1
  refine ⟨listing true detail r.out, by unfold listed; rw [hr], ?_⟩
  obtain ⟨ss, h3, h4, -⟩ := C72_stamps_partial _ eof bytes failing fill phantom hr
  have h4 : stamps r.out = ss := h4
  have hd : decoded { fn := true, private_ := true, junk := junk } eof bytes failing fill phantom = some (instructions r.out) := by
    unfold decoded; rw [hr]; rfl
  rw [listing_kinds detail r.out
    (fun x hx => ⟨fun hv => by have := (decoded_storable hq hd x hx).1.1.1 hv; omega, fun hv => by have := (decoded_storable hq hd x hx).1.1.2.2.1 hv; omega⟩)
    (by rw [h4]; exact reported_small h3), h2]
  rfl

theorem chain9 {c : Conf} (hc : c.full = true) {t : Layout} : ∀ (items : List Item9r) (s : Dec) (seen : List (Nat × Nat)), Cached t seen s.tlb → Trace9 t s.insnAddr items →
    Chain c s (items.map fun i => (i.words, 1))
  | [], _, _, _, _ => trivial
  | i :: items, s, seen, hs, ht => by
    obtain ⟨hf, hwi, ht⟩ := ht
    obtain ⟨l0, s1, es1, hw, hv, hstep, hs1, ha, -, -, -, hpairs, -⟩ := step9r hc hs hf hwi []
    rw [List.append_nil] at hstep
    refine ⟨i.info, l0, s1, es1, hw, hv, hstep, ?_, chain9 hc items s1 _ hs1 (by rw [ha]; exact ht)⟩
    have := congrArg List.length hpairs
    rwa [List.length_map] at this

/-- How many lines an instruction of POWER10 has: two if it has a prefix. -/
def lines10 (i : Item10) : Nat := if i.pre.isSome then 2 else 1

theorem pairs10_length (i : Item10) (a : BitVec 64) : (pairs10 i a).length = lines10 i := by
  unfold pairs10 lines10
  cases i.pre <;> rfl

theorem chain10 {c : Conf} (hc : c.full = true) : ∀ (items : List Item10) (s : Dec), Clean s → Trace10 s.insnAddr items →
    Chain c s (items.map fun i => (i.words, lines10 i))
  | [], _, _, _ => trivial
  | i :: items, s, hs, ht => by
    obtain ⟨hi, ht⟩ := ht
    obtain ⟨v, l0, s1, es1, hw, ⟨hv, -⟩, hstep, hs1, ha, -, hpairs, -⟩ := step10 hc hs hi []
    rw [List.append_nil] at hw
    refine ⟨v, l0, s1, es1, hw, hv, hstep, ?_, chain10 hc items s1 hs1 (by rw [ha]; exact ht)⟩
    have := congrArg List.length hpairs
    rwa [List.length_map, pairs10_length] at this

theorem chain_guest {P : Space} (hS : P.tables.Ok) {conf : Conf} (hc : conf.full = true) : ∀ (items : List Item) (s : Dec) (c : Ctx), Ready P c s → Trace P c items →
    Chain conf s (items.map fun i => (i.words, lines10 i.base))
  | [], _, _, _, _ => trivial
  | i :: items, s, c, hs, ht => by
    obtain ⟨hi, ht⟩ := ht
    obtain ⟨v, l0, s1, es1, hw, ⟨hv, -⟩, hstep, hs1, -, hpairs, -⟩ := step_ok hS hc hi hs []
    rw [List.append_nil] at hw
    refine ⟨v, l0, s1, es1, hw, hv, hstep, ?_, chain_guest hS hc items s1 _ hs1 ht⟩
    have := congrArg List.length hpairs
    rwa [List.length_map, pairs10_length] at this

/-- **C100, the order of the lines**, POWER9: with `-D`, a stamp that comes before the last record of an instruction is listed before the instruction, and one that
comes after that record is listed after it; so what the listing says of time applies to the instructions that it stands between. -/
theorem C100_order_power9_partial (t : Layout) {junk : Qt.Record} (hq : QuietJunk junk) (detail : Bool) {eof failing : Bool} {bytes : List (BitVec 8)}
    {fill phantom : BitVec 64} (items : List Item9r) (tail : List (BitVec 64)) (hk : AllKnown (stream bytes failing eof fill phantom)) (hi : Trace9 t 0 items)
    (hw : plain (stream bytes failing eof fill phantom) = items.flatMap Item9r.words ++ tail) (htail : ∀ v ∈ tail, Other v) :
    ∃ text, listed junk true detail eof bytes failing fill phantom = some text ∧
      (textLines text).map (fun l => (shown l).isSome) = order (items.map fun i => (i.words.length, 1)) (stream bytes failing eof fill phantom) := by
  obtain ⟨text, h1, h2⟩ := chain_listed hq detail (items.map fun i => (i.words, 1)) tail hk (chain9 rfl items {} [] (Cached.empty t) hi)
    (by rw [hw, List.flatMap_map]) htail
  exact ⟨text, h1, by rw [h2, List.map_map]; rfl⟩

/-- **C100, the order of the lines**, POWER10 without walks: likewise; the two lines of an instruction with a prefix have no stamp between them. -/
theorem C100_order_power10_partial {junk : Qt.Record} (hq : QuietJunk junk) (detail : Bool) {eof failing : Bool} {bytes : List (BitVec 8)}
    {fill phantom : BitVec 64} (items : List Item10) (tail : List (BitVec 64)) (hk : AllKnown (stream bytes failing eof fill phantom)) (hi : Trace10 0 items)
    (hw : plain (stream bytes failing eof fill phantom) = items.flatMap Item10.words ++ tail) (htail : ∀ v ∈ tail, Other v) :
    ∃ text, listed junk true detail eof bytes failing fill phantom = some text ∧
      (textLines text).map (fun l => (shown l).isSome) =
        order (items.map fun i => (i.words.length, if i.pre.isSome then 2 else 1)) (stream bytes failing eof fill phantom) := by
  obtain ⟨text, h1, h2⟩ := chain_listed hq detail (items.map fun i => (i.words, lines10 i)) tail hk (chain10 rfl items {} ⟨rfl, rfl, rfl⟩ hi)
    (by rw [hw, List.flatMap_map]) htail
  exact ⟨text, h1, by rw [h2, List.map_map]; rfl⟩

/-- **C100, the order of the lines**, POWER10 with the walks of a guest process (C73). -/
theorem C100_order_guest_partial (P : Space) (hS : P.tables.Ok) {junk : Qt.Record} (hq : QuietJunk junk) (detail : Bool) {eof failing : Bool} {bytes : List (BitVec 8)}
    {fill phantom : BitVec 64} (items : List Item) (tail : List (BitVec 64)) (hk : AllKnown (stream bytes failing eof fill phantom)) (hi : Trace P {} items)
    (hw : plain (stream bytes failing eof fill phantom) = items.flatMap Item.words ++ tail) (htail : ∀ v ∈ tail, Other v) :
    ∃ text, listed junk true detail eof bytes failing fill phantom = some text ∧
      (textLines text).map (fun l => (shown l).isSome) =
        order (items.map fun i => (i.words.length, if i.pre.isSome then 2 else 1)) (stream bytes failing eof fill phantom) := by
  obtain ⟨text, h1, h2⟩ := chain_listed hq detail (items.map fun i => (i.words, lines10 i.base)) tail hk
    (chain_guest hS rfl items {} {} ⟨Caches.init P, rfl, ⟨fun _ => ⟨rfl, fun h => h⟩, fun h => (by cases h)⟩,
      ⟨⟨{ ok := false }, Or.inr ⟨fun h => h, rfl, rfl⟩, rfl, rfl, rfl⟩, fun h => h.elim⟩⟩ hi)
    (by rw [hw, List.flatMap_map]) htail
  exact ⟨text, h1, by rw [h2, List.map_map]; rfl⟩

/-! ### Examples -/

/-- The file of C50 has a stamp among the records of its first instruction; the second one has a prefix. -/
example : order (trace10.map fun i => (i.words.length, if i.pre.isSome then 2 else 1)) (stream file10 false false 0 0) = [false, true, true, true] ∧
    (listed {} true true false file10 false 0 0).map (fun text => (textLines text).map fun l => (shown l).isSome) = some [false, true, true, true] := by
  decide +kernel

/-- Three records of an instruction with a stamp before, two among and one after them. -/
example : order [(3, 1)] [0xaceff80000000005, 1, 0xaceff80000000006, 2, 0xaceff80000000007, 3, 0xaceff80000000008] = [false, false, false, true, false] := by
  decide

example : order (trace9r.map fun i => (i.words.length, 1)) (stream (bytes9 trace9r) false false 0 0) = [true, true, true, true] := by decide +kernel

example : order (exItems.map fun i => (i.words.length, if i.pre.isSome then 2 else 1)) (stream exFile false true 0 0) = [true, true] ∧ exItems.length = 2 := by decide +kernel

end Htm
