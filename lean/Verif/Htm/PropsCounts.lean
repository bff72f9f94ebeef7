import Verif.Htm.CountsLemmas
import Verif.Htm.PropsConvert
import Verif.Dis.PropsCounts
/-!
C93: the numbers that `htmdecode -s`, `-i` and `-b` print are those of the instructions in the dump.
-/
namespace Htm
open Spec

/-- What is counted, `m`, for the instructions of a dump of which the conversion makes the records `l`: every instruction once, in its
order.  Of a prefixed instruction, for which there are two records, the second word is counted at the address of the first. -/
inductive Counted : List Item10 → List Qt.Record → List Stats.Insn → Prop where
  | nil : Counted [] [] []
  | one {i items r l m} : i.pre = none → Counted items l m → Counted (i :: items) (r :: l) (⟨r.insnAddr, r.insn⟩ :: m)
  | two {i items r r' l m} : i.pre.isSome = true → r'.insnAddr = r.insnAddr + 4 → Counted items l m →
      Counted (i :: items) (r :: r' :: l) (⟨r.insnAddr, r'.insn⟩ :: m)

theorem counted_of : ∀ (items : List Item10) (prev : BitVec 64) (l : List Qt.Record), l.map pairOf = told10 prev items →
    Counted items l (counts10 prev items)
  | [], _, [], _ => .nil
  | [], _, _ :: _, h => by cases h
  | i :: items, prev, l, h => by
    unfold told10 pairs10 at h
    unfold counts10
    cases hp : i.pre with
    | none =>
      rw [hp] at h
      cases l with
      | nil => cases h
      | cons r l =>
        obtain ⟨h1, h2⟩ := List.cons.inj h
        obtain ⟨h3, h4⟩ := Prod.mk.inj h1
        rw [← h4, ← h3]
        have := counted_of items _ l h2
        rw [← h3] at this
        exact .one hp this
    | some p =>
      rw [hp] at h
      cases l with
      | nil => cases h
      | cons r l =>
        obtain ⟨h1, h2⟩ := List.cons.inj h
        obtain ⟨h3, h4⟩ := Prod.mk.inj h1
        cases l with
        | nil => cases h2
        | cons r' l =>
          obtain ⟨h5, h6⟩ := List.cons.inj h2
          obtain ⟨h7, h8⟩ := Prod.mk.inj h5
          rw [← h8, ← h3]
          have := counted_of items _ l h6
          rw [← h3] at this h7
          exact .two (by rw [hp]; rfl) h7 this

/-- **C93**, POWER10: for every dump without page-table walks, in which the second data address of an instruction does not look like an
instruction record, the counters of `htmdecode -s`, `-i` and `-b` are told of exactly the instructions that are converted without
these options. -/
theorem C93_p10 {junk : Qt.Record} {eof failing : Bool} {bytes : List (BitVec 8)} {fill phantom : BitVec 64} (items : List Item10)
    (tail : List (BitVec 64)) (hk : AllKnown (stream bytes failing eof fill phantom)) (hi : Trace10 0 items)
    (h2 : ∀ i ∈ items, ∀ p ∈ i.data.drop 1, Other p.1 ∧ Other p.2)
    (hw : plain (stream bytes failing eof fill phantom) = items.flatMap Item10.words ++ tail) (htail : ∀ v ∈ tail, Other v) :
    ∃ l m, decoded { fn := true, private_ := true, junk := junk } eof bytes failing fill phantom = some l ∧ AllShow l (expect10 0 items) ∧
      counting eof bytes failing fill phantom = some (m, m.map (·.ea)) ∧ Counted items l m := by
  obtain ⟨s, es, a1, a2, a3, -⟩ := loop10 (c := { fn := true, private_ := true, junk := junk }) rfl htail items
    ((items.flatMap Item10.words ++ tail).length + 1) 0 {} ⟨rfl, rfl, rfl⟩ hi (Nat.lt_succ_self _)
  obtain ⟨s', es', b1, b2, b3⟩ := loop10_count (c := { fn := false, private_ := false, junk := {} }) rfl htail items
    ((items.flatMap Item10.words ++ tail).length + 1) 0 {} hi h2 (Nat.lt_succ_self _)
  refine ⟨instructions es, counts10 0 items, decoded_pure hk (s := s) (by rw [hw]; exact a1), a2, ?_, counted_of items 0 _ a3⟩
  rw [counting_pure hk (s := s') (by rw [hw]; exact b1), b2, b3]

/-- **C93**, POWER9: the same for dumps without real addresses of instructions and without segment information. -/
theorem C93_p9 {junk : Qt.Record} {eof failing : Bool} {bytes : List (BitVec 8)} {fill phantom : BitVec 64} (items : List Item9)
    (tail : List (BitVec 64)) (hk : AllKnown (stream bytes failing eof fill phantom)) (hi : ∀ i ∈ items, i.Ok)
    (hw : plain (stream bytes failing eof fill phantom) = items.flatMap Item9.words ++ tail) (htail : ∀ v ∈ tail, Other v) :
    ∃ l, decoded { fn := true, private_ := true, junk := junk } eof bytes failing fill phantom = some l ∧ AllShow l (expect9 0 items) ∧
      counting eof bytes failing fill phantom = some (l.map (fun r => ⟨r.insnAddr, r.insn⟩), l.map (·.insnAddr)) := by
  obtain ⟨s, es, a1, a2, -, a3⟩ := loop9 (c := { fn := true, private_ := true, junk := junk }) rfl htail items
    ((items.flatMap Item9.words ++ tail).length + 1) 0 {} rfl hi (Nat.lt_succ_self _)
  obtain ⟨s', es', b1, b2, b3⟩ := loop9_count (c := { fn := false, private_ := false, junk := {} }) rfl htail items
    ((items.flatMap Item9.words ++ tail).length + 1) 0 {} hi (Nat.lt_succ_self _)
  refine ⟨instructions es, decoded_pure hk (s := s) (by rw [hw]; exact a1), a2, ?_⟩
  rw [counting_pure hk (s := s') (by rw [hw]; exact b1), b2, b3, ← a3, List.map_map, List.map_map]
  rfl

/-! ### What is printed -/

/-- The counters that are printed for a list of instructions: those of C27, C28 and C29. -/
theorem C93_printed {eof failing : Bool} {bytes : List (BitVec 8)} {fill phantom : BitVec 64} {m : List Stats.Insn}
    (h : counting eof bytes failing fill phantom = some (m, m.map (·.ea))) :
    (∃ s, statistics eof bytes failing fill phantom = some s ∧ Stats.Counts Stats.tables m.reverse s) ∧
    (∃ s, mix eof bytes failing fill phantom = some s ∧ Stats.Mixed Stats.opcodeTable (m.map (·.insn)) s) ∧
    ((Bb.Spec.firsts (m.map (·.ea))).length ≤ 2 ^ 30 → ∃ s, blocks eof bytes failing fill phantom = some s ∧ (s.entries.map (·.ea)).Nodup ∧
      (∀ a, a ∈ s.entries.map (·.ea) ↔ a ∈ m.map (·.ea)) ∧
      (∀ b ∈ s.entries, b.hit = BitVec.ofNat 64 ((m.map (·.ea)).count b.ea)) ∧ s.num = BitVec.ofNat 64 m.length) := by
  refine ⟨?_, ?_, fun hd => ?_⟩
  · obtain ⟨s, h1, h2⟩ := Stats.C27_counts Stats.tables_good m
    exact ⟨s, by unfold statistics; rw [h]; exact h1, h2⟩
  · obtain ⟨s, h1, h2⟩ := Stats.C28_counts_partial Stats.table_covered (m.map (·.insn))
    exact ⟨s, by unfold mix; rw [h]; exact h1, h2⟩
  · obtain ⟨s, h1, h2, h3, h4, h5⟩ := (Bb.C29_exact (m.map (·.ea))).1 hd
    exact ⟨s, by unfold blocks; rw [h]; exact h1, h2, h3, fun b hb => (h4 b hb).1, by simpa using h5⟩

/-- The same numbers as for a file: those of `htmdecode` and those of `qtdis`. -/
def Agree (eof : Bool) (bytes : List (BitVec 8)) (failing : Bool) (fill phantom : BitVec 64) (m : Qt.Mem) : Prop :=
  statistics eof bytes failing fill phantom = Dis.statistics m ∧ mix eof bytes failing fill phantom = Dis.mix m ∧
  blocks eof bytes failing fill phantom = Dis.blocks m

theorem agree_of {eof failing : Bool} {bytes : List (BitVec 8)} {fill phantom : BitVec 64} {l : List Qt.Record} (hx : Qt.Spec.Expressible l)
    (h : counting eof bytes failing fill phantom = some (l.map (fun r => ⟨r.insnAddr, r.insn⟩), l.map (·.insnAddr)))
    (hp : ∀ r ∈ l, ¬ DisSpec.IsPrefix r.insn) :
    ∃ file, Qt.writeTrace 0 l = .ok file ∧ ∀ beyond, Agree eof bytes failing fill phantom { bytes := file, beyond := beyond } := by
  have hin := Dis.instructions_unprefixed l hp
  have hc : DisSpec.Complete l := by
    intro x hx _
    rw [hin] at hx
    obtain ⟨r, hr, rfl⟩ := List.mem_map.1 hx
    exact hp r hr
  obtain ⟨file, h1, h2⟩ := Dis.counted_written 0 l hx hc
  refine ⟨file, h1, fun beyond => ?_⟩
  have hprog : Dis.program l = l.map fun r => ⟨r.insnAddr, r.insn⟩ := by
    unfold Dis.program
    rw [hin, List.map_map]; rfl
  have h3 := h2 beyond
  rw [hprog] at h3
  unfold Agree statistics mix blocks Dis.statistics Dis.mix Dis.blocks
  rw [h, h3]
  refine ⟨rfl, rfl, ?_⟩
  show Bb.run Bb.init (l.map (·.insnAddr)) = Bb.run Bb.init ((l.map fun r => (⟨r.insnAddr, r.insn⟩ : Stats.Insn)).map (·.ea))
  rw [List.map_map]; rfl

theorem counted_unprefixed {items : List Item10} {l : List Qt.Record} {m : List Stats.Insn} (h : Counted items l m) (hp : ∀ i ∈ items, i.pre = none) :
    m = l.map fun r => ⟨r.insnAddr, r.insn⟩ := by
  induction h with
  | nil => rfl
  | one _ _ ih => rw [List.map_cons, ih fun j hj => hp j (List.mem_cons_of_mem _ hj)]
  | two h1 _ _ _ => rw [hp _ (List.mem_cons_self ..)] at h1; cases h1

/-- **C93**, POWER10: for a dump without prefixed instructions `htmdecode -s`, `-i` and `-b` print the numbers that `qtdis -s`, `-i` and `-c`
print for the trace that it is converted to. -/
theorem C93_agree_p10_partial {junk : Qt.Record} (hq : QuietJunk junk) {eof failing : Bool} {bytes : List (BitVec 8)} {fill phantom : BitVec 64} (items : List Item10)
    (tail : List (BitVec 64)) (hk : AllKnown (stream bytes failing eof fill phantom)) (hi : Trace10 0 items)
    (h2 : ∀ i ∈ items, ∀ p ∈ i.data.drop 1, Other p.1 ∧ Other p.2)
    (hw : plain (stream bytes failing eof fill phantom) = items.flatMap Item10.words ++ tail) (htail : ∀ v ∈ tail, Other v)
    (hz : ∀ e ∈ expect10 0 items, e.nonzero = true) (hp : ∀ i ∈ items, i.pre = none)
    (hx : ∀ m, counting eof bytes failing fill phantom = some m → ∀ x ∈ m.1, ¬ DisSpec.IsPrefix x.insn) :
    ∃ file, convert junk eof bytes failing fill phantom = .file file ∧ ∀ beyond, Agree eof bytes failing fill phantom { bytes := file, beyond := beyond } := by
  obtain ⟨l, m, hd, hl, hm, hc⟩ := C93_p10 (junk := junk) items tail hk hi h2 hw htail
  obtain rfl := counted_unprefixed hc hp
  obtain ⟨file, h3, h4⟩ := agree_of (expressible10 hq hd hl hz) (by rw [hm, List.map_map]; rfl)
    (fun r hr => hx _ hm _ (List.mem_map_of_mem (f := fun r : Qt.Record => (⟨r.insnAddr, r.insn⟩ : Stats.Insn)) hr))
  exact ⟨file, convert_decoded hd h3, h4⟩

/-- **C93**, POWER9. -/
theorem C93_agree_p9_partial {junk : Qt.Record} (hq : QuietJunk junk) {eof failing : Bool} {bytes : List (BitVec 8)} {fill phantom : BitVec 64} (items : List Item9)
    (tail : List (BitVec 64)) (hk : AllKnown (stream bytes failing eof fill phantom)) (hi : ∀ i ∈ items, i.Ok)
    (hw : plain (stream bytes failing eof fill phantom) = items.flatMap Item9.words ++ tail) (htail : ∀ v ∈ tail, Other v)
    (hx : ∀ m, counting eof bytes failing fill phantom = some m → ∀ x ∈ m.1, ¬ DisSpec.IsPrefix x.insn) :
    ∃ file, convert junk eof bytes failing fill phantom = .file file ∧ ∀ beyond, Agree eof bytes failing fill phantom { bytes := file, beyond := beyond } := by
  obtain ⟨s, es, a1, a2, a3, -⟩ := loop9 (c := { fn := true, private_ := true, junk := junk }) rfl htail items
    ((items.flatMap Item9.words ++ tail).length + 1) 0 {} rfl hi (Nat.lt_succ_self _)
  have hd : decoded { fn := true, private_ := true, junk := junk } eof bytes failing fill phantom = some (instructions es) :=
    decoded_pure hk (s := s) (by rw [hw]; exact a1)
  obtain ⟨l, hd', -, hm⟩ := C93_p9 (junk := junk) items tail hk hi hw htail
  rw [hd] at hd'
  obtain rfl := Option.some.inj hd'
  obtain ⟨file, h3, h4⟩ := agree_of (expressible9 hq hd a2 a3) hm
    (fun r hr => hx _ hm _ (List.mem_map_of_mem (f := fun r : Qt.Record => (⟨r.insnAddr, r.insn⟩ : Stats.Insn)) hr))
  exact ⟨file, convert_decoded hd h3, h4⟩

/-- The files of C50: three instructions, one of them prefixed, and two. -/
example : (∀ i ∈ trace10, ∀ p ∈ i.data.drop 1, Other p.1 ∧ Other p.2) ∧
    counting false file10 false 0 0 = some ([⟨0xc000000000001088, 0xe8630000⟩, ⟨0xc0000000000010a0, 0x38600000⟩], [0xc000000000001088, 0xc0000000000010a0]) ∧
    counting false file9 false 0 0 = some ([⟨0x8000000000001000, 0x60000000⟩, ⟨0x8000000000001004, 0xf8630000⟩], [0x8000000000001000, 0x8000000000001004]) := by
  refine ⟨by decide +kernel, by decide +kernel, by decide +kernel⟩

example : ∀ m, counting false file9 false 0 0 = some m → ∀ x ∈ m.1, ¬ DisSpec.IsPrefix x.insn := by
  intro m hm
  rw [show counting false file9 false 0 0 = some ([⟨0x8000000000001000, 0x60000000⟩, ⟨0x8000000000001004, 0xf8630000⟩], [0x8000000000001000, 0x8000000000001004]) from by
    decide +kernel] at hm
  rw [← Option.some.inj hm]
  decide +kernel

/-- **C93 is false for prefixed instructions**: `htmdecode` counts their second word, `qtdis` the prefix.  Here a prefixed load
immediate is an `addi` for the one and unknown to the other. -/
theorem C93_prefixed_refuted :
    let dump : List (BitVec 8) :=
      [0x38, 0x60, 0, 0, 0x6a, 0xbc, 0xdf, 0,  0, 0, 0, 0, 0, 0, 0, 0,  0x06, 0, 0, 0, 0, 0, 0, 0]
    (counting true dump false 0 0).map (·.1) = some [⟨0, 0x38600000⟩] ∧ (mix true dump false 0 0).map (·.unknown) = some 0 ∧
    ∃ file, convert {} true dump false 0 0 = .file file ∧
      Dis.counted { bytes := file, beyond := fun _ => 0 } = some [⟨0, 0x06000000⟩] ∧
      (Dis.mix { bytes := file, beyond := fun _ => 0 }).map (·.unknown) = some 1 :=
  ⟨by decide +kernel, by decide +kernel, _, rfl, by decide +kernel, by decide +kernel⟩

/-- **C93 is false for data addresses that look like instructions**: without a callback the second data address of an instruction is
taken for the next record.  Here it is 0x2abcdf00; the dump has one instruction, two are counted. -/
theorem C93_second_refuted :
    let i : Item10 := { lines := [(0x000000003abcdf00, 0x1000, 0x5000)], info := 0xe86300002abcdf02, msr := 0, pre := none,
                        data := [(0x8000, 0x77), (0x2abcdf00, 0x78)] }
    let dump : List (BitVec 8) :=
      [0, 0, 0, 0, 0x3a, 0xbc, 0xdf, 0,  0, 0, 0, 0, 0, 0, 0x10, 0x00,  0, 0, 0, 0, 0, 0, 0x50, 0,
       0xe8, 0x63, 0, 0, 0x2a, 0xbc, 0xdf, 0x02,  0, 0, 0, 0, 0, 0, 0, 0,
       0, 0, 0, 0, 0, 0, 0x80, 0,  0, 0, 0, 0, 0, 0, 0, 0x77,  0, 0, 0, 0, 0x2a, 0xbc, 0xdf, 0,  0, 0, 0, 0, 0, 0, 0, 0x78]
    i.words = stream dump false true 0 0 ∧ (expect10 0 [i]).map (·.addr) = [0x1000] ∧
    (decoded { fn := true, private_ := true, junk := {} } true dump false 0 0).map (·.map pairOf) = some [(0x1000, 0xe8630000)] ∧
    (counting true dump false 0 0).map (·.1) = some [⟨0x1000, 0xe8630000⟩, ⟨0x1000, 0⟩] := by
  decide +kernel

end Htm
