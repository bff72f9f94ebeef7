import Verif.Htm.SummaryLemmas
import Verif.Htm.PropsReal9
import Verif.Dis.MapsLemmas
import Verif.Ptracer.LogLemmas
/-!
C99: the summary of `htmdecode -d`.
-/
namespace Htm
open Htm.Spec

/-! ### The lines -/

def goodRow (p : String × List Char) : Bool := goodLabel p.1 && p.2.all fun c => decide (c ≠ '\n')

theorem goodRow_num (label : String) (n : BitVec 32) : goodRow (label, fmtU n) = goodLabel label := by
  unfold goodRow fmtU
  have h : ((Nat.toDigits 10 n.toNat).all fun c => decide (c ≠ '\n')) = true := by
    rw [List.all_eq_true]
    intro c hc
    exact decide_eq_true (Sym.dec_all (P := fun c => c ≠ '\n') (by decide) n.toNat c hc)
  rw [h, Bool.and_true]

theorem goodRow_hex (label : String) (n : Nat) : goodRow (label, "0x".toList ++ Ptr.Log.fmtPad 16 n) = goodLabel label := by
  unfold goodRow
  have h : (("0x".toList ++ Ptr.Log.fmtPad 16 n).all fun c => decide (c ≠ '\n')) = true := by
    rw [List.all_eq_true]
    intro c hc
    rcases List.mem_append.1 hc with h | h
    · clear hc; revert c; decide
    · exact decide_eq_true (Ptr.Log.fmtPad_chars 16 n c h).1
  rw [h, Bool.and_true]

theorem statRows_good (r : Rd) : (statRows r).all goodRow = true := by
  unfold statRows
  simp only [List.all_cons, List.all_nil, goodRow_num, goodRow_hex]
  decide

/-- The lines of the summary can be read back. -/
theorem entries_printStat (r : Rd) (tlb : List Char) : entries (printStat r tlb) = (statRows r).map fun p => (p.1.toList, p.2) := by
  unfold entries printStat
  have h := entries_of tlb (statRows r) (by
    intro p hp
    have := List.all_eq_true.1 (statRows_good r) p hp
    unfold goodRow at this
    rw [Bool.and_eq_true, List.all_eq_true] at this
    exact ⟨this.1, fun c hc => of_decide_eq_true (this.2 c hc)⟩)
  exact h

theorem fmtU_counted {r : Rd} {k : Counter} {n : Nat} (h : counted k r.out = n) : fmtU (r.stat k) = Nat.toDigits 10 (n % 2 ^ 32) := by
  unfold fmtU
  rw [stat_counted, h]

theorem fmtU_zero : fmtU 0 = Nat.toDigits 10 (0 % 2 ^ 32) := rfl

/-! ### All dumps -/

/-- **C99**: for every dump that is decoded at all, the first numbers are those of its records: the checksum, how many records there are, how many
of them are stamps or begin an instruction, how many are times, and the cycles of the times. -/
theorem C99_records (c : Conf) (eof : Bool) (bytes : List (BitVec 8)) (failing : Bool) (fill phantom : BitVec 64) (tlb text : List Char)
    (h : printed c eof bytes failing fill phantom tlb = some text) :
    ∃ ss scanned processed, Reported (stream bytes failing eof fill phantom) ss ∧
      (entries text).take 8 = recordRows (stream bytes failing eof fill phantom) ss scanned processed := by
  unfold printed at h
  split at h
  · rename_i s r hd
    rcases Option.some.inj h with rfl
    obtain ⟨ss, h1, -, h3, h4, h5, -⟩ := C72_stamps_partial c eof bytes failing fill phantom hd
    have h6 := records_processed c eof bytes failing fill phantom hd
    have h7 := C26_all_records c eof bytes failing fill phantom hd
    refine ⟨ss, counted .instructionsScanned r.out, counted .instructionsProcessed r.out, h1, ?_⟩
    rw [entries_printStat]
    unfold statRows recordRows row
    simp only [List.map_cons, List.take_succ_cons, List.take_zero]
    rw [fmtU_counted h6, fmtU_counted h4, fmtU_counted h5, fmtU_counted rfl, fmtU_counted rfl, h7.sum]
    unfold fmtU
    rw [h7.count, cycleStat_sum, h3, BitVec.toNat_ofNat]
    rfl
  · cases h

/-- The whole summary, from the counters. -/
theorem entries_counted {c : Conf} {eof : Bool} {bytes : List (BitVec 8)} {failing : Bool} {fill phantom : BitVec 64} {tlb : List Char} {s : Dec} {r : Rd}
    (hd : decode c eof bytes failing fill phantom = .ok (s, r)) {n m : Nat} {x : Numbers} (f : Counter → Nat)
    (hf : ∀ k, ofInsn (.count k) = true → counted k r.out = f k)
    (h0 : f .instructionsScanned = n ∧ f .instructionsProcessed = m)
    (h1 : f .interrupts = x.interrupts ∧ f .branchesAfterNonbranches = x.branches)
    (h2 : f .withIra = x.withIra ∧ f .withoutIra = x.withoutIra ∧ f .withIVsid = x.withIVsid ∧ f .withoutIVsid = x.withoutIVsid)
    (h3 : f .withDVsid = x.withDVsid ∧ f .withoutDVsid = x.withoutDVsid ∧ ∀ j, j < 4 → f (.segment (BitVec.ofNat 32 j)) = x.segments j)
    (h4 : f .withIXlate = x.withIXlate ∧ f .withoutIXlateErat = x.withoutIXlateErat ∧ f .withoutIXlatePwc = x.withoutIXlatePwc ∧ f .withoutIXlateIeara = x.withoutIXlateIeara)
    (h5 : f .withDXlate = x.withDXlate ∧ f .withoutDXlateErat = x.withoutDXlateErat ∧ f .withoutDXlatePwc = x.withoutDXlatePwc ∧ ∀ j, f (.dataPages j) = x.dataPages j)
    (h6 : ∀ j, f (.insnPages j) = x.insnPages j) :
    ∃ ss, Reported (stream bytes failing eof fill phantom) ss ∧ entries (printStat r tlb) = recordRows (stream bytes failing eof fill phantom) ss n m ++ instructionRows x := by
  obtain ⟨ss, a1, -, a3, a4, a5, -⟩ := C72_stamps_partial c eof bytes failing fill phantom hd
  have a6 := records_processed c eof bytes failing fill phantom hd
  have a7 := C26_all_records c eof bytes failing fill phantom hd
  rw [hf .instructionsScanned rfl, h0.1] at a6
  refine ⟨ss, a1, ?_⟩
  have e : ∀ k m, ofInsn (.count k) = true → f k = m → fmtU (r.stat k) = Nat.toDigits 10 (m % 2 ^ 32) := fun k m hk hm => fmtU_counted ((hf k hk).trans hm)
  rw [entries_printStat]
  unfold statRows recordRows instructionRows row
  simp only [List.map_cons, List.map_nil, List.cons_append, List.nil_append]
  rw [fmtU_counted a6, fmtU_counted a4, fmtU_counted a5, e _ _ rfl h0.1, e _ _ rfl h0.2, e _ _ rfl h1.1, e _ _ rfl h1.2, e _ _ rfl h2.1, e _ _ rfl h2.2.1,
    e _ _ rfl h2.2.2.1, e _ _ rfl h2.2.2.2, e _ _ rfl h3.1, e _ _ rfl h3.2.1, e (.segment 0) _ rfl (h3.2.2 0 (by decide)), e (.segment 1) _ rfl (h3.2.2 1 (by decide)), e (.segment 2) _ rfl (h3.2.2 2 (by decide)),
    e (.segment 3) _ rfl (h3.2.2 3 (by decide)), e _ _ rfl h4.1, e _ _ rfl h4.2.1, e _ _ rfl h4.2.2.1, e _ _ rfl h4.2.2.2, e _ _ rfl h5.1, e _ _ rfl h5.2.1, e _ _ rfl h5.2.2.1,
    e _ _ rfl (h5.2.2.2 12), e _ _ rfl (h5.2.2.2 16), e _ _ rfl (h5.2.2.2 21), e _ _ rfl (h5.2.2.2 24), e _ _ rfl (h5.2.2.2 30),
    e _ _ rfl (h6 12), e _ _ rfl (h6 16), e _ _ rfl (h6 21), e _ _ rfl (h6 24), e _ _ rfl (h6 30), a7.sum, fmtU_zero]
  have b1 : fmtU r.scanned = Nat.toDigits 10 ((stream bytes failing eof fill phantom).length % 2 ^ 32) := by
    unfold fmtU; rw [a7.count, BitVec.toNat_ofNat]
  have b2 : fmtU r.cycleStat = Nat.toDigits 10 (((ss.filterMap Stamp.cycles).map (·.toNat)).sum % 2 ^ 32) := by
    unfold fmtU; rw [cycleStat_sum, a3]
  rw [b1, b2]
  rfl

/-- **C99**, POWER9: whatever the instructions of a dump are, and whatever stamps there are between its records and whatever other records at its
end, the summary has the numbers of these instructions. -/
theorem C99_power9_partial (t : Layout) (c : Conf) (hc : c.full = true) {eof failing : Bool} {bytes : List (BitVec 8)} {fill phantom : BitVec 64} (items : List Item9r)
    (tail : List (BitVec 64)) (tlb : List Char) (hk : AllKnown (stream bytes failing eof fill phantom)) (hi : Trace9 t 0 items)
    (hw : plain (stream bytes failing eof fill phantom) = items.flatMap Item9r.words ++ tail) (htail : ∀ v ∈ tail, Other v) :
    ∃ text ss, printed c eof bytes failing fill phantom tlb = some text ∧ Reported (stream bytes failing eof fill phantom) ss ∧
      entries text = summary (stream bytes failing eof fill phantom) ss items.length (numbers9 items) := by
  obtain ⟨s, es, h1, -, -, -, -, h2, -⟩ := loop9r hc htail items ((items.flatMap Item9r.words ++ tail).length + 1) 0 {} [] (Cached.empty t) hi (Nat.lt_succ_self _)
  have h3 := decode_pure c eof bytes failing fill phantom hk
  rw [hw, h1] at h3
  obtain ⟨r, h4, h5⟩ := h3
  have h2 : counters es = allCounts9 0 false items := h2 rfl
  have hf : ∀ k, ofInsn (.count k) = true → counted k r.out = (allCounts9 0 false items).count k := by
    intro k hk
    rw [← counted_insnEvents hk, h5, counted_insnEvents hk, counted_counters, h2]
  have hone : ∀ k, k = .instructionsScanned ∨ k = .instructionsProcessed → (allCounts9 0 false items).count k = items.length := by
    intro k hk
    rw [allCounts9_each (p := fun _ => 1) (by rcases hk with rfl | rfl <;> decide), sum_ones]
    intro i
    rcases hk with rfl | rfl <;> cases i.segmented <;> cases i.ira <;> cases i.dra <;> rfl
  have hsome : (allCounts9 0 false items).count .withIra = items.countP fun i => i.ira.isSome := by
    rw [allCounts9_each (p := fun i => if i.ira.isSome then 1 else 0) (by decide), sum_countP]
    intro i
    cases i.segmented <;> cases i.ira <;> cases i.dra <;> rfl
  have hseg : (allCounts9 0 false items).count .withIVsid = items.countP fun i => i.segmented && i.ira.isSome := by
    rw [allCounts9_each (p := fun i => if i.segmented && i.ira.isSome then 1 else 0) (by decide), sum_countP]
    intro i
    cases i.segmented <;> cases i.ira <;> cases i.dra <;> rfl
  have hnoseg : (allCounts9 0 false items).count .withoutIVsid = items.countP fun i => !i.segmented && i.ira.isSome := by
    rw [allCounts9_each (p := fun i => if !i.segmented && i.ira.isSome then 1 else 0) (by decide), sum_countP]
    intro i
    cases i.segmented <;> cases i.ira <;> cases i.dra <;> rfl
  have hdseg : (allCounts9 0 false items).count .withDVsid = items.countP fun i => i.segmented && i.dra.isSome := by
    rw [allCounts9_each (p := fun i => if i.segmented && i.dra.isSome then 1 else 0) (by decide), sum_countP]
    intro i
    cases i.segmented <;> cases i.ira <;> cases i.dra <;> rfl
  have hnone : (allCounts9 0 false items).count .withoutIra = items.countP fun i => i.ira.isNone := by
    rw [allCounts9_each (p := fun i => if i.ira.isNone then 1 else 0) (by decide), sum_countP]
    intro i
    cases i.segmented <;> cases i.ira <;> cases i.dra <;> rfl
  have hdata : (allCounts9 0 false items).count .withoutDVsid = items.countP fun i => !i.segmented && i.dra.isSome := by
    rw [allCounts9_each (p := fun i => if !i.segmented && i.dra.isSome then 1 else 0) (by decide), sum_countP]
    intro i
    cases i.segmented <;> cases i.ira <;> cases i.dra <;> rfl
  have hzero : ∀ k, k ≠ .branchesAfterNonbranches ∧ k ≠ .interrupts → (∀ i : Item9r, [Counter.recordsProcessed, .instructionsScanned, .instructionsProcessed].count k +
      (ira9Counts i.segmented i.ira).count k + (dra9Counts i.segmented i.dra).count k = 0) → (allCounts9 0 false items).count k = 0 := by
    intro k hk hz
    rw [allCounts9_each (p := fun _ => 0) hk hz, sum_zeros]
  have hz : ∀ k, (∀ i : Item9r, [Counter.recordsProcessed, .instructionsScanned, .instructionsProcessed].count k +
      (ira9Counts i.segmented i.ira).count k + (dra9Counts i.segmented i.dra).count k = 0) → k ≠ .branchesAfterNonbranches ∧ k ≠ .interrupts →
      (allCounts9 0 false items).count k = 0 := fun k a b => hzero k b a
  obtain ⟨ss, g1, g2⟩ := entries_counted (tlb := tlb) h4 (n := items.length) (m := items.length) (x := numbers9 items) (fun k => (allCounts9 0 false items).count k) hf
    ⟨hone _ (.inl rfl), hone _ (.inr rfl)⟩ ⟨interrupts9_count _ _ _, branches9_count _ _ _⟩
    ⟨hsome, hnone, hseg, hnoseg⟩ ⟨hdseg, hdata, fun j hj => segments9_count j hj _ _ _⟩
    ⟨hz _ (fun i => by cases i.segmented <;> cases i.ira <;> cases i.dra <;> rfl) (by decide), hz _ (fun i => by cases i.segmented <;> cases i.ira <;> cases i.dra <;> rfl) (by decide),
      hz _ (fun i => by cases i.segmented <;> cases i.ira <;> cases i.dra <;> rfl) (by decide), hz _ (fun i => by cases i.segmented <;> cases i.ira <;> cases i.dra <;> rfl) (by decide)⟩
    ⟨hz _ (fun i => by cases i.segmented <;> cases i.ira <;> cases i.dra <;> rfl) (by decide), hz _ (fun i => by cases i.segmented <;> cases i.ira <;> cases i.dra <;> rfl) (by decide),
      hz _ (fun i => by cases i.segmented <;> cases i.ira <;> cases i.dra <;> rfl) (by decide), fun j => hz _ (fun i => by cases i.segmented <;> cases i.ira <;> cases i.dra <;> rfl) ⟨by simp, by simp⟩⟩
    (fun _ => pages9_count _ _ _ _)
  refine ⟨printStat r tlb, ss, ?_, g1, g2⟩
  unfold printed
  rw [h4]

/-- **C99**, POWER10: dumps without page-table walks. -/
theorem C99_power10_partial (c : Conf) (hc : c.full = true) {eof failing : Bool} {bytes : List (BitVec 8)} {fill phantom : BitVec 64} (items : List Item10)
    (tail : List (BitVec 64)) (tlb : List Char) (hk : AllKnown (stream bytes failing eof fill phantom)) (hi : Trace10 0 items)
    (hw : plain (stream bytes failing eof fill phantom) = items.flatMap Item10.words ++ tail) (htail : ∀ v ∈ tail, Other v) :
    ∃ text ss, printed c eof bytes failing fill phantom tlb = some text ∧ Reported (stream bytes failing eof fill phantom) ss ∧
      entries text = summary (stream bytes failing eof fill phantom) ss items.length {} := by
  obtain ⟨s, es, h1, -, -, h2, -⟩ := loop10 hc htail items ((items.flatMap Item10.words ++ tail).length + 1) 0 {} ⟨rfl, rfl, rfl⟩ hi (Nat.lt_succ_self _)
  have h3 := decode_pure c eof bytes failing fill phantom hk
  rw [hw, h1] at h3
  obtain ⟨r, h4, h5⟩ := h3
  have hf : ∀ k, ofInsn (.count k) = true → counted k r.out = (items.flatMap fun _ => [Counter.recordsProcessed, .instructionsScanned, .instructionsProcessed]).count k := by
    intro k hk
    rw [← counted_insnEvents hk, h5, counted_insnEvents hk, counted_counters, h2]
  have hone : ∀ k, k = .instructionsScanned ∨ k = .instructionsProcessed →
      (items.flatMap fun _ => [Counter.recordsProcessed, .instructionsScanned, .instructionsProcessed]).count k = items.length := by
    intro k hk
    rw [List.count_flatMap]
    rw [show (List.count k ∘ fun _ : Item10 => [Counter.recordsProcessed, .instructionsScanned, .instructionsProcessed]) = fun _ => 1 from by
      funext i; rcases hk with rfl | rfl <;> rfl, sum_ones]
  have hz : ∀ k, [Counter.recordsProcessed, .instructionsScanned, .instructionsProcessed].count k = 0 →
      (items.flatMap fun _ => [Counter.recordsProcessed, .instructionsScanned, .instructionsProcessed]).count k = 0 := by
    intro k hk
    rw [List.count_flatMap]
    rw [show (List.count k ∘ fun _ : Item10 => [Counter.recordsProcessed, .instructionsScanned, .instructionsProcessed]) = fun _ => 0 from by
      funext i; exact hk, sum_zeros]
  obtain ⟨ss, g1, g2⟩ := entries_counted (tlb := tlb) h4 (n := items.length) (m := items.length) (x := {})
    (fun k => (items.flatMap fun _ => [Counter.recordsProcessed, .instructionsScanned, .instructionsProcessed]).count k) hf
    ⟨hone _ (.inl rfl), hone _ (.inr rfl)⟩ ⟨hz _ rfl, hz _ rfl⟩ ⟨hz _ rfl, hz _ rfl, hz _ rfl, hz _ rfl⟩ ⟨hz _ rfl, hz _ rfl, fun _ _ => hz _ rfl⟩
    ⟨hz _ rfl, hz _ rfl, hz _ rfl, hz _ rfl⟩ ⟨hz _ rfl, hz _ rfl, hz _ rfl, fun _ => hz _ rfl⟩ (fun _ => hz _ rfl)
  refine ⟨printStat r tlb, ss, ?_, g1, g2⟩
  unfold printed
  rw [h4]

/-! ### Examples -/

/-- The value with this label in the summary of a dump. -/
def said (bytes : List (BitVec 8)) (label : String) : Option Text :=
  (printed { fn := true, private_ := true, junk := {} } false bytes false 0 0 []).bind fun t => ((entries t).find? fun p => decide (p.1 = label.toList)).map (·.2)

/-- The dump of C98: four instructions, two with a real page. -/
example : Trace9 layout9 0 trace9r ∧ plain (stream (bytes9 trace9r) false false 0 0) = trace9r.flatMap Item9r.words ++ [0] ∧ (∀ v ∈ [(0 : BitVec 64)], Other v) ∧
    ((stream (bytes9 trace9r) false false 0 0).all fun v => !isStamp v || (stampOf v).toOption.join.isSome) = true ∧
    said (bytes9 trace9r) "Total Instructions Processed" = some ['4'] ∧ said (bytes9 trace9r) "Total Records Scanned" = some ['1', '2'] ∧
    said (bytes9 trace9r) "Instructions with IRAs" = some ['2'] ∧ said (bytes9 trace9r) "16M instruction pages" = some ['1'] := by
  refine ⟨trace9r_ok, by decide +kernel, allOf (by decide +kernel), by decide +kernel, by decide +kernel, by decide +kernel, by decide +kernel, by decide +kernel⟩

example : Trace10 0 trace10 ∧ said file10 "Total Instructions Processed" = some ['2'] ∧ said file10 "Total Records Processed" = some ['3'] ∧
    said file10 "Total Cycles for Processed Instructions" = some ['5'] := by
  refine ⟨⟨⟨allOf (by decide +kernel), allOf (by decide +kernel), by decide +kernel, by decide +kernel, by decide +kernel, by decide +kernel⟩,
    ⟨allOf (by decide +kernel), allOf (by decide +kernel), by decide +kernel, by decide +kernel, by decide +kernel, by decide +kernel⟩, trivial⟩,
    by decide +kernel, by decide +kernel, by decide +kernel⟩

/-- An interrupt is counted: an instruction that is no branch, and then one at 0x500. -/
example : said (bytes9 [{ info := 0x600000000abcdec0, iea := some 0x1000, ira := none, dea := none, dra := none },
    { info := 0x600000000abcdec0, iea := some 0x500, ira := none, dea := none, dra := none }]) "Total Interrupts Processed" = some ['1'] := by
  decide +kernel

/-! ### What the numbers are not -/

/-- **C99 is false of pages of data**: the second instruction of the dump has a real page of data of 4 kB, but no such page is counted. -/
theorem C99_data_pages_refuted : (trace9r.filterMap Item9r.dataReal) = [(0x5008, 12)] ∧ said (bytes9 trace9r) "4K data pages" = some ['0'] := by
  decide +kernel

/-- **C99 is false of interrupts after a jump**: a branch to 0x2000, and an interrupt there.  The instruction at 0x2000 is no branch, the one after it is at 0x500, and no interrupt is counted. -/
theorem C99_interrupt_refuted :
    let i1 : Item9r := { info := 0x480000008abcdec0, iea := some 0x1000, ira := none, dea := none, dra := none }
    let i2 : Item9r := { info := 0x600000000abcdec0, iea := some 0x2000, ira := none, dea := none, dra := none }
    let i3 : Item9r := { info := 0x600000000abcdec0, iea := some 0x500, ira := none, dea := none, dra := none }
    i2.leaves = false ∧ i2.addr 0x1000 = 0x2000 ∧ i3.elsewhere 0x2000 = true ∧ vector (i3.addr 0x2000) = true ∧
    said (bytes9 [i1, i2, i3]) "Total Interrupts Processed" = some ['0'] ∧
    said (bytes9 [i2, i3]) "Total Interrupts Processed" = some ['1'] := by
  decide +kernel

/-- **The label of the number of branches is wrong**: a jump after a branch is counted as one after an instruction that is none, and a jump after an instruction that is none is not counted. -/
theorem C99_branches_refuted :
    let branch : Item9r := { info := 0x480000008abcdec0, iea := some 0x1000, ira := none, dea := none, dra := none }
    let nop : Item9r := { info := 0x600000000abcdec0, iea := some 0x1000, ira := none, dea := none, dra := none }
    let there : Item9r := { info := 0x600000000abcdec0, iea := some 0x2004, ira := none, dea := none, dra := none }
    branch.leaves = true ∧ nop.leaves = false ∧ there.elsewhere 0x1000 = true ∧
    said (bytes9 [branch, there]) "Total Branches taken after Non branches" = some ['1'] ∧
    said (bytes9 [nop, there]) "Total Branches taken after Non branches" = some ['0'] := by
  decide +kernel

/-- **Instructions without a real address are counted although they get one**: the last instruction of the dump has its real address in the converted trace. -/
theorem C99_ira_refuted : (pages9r layout9 [] 0 trace9r).countP (fun p => p.1.isSome) = 3 ∧ said (bytes9 trace9r) "Instructions with IRAs" = some ['2'] := by
  decide +kernel

/-- **Returns from interrupts are not counted.** -/
theorem C99_rfid_refuted : said (bytes9 [{ info := 0x4c0000240abcdec0, iea := some 0x1000, ira := none, dea := none, dra := none }]) "RFID Instructions" = some ['0'] := by
  decide +kernel

/-- Seventeen times with the largest number of cycles. -/
def longDump : List (BitVec 8) := (List.range 17).flatMap fun _ => [0xac, 0xef, 0xf8, 0, 0x0f, 0xff, 0xff, 0xff]

/-- **The cycles are not their sum if it is large.** -/
theorem C99_cycles_refuted : Reported (stream longDump false false 0 0) (List.replicate 17 (.time 0x80 0x0fffffff 0)) ∧
    said longDump "Total Cycles for Processed Instructions" = some (Nat.toDigits 10 (17 * 0x0fffffff % 2 ^ 32)) ∧ 2 ^ 32 ≤ 17 * 0x0fffffff := by
  refine ⟨?_, by decide +kernel, by decide⟩
  have hs : stream longDump false false 0 0 = List.replicate 17 0xaceff8000fffffff ++ [0] := by decide +kernel
  rw [hs]
  have h0 : ∀ s, ¬ Says 0 s := by
    intro s h
    cases h with
    | record a b _ _ h => revert h; simp; omega
    | complete a b _ _ h => revert h; simp; omega
    | pause a b _ _ h => revert h; simp; omega
    | mark _ _ _ _ _ _ _ _ _ h => revert h; simp; omega
    | sync _ _ h => revert h; simp; omega
    | time _ _ _ _ _ _ _ h => revert h; simp; omega
  have hv : Says 0xaceff8000fffffff (.time 0x80 0x0fffffff 0) :=
    .time 0x80 0 0x0fffffff (by omega) (by omega) (by omega) (by omega) (by decide)
  have : ∀ n, Reported (List.replicate n 0xaceff8000fffffff ++ [0]) (List.replicate n (.time 0x80 0x0fffffff 0)) := by
    intro n
    induction n with
    | zero => exact .other h0 .nil
    | succ n ih => exact .stamp hv ih
  exact this 17

end Htm
