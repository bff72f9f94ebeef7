import Verif.Qt.Crash
/-
Properties C06 and C10: what the writer stores, for every history of calls and every crash point.
-/
namespace Qt
open Spec

/-- C06. After every history of write calls, with growing the file succeeding or failing at each of them, all
bytes stored lie inside the mapped file; a further call keeps the bytes stored so far, stays inside the
mapping it has after growing, and stores nothing if it returns false; and closing truncates the file to
exactly the bytes stored. -/
theorem C06_stores_inside_partial (magic : BitVec 32) (h : List (Record × Bool)) (bs : List Bool) (s : WState)
    (hr : runWrites (writerOpen magic) h = .ok (bs, s)) :
    s.out.length ≤ s.mapped ∧
    (∀ r g ok s', writeRecord s r g = .ok (ok, s') →
      s'.out.length ≤ s'.mapped ∧ s.out <+: s'.out ∧ (ok = false → s' = s)) ∧
    (∀ g file, writerClose s g = .ok file →
      ∃ ok s', writeRecord s (closer s.prev) g = .ok (ok, s') ∧ file = s'.out ∧ file.length ≤ s'.mapped) := by
  have hroom := (runWrites_room h _ _ _ (by simp [writerOpen, BUFFER]) hr).1
  have hw : ∀ r g ok s', writeRecord s r g = .ok (ok, s') →
      s'.out.length ≤ s'.mapped ∧ s.out <+: s'.out ∧ (ok = false → s' = s) := by
    intro r g ok s' e
    rcases writeRecord_cases e with ⟨rfl, rfl, _⟩ | ⟨rfl, _, _, _, _, b, ho, hl, _, hm, _⟩
    · exact ⟨by omega, List.prefix_refl _, fun _ => rfl⟩
    · have := hm (by omega)
      have : BUFFER = 131072 := rfl
      refine ⟨by rw [ho, List.length_append]; omega, ⟨b, ho.symm⟩, by simp⟩
  refine ⟨by omega, hw, ?_⟩
  intro g file e
  obtain ⟨⟨ok, s'⟩, e1, e2⟩ := WRes.bind_ok e
  obtain rfl := WRes.ok.inj e2
  exact ⟨ok, s', e1, rfl, (hw _ _ _ _ e1).1⟩

/-- C06. Calls that returned false leave no trace: closing gives the file of the accepted records alone. -/
theorem C06_failed_calls_have_no_effect (magic : BitVec 32) (h : List (Record × Bool)) (bs : List Bool)
    (s : WState) (hr : runWrites (writerOpen magic) h = .ok (bs, s)) :
    writerClose s true = writeTrace magic (accepted h bs) := by
  obtain ⟨t, e, hs⟩ := runWrites_accepted h _ _ s bs ⟨rfl, rfl, rfl, rfl, rfl⟩ hr
  have : writeTrace magic (accepted h bs) = writerClose t true := by
    unfold writeTrace; rw [e]; rfl
  rw [this]
  unfold writerClose
  rw [hs.prev]
  unfold writeRecord
  simp only [Bool.not_true, Bool.and_false, Bool.false_eq_true, if_false, hs.hdr, hs.prev, hs.magic, hs.version, hs.out]
  split
  · cases headerBytes t.magic t.version { Record.zero with insnAddr := t.prev.insnAddr + 4 } <;> rfl
  · cases recordBytes t.prev { Record.zero with insnAddr := t.prev.insnAddr + 4 } <;> rfl

/-- A history in which the second write call fails to grow the file, and the third one succeeds. -/
example : ∃ bs s, runWrites (writerOpen 0)
    [({ insn := 0x60000000, insnAddr := 0x1000 }, false), ({ insn := 0x60000001, insnAddr := 0x1004 }, false),
      ({ insn := 0x60000002, insnAddr := 0x2000 }, true)] = .ok (bs, s) ∧ bs = [true, false, true] ∧
      s.mapped = 2 * BUFFER := by
  have h : (match runWrites (writerOpen 0)
    [({ insn := 0x60000000, insnAddr := 0x1000 }, false), ({ insn := 0x60000001, insnAddr := 0x1004 }, false),
      ({ insn := 0x60000002, insnAddr := 0x2000 }, true)] with
    | .ok (bs, s) => some (bs, s.mapped)
    | _ => none) = some ([true, false, true], 2 * BUFFER) := by decide +kernel
  split at h
  · rename_i bs s e
    have := Prod.mk.inj (Option.some.inj h)
    exact ⟨bs, s, e, this⟩
  · cases h

/-- What the reader finds in the file of a writer that died. -/
theorem crash_reads (magic : BitVec 32) (h : List (Record × Bool)) (bs : List Bool)
    (s : WState) (hr : runWrites (writerOpen magic) h = .ok (bs, s)) (rs : List Record)
    (hacc : accepted h bs = rs) (hx : Expressible rs) (extra : Nat) (beyond : Nat → Byte) :
    let R := readTrace { bytes := crashFile s extra, beyond := beyond } false false
    R.final = .fail ∧
    ((∀ r, rs.dropLast.getLast? = some r → ¬ IsPrefix r.insn) →
      R.records.map (fun r => (r.insn, r.insnAddr)) = rs.dropLast.map (fun r => (r.insn, r.insnAddr))) ∧
    (∀ r last, rs.dropLast.getLast? = some r → IsPrefix r.insn → rs.getLast? = some last →
      R.records.map (fun r => (r.insn, r.insnAddr)) =
        rs.dropLast.map (fun r => (r.insn, r.insnAddr)) ++ [(0, last.insnAddr)]) := by
  have hroom := (runWrites_room h _ _ _ (by simp [writerOpen, BUFFER]) hr).1
  obtain ⟨t, e, hs⟩ := runWrites_accepted h _ (writerOpen magic) s bs ⟨rfl, rfl, rfl, rfl, rfl⟩ hr
  rw [hacc] at e
  unfold crashFile
  obtain ⟨n, hn⟩ : ∃ n, s.mapped - s.out.length + extra = n := ⟨_, rfl⟩
  rw [hn]
  have hn' : 12 ≤ n := by omega
  cases rs with
  | nil =>
    have ho : s.out = [] := by
      rw [hs.out]
      obtain rfl := WRes.ok.inj e
      rfl
    rw [ho, List.nil_append]
    have hz := readTrace_zeros (n := n) (by omega) beyond
    exact ⟨hz.2, fun _ => by rw [hz.1]; rfl, by simp⟩
  | cons r rs =>
    obtain ⟨out, w, hw, ⟨t', et, ho⟩, R, H⟩ := readTrace_open magic r rs hx
    obtain rfl : t' = t := WRes.ok.inj (et.symm.trans e)
    have ho : s.out = out := by rw [hs.out, ho]
    rw [ho]
    obtain ⟨fuel, hf, HH⟩ := H beyond (List.replicate n 0)
    rw [List.length_replicate] at hf
    rw [HH]
    obtain ⟨i1, i2, i3⟩ := sim_stream rs r (startState magic r w) rfl
    have hd : ({ bytes := out ++ List.replicate n 0, beyond := beyond } : Mem).bytes.drop
        ((sim (startState magic r w) r rs).2.at out.length).pos = List.replicate n 0 := by simp
    have hlast : (r :: rs).getLast? = some (lastOf r rs) := by
      rw [List.getLast?_eq_getElem?]; simpa using lastOf_getElem? rs r
    cases hp : (sim (startState magic r w) r rs).2.prefixed with
    | false =>
      have hz := readLoop_zeros (fuel := fuel) hd (by omega) hp
      refine ⟨hz.2, fun _ => ?_, ?_⟩
      · simp only [hz.1, List.append_nil]; exact i1
      · intro x last hx hpx
        rw [hx, hp] at i3
        have := (isPrefix_iff _).mp hpx
        simp [this] at i3
    | true =>
      obtain ⟨k, rfl⟩ : ∃ k, fuel = k + 1 := ⟨fuel - 1, by omega⟩
      obtain ⟨o, hz1, hz2, hz3, hz4⟩ := readLoop_phantom (fuel := k) R.at hd (by omega) hp
      refine ⟨hz2, ?_, ?_⟩
      · intro hno
        exfalso
        rw [hp] at i3
        cases hl : (r :: rs).dropLast.getLast? with
        | none => rw [hl] at i3; cases i3
        | some x =>
          rw [hl] at i3
          replace i3 : true = (x.insn >>> 26 == 1) := i3
          refine hno x hl ((isPrefix_iff _).mpr ?_)
          simpa using i3.symm
      · intro x last hx hpx hl
        obtain rfl : lastOf r rs = last := Option.some.inj (hlast.symm.trans hl)
        rw [show k + 1 + 1 = k + 2 from rfl]
        simp only [hz1, List.map_append, i1, List.map_cons, List.map_nil, hz3, hz4]
        rw [← i2]; rfl

/-- C10. If the writer dies after any history of calls, the file it leaves (whatever the size it was grown to)
reads back as exactly the records stored so far, that is all accepted ones but the last, which is only held
in memory, followed by the end of the trace, provided the last stored word is not an instruction prefix. -/
theorem C10_crash_partial (magic : BitVec 32) (h : List (Record × Bool)) (bs : List Bool)
    (s : WState) (hr : runWrites (writerOpen magic) h = .ok (bs, s)) (hx : Expressible (accepted h bs))
    (hp : ∀ r, (accepted h bs).dropLast.getLast? = some r → ¬ IsPrefix r.insn)
    (extra : Nat) (beyond : Nat → Byte) :
    let R := readTrace { bytes := crashFile s extra, beyond := beyond } false false
    R.records.map (fun r => (r.insn, r.insnAddr)) =
      (accepted h bs).dropLast.map (fun r => (r.insn, r.insnAddr)) ∧ R.final = .fail := by
  have := crash_reads magic h bs s hr _ rfl hx extra beyond
  exact ⟨this.2.1 hp, this.1⟩

/-- C10 fails when the last stored word is a prefix: the reader then always returns one record with a zero
instruction word that was never written. -/
theorem C10_phantom_record (magic : BitVec 32) (h : List (Record × Bool)) (bs : List Bool)
    (s : WState) (hr : runWrites (writerOpen magic) h = .ok (bs, s)) (hx : Expressible (accepted h bs))
    (r last : Record) (hl : (accepted h bs).getLast? = some last)
    (hp : (accepted h bs).dropLast.getLast? = some r) (hpr : IsPrefix r.insn)
    (extra : Nat) (beyond : Nat → Byte) :
    let R := readTrace { bytes := crashFile s extra, beyond := beyond } false false
    R.records.map (fun r => (r.insn, r.insnAddr)) =
      (accepted h bs).dropLast.map (fun r => (r.insn, r.insnAddr)) ++ [(0, last.insnAddr)] :=
  (crash_reads magic h bs s hr _ rfl hx extra beyond).2.2 r last hp hpr hl

/-- Two calls, storing a header and an ordinary record, meet the hypotheses of `C10_crash_partial`. -/
example :
    let h : List (Record × Bool) :=
      [({ insn := 0x60000000, insnAddr := 0x1000 }, true), ({ insn := 0x60000001, insnAddr := 0x1004 }, true)]
    (∃ s, runWrites (writerOpen 0) h = .ok ([true, true], s)) ∧ Expressible (accepted h [true, true]) ∧
      ∀ r, (accepted h [true, true]).dropLast.getLast? = some r → ¬ IsPrefix r.insn :=
  ⟨of_resultsOf (by decide +kernel),
    by simp [accepted, Expressible, RecordOk, ShiftsOk, WalkOk, Chain, StepOk, Jumps, IsPrefix, NoWalk],
    by simp [accepted, IsPrefix]⟩

/-- C10 as stated (without the proviso) is false. -/
theorem C10_refuted : ¬ ∀ (h : List (Record × Bool)) (bs : List Bool) (s : WState),
    runWrites (writerOpen 0) h = .ok (bs, s) → Expressible (accepted h bs) →
    (readTrace { bytes := crashFile s 0, beyond := fun _ => 0 } false false).records.map
      (fun r => (r.insn, r.insnAddr)) = (accepted h bs).dropLast.map (fun r => (r.insn, r.insnAddr)) := by
  intro H
  obtain ⟨s, hr⟩ : ∃ s, runWrites (writerOpen 0) [({ insn := 0x06000000, insnAddr := 0x1000 }, true),
      ({ insn := 0x60000001, insnAddr := 0x1004 }, true)] = .ok ([true, true], s) :=
    of_resultsOf (by decide +kernel)
  have hx : Expressible (accepted [({ insn := 0x06000000, insnAddr := 0x1000 }, true),
      ({ insn := 0x60000001, insnAddr := 0x1004 }, true)] [true, true]) := by
    simp [accepted, Expressible, RecordOk, ShiftsOk, WalkOk, Chain, StepOk, Jumps, IsPrefix, NoWalk]
  have h1 := H _ _ _ hr hx
  have h2 := C10_phantom_record 0 _ _ _ hr hx { insn := 0x06000000, insnAddr := 0x1000 }
    { insn := 0x60000001, insnAddr := 0x1004 } rfl rfl (by simp [IsPrefix]) 0 (fun _ => 0)
  simp only at h2
  rw [h1] at h2
  have := congrArg List.length h2
  simp at this

end Qt
