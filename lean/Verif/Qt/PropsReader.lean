import Verif.Qt.Stores
import Verif.Qt.PropsRoundTrip
/-! Properties of the reader on arbitrary bytes: C07 (reads), C08 (stores), C09 (termination), C11 (truncation),
C49 (register sections). -/
namespace Qt
open Spec

/-! ### C09 -/

/-- C09. Every successful read call, from any state, takes at least six bytes and ends inside the trace. -/
theorem C09_progress (m : Mem) (s : RState) (c : Ctx) (h : nextRecord m s = .ok () c) :
    s.pos + 6 ≤ c.st.pos ∧ c.st.pos ≤ m.bytes.length := nextRecord_pos h

/-- C09. So reading any byte string until the first failure returns at most size/6 records. -/
theorem C09_record_count (m : Mem) (wb wt : Bool) :
    (readTrace m wb wt).records.length ≤ m.bytes.length / 6 := by
  unfold readTrace
  cases h : readerInit m with
  | ok a c =>
    have := readLoop_count m (m.bytes.length + 1) { c.st with wantBranch := wb, wantTlbie := wt }
    have hi := Law.parseHeader.inside _ _ _ _ h (by simp [RState.initial])
    simp only at this ⊢
    omega
  | err e c => simp

/-- C09. The bounds on the two loops of the model (records in a trace, header records before a record) are never
what ends them: any larger bound gives the same result. -/
theorem C09_loops_end (m : Mem) (s : RState) (c : Ctx) (fuel : Nat) (hf : m.bytes.length < fuel) :
    readLoop m fuel s = readLoop m (m.bytes.length + 1) s ∧
    skipHeaders fuel m c = skipHeaders (m.bytes.length + 1) m c :=
  ⟨readLoop_fuel m _ _ s (by omega) (by omega) (by omega) (by omega),
   skipHeaders_fuel m _ _ c (by omega) (by omega) (by omega) (by omega)⟩

/-! ### C11 -/

/-- C11. Cut any byte string anywhere: the records read are a prefix of those of the whole, whatever follows
either of them in memory. -/
theorem C11_truncation (bytes : Bytes) (k : Nat) (beyond beyond' : Nat → Byte) (wb wt : Bool) :
    (readTrace { bytes := bytes.take k, beyond := beyond } wb wt).records <+:
      (readTrace { bytes := bytes, beyond := beyond' } wb wt).records := by
  generalize hm : ({ bytes := bytes.take k, beyond := beyond } : Mem) = m
  generalize hm' : ({ bytes := bytes, beyond := beyond' } : Mem) = m'
  have hle : m.Le m' := by
    subst hm; subst hm'
    exact List.take_prefix k bytes
  unfold readTrace
  cases h : readerInit m with
  | ok a c =>
    have h' : readerInit m' = .ok a c := Law.parseHeader.fwd.mono _ _ _ _ _ hle h
    rw [h']
    exact readLoop_mono m m' hle _ _ _ (by have := hle.length_le; omega)
  | err e c => exact List.nil_prefix

/-- Five records read from a whole trace, two from its first 40 bytes: C11 and C09 are not about empty traces. -/
example :
    let b : Bytes := be32 0 ++ be16 1 ++ be16 2 ++ be16 0 ++
      (List.replicate 5 (be32 0x60000000 ++ be16 0x0800 ++ be32 0 ++ be32 0x1234)).flatten
    (readTrace { bytes := b, beyond := fun _ => 0 } false false).records.length = 5 ∧
    (readTrace { bytes := b.take 40, beyond := fun _ => 7 } false false).records.length = 2 := by
  decide +kernel

/-! ### C07 -/

/-- C07 (partial). What is read from outside the trace never becomes part of a record: the records do not depend
on the bytes beyond the end.  What is missing for C07: `C07_refuted`. -/
theorem C07_records_partial (bytes : Bytes) (beyond beyond' : Nat → Byte) (wb wt : Bool) :
    (readTrace { bytes := bytes, beyond := beyond } wb wt).records =
      (readTrace { bytes := bytes, beyond := beyond' } wb wt).records := by
  have h1 := C11_truncation bytes bytes.length beyond beyond' wb wt
  have h2 := C11_truncation bytes bytes.length beyond' beyond wb wt
  rw [List.take_length] at h1 h2
  exact h1.eq_of_length (Nat.le_antisymm h1.length_le h2.length_le)

/-- C07 (partial). At most the four bytes after the end are ever looked at before the first failure: the whole
result, including the way reading ends and the final state, depends on nothing else. -/
theorem C07_four_bytes_partial (bytes : Bytes) (beyond beyond' : Nat → Byte) (wb wt : Bool)
    (h : ∀ i, i < 4 → beyond (bytes.length + i) = beyond' (bytes.length + i)) :
    readTrace { bytes := bytes, beyond := beyond } wb wt = readTrace { bytes := bytes, beyond := beyond' } wb wt := by
  have hi : readerInit { bytes := bytes, beyond := beyond } = readerInit { bytes := bytes, beyond := beyond' } :=
    Blind.parseHeader.indep _ _ _ rfl
  unfold readTrace
  rw [← hi]
  cases hx : readerInit { bytes := bytes, beyond := beyond } with
  | ok a c =>
    have := Law.parseHeader.inside _ _ _ _ hx (by simp [RState.initial])
    exact readLoop_indep (m := { bytes := bytes, beyond := beyond }) (m' := { bytes := bytes, beyond := beyond' }) rfl h _ _ this
  | err e c => rfl

/-- C07 (partial). A call that returns a record reads nothing outside the trace. -/
theorem C07_success_partial (m : Mem) (s : RState) (c : Ctx) (h : nextRecord m s = .ok () c)
    (hs : s.overread = false) : c.st.overread = false := (nextRecord_quiet h).trans hs

/-- C07 fails: every call made less than four bytes from the end reads beyond it (`qtreader_next_record` fetches
the instruction word before any bounds check). -/
theorem C07_every_end_overreads (m : Mem) (s : RState) (h : m.bytes.length < s.pos + 4) :
    (nextRecord m s).ctx.st.overread = true := nextRecord_overread h

/-- C07 fails for every trace the writer produces: reading it to its end reads beyond it. -/
theorem C07_written_traces_overread (magic : BitVec 32) (rs : List Record) (hne : rs ≠ []) (h : Expressible rs) :
    ∃ file, writeTrace magic rs = .ok file ∧ ∀ beyond,
      (readTrace { bytes := file, beyond := beyond } false false).state.overread = true := by
  cases rs with
  | nil => exact absurd rfl hne
  | cons r rs =>
    obtain ⟨file, w, e, hw, H⟩ := readTrace_closed magic r rs h
    refine ⟨file, e, fun beyond => ?_⟩
    obtain ⟨_, hf, s, fuel, hs, he⟩ := H beyond
    rw [he]
    have ho := nextRecord_overread (m := { bytes := file, beyond := beyond }) (s := s) (by simp only; omega)
    cases hx : nextRecord { bytes := file, beyond := beyond } s with
    | ok a c => have := nextRecord_pos hx; simp only at this; omega
    | err e c => rw [hx] at ho; simp only [readLoop, hx]; exact ho

/-- C07 as stated is false. -/
theorem C07_refuted : ¬ ∀ (m : Mem) (wb wt : Bool), (readTrace m wb wt).state.overread = false := by
  intro H
  have := H { bytes := be32 0 ++ be16 1 ++ be16 2 ++ be16 0, beyond := fun _ => 0 } false false
  revert this
  decide +kernel

/-- C07: a caller that goes on after a failure is worse off: the failed call can leave the reader thousands of
bytes beyond the end (`do_parse_regs` steps over vector registers without a check), where the next call reads. -/
theorem C07_retry_refuted : ∃ (m : Mem) (s : RState) (c : Ctx), readerInit m = .ok () { st := s, rcd := .zero } ∧
    nextRecord m s = .err .fail c ∧ m.bytes.length + 9000 < c.st.pos := by
  refine ⟨{ bytes := be32 0 ++ be16 1 ++ be16 2 ++ be16 0 ++ be32 0x60000000 ++ be16 0x0008 ++
    [0, 0, 255, 0, 0, 0, 255, 0], beyond := fun _ => 0 }, _, _, rfl, rfl, ?_⟩
  decide +kernel

/-! ### C08 -/

/-- C08 (partial). Reading any byte string stores outside the arrays of a record only if the string contains, after
the start of the trace, the counts of a page-walk section with more than 4 entries or 5 walks or those of a
register section with more than 32 gprs, 3 fprs or 4 sprs.  What is missing for C08: `C08_refuted`. -/
theorem C08_stores_partial (m : Mem) (wb wt : Bool) (h : (readTrace m wb wt).final = .oob) :
    ∃ p, BadWalkCounts m.bytes p ∨ ∃ v, BadRegCounts m.bytes p v := by
  unfold readTrace at h
  cases hx : readerInit m with
  | ok a c =>
    rw [hx] at h
    obtain ⟨p, _, hp⟩ := readLoop_oob m _ _ h
    exact ⟨p, hp⟩
  | err e c =>
    rw [hx] at h
    simp only at h
    subst h
    obtain ⟨p, _, hp⟩ := Stores.parseHeader.oob _ _ _ hx
    exact ⟨p, hp⟩

/-- C08 (partial). A page-walk section stores outside the record only if the two counts it starts with are
excessive. -/
theorem C08_walk_partial (hs gs : Nat) (st : Bool) (f3 : BitVec 16) (x : Radix) (m : Mem) (c c' : Ctx)
    (h : walkSection hs gs st f3 x m c = .err .oob c') : BadWalkCounts m.bytes c.st.pos := walkSection_oob h

/-- C08 (partial). A register section stores outside the record only if one of the counts it starts with is
excessive (the layout depends on the trace version). -/
theorem C08_regs_partial (m : Mem) (c c' : Ctx) (h : parseRegs m c = .err .oob c') :
    BadRegCounts m.bytes c.st.pos (decide (0x7000000 ≤ c.st.version.toNat)) := parseRegs_oob h

/-- C08 (partial). No trace the writer produces makes the reader store outside its arrays. -/
theorem C08_written_traces_partial (magic : BitVec 32) (rs : List Record) (h : Expressible rs) :
    ∃ file, writeTrace magic rs = .ok file ∧ ∀ beyond,
      (readTrace { bytes := file, beyond := beyond } false false).final ≠ .oob := by
  obtain ⟨file, e, H⟩ := C01_roundtrip_partial magic rs h
  refine ⟨file, e, fun beyond => ?_⟩
  rw [(H beyond).2]; decide

/-- C08 fails: five entries in a single walk, six walks, 33 gprs, 4 fprs and 5 sprs each store outside an array. -/
theorem C08_refuted :
    (∀ b ∈ [ be32 0x60000000 ++ be16 0x0201 ++ be16 0x0001 ++ be16 0 ++ [5, 1] ++ List.replicate 40 0,
             be32 0x60000000 ++ be16 0x0201 ++ be16 0x0001 ++ be16 0 ++ [4, 6] ++ List.replicate 400 0,
             be32 0x60000000 ++ be16 0x0008 ++ [33, 0, 0, 0, 0, 0, 0, 0] ++ List.replicate 400 0,
             be32 0x60000000 ++ be16 0x0008 ++ [0, 4, 0, 0, 0, 0, 0, 0] ++ List.replicate 400 0,
             be32 0x60000000 ++ be16 0x0008 ++ [0, 0, 0, 5, 0, 0, 0, 0] ++ List.replicate 400 0 ],
      (readTrace { bytes := be32 0 ++ be16 1 ++ be16 2 ++ be16 0 ++ b, beyond := fun _ => 0 } false false).final = .oob) := by
  decide +kernel

/-- A page shift of 64 or more is undefined behaviour (a shift by the width of the operand). -/
theorem C08_shift_refuted :
    let b := be32 0 ++ be16 1 ++ be16 2 ++ be16 0 ++
      be32 0x60000000 ++ be16 0x0201 ++ be16 0x0100 ++ be32 1 ++ [64]
    (readTrace { bytes := b, beyond := fun _ => 0 } false false).final = .ub := by
  decide +kernel

/-! ### C49 -/

/-- C49. If the register section is accepted, the bytes from its start are laid out as its counts announce, the
record holds exactly the registers in them, and reading continues right behind them, inside the trace. -/
theorem C49_section_layout (m : Mem) (c c' : Ctx) (r : Regs) (h : parseRegs m c = .ok r c') :
    let vsx := decide (0x7000000 ≤ c.st.version.toNat)
    RegsOk vsx r ∧ Laid m.bytes (regLayout vsx r) c.st.pos ∧
    c' = { c with st := { c.st with pos := c.st.pos + layoutSize (regLayout vsx r) } } ∧
    c'.st.pos ≤ m.bytes.length := by
  exact parseRegs_laid h

/-- C49, conversely: a register section that is laid out like that inside the trace, with counts that fit, is
accepted and gives the registers in it. -/
theorem C49_section_accepted (m : Mem) (c : Ctx) (r : Regs) :
    let vsx := decide (0x7000000 ≤ c.st.version.toNat)
    RegsOk vsx r → Laid m.bytes (regLayout vsx r) c.st.pos →
    c.st.pos + layoutSize (regLayout vsx r) ≤ m.bytes.length →
    parseRegs m c = .ok r { c with st := { c.st with pos := c.st.pos + layoutSize (regLayout vsx r) } } :=
  fun h1 h2 h3 => laid_parseRegs h1 h2 h3

/-- A section with one gpr in, a vmx register in and an spr out is accepted. -/
example : ∃ c', parseRegs
    { bytes := [1, 0, 1, 0, 0, 0, 0, 1] ++ (3 :: be64 7) ++ List.replicate 18 9 ++ be16 268 ++ be64 5, beyond := fun _ => 0 }
    { st := .initial, rcd := .zero } =
    .ok { nrGprsIn := 1, nrVmxsIn := 1, nrSprsOut := 1, gprsIn := [{ index := 3, value := 7 }],
          sprsOut := [{ index := 268, value := 5 }] } c' := ⟨_, rfl⟩

end Qt
