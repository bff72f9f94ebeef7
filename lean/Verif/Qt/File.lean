import Verif.Qt.Simulation
/-! Helper lemmas: the bytes of a whole file, and reading them back. -/
namespace Qt
open Spec

theorem radixWalk_of_ok {x : Radix} (h : WalkOk x) :
    ∃ w, radixWalk x = .ok w ∧ (w = .none ↔ NoWalk x) ∧ (w = .nested ↔ Nested x) ∧
      ((∃ g, w = .single g) ↔ Single x) := by
  unfold radixWalk WalkOk NoWalk Nested Single NR_RADIX_PTES MAX_RADIX_WALKS at *
  by_cases h0 : x.nrPtes = 0
  · exact ⟨.none, by simp [h0]⟩
  · rcases h with h | ⟨h1, h2⟩ | ⟨h1, h2, h3, h4⟩
    · exact absurd h h0
    · cases ht : x.type
      · exact absurd ht h2
      · exact ⟨.single true, by simp [h0, h1]⟩
      · exact ⟨.single false, by simp [h0, h1]⟩
    · refine ⟨.nested, ?_, by simp [h0], by simp [h0]; omega, ?_⟩
      · rw [if_neg (by omega), if_pos (by omega), if_pos (by omega)]
      · simp; omega

theorem walkIf_of_ok {c : Bool} {x : Radix} (h : c = true → WalkOk x) : ∃ w, walkIf c x = .ok w := by
  cases c
  · exact ⟨.none, rfl⟩
  · obtain ⟨w, hw, _⟩ := radixWalk_of_ok (h rfl)
    exact ⟨w, hw⟩

theorem walkIf_true {c : Bool} {x : Radix} {w : Walk} (h : walkIf c x = .ok w) (hn : w ≠ .none) :
    c = true ∧ radixWalk x = .ok w := by
  cases c
  · exact absurd (WRes.ok.inj h).symm hn
  · exact ⟨rfl, h⟩

theorem dwOf_eq {prev : Record} (h : RecordOk prev) :
    walkIf prev.dataRaValid prev.radixData = .ok (dwOf prev) := by
  obtain ⟨w, hw⟩ := walkIf_of_ok h.2.2
  rw [dwOf, hw]

theorem iwOf_eq {prev cur : Record} (h : RecordOk cur) :
    walkIf (cur.insnRaValid && iarChange prev cur) cur.radixInsn = .ok (iwOf prev cur) := by
  obtain ⟨w, hw⟩ := walkIf_of_ok (c := cur.insnRaValid && iarChange prev cur) (x := cur.radixInsn)
    (by intro hc; simp at hc; exact h.2.1 hc.1)
  rw [iwOf, hw]

theorem iarChange_iff {prev cur : Record} : iarChange prev cur = true ↔ Jumps prev cur := by
  simp [iarChange, Jumps]

/-- Page walks of neighbours are compatible (the part of `StepOk` that concerns walks). -/
def WalkPair (prev cur : Record) : Prop :=
  Jumps prev cur → prev.dataRaValid = true → cur.insnRaValid = true →
    WalksCompatible prev.radixData cur.radixInsn

theorem inStep_of {prev cur : Record} (hp : RecordOk prev) (hc : RecordOk cur) (hw : WalkPair prev cur) :
    InStep prev cur (dwOf prev) (iwOf prev cur) := by
  have ed := dwOf_eq hp
  have ei := iwOf_eq (prev := prev) hc
  -- the shape of the two walks when both addresses are stored
  have key : prev.dataRaValid = true → (cur.insnRaValid && iarChange prev cur) = true →
      (dwOf prev = .none ↔ iwOf prev cur = .none) ∧
      (dwOf prev = .nested → iwOf prev cur = .none ∨ iwOf prev cur = .nested) := by
    intro h1 h2
    rw [h1] at ed
    rw [h2] at ei
    simp only [Bool.and_eq_true] at h2
    obtain ⟨w, e1, a1, a2, a3⟩ := radixWalk_of_ok (hp.2.2 h1)
    obtain ⟨v, e2, b1, b2, b3⟩ := radixWalk_of_ok (hc.2.1 h2.1)
    obtain rfl : w = dwOf prev := WRes.ok.inj (e1.symm.trans ed)
    obtain rfl : v = iwOf prev cur := WRes.ok.inj (e2.symm.trans ei)
    have := hw (iarChange_iff.mp h2.2) h1 h2.1
    unfold WalksCompatible at this
    constructor
    · rw [a1, b1]; grind
    · intro hn
      have hD := a2.mp hn
      cases hv : iwOf prev cur with
      | none => simp
      | nested => simp
      | single g =>
        have := b3.mp ⟨g, hv⟩
        have := b1
        unfold Nested NoWalk at *
        grind
  refine ⟨hp.1, hc.1, ed, ei, ?_, ?_, ?_⟩
  · intro h1 h2 h3
    exact h2 ((key h1 (walkIf_true ei h2).1).1.mp h3)
  · intro h1 h2 h3
    exact h2 ((key (walkIf_true ed h2).1 h1).1.mpr h3)
  · intro h1
    by_cases h2 : iwOf prev cur = .none
    · exact Or.inl h2
    · exact (key (walkIf_true ed (by rw [h1]; simp)).1 (walkIf_true ei h2).1).2 h1

theorem putRpnIf_of {c : Bool} {ra v s} (h : c = true → v = true → s < 64) :
    ∃ b, putRpnIf c ra v s = .ok b := by
  unfold putRpnIf rpnBytes
  cases c
  · exact ⟨_, rfl⟩
  · cases v
    · exact ⟨_, rfl⟩
    · have := h rfl rfl
      simp only [if_true]
      rw [if_pos (by omega)]
      exact ⟨_, rfl⟩

theorem recordBytes_total {prev cur : Record} (hp : RecordOk prev) (hc : RecordOk cur) :
    ∃ b, recordBytes prev cur = .ok b := by
  obtain ⟨b1, e1⟩ := putRpnIf_of (c := prev.dataRaValid) (ra := prev.dataRa)
    (fun _ => hp.1.2.2.1)
  obtain ⟨b2, e2⟩ := putRpnIf_of (c := cur.insnRaValid && iarChange prev cur) (ra := cur.insnRa)
    (fun _ => hc.1.1)
  unfold recordBytes
  simp only [bind, dwOf_eq hp, iwOf_eq hc, e1, e2, WRes.bind]
  exact ⟨_, rfl⟩

theorem headerBytes_total {magic version : BitVec 32} {r : Record} (hr : RecordOk r)
    (hn : ¬ NoWalk r.radixInsn → r.insnRaValid = true) :
    ∃ w b, radixWalk r.radixInsn = .ok w ∧ headerBytes magic version r = .ok b ∧
      (r.radixInsn.nrPtes ≠ 0 → r.insnRaValid = true ∧ w ≠ .none) := by
  have hw : WalkOk r.radixInsn := by
    by_cases h : NoWalk r.radixInsn
    · exact Or.inl h
    · exact hr.2.1 (hn h)
  obtain ⟨w, e, a, _⟩ := radixWalk_of_ok hw
  obtain ⟨b1, e1⟩ := putRpnIf_of (c := r.insnRaValid) (ra := r.insnRa) (fun _ => hr.1.1)
  unfold headerBytes
  simp only [bind, e, e1, WRes.bind]
  refine ⟨_, _, rfl, rfl, ?_⟩
  intro h
  exact ⟨hn h, fun hw => h (a.mp hw)⟩

/-- What the writer stores when it is closed: a zero record at the following address. -/
def closer (last : Record) : Record := { Record.zero with insnAddr := last.insnAddr + 4 }

theorem closer_ok (r : Record) : RecordOk (closer r) := by
  simp [RecordOk, ShiftsOk, closer, Record.zero]

theorem closer_pair (r : Record) : WalkPair r (closer r) := by
  simp [WalkPair, closer, Record.zero]

/-- The last of a nonempty list given as head and tail. -/
def lastOf : Record → List Record → Record
  | r, [] => r
  | _, r :: rs => lastOf r rs

theorem writeRecord_hdr {s : WState} {r : Record} (h : s.headerWritten = false) {b : Bytes}
    (hb : headerBytes s.magic s.version r = .ok b) :
    ∃ s', writeRecord s r true = .ok (true, s') ∧ s'.out = s.out ++ b ∧ s'.prev = r ∧
      s'.headerWritten = true := by
  unfold writeRecord
  simp only [Bool.not_true, Bool.and_false, Bool.false_eq_true, if_false, h, if_true, bind, hb, WRes.bind]
  exact ⟨_, rfl, rfl, rfl, rfl⟩

theorem writeRecord_rec {s : WState} {r : Record} (h : s.headerWritten = true) {b : Bytes}
    (hb : recordBytes s.prev r = .ok b) :
    ∃ s', writeRecord s r true = .ok (true, s') ∧ s'.out = s.out ++ b ∧ s'.prev = r ∧
      s'.headerWritten = true := by
  unfold writeRecord
  simp only [Bool.not_true, Bool.and_false, Bool.false_eq_true, if_false, h, bind, hb, WRes.bind,
    Bool.true_eq_false]
  exact ⟨_, rfl, rfl, rfl, rfl⟩

theorem writeAll_cons {s s1 : WState} {r : Record} {rs : List Record} {x : Bool}
    (h : writeRecord s r true = .ok (x, s1)) : writeAll s (r :: rs) = writeAll s1 rs := by
  rw [writeAll, h]; rfl

theorem bodyBytes_cons {prev r : Record} {rs : List Record} {b b' : Bytes} (h : recordBytes prev r = .ok b)
    (h' : bodyBytes r rs = .ok b') : bodyBytes prev (r :: rs) = .ok (b ++ b') := by
  rw [bodyBytes, h]
  show WRes.bind (bodyBytes r rs) _ = _
  rw [h']; rfl

theorem writeAll_body : ∀ (rs : List Record) (s : WState) (b : Bytes), s.headerWritten = true →
    bodyBytes s.prev rs = .ok b →
    ∃ s', writeAll s rs = .ok s' ∧ s'.out = s.out ++ b ∧ s'.prev = lastOf s.prev rs ∧ s'.headerWritten = true
  | [], s, b, h, hb => by
    obtain rfl : [] = b := WRes.ok.inj hb
    exact ⟨s, rfl, by simp, rfl, h⟩
  | r :: rs, s, b, h, hb => by
    obtain ⟨b1, hb1, hb⟩ := WRes.bind_ok hb
    obtain ⟨b2, hb2, hb⟩ := WRes.bind_ok hb
    obtain rfl : b1 ++ b2 = b := WRes.ok.inj hb
    obtain ⟨s1, e1, o1, p1, h1⟩ := writeRecord_rec h hb1
    obtain ⟨s2, e2, o2, p2, h2⟩ := writeAll_body rs s1 b2 h1 (by rw [p1]; exact hb2)
    refine ⟨s2, ?_, ?_, ?_, h2⟩
    · rw [writeAll_cons e1, e2]
    · rw [o2, o1, List.append_assoc]
    · rw [p2, p1]; rfl

theorem bodyBytes_append : ∀ (rs : List Record) (prev : Record) (c : Record) (b b' : Bytes),
    bodyBytes prev rs = .ok b → recordBytes (lastOf prev rs) c = .ok b' →
    bodyBytes prev (rs ++ [c]) = .ok (b ++ b')
  | [], prev, c, b, b', hb, hb' => by
    obtain rfl : [] = b := WRes.ok.inj hb
    have := bodyBytes_cons (rs := []) (b' := []) hb' rfl
    simpa [lastOf] using this
  | r :: rs, prev, c, b, b', hb, hb' => by
    obtain ⟨b1, hb1, hb⟩ := WRes.bind_ok hb
    obtain ⟨b2, hb2, hb⟩ := WRes.bind_ok hb
    obtain rfl : b1 ++ b2 = b := WRes.ok.inj hb
    have ih := bodyBytes_append rs r c b2 b' hb2 hb'
    rw [List.append_assoc]
    exact bodyBytes_cons hb1 ih

/-- The bytes of a closed file with at least one record. -/
theorem writeTrace_cons {magic : BitVec 32} {r : Record} {rs : List Record} {h b b' : Bytes}
    (hh : headerBytes magic QTWRITER_VERSION r = .ok h) (hb : bodyBytes r rs = .ok b)
    (hb' : recordBytes (lastOf r rs) (closer (lastOf r rs)) = .ok b') :
    writeTrace magic (r :: rs) = .ok (h ++ (b ++ b')) := by
  obtain ⟨s1, e1, o1, p1, h1⟩ := writeRecord_hdr (s := writerOpen magic) (r := r) rfl hh
  obtain ⟨s2, e2, o2, p2, h2⟩ := writeAll_body rs s1 b h1 (by rw [p1]; exact hb)
  rw [p1] at p2
  obtain ⟨s3, e3, o3, _, _⟩ := writeRecord_rec (s := s2) (r := closer (lastOf r rs)) h2
    (by rw [p2]; exact hb')
  have ec : writerClose s2 true = .ok s3.out := by
    unfold writerClose
    rw [p2, show ({ Record.zero with insnAddr := (lastOf r rs).insnAddr + 4 } : Record) =
      closer (lastOf r rs) from rfl, e3]
    rfl
  unfold writeTrace
  rw [writeAll_cons e1, e2]
  show writerClose s2 true = _
  rw [ec, o3, o2, o1]
  simp [writerOpen]

theorem bodyBytes_total : ∀ (rs : List Record) (prev : Record), RecordOk prev → (∀ r ∈ rs, RecordOk r) →
    ∃ b, bodyBytes prev rs = .ok b
  | [], _, _, _ => ⟨_, rfl⟩
  | r :: rs, prev, hp, h => by
    obtain ⟨b1, e1⟩ := recordBytes_total hp (h r (by simp))
    obtain ⟨b2, e2⟩ := bodyBytes_total rs r (h r (by simp)) (fun x hx => h x (by simp [hx]))
    exact ⟨b1 ++ b2, bodyBytes_cons e1 e2⟩

theorem isPrefix_iff (insn : BitVec 32) : IsPrefix insn ↔ insn >>> 26 = 1 := by
  unfold IsPrefix
  rw [← BitVec.toNat_inj, BitVec.toNat_ushiftRight, Nat.shiftRight_eq_div_pow]
  rfl

/-- Conditions on the stored part of a list, from the user-level ones. -/
theorem steps_of : ∀ (rs : List Record) (prev : Record) (c : Record), RecordOk prev → (∀ r ∈ rs, RecordOk r) →
    Chain StepOk (prev :: rs) → RecordOk c → WalkPair (lastOf prev rs) c → Steps prev (rs ++ [c])
  | [], prev, c, hp, _, _, hc, hw => ⟨inStep_of hp hc hw, by simp, trivial⟩
  | r :: rs, prev, c, hp, h, ⟨hs, hch⟩, hc, hw => by
    refine ⟨inStep_of hp (h r (by simp)) hs.2, ?_, ?_⟩
    · intro _ hz; exact (isPrefix_iff _).mp (hs.1 hz)
    · exact steps_of rs r c (h r (by simp)) (fun x hx => h x (by simp [hx])) hch hc hw

theorem steps_of' : ∀ (rs : List Record) (prev : Record), RecordOk prev → (∀ r ∈ rs, RecordOk r) →
    Chain StepOk (prev :: rs) → Steps prev rs
  | [], prev, hp, _, _ => trivial
  | r :: rs, prev, hp, h, ⟨hs, hch⟩ => by
    refine ⟨inStep_of hp (h r (by simp)) hs.2, ?_, ?_⟩
    · intro _ hz; exact (isPrefix_iff _).mp (hs.1 hz)
    · exact steps_of' rs r (h r (by simp)) (fun x hx => h x (by simp [hx])) hch

/-- State of the reader after the header of a file starting with `r`. -/
def startState (magic : BitVec 32) (r : Record) (w : Walk) : RState :=
  hdrOut magic QTWRITER_VERSION r w RState.initial

theorem startState_ready {magic r w} (h : ShiftsOk r) : Ready (startState magic r w) := by
  have := h.1
  constructor
  · rfl
  · rfl
  · intro h1; simp [startState, hdrOut, RState.initial]
  · simp only [startState, hdrOut, RState.initial]
    intro h1; grind

/-- Opening a file that starts with a header. -/
theorem readTrace_start {magic : BitVec 32} {r : Record} {w : Walk} {h rest : Bytes} {beyond : Nat → Byte}
    (hh : headerBytes magic QTWRITER_VERSION r = .ok h) (hw : radixWalk r.radixInsn = .ok w)
    (hs : ShiftsOk r) (hn : r.radixInsn.nrPtes ≠ 0 → r.insnRaValid = true ∧ w ≠ .none) :
    readTrace { bytes := h ++ rest, beyond := beyond } false false =
      readLoop { bytes := h ++ rest, beyond := beyond } ((h ++ rest).length + 1)
        ((startState magic r w).at h.length) := by
  have e := parseHeader_reads (m := { bytes := h ++ rest, beyond := beyond })
    (c := { st := .initial, rcd := .zero }) hh hw hs hn 0 rest rfl
  have e' : readerInit { bytes := h ++ rest, beyond := beyond } = .ok ()
      (({ st := startState magic r w, rcd := .zero } : Ctx).at h.length) := by
    have := e
    simp only [Nat.zero_add] at this
    exact this
  unfold readTrace
  rw [e']
  rfl

/-- The whole closed file reads back as `sim` predicts. -/
theorem readTrace_closed (magic : BitVec 32) (r : Record) (rs : List Record) (H : Expressible (r :: rs)) :
    ∃ file w, writeTrace magic (r :: rs) = .ok file ∧ radixWalk r.radixInsn = .ok w ∧ ∀ beyond,
      (readTrace { bytes := file, beyond := beyond } false false).records =
        (sim (startState magic r w) r (rs ++ [closer (lastOf r rs)])).1 ∧
      (readTrace { bytes := file, beyond := beyond } false false).final = .fail ∧
      ∃ s fuel, s.pos = file.length ∧ (readTrace { bytes := file, beyond := beyond } false false).state =
        (readLoop { bytes := file, beyond := beyond } (fuel + 1) s).state := by
  obtain ⟨hR, hC, hH⟩ := H
  have hr := hR r (by simp)
  have hrs : ∀ x ∈ rs, RecordOk x := fun x hx => hR x (by simp [hx])
  have hlast : RecordOk (lastOf r rs) := by
    have : ∀ (rs : List Record) (r : Record), RecordOk r → (∀ x ∈ rs, RecordOk x) → RecordOk (lastOf r rs) := by
      intro rs
      induction rs with
      | nil => intro r h _; exact h
      | cons a l ih => intro r _ h; exact ih a (h a (by simp)) (fun x hx => h x (by simp [hx]))
    exact this rs r hr hrs
  obtain ⟨hz, hnw⟩ := hH r rfl
  obtain ⟨w, h, hw, hh, hn⟩ := headerBytes_total (magic := magic) (version := QTWRITER_VERSION) hr hnw
  obtain ⟨b, hb⟩ := bodyBytes_total rs r hr hrs
  obtain ⟨b', hb'⟩ := recordBytes_total hlast (closer_ok (lastOf r rs))
  refine ⟨h ++ (b ++ b'), w, writeTrace_cons hh hb hb', hw, fun beyond => ?_⟩
  rw [readTrace_start (rest := b ++ b') hh hw hr.1 hn]
  have hbody := bodyBytes_append rs r _ b b' hb hb'
  have hsteps := steps_of rs r _ hr hrs hC (closer_ok _) (closer_pair _)
  have hlen : ∀ (rs : List Record) (prev : Record) (b : Bytes), bodyBytes prev rs = .ok b →
      rs.length ≤ b.length := by
    intro rs
    induction rs with
    | nil => intro _ _ _; simp
    | cons a l ih =>
      intro prev b hb
      obtain ⟨b1, hb1, hb⟩ := WRes.bind_ok hb
      obtain ⟨b2, hb2, hb⟩ := WRes.bind_ok hb
      obtain rfl : b1 ++ b2 = b := WRes.ok.inj hb
      obtain ⟨_, _, _, _, e⟩ := recordBytes_ok hb1
      have := ih _ _ hb2
      have h4 : 1 ≤ b1.length := by
        rw [e]; simp only [List.append_assoc, List.length_append]
        have : (be32 prev.insn).length = 4 := rfl
        omega
      simp only [List.length_append, List.length_cons]; omega
  have hl := hlen _ _ _ hbody
  let n := rs.length + 1
  have hfuel : (h ++ (b ++ b')).length + 1 =
      (rs ++ [closer (lastOf r rs)]).length + ((h ++ (b ++ b')).length - (rs ++ [closer (lastOf r rs)]).length + 1) := by
    simp only [List.length_append] at hl ⊢; omega
  have hs := sim_reads { bytes := h ++ (b ++ b'), beyond := beyond } (rs ++ [closer (lastOf r rs)]) r
    (startState magic r w) h.length
    ((h ++ (b ++ b')).length - (rs ++ [closer (lastOf r rs)]).length + 1) (b ++ b') [] hbody hsteps
    (startState_ready hr.1) (fun _ hz' => absurd hz' hz) (by simp)
  rw [hfuel, hs.2]
  have he := readLoop_end (m := { bytes := h ++ (b ++ b'), beyond := beyond })
    (s := (sim (startState magic r w) r (rs ++ [closer (lastOf r rs)])).2.at (h.length + (b ++ b').length))
    (fuel := (h ++ (b ++ b')).length - (rs ++ [closer (lastOf r rs)]).length)
    ⟨hs.1.w1, hs.1.w2, hs.1.p1, hs.1.p2⟩ (by simp)
  refine ⟨by simp only [he.1, List.append_nil], by simp only [he.2], _, _, ?_, rfl⟩
  simp

theorem sim_length : ∀ (rs : List Record) (r : Record) (s : RState), (sim s r rs).1.length = rs.length
  | [], _, _ => rfl
  | a :: l, r, s => by
    show ((outOf s r a).rcd :: (sim (outOf s r a).st a l).1).length = _
    simp only [List.length_cons, sim_length l]

theorem lastOf_getElem? : ∀ (rs : List Record) (r : Record), (r :: rs)[rs.length]? = some (lastOf r rs)
  | [], r => rfl
  | a :: l, r => by
    rw [List.length_cons, List.getElem?_cons_succ]
    exact lastOf_getElem? l a

/-- Lift a one-record argument to every record of a file. -/
theorem sim_forall (Inv : RState → Record → Prop) (Pair Q : Record → Record → Prop)
    (P : Record → Record → Record → Prop)
    (hP : ∀ s a b, Inv s a → Q a b → P a b (outOf s a b).rcd)
    (hI : ∀ s a b, Inv s a → Pair a b → Inv (outOf s a b).st b) (c : Record) :
    ∀ (rs : List Record) (r : Record) (s : RState), Inv s r → Chain Pair (r :: rs) → Chain Q (r :: rs) →
      Q (lastOf r rs) c →
      ∀ (i : Nat) (a : Record), (r :: rs)[i]? = some a →
        ∃ o b, (sim s r (rs ++ [c])).1[i]? = some o ∧ (rs ++ [c])[i]? = some b ∧ P a b o
  | [], r, s, hs, _, _, hq, i, a, ha => by
    cases i with
    | zero =>
      obtain rfl : r = a := by simpa using ha
      exact ⟨_, c, rfl, rfl, hP s r c hs hq⟩
    | succ i => simp at ha
  | x :: l, r, s, hs, hp, hq1, hq, i, a, ha => by
    cases i with
    | zero =>
      obtain rfl : r = a := by simpa using ha
      exact ⟨_, x, rfl, rfl, hP s r x hs hq1.1⟩
    | succ i =>
      rw [List.getElem?_cons_succ] at ha
      have ih := sim_forall Inv Pair Q P hP hI c l x (outOf s r x).st (hI s r x hs hp.1) hp.2 hq1.2 hq i a ha
      obtain ⟨o, b, h1, h2, h3⟩ := ih
      exact ⟨o, b, h1, by simpa using h2, h3⟩

theorem chain_of_forall {α} {R : α → α → Prop} (h : ∀ a b, R a b) : ∀ l : List α, Chain R l
  | [] => trivial
  | [_] => trivial
  | a :: b :: l => ⟨h a b, chain_of_forall h (b :: l)⟩

/-- The successor used by the writer, in terms of the user's list. -/
theorem succ_of {r : Record} {rs : List Record} {i : Nat} {a b : Record} (ha : (r :: rs)[i]? = some a)
    (hb : (rs ++ [closer (lastOf r rs)])[i]? = some b) :
    (∃ n, (r :: rs)[i + 1]? = some n ∧ b = n) ∨ ((r :: rs)[i + 1]? = none ∧ b = closer a) := by
  rw [List.getElem?_cons_succ]
  by_cases h : i < rs.length
  · left
    rw [List.getElem?_append_left h] at hb
    exact ⟨b, hb, rfl⟩
  · right
    have hi : i = rs.length := by
      have := (List.getElem?_eq_some_iff.mp ha).1
      simp only [List.length_cons] at this
      omega
    subst hi
    rw [lastOf_getElem?] at ha
    rw [List.getElem?_append_right (Nat.le_refl _)] at hb
    simp at hb ha
    exact ⟨by simp, by rw [← hb, ha]⟩

theorem Ready.at {s : RState} {p : Nat} (h : Ready s) : Ready (s.at p) := ⟨h.w1, h.w2, h.p1, h.p2⟩

/-- A file that was closed without any record. -/
theorem readTrace_empty (magic : BitVec 32) :
    ∃ file, writeTrace magic [] = .ok file ∧ ∀ beyond,
      (readTrace { bytes := file, beyond := beyond } false false).records = [] ∧
      (readTrace { bytes := file, beyond := beyond } false false).final = .fail := by
  obtain ⟨w, h, hw, hh, hn⟩ := headerBytes_total (magic := magic) (version := QTWRITER_VERSION)
    (closer_ok .zero) (by simp [NoWalk, closer, Record.zero])
  obtain ⟨s1, e1, o1, _, _⟩ := writeRecord_hdr (s := writerOpen magic) (r := closer .zero) rfl hh
  refine ⟨h, ?_, fun beyond => ?_⟩
  · have : writeTrace magic [] = writerClose (writerOpen magic) true := by
      simp only [writeTrace, writeAll, bind, WRes.bind]
    rw [this]
    unfold writerClose
    rw [show ({ Record.zero with insnAddr := (writerOpen magic).prev.insnAddr + 4 } : Record) =
      closer .zero from rfl, e1]
    show WRes.ok s1.out = _
    rw [o1]; simp [writerOpen]
  · have := readTrace_start (rest := []) (beyond := beyond) hh hw (closer_ok .zero).1 hn
    rw [List.append_nil] at this
    rw [this]
    exact readLoop_end (s := (startState magic (closer .zero) w).at h.length)
      (startState_ready (closer_ok .zero).1).at (by simp)

end Qt
