import Verif.Qt.SpecJoined
import Verif.Qt.SpecCopy
import Verif.Qt.PropsRoundTrip
import Verif.Qt.PropsTranslation
import Verif.Qt.ReaderFrame
/-
Property C127: traces joined one behind the other.
-/
namespace Qt
open Spec

theorem Ready.header {s : RState} {magic : BitVec 32} {r : Record} {w : Walk} (R : Ready s) (h : ShiftsOk r)
    (hk : s.insnPageShiftValid = false → s.insnPageShift < 64) : Ready (hdrOut magic QTWRITER_VERSION r w s) := by
  obtain ⟨w1, w2, p1, p2⟩ := R
  have := h.1
  refine ⟨w1, w2, ?_, ?_⟩ <;> simp only [hdrOut] <;> grind

/-- A header in the middle of a trace is read before the record behind it. -/
theorem nextRecord_header {m : Mem} {s : RState} {p : Nat} {magic : BitVec 32} {r : Record} {w : Walk} {h rest : Bytes}
    (hh : headerBytes magic QTWRITER_VERSION r = .ok h) (hw : radixWalk r.radixInsn = .ok w) (hs : ShiftsOk r)
    (hn : r.radixInsn.nrPtes ≠ 0 → r.insnRaValid = true ∧ w ≠ .none) (hp : s.prefixed = false)
    (hd : m.bytes.drop p = h ++ rest) :
    nextRecord m (s.at p) = nextRecord m ((hdrOut magic QTWRITER_VERSION r w s).at (p + h.length)) := by
  obtain ⟨h', e⟩ : ∃ h', h = be32 0 ++ h' := by
    obtain ⟨_, _, _, e⟩ := headerBytes_ok hh
    simp only [List.append_assoc] at e
    exact ⟨_, e⟩
  have hd' : m.bytes.drop p = be32 0 ++ (h' ++ rest) := by rw [← List.append_assoc, ← e]; exact hd
  obtain ⟨k1, k2⟩ := peek32_of_drop hd'
  have hl : 0 < h.length := by rw [e]; simp [be32]
  rw [nextRecord_eq, nextRecord_eq]
  show (skipHeaders (m.bytes.length + 1) >>= fun _ => readOne) m _ = (skipHeaders (m.bytes.length + 1) >>= fun _ => readOne) m _
  have key : skipHeaders (m.bytes.length + 1) m { st := s.at p, rcd := .zero } =
      skipHeaders (m.bytes.length + 1) m { st := (hdrOut magic QTWRITER_VERSION r w s).at (p + h.length), rcd := .zero } := by
    rw [skipHeaders_succ, if_pos ⟨k1, hp⟩]
    have ho : ({ st := { s.at p with overread := (s.at p).overread || decide ((s.at p).pos + 4 > m.bytes.length) }, rcd := Record.zero } : Ctx)
        = { st := s.at p, rcd := .zero } := by
      have : decide ((s.at p).pos + 4 > m.bytes.length) = false := by
        rw [RState.at_pos]; simp; omega
      rw [this, Bool.or_false]
    rw [ho]
    have hr := parseHeader_reads (m := m) (c := { st := s, rcd := .zero }) hh hw hs hn p rest hd
    refine (Rd.bind_ok (c' := { st := (hdrOut magic QTWRITER_VERSION r w s).at (p + h.length), rcd := .zero }) hr).trans ?_
    exact skipHeaders_fuel m _ _ _ (by rw [RState.at_pos]; omega) (by rw [RState.at_pos]; omega) (by omega) (by omega)
  show Rd.bind _ _ m _ = Rd.bind _ _ m _
  unfold Rd.bind
  rw [key]

theorem readLoop_header {m : Mem} {s : RState} {p : Nat} {magic : BitVec 32} {r : Record} {w : Walk} {h rest : Bytes} (fuel : Nat)
    (hh : headerBytes magic QTWRITER_VERSION r = .ok h) (hw : radixWalk r.radixInsn = .ok w) (hs : ShiftsOk r)
    (hn : r.radixInsn.nrPtes ≠ 0 → r.insnRaValid = true ∧ w ≠ .none) (hp : s.prefixed = false)
    (hd : m.bytes.drop p = h ++ rest) :
    readLoop m (fuel + 1) (s.at p) = readLoop m (fuel + 1) ((hdrOut magic QTWRITER_VERSION r w s).at (p + h.length)) := by
  unfold readLoop
  rw [nextRecord_header hh hw hs hn hp hd]

theorem sim_prefixed : ∀ (rs : List Record) (r c : Record) (s : RState),
    (sim s r (rs ++ [c])).2.prefixed = ((lastOf r rs).insn >>> 26 == 1)
  | [], r, c, s => by
    show (outOf s r c).st.prefixed = _
    unfold outOf
    rw [recOut_st]
    rfl
  | a :: rs, r, c, s => sim_prefixed rs a c (outOf s r a).st

theorem joinedBody_length : ∀ (rs : List Record) (prev : Record) (b : Bytes), bodyBytes prev rs = .ok b → rs.length ≤ b.length := by
  intro rs
  induction rs with
  | nil => intro _ _ _; simp
  | cons a l ih =>
    intro prev b hb
    obtain ⟨b1, hb1, hb⟩ := WRes.bind_ok hb
    obtain ⟨b2, hb2, hb⟩ := WRes.bind_ok hb
    obtain rfl : b1 ++ b2 = b := WRes.ok.inj hb
    obtain ⟨_, _, _, _, e⟩ := recordBytes_ok hb1
    have := ih _ _ hb2
    have h4 : 1 ≤ b1.length := by
      rw [e]; simp only [List.append_assoc, List.length_append]
      have : (be32 prev.insn).length = 4 := rfl
      omega
    simp only [List.length_append, List.length_cons]; omega

theorem sim_small : ∀ (rs : List Record) (r : Record) (s : RState), Ready s → s.insnPageShift < 64 → (∀ x ∈ rs, ShiftsOk x) →
    (sim s r rs).2.insnPageShift < 64
  | [], r, s, _, h, _ => h
  | a :: rs, r, s, R, h, hx => by
    refine sim_small rs a (outOf s r a).st (R.step (hx a (by simp))) ?_ (fun x h' => hx x (by simp [h']))
    have := R.p2
    unfold outOf
    rw [recOut_st]
    simp only
    grind

/-- What the records of a trace tell, translations aside. -/
def Spec.ToldAlone (rs part : List Record) : Prop :=
  part.length = rs.length ∧ ∀ (i : Nat) (r : Record), rs[i]? = some r → ∃ o, part[i]? = some o ∧ SameAccess r o ∧
    o.nextInsnAddr = following rs i r ∧
    (o.branchTaken = true ↔ following rs i r ≠ r.insnAddr + 4) ∧
    (o.branch = true ↔ r.branch = true ∨ following rs i r ≠ r.insnAddr + 4 ∨ isConditionalBranch r.insn = true) ∧
    (r.branch = true → isUnconditionalBranch r.insn = false → o.conditionalBranch = r.conditionalBranch)

theorem sim_told (r : Record) (rs : List Record) (s : RState) (hs : s.nextInsnAddr = r.insnAddr) :
    ToldAlone (r :: rs) (sim s r (rs ++ [closer (lastOf r rs)])).1 := by
  refine ⟨by rw [sim_length]; simp, fun i a ha => ?_⟩
  obtain ⟨o, b, h1, h2, h3⟩ := sim_forall (fun s a => s.nextInsnAddr = a.insnAddr) (fun _ _ => True)
    (fun _ _ => True)
    (fun a b o => SameAccess a o ∧ o.nextInsnAddr = b.insnAddr ∧ (o.branchTaken = true ↔ b.insnAddr ≠ a.insnAddr + 4) ∧
      (o.branch = true ↔ a.branch = true ∨ b.insnAddr ≠ a.insnAddr + 4 ∨ isConditionalBranch a.insn = true) ∧
      (a.branch = true → isUnconditionalBranch a.insn = false → o.conditionalBranch = a.conditionalBranch))
    (by
      intro s a b hs _
      refine ⟨?_, ?_⟩
      · unfold outOf; rw [recOut_rcd]; simp +contextual [SameAccess, hs]
      unfold outOf; rw [recOut_rcd]
      simp only [hs, writeIsBranch, iarChange]
      by_cases hj : b.insnAddr = a.insnAddr + 4
      · simp only [hj]
        by_cases hb : a.branch = true <;> simp [hb] <;> grind
      · have hj' : (b.insnAddr != a.insnAddr + 4) = true := bne_iff_ne.mpr hj
        simp only [hj']
        by_cases hb : a.branch = true <;> simp [hb] <;> grind)
    (by
      intro s a b hs _
      unfold outOf; rw [recOut_st]
      simp only [iarChange, hs]
      split
      · rfl
      · rename_i h; simp at h; exact h.symm)
    (closer (lastOf r rs)) rs r s hs (chain_of_forall (fun _ _ => trivial) _)
    (chain_of_forall (fun _ _ => trivial) _) trivial i a ha
  have hf : following (r :: rs) i a = b.insnAddr := by
    rcases succ_of ha h2 with ⟨n, hn, rfl⟩ | ⟨hn, rfl⟩
    · simp [following, hn]
    · simp [following, hn, closer]
  rw [hf]
  exact ⟨o, h1, h3⟩

/-- The state of the reader between two traces. -/
structure Between (s : RState) : Prop where
  ready : Ready s
  small : s.insnPageShift < 64

theorem Between.header {s : RState} {magic : BitVec 32} {r : Record} {w : Walk} (B : Between s) (h : ShiftsOk r) :
    Between (hdrOut magic QTWRITER_VERSION r w s) :=
  ⟨B.ready.header h (fun _ => B.small), B.small⟩

/-- The state of the reader behind a trace that is read in the state `s`, and the records. -/
def behind (magic : BitVec 32) (s : RState) : List Record → List Record × RState
  | [] => ([], hdrOut magic QTWRITER_VERSION (closer .zero) .none s)
  | r :: rs =>
    let w := match radixWalk r.radixInsn with | .ok w => w | _ => .none
    sim (hdrOut magic QTWRITER_VERSION r w s) r (rs ++ [closer (lastOf r rs)])

/-- One trace among others. -/
theorem block (magic : BitVec 32) (rs : List Record) (h : Expressible rs) :
    ∃ file, writeTrace magic rs = .ok file ∧ rs.length < file.length ∧
      ∀ (m : Mem) (s : RState) (p fuel : Nat) (rest : Bytes), Between s → s.prefixed = false → m.bytes.drop p = file ++ rest →
      Between (behind magic s rs).2 ∧ (EndsWhole rs → (behind magic s rs).2.prefixed = false) ∧
      ToldAlone rs (behind magic s rs).1 ∧
      readLoop m (rs.length + (fuel + 1)) (s.at p) =
        { readLoop m (fuel + 1) ((behind magic s rs).2.at (p + file.length)) with
          records := (behind magic s rs).1 ++ (readLoop m (fuel + 1) ((behind magic s rs).2.at (p + file.length))).records } := by
  cases rs with
  | nil =>
    obtain ⟨w, hd, hw, hh, hn⟩ := headerBytes_total (magic := magic) (version := QTWRITER_VERSION)
      (closer_ok .zero) (by simp [NoWalk, closer, Record.zero])
    obtain rfl : w = .none := by
      have : radixWalk (closer Record.zero).radixInsn = .ok .none := rfl
      rw [this] at hw
      exact (WRes.ok.inj hw).symm
    obtain ⟨s1, e1, o1, _, _⟩ := writeRecord_hdr (s := writerOpen magic) (r := closer .zero) rfl hh
    refine ⟨hd, ?_, ?_, fun m s p fuel rest B hp hdr => ⟨B.header (closer_ok .zero).1, fun _ => hp, ⟨rfl, by simp⟩, ?_⟩⟩
    · have : writeTrace magic [] = writerClose (writerOpen magic) true := by
        simp only [writeTrace, writeAll, bind, WRes.bind]
      rw [this]
      unfold writerClose
      rw [show ({ Record.zero with insnAddr := (writerOpen magic).prev.insnAddr + 4 } : Record) =
        closer .zero from rfl, e1]
      show WRes.ok s1.out = _
      rw [o1]; simp [writerOpen]
    · obtain ⟨_, _, _, e⟩ := headerBytes_ok hh
      rw [e]
      simp [be32, be16]
    · have := readLoop_header fuel hh hw (closer_ok .zero).1 hn hp hdr
      simp only [List.length_nil, Nat.zero_add]
      rw [this]
      rfl
  | cons r rs =>
    obtain ⟨hR, hC, hH⟩ := h
    have hr := hR r (by simp)
    have hrs : ∀ x ∈ rs, RecordOk x := fun x hx => hR x (by simp [hx])
    have hlast : RecordOk (lastOf r rs) := hR _ (List.mem_of_getElem? (lastOf_getElem? rs r))
    obtain ⟨hz, hnw⟩ := hH r rfl
    obtain ⟨w, hd, hw, hh, hn⟩ := headerBytes_total (magic := magic) (version := QTWRITER_VERSION) hr hnw
    obtain ⟨b, hb⟩ := bodyBytes_total rs r hr hrs
    obtain ⟨b', hb'⟩ := recordBytes_total hlast (closer_ok (lastOf r rs))
    have hbody := bodyBytes_append rs r _ b b' hb hb'
    have hsteps := steps_of rs r _ hr hrs hC (closer_ok _) (closer_pair _)
    have hl := joinedBody_length _ _ _ hbody
    have hb0 : ∀ s, behind magic s (r :: rs) = sim (hdrOut magic QTWRITER_VERSION r w s) r (rs ++ [closer (lastOf r rs)]) := by
      intro s
      unfold behind
      dsimp only
      rw [hw]
    refine ⟨hd ++ (b ++ b'), writeTrace_cons hh hb hb', ?_, fun m s p fuel rest B hp hdr => ?_⟩
    · obtain ⟨_, _, _, e⟩ := headerBytes_ok hh
      have : 1 ≤ hd.length := by rw [e]; simp [be32]
      simp only [List.length_append, List.length_cons] at hl ⊢
      omega
    · rw [hb0]
      rw [List.append_assoc] at hdr
      have B' : Between (hdrOut magic QTWRITER_VERSION r w s) := B.header hr.1
      have hs := sim_reads m (rs ++ [closer (lastOf r rs)]) r (hdrOut magic QTWRITER_VERSION r w s) (p + hd.length) (fuel + 1) (b ++ b') rest
        hbody hsteps B'.ready (fun _ hz' => absurd hz' hz) (drop_after hdr)
      refine ⟨⟨hs.1, sim_small _ _ _ B'.ready B'.small ?_⟩, ?_, sim_told r rs _ rfl, ?_⟩
      · intro x hx
        rcases List.mem_append.mp hx with hx | hx
        · exact (hrs x hx).1
        · obtain rfl := List.mem_singleton.mp hx
          exact (closer_ok _).1
      · intro he
        rw [sim_prefixed]
        have := he (lastOf r rs) (by
          have := lastOf_getElem? rs r
          rw [List.getLast?_eq_getElem?]
          simpa using this)
        rw [isPrefix_iff] at this
        simpa using this
      · have hlen : (r :: rs).length + (fuel + 1) = (rs ++ [closer (lastOf r rs)]).length + (fuel + 1) := by simp
        rw [show (r :: rs).length + (fuel + 1) = ((r :: rs).length + fuel) + 1 by omega, readLoop_header _ hh hw hr.1 hn hp hdr,
          show ((r :: rs).length + fuel) + 1 = (rs ++ [closer (lastOf r rs)]).length + (fuel + 1) by simp; omega, hs.2]
        have : p + hd.length + (b ++ b').length = p + (hd ++ (b ++ b')).length := by
          rw [List.length_append (as := hd)]; omega
        rw [this]

/-- The records of every trace. -/
def parts : RState → List (BitVec 32 × List Record) → List (List Record)
  | _, [] => []
  | s, (magic, rs) :: ts => (behind magic s rs).1 :: parts (behind magic s rs).2 ts

theorem joined_from : ∀ (ts : List (BitVec 32 × List Record)), (∀ t ∈ ts, Expressible t.2) → Chain (fun t _ => EndsWhole t.2) ts →
    ∃ file, joined ts = .ok file ∧ ∀ (m : Mem) (s : RState) (p fuel : Nat), Between s → (ts ≠ [] → s.prefixed = false) →
      m.bytes.drop p = file → p + file.length = m.bytes.length → file.length < fuel →
      (readLoop m fuel (s.at p)).records = (parts s ts).flatten ∧ (readLoop m fuel (s.at p)).final = .fail ∧
      ∀ (j : Nat) (t : BitVec 32 × List Record), ts[j]? = some t → ∃ part, (parts s ts)[j]? = some part ∧ ToldAlone t.2 part
  | [], _, _ => by
    refine ⟨[], rfl, fun m s p fuel B _ _ hl hf => ?_⟩
    obtain ⟨f, rfl⟩ : ∃ f, fuel = f + 1 := ⟨fuel - 1, by simp at hf; omega⟩
    have := readLoop_end (m := m) (s := s.at p) (fuel := f) B.ready.at (by rw [RState.at_pos]; simp at hl; omega)
    exact ⟨this.1, this.2, by simp⟩
  | (magic, rs) :: ts, hx, hc => by
    obtain ⟨file, e, hlen, H⟩ := block magic rs (hx (magic, rs) (by simp))
    have hc' : Chain (fun t _ => EndsWhole t.2) ts := by
      cases ts with
      | nil => trivial
      | cons u us => exact hc.2
    obtain ⟨file', e', H'⟩ := joined_from ts (fun t ht => hx t (by simp [ht])) hc'
    refine ⟨file ++ file', ?_, fun m s p fuel B hp hd hl hf => ?_⟩
    · unfold joined
      rw [e, e']
      rfl
    · rw [List.length_append] at hf hl
      obtain ⟨f, rfl⟩ : ∃ f, fuel = rs.length + (f + 1) := ⟨fuel - rs.length - 1, by omega⟩
      obtain ⟨B', hp', ht, er⟩ := H m s p f file' B (hp (by simp)) hd
      obtain ⟨k1, k2, k3⟩ := H' m (behind magic s rs).2 (p + file.length) (f + 1) B' (fun hne => hp' (by
        cases ts with
        | nil => exact absurd rfl hne
        | cons u us => exact hc.1)) (drop_after hd) (by omega) (by omega)
      rw [er]
      refine ⟨by simp only [k1, parts, List.flatten_cons], k2, fun j t hj => ?_⟩
      cases j with
      | zero =>
        cases hj
        exact ⟨_, rfl, ht⟩
      | succ j => exact k3 j t (by simpa using hj)

/-- Opening a file that begins with a trace reads its header, as if it were in the middle. -/
theorem readTrace_header (magic : BitVec 32) (rs : List Record) (h : Expressible rs) (file rest : Bytes) (beyond : Nat → Byte)
    (e : writeTrace magic rs = .ok file) :
    readTrace { bytes := file ++ rest, beyond := beyond } false false =
      readLoop { bytes := file ++ rest, beyond := beyond } ((file ++ rest).length + 1) (RState.initial.at 0) := by
  have key : ∀ (r : Record) (w : Walk) (hd b : Bytes), headerBytes magic QTWRITER_VERSION r = .ok hd → radixWalk r.radixInsn = .ok w →
      ShiftsOk r → (r.radixInsn.nrPtes ≠ 0 → r.insnRaValid = true ∧ w ≠ .none) →
      readTrace { bytes := hd ++ b, beyond := beyond } false false =
        readLoop { bytes := hd ++ b, beyond := beyond } ((hd ++ b).length + 1) (RState.initial.at 0) := by
    intro r w hd b hh hw hs hn
    have := readLoop_header (m := { bytes := hd ++ b, beyond := beyond }) (s := RState.initial) (p := 0) (rest := b) (hd ++ b).length
      hh hw hs hn rfl rfl
    rw [Nat.zero_add] at this
    rw [readTrace_start hh hw hs hn, this]
    rfl
  cases rs with
  | nil =>
    obtain ⟨w, hd, hw, hh, hn⟩ := headerBytes_total (magic := magic) (version := QTWRITER_VERSION)
      (closer_ok .zero) (by simp [NoWalk, closer, Record.zero])
    obtain ⟨s1, e1, o1, _, _⟩ := writeRecord_hdr (s := writerOpen magic) (r := closer .zero) rfl hh
    have : writeTrace magic [] = .ok hd := by
      have : writeTrace magic [] = writerClose (writerOpen magic) true := by
        simp only [writeTrace, writeAll, bind, WRes.bind]
      rw [this]
      unfold writerClose
      rw [show ({ Record.zero with insnAddr := (writerOpen magic).prev.insnAddr + 4 } : Record) =
        closer .zero from rfl, e1]
      show WRes.ok s1.out = _
      rw [o1]; simp [writerOpen]
    obtain rfl : hd = file := WRes.ok.inj (this.symm.trans e)
    exact key _ _ _ _ hh hw (closer_ok .zero).1 hn
  | cons r rs =>
    obtain ⟨hR, hC, hH⟩ := h
    have hr := hR r (by simp)
    have hrs : ∀ x ∈ rs, RecordOk x := fun x hx => hR x (by simp [hx])
    have hlast : RecordOk (lastOf r rs) := hR _ (List.mem_of_getElem? (lastOf_getElem? rs r))
    obtain ⟨hz, hnw⟩ := hH r rfl
    obtain ⟨w, hd, hw, hh, hn⟩ := headerBytes_total (magic := magic) (version := QTWRITER_VERSION) hr hnw
    obtain ⟨b, hb⟩ := bodyBytes_total rs r hr hrs
    obtain ⟨b', hb'⟩ := recordBytes_total hlast (closer_ok (lastOf r rs))
    obtain rfl : hd ++ (b ++ b') = file := WRes.ok.inj ((writeTrace_cons hh hb hb').symm.trans e)
    rw [List.append_assoc]
    exact key _ _ _ _ hh hw hr.1 hn

theorem parts_length : ∀ (ts : List (BitVec 32 × List Record)) (s : RState), (parts s ts).length = ts.length
  | [], _ => rfl
  | t :: ts, s => by
    show (parts _ ts).length + 1 = _
    rw [parts_length ts]
    rfl

/-- The file of several traces. -/
theorem joined_file (magic : BitVec 32) (rs : List Record) (ts : List (BitVec 32 × List Record))
    (hx : ∀ t ∈ (magic, rs) :: ts, Expressible t.2) (hc : Chain (fun t _ => EndsWhole t.2) ((magic, rs) :: ts)) :
    ∃ file, joined ((magic, rs) :: ts) = .ok file ∧ ∀ beyond,
      let R := readTrace { bytes := file, beyond := beyond } false false
      let ps := parts RState.initial ((magic, rs) :: ts)
      R.records = ps.flatten ∧ R.final = .fail ∧
      ∀ (j : Nat) (t : BitVec 32 × List Record), ((magic, rs) :: ts)[j]? = some t → ∃ part, ps[j]? = some part ∧ ToldAlone t.2 part := by
  obtain ⟨file, e, H⟩ := joined_from _ hx hc
  refine ⟨file, e, fun beyond => ?_⟩
  have hr : readTrace { bytes := file, beyond := beyond } false false =
      readLoop { bytes := file, beyond := beyond } (file.length + 1) (RState.initial.at 0) := by
    have e' := e
    unfold joined at e'
    obtain ⟨a, e1, e'⟩ := WRes.bind_ok e'
    obtain ⟨b, e2, e'⟩ := WRes.bind_ok e'
    obtain rfl : a ++ b = file := WRes.ok.inj e'
    exact readTrace_header magic rs (hx (magic, rs) (by simp)) a b beyond e1
  dsimp only
  rw [hr]
  exact H { bytes := file, beyond := beyond } RState.initial 0 (file.length + 1)
    ⟨⟨rfl, rfl, (fun h => by cases h), (fun h => by cases h)⟩, by decide⟩ (fun _ => rfl) rfl (by simp) (by omega)

/-- C127. Traces joined one behind the other are read as the records of the first, those of the second, and so on to the end: each with
what it tells by itself of instructions, addresses, data addresses and branches. None but the last may end with the first word of a
prefixed instruction. -/
theorem C127_joined_partial (magic : BitVec 32) (rs : List Record) (ts : List (BitVec 32 × List Record))
    (hx : ∀ t ∈ (magic, rs) :: ts, Expressible t.2) (hc : Chain (fun t _ => EndsWhole t.2) ((magic, rs) :: ts)) :
    ∃ file, joined ((magic, rs) :: ts) = .ok file ∧ ∀ beyond, ∃ ps : List (List Record),
      let R := readTrace { bytes := file, beyond := beyond } false false
      R.records = ps.flatten ∧ R.final = .fail ∧ ps.length = ts.length + 1 ∧
      ∀ (j : Nat) (t : BitVec 32 × List Record), ((magic, rs) :: ts)[j]? = some t → ∃ part, ps[j]? = some part ∧ ToldAlone t.2 part := by
  obtain ⟨file, e, H⟩ := joined_file magic rs ts hx hc
  refine ⟨file, e, fun beyond => ⟨parts RState.initial ((magic, rs) :: ts), ?_⟩⟩
  obtain ⟨k1, k2, k3⟩ := H beyond
  exact ⟨k1, k2, by rw [parts_length]; rfl, k3⟩

/-! ### Translations -/

/-- Nothing is known of pages in the state that is not known of the page of the instruction. -/
def KnowsLess (s : RState) (a : Record) : Prop :=
  ((s.nextInsnRpnValid || s.insnRpnValid) = true → a.insnRaValid = true) ∧
  ((s.nextInsnPageShiftValid || s.insnPageShiftValid) = true → a.insnPageShiftValid = true) ∧
  ((s.nextGuestInsnPageShiftValid || s.guestInsnPageShiftValid) = true → a.guestInsnPageShiftValid = true)

theorem TransInv.header {s : RState} {r : Record} (magic : BitVec 32) (w : Walk) (h : KnowsLess s r) :
    TransInv (hdrOut magic QTWRITER_VERSION r w s) r := by
  obtain ⟨h1, h2, h3⟩ := h
  constructor <;> simp only [hdrOut] <;> grind

theorem KnowsLess.empty {s : RState} {a : Record} (magic : BitVec 32) (h : KnowsLess s a) :
    KnowsLess (hdrOut magic QTWRITER_VERSION (closer .zero) .none s) a := h

theorem TransInv.last {s : RState} {a x : Record} (h : TransInv s a) (hk : KnownStays a x) : KnowsLess (outOf s a (closer a)).st x := by
  obtain ⟨addr, rv, rpn, pv, ps, gv, gs⟩ := h
  obtain ⟨k1, k2, k3⟩ := hk
  have hc : iarChange a (closer a) = false := by simp [iarChange, closer]
  unfold outOf
  rw [recOut_st]
  simp only [KnowsLess, hc, Bool.and_false]
  refine ⟨fun v => k1 ?_, fun v => k2 ?_, fun v => k3 ?_⟩ <;> grind

theorem sim_knows : ∀ (rs : List Record) (r x : Record) (s : RState), TransInv s r → (∀ y ∈ r :: rs, ShiftsOk y) →
    Chain TranslationStep (r :: rs) → KnownStays (lastOf r rs) x → KnowsLess (sim s r (rs ++ [closer (lastOf r rs)])).2 x
  | [], r, x, s, h, _, _, hk => h.last hk
  | a :: rs, r, x, s, h, hs, hc, hk =>
    sim_knows rs a x (outOf s r a).st (h.step (hs r (by simp)) (hs a (by simp)) hc.1) (fun y hy => hs y (by simp [hy])) hc.2 hk

theorem sim_translations (r : Record) (rs : List Record) (s : RState) (hI0 : TransInv s r) (h : ∀ x ∈ r :: rs, RecordOk x)
    (ht : ∀ x ∈ r :: rs, TranslationOk x) (hs : Chain TranslationStep (r :: rs)) (i : Nat) (a : Record) (ha : (r :: rs)[i]? = some a) :
    ∃ o, (sim s r (rs ++ [closer (lastOf r rs)])).1[i]? = some o ∧ SameTranslation a o := by
  let Good (a : Record) : Prop := ShiftsOk a ∧ TranslationOk a
  let Swap (a b : Record) : Prop := Jumps a b → a.dataPageShiftValid = true →
    b.guestInsnPageShiftValid = true → b.guestInsnPageShift = a.dataPageShift
  have hgood : ∀ x ∈ r :: rs, Good x := fun x hx => ⟨(h x hx).1, ht x hx⟩
  have hlift : ∀ (R : Record → Record → Prop) (l : List Record), (∀ x ∈ l, Good x) →
      Chain TranslationStep l → (∀ a b, Good a → Good b → TranslationStep a b → R a b) → Chain R l := by
    intro R l
    induction l with
    | nil => intros; trivial
    | cons a l ih =>
      cases l with
      | nil => intros; trivial
      | cons b l =>
        intro hg hc hR
        exact ⟨hR a b (hg a (by simp)) (hg b (by simp)) hc.1,
          ih (fun x hx => hg x (by simp [hx])) hc.2 hR⟩
  have hgl : Good (lastOf r rs) :=
    hgood _ (List.mem_of_getElem? (lastOf_getElem? rs r))
  obtain ⟨o, b, h1, h2, h3⟩ := sim_forall TransInv
    (fun a b => ShiftsOk a ∧ ShiftsOk b ∧ TranslationStep a b)
    (fun a b => Good a ∧ Swap a b)
    (fun a _ o => SameTranslation a o)
    (by
      intro s a b hI ⟨⟨hsh, hta⟩, hsw⟩
      obtain ⟨addr, rv, rpn, pv, ps, gv, gs⟩ := hI
      unfold outOf
      rw [recOut_rcd]
      have hdsh : a.dataPageShiftValid = true → (if (b.guestInsnPageShiftValid && iarChange a b) = true then
          b.guestInsnPageShift else a.dataPageShift) = a.dataPageShift := by
        intro hv
        split
        · rename_i hc
          simp only [Bool.and_eq_true] at hc
          exact hsw (iarChange_iff.mp hc.2) hv hc.1
        · rfl
      simp only [SameTranslation, rv, pv, gv, Bool.or_false]
      refine ⟨trivial, ?_, trivial, ?_, trivial, ?_, trivial, ?_, trivial, ?_, trivial, ?_⟩
      · intro hv
        rw [if_pos hv, rpn hv, addr]
        have : shiftOr16 a.insnPageShiftValid
            (if s.nextInsnPageShiftValid = true then s.nextInsnPageShift else s.insnPageShift) =
            shiftOr16 a.insnPageShiftValid a.insnPageShift := by
          cases hpv : a.insnPageShiftValid
          · rfl
          · rw [ps hpv]
        rw [this]
        exact raOf_rpnOf hsh.1 (hta.1 hv)
      · intro hv; rw [if_pos hv]; exact ps hv
      · intro hv; rw [if_pos hv]; exact gs hv
      · intro hv
        simp only [hv, if_true]
        have e1 : shiftOr16 a.dataPageShiftValid (if a.dataPageShiftValid = true then
            (if (b.guestInsnPageShiftValid && iarChange a b) = true then
              b.guestInsnPageShift else a.dataPageShift) else 0) =
            shiftOr16 a.dataPageShiftValid a.dataPageShift := by
          cases hdv : a.dataPageShiftValid
          · rfl
          · rw [if_pos rfl, hdsh hdv]
        rw [e1]
        have e2 : (if a.dataAddrValid = true then (if a.dataAddrValid = true then a.dataAddr else 0) else 0) =
            (if a.dataAddrValid = true then a.dataAddr else 0) := by split <;> rfl
        rw [e2]
        exact raOf_rpnOf hsh.2.2.1 (hta.2 hv)
      · intro hv; rw [if_pos hv, hdsh hv]
      · intro hv; rw [if_pos hv])
    (by intro s a b hI ⟨p1, p2, p3⟩; exact hI.step p1 p2 p3)
    (closer (lastOf r rs)) rs r s hI0
    (hlift _ _ hgood hs (fun a b ga gb t => ⟨ga.1, gb.1, t⟩))
    (hlift _ _ hgood hs (fun a b ga _ t => ⟨ga, t.2.2.2.2⟩))
    ⟨hgl, by intro _ _ hv; simp [closer, Record.zero] at hv⟩ i a ha
  exact ⟨o, h1, h3⟩

theorem parts_translations : ∀ (ts : List (BitVec 32 × List Record)) (s : RState), (∀ t ∈ ts, Expressible t.2) →
    (∀ t ∈ ts, (∀ r ∈ t.2, TranslationOk r) ∧ Chain TranslationStep t.2) → (ts.flatMap (·.2)).Pairwise KnownStays →
    (∀ x ∈ ts.flatMap (·.2), KnowsLess s x) →
    ∀ (j : Nat) (t : BitVec 32 × List Record) (part : List Record), ts[j]? = some t → (parts s ts)[j]? = some part →
      ∀ (i : Nat) (r : Record), t.2[i]? = some r → ∃ o, part[i]? = some o ∧ SameTranslation r o
  | [], _, _, _, _, _ => by simp
  | (magic, []) :: ts, s, hx, ht, hk, hl => by
    intro j t part hj hp i r hr
    cases j with
    | zero =>
      cases hj
      simp at hr
    | succ j =>
      exact parts_translations ts _ (fun t h => hx t (by simp [h])) (fun t h => ht t (by simp [h])) (by simpa using hk)
        (fun x h => (hl x (by simpa using h)).empty magic) j t part (by simpa using hj) (by simpa [parts, behind] using hp) i r hr
  | (magic, q :: qs) :: ts, s, hx, ht, hk, hl => by
    intro j t part hj hp i r hr
    rw [List.flatMap_cons, List.pairwise_append] at hk
    obtain ⟨hT, hS⟩ := ht (magic, q :: qs) (by simp)
    have hq : ∀ w, TransInv (hdrOut magic QTWRITER_VERSION q w s) q := fun w => TransInv.header magic w (hl q (by simp))
    have hok := (hx (magic, q :: qs) (by simp)).1
    cases j with
    | zero =>
      cases hj
      cases hp
      exact sim_translations q qs _ (hq _) hok hT hS i r hr
    | succ j =>
      refine parts_translations ts _ (fun t h => hx t (by simp [h])) (fun t h => ht t (by simp [h])) hk.2.1
        (fun x h => ?_) j t part (by simpa using hj) (by simpa [parts] using hp) i r hr
      exact sim_knows qs q x _ (hq _) (fun y hy => (hok y hy).1) hS (hk.2.2 _ (List.mem_of_getElem? (lastOf_getElem? qs q)) x h)

/-- C127. If moreover each of the traces has translations the format can express, and what is known of an instruction is known of all
later ones, of later traces too, real addresses and page sizes are those of the traces. -/
theorem C127_translations_partial (magic : BitVec 32) (rs : List Record) (ts : List (BitVec 32 × List Record))
    (hx : ∀ t ∈ (magic, rs) :: ts, Expressible t.2) (hc : Chain (fun t _ => EndsWhole t.2) ((magic, rs) :: ts))
    (ht : ∀ t ∈ (magic, rs) :: ts, (∀ r ∈ t.2, TranslationOk r) ∧ Chain TranslationStep t.2)
    (hk : (((magic, rs) :: ts).flatMap (·.2)).Pairwise KnownStays) :
    ∃ file, joined ((magic, rs) :: ts) = .ok file ∧ ∀ beyond, ∃ ps : List (List Record),
      (readTrace { bytes := file, beyond := beyond } false false).records = ps.flatten ∧
      ∀ (j : Nat) (t : BitVec 32 × List Record), ((magic, rs) :: ts)[j]? = some t → ∃ part, ps[j]? = some part ∧
        ToldAlone t.2 part ∧ ∀ (i : Nat) (r : Record), t.2[i]? = some r → ∃ o, part[i]? = some o ∧ SameTranslation r o := by
  obtain ⟨file, e, H⟩ := joined_file magic rs ts hx hc
  refine ⟨file, e, fun beyond => ⟨parts RState.initial ((magic, rs) :: ts), ?_⟩⟩
  obtain ⟨k1, _, k3⟩ := H beyond
  refine ⟨k1, fun j t hj => ?_⟩
  obtain ⟨part, l1, l2⟩ := k3 j t hj
  exact ⟨part, l1, l2, parts_translations _ _ hx ht hk (fun x _ => ⟨(fun v => by cases v), (fun v => by cases v), (fun v => by cases v)⟩)
    j t part hj l1⟩

/-- Two traces, with a data access and a jump, and an empty one between them, meet the hypotheses of both theorems. -/
example :
    let one : List Record :=
      [{ insn := 0xE8610008, insnAddr := 0x10000, insnRaValid := true, insnRa := 0x70000,
         dataAddrValid := true, dataAddr := 0x5008, dataRaValid := true, dataRa := 0x85008 },
       { insn := 0x48010000, insnAddr := 0x10004, insnRaValid := true, insnRa := 0x70004, branch := true },
       { insn := 0x60000000, insnAddr := 0x20004, insnRaValid := true, insnRa := 0x90004 }]
    let two : List Record := [{ insn := 0x60000000, insnAddr := 0x40000, insnRaValid := true, insnRa := 0xC0000 }]
    let ts : List (BitVec 32 × List Record) := [(1, one), (0, []), (2, two)]
    (∀ t ∈ ts, Expressible t.2) ∧ Chain (fun t _ => EndsWhole t.2) ts ∧
    (∀ t ∈ ts, (∀ r ∈ t.2, TranslationOk r) ∧ Chain TranslationStep t.2) ∧ (ts.flatMap (·.2)).Pairwise KnownStays := by
  simp [Expressible, RecordOk, ShiftsOk, WalkOk, Chain, StepOk, Jumps, NoWalk, TranslationOk, RaOk, EndsWhole, IsPrefix,
    TranslationStep, SamePage, WalksCompatible, pageShift, KnownStays]

end Qt
