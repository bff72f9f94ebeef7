import Verif.Qt.RoundTrip
/-! Helper lemmas: reading a whole file stored by the writer. -/
namespace Qt

/-- Reader state after one record, in closed form. -/
theorem recOut_st (s : RState) (prev cur : Record) (dw iw : Walk) :
    (recOut s prev cur dw iw).st =
      let chg := iarChange prev cur
      { s with
        prefixed := prev.insn >>> 26 == 1
        suffix := if s.prefixed then prev.insn else s.suffix
        nextInsnAddr := if chg then cur.insnAddr else s.nextInsnAddr + 4
        insnRpnValid := s.nextInsnRpnValid || s.insnRpnValid
        insnRpn := if s.nextInsnRpnValid then s.nextInsnRpn else s.insnRpn
        insnPageShiftValid := s.nextInsnPageShiftValid || s.insnPageShiftValid
        insnPageShift := if s.nextInsnPageShiftValid then s.nextInsnPageShift else s.insnPageShift
        radixInsn := if s.nextRadixInsn.nrPtes ≠ 0 then s.nextRadixInsn else s.radixInsn
        guestInsnPageShiftValid := s.nextGuestInsnPageShiftValid || s.guestInsnPageShiftValid
        guestInsnPageShift :=
          if s.nextGuestInsnPageShiftValid then s.nextGuestInsnPageShift else s.guestInsnPageShift
        dataRpnValid := prev.dataRaValid
        dataRpn := if prev.dataRaValid then rpnOf prev.dataRa prev.dataPageShiftValid prev.dataPageShift
          else s.dataRpn
        nextRadixInsn := insnWalkOut (cur.insnRaValid && chg) iw cur.radixInsn s.nextRadixInsn
        nextInsnRpnValid := cur.insnRaValid && chg
        nextInsnRpn := if cur.insnRaValid && chg then rpnOf cur.insnRa cur.insnPageShiftValid cur.insnPageShift
          else s.nextInsnRpn
        nextInsnPageShiftValid := cur.insnPageShiftValid && chg
        nextInsnPageShift := if cur.insnPageShiftValid && chg then cur.insnPageShift else s.nextInsnPageShift
        nextGuestInsnPageShiftValid := cur.guestInsnPageShiftValid && chg
        nextGuestInsnPageShift := if cur.guestInsnPageShiftValid && chg then
            (if prev.dataPageShiftValid then prev.dataPageShift else cur.guestInsnPageShift)
          else s.nextGuestInsnPageShift } := by
  unfold recOut
  rw [applyNext_zero]
  dsimp only [effBody, effHead, effTail, effInsn, effNode, effTerm, effDataAddr, effDataWalk, effDataRpn, effIar,
    effBranch, effInsnWalk, effInsnRpn, effInsnPage, effDataPage, effGuestPage, Record.zero]

/-- The record read back, in closed form. -/
theorem recOut_rcd (s : RState) (prev cur : Record) (dw iw : Walk) :
    (recOut s prev cur dw iw).rcd =
      let chg := iarChange prev cur
      let br := writeIsBranch prev cur
      let rv := s.nextInsnRpnValid || s.insnRpnValid
      let pv := s.nextInsnPageShiftValid || s.insnPageShiftValid
      let ps := if s.nextInsnPageShiftValid then s.nextInsnPageShift else s.insnPageShift
      let next := if chg then cur.insnAddr else s.nextInsnAddr + 4
      let dsh := if prev.dataPageShiftValid then
        (if cur.guestInsnPageShiftValid && chg then cur.guestInsnPageShift else prev.dataPageShift) else 0
      { Record.zero with
        insn := prev.insn
        insnAddr := s.nextInsnAddr
        insnRaValid := rv || false
        insnRa := if rv then
            raOf (if s.nextInsnRpnValid then s.nextInsnRpn else s.insnRpn) (shiftOr16 pv ps) s.nextInsnAddr
          else 0
        insnPageShiftValid := pv
        insnPageShift := if pv then ps else 0
        radixInsn := if s.nextRadixInsn.nrPtes ≠ 0 then s.nextRadixInsn else
            if s.radixInsn.nrPtes ≠ 0 then s.radixInsn else {}
        guestInsnPageShiftValid := s.nextGuestInsnPageShiftValid || s.guestInsnPageShiftValid
        guestInsnPageShift := if s.nextGuestInsnPageShiftValid || s.guestInsnPageShiftValid then
            (if s.nextGuestInsnPageShiftValid then s.nextGuestInsnPageShift else s.guestInsnPageShift)
            else 0
        nodeValid := br || false
        node := if br then 0 else 0
        branch := (br || false) || (!br && isConditionalBranch prev.insn)
        termNode := if br then 0 else 0
        termCode := if br then termCodeOf prev else 0
        conditionalBranch :=
          if br then (if isUnconditionalBranch prev.insn then false
            else (if br then prev.branch && prev.conditionalBranch else false))
          else (if br then prev.branch && prev.conditionalBranch else false) || isConditionalBranch prev.insn
        branchTaken := if br then next != s.nextInsnAddr + 4 else false
        nextInsnAddr := next
        dataAddrValid := prev.dataAddrValid || false
        dataAddr := if prev.dataAddrValid then prev.dataAddr else 0
        radixData := dataWalkOut prev.dataRaValid dw iw prev.radixData {}
        dataPageShiftValid := prev.dataPageShiftValid || false
        dataPageShift := dsh
        dataRaValid := prev.dataRaValid || false
        dataRa := if prev.dataRaValid then
            raOf (if prev.dataRaValid then rpnOf prev.dataRa prev.dataPageShiftValid prev.dataPageShift
                else s.dataRpn)
              (shiftOr16 (prev.dataPageShiftValid || false) dsh)
              (if prev.dataAddrValid || false then (if prev.dataAddrValid then prev.dataAddr else 0) else 0)
          else 0
        guestDataPageShiftValid := prev.guestDataPageShiftValid || false
        guestDataPageShift := if prev.guestDataPageShiftValid then prev.guestDataPageShift else 0 } := by
  unfold recOut
  rw [applyNext_zero]
  dsimp only [effBody, effHead, effTail, effInsn, effNode, effTerm, effDataAddr, effDataWalk, effDataRpn, effIar,
    effBranch, effInsnWalk, effInsnRpn, effInsnPage, effDataPage, effGuestPage, Record.zero]
  cases prev.dataPageShiftValid <;> rfl

theorem Ready.step {s prev cur dw iw} (R : Ready s) (hs : Spec.ShiftsOk cur) :
    Ready (recOut s prev cur dw iw).st := by
  obtain ⟨w1, w2, p1, p2⟩ := R
  constructor
  · rw [recOut_st]; exact w1
  · rw [recOut_st]; exact w2
  · rw [recOut_st]; simp only; grind
  · rw [recOut_st]
    have := hs.1
    simp only
    grind

/-- The bytes stored for `prev`, and every record but the last of those that follow it. -/
def bodyBytes : Record → List Record → WRes Bytes
  | _, [] => .ok []
  | prev, r :: rs => do
    let b ← recordBytes prev r
    let b' ← bodyBytes r rs
    return b ++ b'

def dwOf (prev : Record) : Walk :=
  match walkIf prev.dataRaValid prev.radixData with
  | .ok w => w
  | _ => .none

def iwOf (prev cur : Record) : Walk :=
  match walkIf (cur.insnRaValid && iarChange prev cur) cur.radixInsn with
  | .ok w => w
  | _ => .none

def outOf (s : RState) (prev cur : Record) : Ctx := recOut s prev cur (dwOf prev) (iwOf prev cur)

/-- What the reader returns for those bytes, and its state afterwards. -/
def sim : RState → Record → List Record → List Record × RState
  | s, _, [] => ([], s)
  | s, prev, r :: rs =>
    let c := outOf s prev r
    ((c.rcd :: (sim c.st r rs).1), (sim c.st r rs).2)

/-- All conditions needed to read back the stored part of a list. -/
def Steps : Record → List Record → Prop
  | _, [] => True
  | prev, r :: rs =>
    InStep prev r (dwOf prev) (iwOf prev r) ∧ (rs ≠ [] → r.insn = 0 → prev.insn >>> 26 = 1) ∧ Steps r rs

theorem peek32_of_drop {m : Mem} {p : Nat} {v : BitVec 32} {rest : Bytes}
    (h : m.bytes.drop p = be32 v ++ rest) : peek32 m p = v ∧ p + 4 ≤ m.bytes.length := by
  have hl : 4 ≤ (m.bytes.drop p).length := by rw [h]; simp [be32]
  rw [List.length_drop] at hl
  have e : ∀ i, m.bytes[p + i]? = (be32 v ++ rest)[i]? := by
    intro i; rw [← h, List.getElem?_drop]
  have e0 := e 0
  have e1 := e 1
  have e2 := e 2
  have e3 := e 3
  simp [be32] at e0 e1 e2 e3
  refine ⟨?_, by omega⟩
  simp only [peek32, e0, e1, e2, e3]
  exact of32_be32 v

theorem skipHeaders_stop {m : Mem} {s : RState} {r : Record} {v : BitVec 32} {rest : Bytes} {fuel : Nat}
    (h : m.bytes.drop s.pos = be32 v ++ rest) (hv : v = 0 → s.prefixed = true) :
    skipHeaders (fuel + 1) m { st := s, rcd := r } = .ok () { st := s, rcd := r } := by
  obtain ⟨h1, h2⟩ := peek32_of_drop h
  have hp : peekInsn m { st := s, rcd := r } = .ok v { st := s, rcd := r } := by
    unfold peekInsn
    have : decide (s.pos + 4 > m.bytes.length) = false := by simp; omega
    simp only [h1, this, Bool.or_false]
  have : ¬ (v = 0 ∧ s.prefixed = false) := by
    rintro ⟨rfl, hf⟩; simp [hv rfl] at hf
  show Rd.bind peekInsn (fun w => Rd.bind getCtx fun c =>
        if w = 0 ∧ c.st.prefixed = false then Rd.bind parseHeader fun _ => skipHeaders fuel
        else pure ()) m { st := s, rcd := r } = _
  simp only [Rd.bind, hp]
  show (if v = 0 ∧ s.prefixed = false then _ else _ : Rd Unit) m _ = _
  rw [if_neg this]; rfl

theorem nextRecord_eq (m : Mem) (s : RState) :
    nextRecord m s = Rd.bind (skipHeaders (m.bytes.length + 1)) (fun _ => readOne) m
      { st := s, rcd := .zero } := rfl

theorem readLoop_ok {m : Mem} {s : RState} {fuel : Nat} {u c} (h : nextRecord m s = .ok u c) :
    readLoop m (fuel + 1) s =
      { records := c.rcd :: (readLoop m fuel c.st).records
        final := (readLoop m fuel c.st).final
        state := (readLoop m fuel c.st).state } := by
  rw [readLoop, h]

theorem nextRecord_step {m : Mem} {s : RState} {p : Nat} {prev cur : Record} {dw iw : Walk} {b rest : Bytes}
    (H : InStep prev cur dw iw) (R : Ready s) (hb : recordBytes prev cur = .ok b)
    (hv : prev.insn = 0 → s.prefixed = true) (h : m.bytes.drop p = b ++ rest) :
    nextRecord m (s.at p) = .ok () ((recOut s prev cur dw iw).at (p + b.length)) := by
  have h1 := readOne_reads (m := m) H R hb p rest h
  obtain ⟨b', hb'⟩ : ∃ b', b = be32 prev.insn ++ b' := by
    obtain ⟨_, _, _, _, e⟩ := recordBytes_ok hb
    simp only [List.append_assoc] at e
    exact ⟨_, e⟩
  have h2 : m.bytes.drop (s.at p).pos = be32 prev.insn ++ (b' ++ rest) := by
    rw [← List.append_assoc, ← hb']; exact h
  have h3 := skipHeaders_stop (r := .zero) (fuel := m.bytes.length) h2 hv
  rw [nextRecord_eq]
  simp only [Rd.bind, h3]
  exact h1

theorem sim_reads (m : Mem) : ∀ (rs : List Record) (prev : Record) (s : RState) (p fuel : Nat) (b rest : Bytes),
    bodyBytes prev rs = .ok b → Steps prev rs → Ready s → (rs ≠ [] → prev.insn = 0 → s.prefixed = true) →
    m.bytes.drop p = b ++ rest →
    Ready (sim s prev rs).2 ∧
    readLoop m (rs.length + fuel) (s.at p) =
      let r := readLoop m fuel ((sim s prev rs).2.at (p + b.length))
      { r with records := (sim s prev rs).1 ++ r.records }
  | [], prev, s, p, fuel, b, rest, hb, _, R, _, _ => by
    obtain rfl : [] = b := WRes.ok.inj hb
    simp [sim, R]
  | r :: rs, prev, s, p, fuel, b, rest, hb, hS, R, hv, h => by
    obtain ⟨hI, hz, hS⟩ := hS
    obtain ⟨b1, hb1, hb⟩ := WRes.bind_ok hb
    obtain ⟨b2, hb2, hb⟩ := WRes.bind_ok hb
    obtain rfl : b1 ++ b2 = b := WRes.ok.inj hb
    rw [List.append_assoc] at h
    have h1 := nextRecord_step hI R hb1 (hv (by simp)) h
    have hpre : (outOf s prev r).st.prefixed = (prev.insn >>> 26 == 1) := by
      unfold outOf; rw [recOut_st]
    have ih := sim_reads m rs r (outOf s prev r).st (p + b1.length) fuel b2 rest hb2 hS
      (R.step hI.curShift) (by intro h1 h2; rw [hpre, hz h1 h2]; rfl) (drop_after h)
    refine ⟨ih.1, ?_⟩
    show readLoop m (rs.length + 1 + fuel) (s.at p) = _
    rw [show rs.length + 1 + fuel = (rs.length + fuel) + 1 by omega]
    rw [readLoop_ok h1]
    have ih2 := ih.2
    simp only [outOf] at ih2
    have e : ((recOut s prev r (dwOf prev) (iwOf prev r)).at (p + b1.length)).st =
      (recOut s prev r (dwOf prev) (iwOf prev r)).st.at (p + b1.length) := rfl
    rw [e, ih2]
    simp only [sim, outOf, List.length_append, Nat.add_assoc, Ctx.at_rcd, List.cons_append]

theorem Rd.bind_ok {α β} {x : Rd α} {f : α → Rd β} {m c a c'} (h : x m c = .ok a c') :
    (x >>= f) m c = f a m c' := by
  show Rd.bind x f m c = _
  rw [Rd.bind, h]

theorem Rd.bind_err {α β} {x : Rd α} {f : α → Rd β} {m c e c'} (h : x m c = .err e c') :
    (x >>= f) m c = .err e c' := by
  show Rd.bind x f m c = _
  rw [Rd.bind, h]

theorem skipHeaders_succ (fuel : Nat) (m : Mem) (c : Ctx) :
    skipHeaders (fuel + 1) m c =
      (if peek32 m c.st.pos = 0 ∧ c.st.prefixed = false then (parseHeader >>= fun _ => skipHeaders fuel)
        else pure () : Rd Unit) m
        { c with st := { c.st with overread := c.st.overread || decide (c.st.pos + 4 > m.bytes.length) } } :=
  rfl

/-- If no word can be fetched here, reading a record reports failure. -/
theorem readOne_short {m : Mem} {s : RState} (R : Ready s) (h : m.bytes.length < s.pos + 4) :
    ∃ c, readOne m { st := s, rcd := .zero } = .err .fail c := by
  have hg : ∀ c : Ctx, c.st.pos = s.pos → get32 m c = .err .fail c := by
    intro c hc
    have hl : (m.bytes.drop s.pos).length < 4 := by rw [List.length_drop]; omega
    simp only [get32, hc]
    split
    · rename_i e; rw [e] at hl; simp only [List.length_cons] at hl; omega
    · rfl
  have ha := applyNext_zero s
  have hat : (applyNext { st := s, rcd := .zero }).at s.pos = applyNext { st := s, rcd := .zero } := by
    rw [ha]; rfl
  have hra := insnRaSection_reads (m := m) (c := applyNext { st := s, rcd := .zero }) (by
    rw [ha]
    intro _
    have := R.p1
    have := R.p2
    simp only [shiftOr16]
    split
    · rename_i h; simp at h; grind
    · omega) s.pos (m.bytes.drop s.pos) (by simp)
  rw [hat] at hra
  exact ⟨_, (Rd.bind_ok (x := fun _ c => .ok () (applyNext c)) rfl).trans ((Rd.bind_ok hra).trans
    (Rd.bind_err (Rd.bind_err (hg _ rfl))))⟩

/-- Reading fails at the end of the trace, whatever lies beyond. -/
theorem nextRecord_end {m : Mem} {s : RState} (R : Ready s) (h : m.bytes.length ≤ s.pos) :
    ∃ c, nextRecord m s = .err .fail c := by
  have hd : m.bytes.drop s.pos = [] := List.drop_eq_nil_of_le h
  rw [nextRecord_eq]
  generalize ho : (s.overread || decide (s.pos + 4 > m.bytes.length)) = o
  have hs := skipHeaders_succ m.bytes.length m { st := s, rcd := .zero }
  simp only [ho] at hs
  by_cases hz : peek32 m s.pos = 0 ∧ s.prefixed = false
  · rw [if_pos hz] at hs
    have hg : get32 m { st := { s with overread := o }, rcd := .zero } =
        .err .fail { st := { s with overread := o }, rcd := .zero } := by
      simp [get32, hd]
    exact ⟨_, Rd.bind_err (hs.trans (Rd.bind_err (Rd.bind_err (Rd.bind_err hg))))⟩
  · rw [if_neg hz] at hs
    obtain ⟨c, hc⟩ := readOne_short (m := m) (s := { s with overread := o }) ⟨R.w1, R.w2, R.p1, R.p2⟩
      (by simp only; omega)
    exact ⟨c, (Rd.bind_ok hs).trans hc⟩

theorem readLoop_end {m : Mem} {s : RState} {fuel : Nat} (R : Ready s) (h : m.bytes.length ≤ s.pos) :
    (readLoop m (fuel + 1) s).records = [] ∧ (readLoop m (fuel + 1) s).final = .fail := by
  obtain ⟨c, hc⟩ := nextRecord_end R h
  unfold readLoop
  simp [hc]

end Qt
