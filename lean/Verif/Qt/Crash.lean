import Verif.Qt.WriterHistory
/-! Helper lemmas: reading a file whose writer died (stored records followed by zero bytes). -/
namespace Qt
open Spec

theorem bodyBytes_length : ∀ (rs : List Record) (prev : Record) (b : Bytes), bodyBytes prev rs = .ok b →
    6 * rs.length ≤ b.length
  | [], _, _, _ => by simp
  | a :: l, prev, b, hb => by
    obtain ⟨b1, hb1, hb⟩ := WRes.bind_ok hb
    obtain ⟨b2, hb2, hb⟩ := WRes.bind_ok hb
    obtain rfl : b1 ++ b2 = b := WRes.ok.inj hb
    have := bodyBytes_length l a b2 hb2
    have := (recordBytes_length hb1).2
    simp only [List.length_append, List.length_cons]; omega

/-- Bytes stored after some write calls, read back with anything following them. -/
theorem readTrace_open (magic : BitVec 32) (r : Record) (rs : List Record) (H : Expressible (r :: rs)) :
    ∃ out w, radixWalk r.radixInsn = .ok w ∧
      (∃ s, writeAll (writerOpen magic) (r :: rs) = .ok s ∧ s.out = out) ∧
      Ready (sim (startState magic r w) r rs).2 ∧
      ∀ beyond rest, ∃ fuel,
        rest.length ≤ fuel ∧
        readTrace { bytes := out ++ rest, beyond := beyond } false false =
          (let R := readLoop { bytes := out ++ rest, beyond := beyond } (fuel + 1)
            ((sim (startState magic r w) r rs).2.at out.length)
          { R with records := (sim (startState magic r w) r rs).1 ++ R.records }) := by
  obtain ⟨hR, hC, hH⟩ := H
  have hr := hR r (by simp)
  have hrs : ∀ x ∈ rs, RecordOk x := fun x hx => hR x (by simp [hx])
  obtain ⟨hz, hnw⟩ := hH r rfl
  obtain ⟨w, h, hw, hh, hn⟩ := headerBytes_total (magic := magic) (version := QTWRITER_VERSION) hr hnw
  obtain ⟨b, hb⟩ := bodyBytes_total rs r hr hrs
  have hsteps := steps_of' rs r hr hrs hC
  have hw1 : ∃ s, writeAll (writerOpen magic) (r :: rs) = .ok s ∧ s.out = h ++ b := by
    obtain ⟨s1, e1, o1, p1, h1⟩ := writeRecord_hdr (s := writerOpen magic) (r := r) rfl hh
    obtain ⟨s2, e2, o2, _, _⟩ := writeAll_body rs s1 b h1 (by rw [p1]; exact hb)
    exact ⟨s2, (writeAll_cons e1).trans e2, by rw [o2, o1]; rfl⟩
  have key : ∀ beyond rest, _ := fun beyond rest =>
    sim_reads { bytes := h ++ (b ++ rest), beyond := beyond } rs r (startState magic r w) h.length
      ((h ++ (b ++ rest)).length - rs.length + 1) b rest hb hsteps (startState_ready hr.1)
      (fun _ hz' => absurd hz' hz) (by simp)
  refine ⟨h ++ b, w, hw, hw1, (key (fun _ => 0) []).1, fun beyond rest => ?_⟩
  have hl := bodyBytes_length _ _ _ hb
  refine ⟨(h ++ (b ++ rest)).length - rs.length, by simp only [List.length_append]; omega, ?_⟩
  have hk := (key beyond rest).2
  rw [List.append_assoc, readTrace_start (rest := b ++ rest) hh hw hr.1 hn]
  rw [show (h ++ (b ++ rest)).length + 1 = rs.length + ((h ++ (b ++ rest)).length - rs.length + 1) by
    simp only [List.length_append]; omega, hk]
  simp only [List.length_append]

theorem drop_zeros {out : Bytes} {n : Nat} {beyond} :
    (({ bytes := out ++ List.replicate n 0, beyond := beyond } : Mem).bytes.drop out.length) = List.replicate n 0 := by
  simp

theorem replicate_be32 {n : Nat} (h : 4 ≤ n) :
    List.replicate n (0 : Byte) = be32 0 ++ List.replicate (n - 4) 0 := by
  obtain ⟨k, rfl⟩ : ∃ k, n = k + 4 := ⟨n - 4, by omega⟩
  rfl

theorem replicate_be16 {n : Nat} (h : 2 ≤ n) :
    List.replicate n (0 : Byte) = be16 0 ++ List.replicate (n - 2) 0 := by
  obtain ⟨k, rfl⟩ : ∃ k, n = k + 2 := ⟨n - 2, by omega⟩
  rfl

/-- Zero bytes are not a header. -/
theorem parseHeader_zeros {m : Mem} {c : Ctx} {n : Nat} (h : m.bytes.drop c.st.pos = List.replicate n 0)
    (hn : 6 ≤ n) : ∃ c', parseHeader m c = .err .fail c' := by
  have h1 : m.bytes.drop c.st.pos = be32 0 ++ List.replicate (n - 4) 0 := by
    rw [h, replicate_be32 (by omega)]
  have g1 := Reads.get32 (m := m) (c := c) 0 c.st.pos _ h1
  have h2 : m.bytes.drop (c.st.pos + 4) = be16 0 ++ List.replicate (n - 4 - 2) 0 := by
    have := drop_after h1
    rw [be32_length] at this
    rw [this, replicate_be16 (by omega)]
  have g2 := Reads.get16 (m := m) (c := c) 0 (c.st.pos + 4) _ h2
  rw [Ctx.at_self] at g1
  exact ⟨_, Rd.bind_err ((Rd.bind_ok g1).trans (Rd.bind_ok (a := (0 : BitVec 16)) g2))⟩

theorem readTrace_zeros {n : Nat} (hn : 6 ≤ n) (beyond) :
    (readTrace { bytes := List.replicate n 0, beyond := beyond } false false).records = [] ∧
    (readTrace { bytes := List.replicate n 0, beyond := beyond } false false).final = .fail := by
  obtain ⟨c', e⟩ := parseHeader_zeros (m := { bytes := List.replicate n 0, beyond := beyond })
    (c := { st := .initial, rcd := .zero }) (n := n) rfl hn
  unfold readTrace readerInit
  rw [e]
  exact ⟨rfl, rfl⟩

/-- Zero bytes after an ordinary instruction end the trace. -/
theorem readLoop_zeros {m : Mem} {s : RState} {n fuel : Nat} (h : m.bytes.drop s.pos = List.replicate n 0)
    (hn : 6 ≤ n) (hp : s.prefixed = false) :
    (readLoop m (fuel + 1) s).records = [] ∧ (readLoop m (fuel + 1) s).final = .fail := by
  have h1 : m.bytes.drop s.pos = be32 0 ++ List.replicate (n - 4) 0 := by
    rw [h, replicate_be32 (by omega)]
  obtain ⟨hpk, hlen⟩ := peek32_of_drop h1
  have hs := skipHeaders_succ m.bytes.length m { st := s, rcd := .zero }
  rw [if_pos ⟨hpk, hp⟩] at hs
  generalize ho : (s.overread || decide (s.pos + 4 > m.bytes.length)) = o at hs
  obtain ⟨c', e⟩ := parseHeader_zeros (m := m) (c := { st := { s with overread := o }, rcd := .zero }) (n := n) h hn
  have : nextRecord m s = .err .fail c' := by
    rw [nextRecord_eq]
    exact Rd.bind_err (hs.trans (Rd.bind_err e))
  unfold readLoop
  simp [this]

/-- The context after a record without any flags. -/
def zeroOut (c : Ctx) : Ctx :=
  { st := { c.st with
      dataRpnValid := false, nextInsnAddr := c.st.nextInsnAddr + 4, nextInsnRpnValid := false
      nextInsnPageShiftValid := false, nextGuestInsnPageShiftValid := false }
    rcd := { c.rcd with nextInsnAddr := c.st.nextInsnAddr + 4 } }

theorem bodySection_zero {m : Mem} {c : Ctx} (hi : c.rcd.insn = 0)
    (hw : c.st.wantBranch = false) (hw' : c.st.wantTlbie = false) :
    Reads bodySection m c (be16 0) () (zeroOut c) := by
  intro p rest h
  have g := Reads.get16 (m := m) (c := c) 0 p rest h
  have hf : flagsSection m (c.at p) = .ok (0, 0, 0) (c.at (p + 2)) :=
    (Rd.bind_ok (a := (0 : BitVec 16)) g).trans rfl
  have hbr : ∀ c' : Ctx, c'.rcd.insn = 0 → branchSection 0 m c' = .ok () c' := by
    intro c' h'
    refine (Rd.bind_ok (x := getCtx) rfl).trans ?_
    rw [show has 0 0x2000 = false from rfl, h']
    rfl
  have han : ∀ c' : Ctx, c'.st.wantBranch = false → c'.st.wantTlbie = false → annotateSection m c' = .ok () c' := by
    intro c' h1 h2
    refine (Rd.bind_ok (x := getCtx) rfl).trans ?_
    rw [h1, Bool.and_false]
    refine (Rd.bind_ok (x := whenR false _) rfl).trans ?_
    refine (Rd.bind_ok (x := getCtx) rfl).trans ?_
    rw [h2]; rfl
  refine (Rd.bind_ok hf).trans ?_
  dsimp only
  iterate 6 refine (Rd.bind_ok (a := ()) (by rfl)).trans ?_
  refine (Rd.bind_ok (hbr _ (by exact hi))).trans ?_
  iterate 7 refine (Rd.bind_ok (a := ()) (by rfl)).trans ?_
  exact han _ (by exact hw) (by exact hw')

/-- Zero bytes after a prefix are taken for its suffix. -/
theorem nextRecord_phantom {m : Mem} {s : RState} {n : Nat} (R : Ready s)
    (h : m.bytes.drop s.pos = List.replicate n 0) (hn : 6 ≤ n) (hp : s.prefixed = true) :
    ∃ c, nextRecord m s = .ok () c ∧ c.rcd.insn = 0 ∧ c.rcd.insnAddr = s.nextInsnAddr ∧
      c.st.prefixed = false ∧ c.st.pos = s.pos + 6 := by
  have h1 : m.bytes.drop s.pos = be32 0 ++ List.replicate (n - 4) 0 := by
    rw [h, replicate_be32 (by omega)]
  have hstop := skipHeaders_stop (r := .zero) (fuel := m.bytes.length) h1 (fun _ => hp)
  have ha := applyNext_zero s
  have hat : (applyNext { st := s, rcd := .zero }).at s.pos = applyNext { st := s, rcd := .zero } := by
    rw [ha]; rfl
  have hra := insnRaSection_reads (m := m) (c := applyNext { st := s, rcd := .zero }) (by
    rw [ha]
    intro _
    have := R.p1
    have := R.p2
    simp only [shiftOr16]
    split
    · rename_i h; simp at h; grind
    · omega) s.pos (m.bytes.drop s.pos) (by simp)
  rw [hat] at hra
  have h2 : m.bytes.drop (s.pos + 4) = be16 0 ++ List.replicate (n - 4 - 2) 0 := by
    have := drop_after h1
    rw [be32_length] at this
    rw [this, replicate_be16 (by omega)]
  have hin := fun c => insnSection_reads (m := m) (c := c) 0 s.pos _ h1
  obtain ⟨c2, hra, k2, k3, k4, k5⟩ : ∃ c2, insnRaSection m (applyNext { st := s, rcd := .zero }) = .ok () c2 ∧
      c2.st.wantBranch = false ∧ c2.st.wantTlbie = false ∧ c2.st.pos = s.pos ∧
      c2.rcd.insnAddr = s.nextInsnAddr := by
    refine ⟨_, hra, ?_⟩
    rw [ha]
    exact ⟨R.w1, R.w2, rfl, rfl⟩
  have hbd := bodySection_zero (m := m) (c := { st := { c2.st with suffix := if c2.st.prefixed then 0 else c2.st.suffix
                                                                   prefixed := (0 : BitVec 32) >>> 26 == 1 }
                                                rcd := { c2.rcd with insn := 0 } })
    rfl k2 k3 _ _ h2
  have hc2 : c2.at s.pos = c2 := by rw [← k4]; rfl
  have hin := hin c2
  rw [hc2] at hin
  have hone : readOne m { st := s, rcd := .zero } = _ :=
    (Rd.bind_ok (x := fun _ c => .ok () (applyNext c)) rfl).trans
      ((Rd.bind_ok hra).trans ((Rd.bind_ok hin).trans hbd))
  have hnext : nextRecord m s = _ := (Rd.bind_ok (f := fun _ => readOne) hstop).trans hone
  exact ⟨_, hnext, rfl, k5, rfl, rfl⟩

theorem readLoop_phantom {m : Mem} {s : RState} {n fuel : Nat} (R : Ready s)
    (h : m.bytes.drop s.pos = List.replicate n 0) (hn : 12 ≤ n) (hp : s.prefixed = true) :
    ∃ o, (readLoop m (fuel + 2) s).records = [o] ∧ (readLoop m (fuel + 2) s).final = .fail ∧
      o.insn = 0 ∧ o.insnAddr = s.nextInsnAddr := by
  obtain ⟨c, e, h1, h2, h3, h4⟩ := nextRecord_phantom R h (by omega) hp
  have hd : m.bytes.drop c.st.pos = List.replicate (n - 6) 0 := by
    rw [h4, ← List.drop_drop, h, List.drop_replicate]
  have hz := readLoop_zeros (m := m) (s := c.st) (fuel := fuel) hd (by omega) h3
  refine ⟨c.rcd, ?_, ?_, h1, h2⟩
  · rw [readLoop_ok e]; simp [hz.1]
  · rw [readLoop_ok e]; exact hz.2

/-- Instruction stream of the records read so far, and what the reader state remembers of them. -/
theorem sim_stream : ∀ (rs : List Record) (r : Record) (s : RState), s.nextInsnAddr = r.insnAddr →
    (sim s r rs).1.map (fun r => (r.insn, r.insnAddr)) = (r :: rs).dropLast.map (fun r => (r.insn, r.insnAddr)) ∧
    (sim s r rs).2.nextInsnAddr = (lastOf r rs).insnAddr ∧
    (sim s r rs).2.prefixed = (match (r :: rs).dropLast.getLast? with
      | some x => x.insn >>> 26 == 1
      | none => s.prefixed)
  | [], r, s, h => by simp [sim, h, lastOf]
  | a :: l, r, s, h => by
    have h1 : (outOf s r a).st.nextInsnAddr = a.insnAddr := by
      unfold outOf; rw [recOut_st]
      simp only [iarChange, h]
      split
      · rfl
      · rename_i h; simp at h; exact h.symm
    have h2 : (outOf s r a).st.prefixed = (r.insn >>> 26 == 1) := by
      unfold outOf; rw [recOut_st]
    have h3 : ((outOf s r a).rcd.insn, (outOf s r a).rcd.insnAddr) = (r.insn, r.insnAddr) := by
      unfold outOf; rw [recOut_rcd]; simp only [h]
    obtain ⟨i1, i2, i3⟩ := sim_stream l a (outOf s r a).st h1
    refine ⟨?_, i2, ?_⟩
    · show ((outOf s r a).rcd :: (sim (outOf s r a).st a l).1).map _ = _
      rw [List.map_cons, i1, h3]; rfl
    · show (sim (outOf s r a).st a l).2.prefixed = _
      rw [i3]
      cases l with
      | nil => simp [h2]
      | cons b l =>
        rw [List.dropLast_cons_cons, List.dropLast_cons_cons, List.dropLast_cons_cons, List.getLast?_cons_cons]
        cases (b :: l).dropLast <;> simp [List.getLast?_cons]

end Qt
