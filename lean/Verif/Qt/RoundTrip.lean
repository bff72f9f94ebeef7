import Verif.Qt.ReadBack
/-! Helper lemmas: the file header, the end of the trace, and the simulation of a whole file. -/
namespace Qt

theorem headerBytes_ok {magic version : BitVec 32} {r : Record} {b : Bytes}
    (h : headerBytes magic version r = .ok b) :
    ∃ w, radixWalk r.radixInsn = .ok w ∧
      (r.insnRaValid = true → shiftOr16 r.insnPageShiftValid r.insnPageShift < 64) ∧
      b = be32 0 ++ be16 0x0001
        ++ be16 (0x0002 ||| bitIf (r.radixInsn.nrPtes != 0) 0x0001)
        ++ putIf (w != .none) (be16 (hdrFlags3 w))
        ++ be16 (hdrFlags magic version r)
        ++ putIf (magic != 0) (be32 magic)
        ++ putIf (version != 0) (be32 version)
        ++ be64 r.insnAddr
        ++ walkBytes w r.radixInsn
        ++ putIf r.insnRaValid (be32 (rpnOf r.insnRa r.insnPageShiftValid r.insnPageShift))
        ++ putIf r.insnPageShiftValid (put8n r.insnPageShift)
        ++ putIf r.guestInsnPageShiftValid (put8n r.guestInsnPageShift) := by
  unfold headerBytes at h
  obtain ⟨w, hw, h⟩ := WRes.bind_ok h
  obtain ⟨rp, hrp, h⟩ := WRes.bind_ok h
  refine ⟨w, hw, (putRpnIf_ok hrp).2, ?_⟩
  rw [(putRpnIf_ok hrp).1] at h
  exact (WRes.ok.inj h).symm

theorem headerFlags_reads {m c} (f2 f3 h : BitVec 16) (g : Bool) (h2 : has f2 0x0002 = true)
    (u2 : has f2 (~~~ 0x0003) = false) (hg : has f2 0x0001 = g) (h3 : g = false → f3 = 0)
    (uh : has h (~~~ 0xF852) = false) :
    Reads headerFlags m c (be32 0 ++ be16 0x0001 ++ be16 f2 ++ putIf g (be16 f3) ++ be16 h) (f2, f3, h) c := by
  unfold headerFlags
  simp only [List.append_assoc]
  refine Reads.bind (Reads.get32 0) ?_
  simp only [ne_eq, not_true_eq_false, if_false]
  refine Reads.bind (Reads.get16 0x0001) ?_
  simp only
  refine Reads.bind (Reads.get16 f2) ?_
  simp only [h2, u2, hg, Bool.true_eq_false, Bool.false_eq_true, if_false]
  cases g
  · rw [h3 rfl]
    refine Reads.bind0 (Reads.pure 0 m c) ?_
    refine Reads.bindR (Reads.get16 h) ?_
    simp only [uh, Bool.false_eq_true, if_false]
    exact Reads.pure _ m c
  · refine Reads.bind (Reads.get16 f3) ?_
    refine Reads.bindR (Reads.get16 h) ?_
    simp only [uh, Bool.false_eq_true, if_false]
    exact Reads.pure _ m c

/-- Reader state after the header of a file starting with `r`. -/
def hdrOut (magic version : BitVec 32) (r : Record) (w : Walk) (s : RState) : RState :=
  { s with
    magic := if magic != 0 then magic else s.magic
    version := if version != 0 then version else s.version
    nextInsnAddr := r.insnAddr
    nextRadixInsn := walkOut w (getRadixType 10 8 (hdrFlags3 w)) r.radixInsn s.nextRadixInsn
    insnRpnValid := r.insnRaValid || s.insnRpnValid
    nextInsnRpnValid := r.insnRaValid || s.nextInsnRpnValid
    nextInsnRpn := if r.insnRaValid then rpnOf r.insnRa r.insnPageShiftValid r.insnPageShift else s.nextInsnRpn
    insnPageShiftValid := r.insnPageShiftValid || s.insnPageShiftValid
    nextInsnPageShiftValid := r.insnPageShiftValid || s.nextInsnPageShiftValid
    nextInsnPageShift := if r.insnPageShiftValid then r.insnPageShift else s.nextInsnPageShift
    guestInsnPageShiftValid := r.guestInsnPageShiftValid || s.guestInsnPageShiftValid
    nextGuestInsnPageShiftValid := r.guestInsnPageShiftValid || s.nextGuestInsnPageShiftValid
    nextGuestInsnPageShift :=
      if r.guestInsnPageShiftValid then r.guestInsnPageShift else s.nextGuestInsnPageShift }

theorem hdrFlags_has (magic version : BitVec 32) (r : Record) :
    let h := hdrFlags magic version r
    has h (~~~ 0xF852) = false ∧ has h 0x8000 = (magic != 0) ∧ has h 0x4000 = (version != 0) ∧
    has h 0x2000 = true ∧ has h 0x1000 = false ∧ has h 0x0800 = r.insnRaValid ∧
    has h 0x0040 = r.insnPageShiftValid ∧ has h 0x0010 = r.guestInsnPageShiftValid ∧
    has h 0x0002 = false :=
  has_hdrFlags _ _ _ _ _

theorem has_hdrFlags2 (g : Bool) :
    let f := (0x0002 : BitVec 16) ||| bitIf g 0x0001
    has f 0x0002 = true ∧ has f (~~~ 0x0003) = false ∧ has f 0x0001 = g := by
  revert g; decide

theorem headerIds_reads {m c h} (magic version : BitVec 32) (a : BitVec 64) (h1 : has h 0x8000 = (magic != 0))
    (h2 : has h 0x4000 = (version != 0)) (h3 : has h 0x2000 = true) (h4 : has h 0x1000 = false) :
    Reads (headerIds h) m c (putIf (magic != 0) (be32 magic) ++ putIf (version != 0) (be32 version) ++ be64 a)
      () { c with st := { c.st with
            magic := if magic != 0 then magic else c.st.magic
            version := if version != 0 then version else c.st.version
            nextInsnAddr := a } } := by
  unfold headerIds
  rw [List.append_assoc]
  have e1 : Reads (whenR (has h 0x8000) do
      let v ← get32
      modSt fun s => { s with magic := v }) m c (putIf (magic != 0) (be32 magic)) ()
      { c with st := { c.st with magic := if magic != 0 then magic else c.st.magic } } := by
    refine Reads.when h1 ?_ ?_
    · intro h; simp only [h, if_true]
      exact Reads.bindR (Reads.get32 magic) (Reads.modSt (fun _ _ => rfl))
    · intro h; simp only [h, Bool.false_eq_true, if_false]
  refine Reads.bind e1 ?_
  have e2 : ∀ c, Reads (whenR (has h 0x4000) do
      let v ← get32
      modSt fun s => { s with version := v }) m c (putIf (version != 0) (be32 version)) ()
      { c with st := { c.st with version := if version != 0 then version else c.st.version } } := by
    intro c
    refine Reads.when h2 ?_ ?_
    · intro h; simp only [h, if_true]
      exact Reads.bindR (Reads.get32 version) (Reads.modSt (fun _ _ => rfl))
    · intro h; simp only [h, Bool.false_eq_true, if_false]
  refine Reads.bind (e2 _) ?_
  refine Reads.bindR (Reads.when_true h3 (Reads.bindR (Reads.get64 a) (Reads.modSt (fun _ _ => rfl)))) ?_
  exact Reads.when_false h4

theorem headerPages_reads {m c h} (r : Record) (h1 : has h 0x0800 = r.insnRaValid)
    (h2 : has h 0x0040 = r.insnPageShiftValid) (h3 : has h 0x0010 = r.guestInsnPageShiftValid)
    (hs : Spec.ShiftsOk r) :
    Reads (headerPages h) m c
      (putIf r.insnRaValid (be32 (rpnOf r.insnRa r.insnPageShiftValid r.insnPageShift))
        ++ putIf r.insnPageShiftValid (put8n r.insnPageShift)
        ++ putIf r.guestInsnPageShiftValid (put8n r.guestInsnPageShift))
      () { c with st := { c.st with
    insnRpnValid := r.insnRaValid || c.st.insnRpnValid
    nextInsnRpnValid := r.insnRaValid || c.st.nextInsnRpnValid
    nextInsnRpn := if r.insnRaValid then rpnOf r.insnRa r.insnPageShiftValid r.insnPageShift else c.st.nextInsnRpn
    insnPageShiftValid := r.insnPageShiftValid || c.st.insnPageShiftValid
    nextInsnPageShiftValid := r.insnPageShiftValid || c.st.nextInsnPageShiftValid
    nextInsnPageShift := if r.insnPageShiftValid then r.insnPageShift else c.st.nextInsnPageShift
    guestInsnPageShiftValid := r.guestInsnPageShiftValid || c.st.guestInsnPageShiftValid
    nextGuestInsnPageShiftValid := r.guestInsnPageShiftValid || c.st.nextGuestInsnPageShiftValid
    nextGuestInsnPageShift :=
      if r.guestInsnPageShiftValid then r.guestInsnPageShift else c.st.nextGuestInsnPageShift } } := by
  unfold headerPages
  rw [List.append_assoc]
  have e1 : Reads (whenR (has h 0x0800) do
      let v ← get32
      modSt fun s => { s with insnRpnValid := true, nextInsnRpnValid := true, nextInsnRpn := v }) m c
      (putIf r.insnRaValid (be32 (rpnOf r.insnRa r.insnPageShiftValid r.insnPageShift))) ()
      { c with st := { c.st with
          insnRpnValid := r.insnRaValid || c.st.insnRpnValid
          nextInsnRpnValid := r.insnRaValid || c.st.nextInsnRpnValid
          nextInsnRpn := if r.insnRaValid then rpnOf r.insnRa r.insnPageShiftValid r.insnPageShift
            else c.st.nextInsnRpn } } := by
    refine Reads.when h1 ?_ ?_
    · intro h; simp only [h, if_true, Bool.true_or]
      exact Reads.bindR (Reads.get32 _) (Reads.modSt (fun _ _ => rfl))
    · intro h; simp [h]
  refine Reads.bind e1 ?_
  have e2 : ∀ c, Reads (whenR (has h 0x0040) do
      let v ← get8n
      modSt fun s => { s with insnPageShiftValid := true, nextInsnPageShiftValid := true, nextInsnPageShift := v })
      m c (putIf r.insnPageShiftValid (put8n r.insnPageShift)) ()
      { c with st := { c.st with
          insnPageShiftValid := r.insnPageShiftValid || c.st.insnPageShiftValid
          nextInsnPageShiftValid := r.insnPageShiftValid || c.st.nextInsnPageShiftValid
          nextInsnPageShift := if r.insnPageShiftValid then r.insnPageShift else c.st.nextInsnPageShift } } := by
    intro c
    refine Reads.when h2 ?_ ?_
    · intro h
      have := hs.1 h
      simp only [h, if_true, Bool.true_or]
      exact Reads.bindR (Reads.get8n _ (by omega)) (Reads.modSt (fun _ _ => rfl))
    · intro h; simp [h]
  refine Reads.bind (e2 _) ?_
  refine Reads.when h3 ?_ ?_
  · intro h
    have := hs.2.1 h
    simp only [h, if_true, Bool.true_or]
    exact Reads.bindR (Reads.get8n _ (by omega)) (Reads.modSt (fun _ _ => rfl))
  · intro h; simp [h]

theorem headerTail_reads {m c h} (f3 : BitVec 16) (h1 : has f3 0x0080 = false) (h2 : has f3 0x0040 = false)
    (h3 : has f3 0x0020 = false) (h4 : has h 0x0002 = false) :
    Reads (headerTail f3 h) m c [] () c :=
  Reads.bind0 (Reads.when_false h1) (Reads.bind0 (Reads.when_false h2)
    (Reads.bind0 (Reads.when_false h3) (Reads.when_false h4)))

theorem hdrFlags3_facts (w : Walk) :
    has (hdrFlags3 w) 0x0080 = false ∧ has (hdrFlags3 w) 0x0040 = false ∧ has (hdrFlags3 w) 0x0020 = false ∧
    modeField (hdrFlags3 w) 10 = 0 ∧ (w ≠ .none → (modeField (hdrFlags3 w) 8 = 0 ↔ w = .nested)) := by
  cases w with
  | none => decide
  | single g => cases g <;> decide
  | nested => decide

theorem parseHeader_reads {m c magic version r w b} (hb : headerBytes magic version r = .ok b)
    (hw : radixWalk r.radixInsn = .ok w) (hs : Spec.ShiftsOk r)
    (h1 : r.radixInsn.nrPtes ≠ 0 → r.insnRaValid = true ∧ w ≠ .none) :
    Reads parseHeader m c b () { c with st := hdrOut magic version r w c.st } := by
  obtain ⟨w', hw', _, rfl⟩ := headerBytes_ok hb
  obtain rfl : w = w' := WRes.ok.inj (hw.symm.trans hw')
  have hwn : r.radixInsn.nrPtes = 0 → w = .none := by
    intro h
    unfold radixWalk at hw
    simp only [h, ne_eq, not_true_eq_false, false_and, if_false, WRes.ok.injEq] at hw
    exact hw.symm
  have hg : (r.radixInsn.nrPtes != 0) = (w != .none) := by
    by_cases h : r.radixInsn.nrPtes = 0
    · simp [h, hwn h]
    · rw [bne_iff_ne.mpr h, bne_iff_ne.mpr (h1 h).2]
  obtain ⟨a1, a2, a3, a4, a5, a6, a7, a8, a9⟩ := hdrFlags_has magic version r
  obtain ⟨b1, b2, b3⟩ := has_hdrFlags2 (w != .none)
  obtain ⟨d1, d2, d3, d4, d5⟩ := hdrFlags3_facts w
  rw [hg]
  unfold parseHeader
  have hfl := headerFlags_reads (m := m) (c := c) _ (hdrFlags3 w) _ (w != .none) b1 b2 b3
    (by intro h; have : w = .none := by simpa using h
        rw [this]; rfl) a1
  refine Reads.congr (b := (be32 0 ++ be16 0x0001 ++ be16 (0x0002 ||| bitIf (w != .none) 0x0001)
        ++ putIf (w != .none) (be16 (hdrFlags3 w)) ++ be16 (hdrFlags magic version r))
        ++ ((putIf (magic != 0) (be32 magic) ++ putIf (version != 0) (be32 version) ++ be64 r.insnAddr)
        ++ (walkBytes w r.radixInsn
        ++ (putIf r.insnRaValid (be32 (rpnOf r.insnRa r.insnPageShiftValid r.insnPageShift))
        ++ putIf r.insnPageShiftValid (put8n r.insnPageShift)
        ++ putIf r.guestInsnPageShiftValid (put8n r.guestInsnPageShift))))) ?_ ?_ rfl rfl
  · refine Reads.bind hfl ?_
    refine Reads.bind (headerIds_reads magic version r.insnAddr a2 a3 a4 a5) ?_
    have hwalk : ∀ c, Reads (headerWalk (0x0002 ||| bitIf (w != .none) 0x0001) (hdrFlags3 w)
        (hdrFlags magic version r)) m c (walkBytes w r.radixInsn) ()
        { c with st := { c.st with
            nextRadixInsn := walkOut w (getRadixType 10 8 (hdrFlags3 w)) r.radixInsn c.st.nextRadixInsn } } := by
      intro c
      unfold headerWalk
      rw [a6, b3]
      by_cases hn : w = .none
      · subst hn
        exact Reads.when_false (by simp)
      · have hra : r.insnRaValid = true := by
          by_cases h : r.radixInsn.nrPtes = 0
          · exact absurd (hwn h) hn
          · exact (h1 h).1
        refine Reads.when_true (by simp [hra, hn]) ?_
        refine Reads.getCtx_bind (fun _ => rfl) ?_
        exact Reads.bindR (walkSection_reads (st := true) w r.radixInsn _ hw hn d4 (d5 hn))
          (Reads.modSt (fun _ _ => rfl))
    refine Reads.bind (hwalk _) ?_
    refine Reads.bindR (headerPages_reads r a6 a7 a8 hs) ?_
    exact headerTail_reads _ d1 d2 d3 a9
  · simp only [List.append_assoc]

end Qt
