import Verif.Qt.Step
/-! Helper lemmas: one whole record and the file header. -/
namespace Qt

theorem flagsSection_reads {m c} (f f2 f3 : BitVec 16) (g : Bool) (h1 : has f 0x0001 = true)
    (hg : has f2 0x0001 = g) (h3 : g = false → f3 = 0) (u1 : has f (~~~ 0xFFF9) = false)
    (u2 : has f2 (~~~ 0x532F) = false) :
    Reads flagsSection m c (be16 f ++ be16 f2 ++ putIf g (be16 f3)) (f, f2, f3) c := by
  unfold flagsSection
  rw [List.append_assoc]
  refine Reads.bind (Reads.get16 f) ?_
  simp only [h1, if_true]
  refine Reads.bind (Reads.get16 f2) ?_
  simp only [Bool.true_and, hg, u1, u2]
  cases g
  · rw [h3 rfl]
    exact Reads.bind0 (Reads.pure 0 m c) (Reads.pure _ m c)
  · exact Reads.bindR (Reads.get16 f3) (Reads.pure _ m c)

/-! Frame facts: these sections leave the fields below alone. -/
theorem effNode_wantBranch (br : Bool) (c : Ctx) : (effNode br c).st.wantBranch = c.st.wantBranch := rfl
theorem effNode_wantTlbie (br : Bool) (c : Ctx) : (effNode br c).st.wantTlbie = c.st.wantTlbie := rfl
theorem effNode_dataPageShiftValid (br : Bool) (c : Ctx) : (effNode br c).rcd.dataPageShiftValid = c.rcd.dataPageShiftValid := rfl
theorem effTerm_wantBranch (br : Bool) (prev : Record) (c : Ctx) : (effTerm br prev c).st.wantBranch = c.st.wantBranch := rfl
theorem effTerm_wantTlbie (br : Bool) (prev : Record) (c : Ctx) : (effTerm br prev c).st.wantTlbie = c.st.wantTlbie := rfl
theorem effTerm_dataPageShiftValid (br : Bool) (prev : Record) (c : Ctx) : (effTerm br prev c).rcd.dataPageShiftValid = c.rcd.dataPageShiftValid := rfl
theorem effDataAddr_wantBranch (g : Bool) (a : BitVec 64) (c : Ctx) : (effDataAddr g a c).st.wantBranch = c.st.wantBranch := rfl
theorem effDataAddr_wantTlbie (g : Bool) (a : BitVec 64) (c : Ctx) : (effDataAddr g a c).st.wantTlbie = c.st.wantTlbie := rfl
theorem effDataAddr_dataPageShiftValid (g : Bool) (a : BitVec 64) (c : Ctx) : (effDataAddr g a c).rcd.dataPageShiftValid = c.rcd.dataPageShiftValid := rfl
theorem effDataWalk_wantBranch (x : Radix) (c : Ctx) : (effDataWalk x c).st.wantBranch = c.st.wantBranch := rfl
theorem effDataWalk_wantTlbie (x : Radix) (c : Ctx) : (effDataWalk x c).st.wantTlbie = c.st.wantTlbie := rfl
theorem effDataWalk_dataPageShiftValid (x : Radix) (c : Ctx) : (effDataWalk x c).rcd.dataPageShiftValid = c.rcd.dataPageShiftValid := rfl
theorem effDataRpn_wantBranch (g : Bool) (v : BitVec 32) (c : Ctx) : (effDataRpn g v c).st.wantBranch = c.st.wantBranch := rfl
theorem effDataRpn_wantTlbie (g : Bool) (v : BitVec 32) (c : Ctx) : (effDataRpn g v c).st.wantTlbie = c.st.wantTlbie := rfl
theorem effDataRpn_dataPageShiftValid (g : Bool) (v : BitVec 32) (c : Ctx) : (effDataRpn g v c).rcd.dataPageShiftValid = c.rcd.dataPageShiftValid := rfl
theorem effIar_wantBranch (g : Bool) (v : BitVec 64) (c : Ctx) : (effIar g v c).st.wantBranch = c.st.wantBranch := rfl
theorem effIar_wantTlbie (g : Bool) (v : BitVec 64) (c : Ctx) : (effIar g v c).st.wantTlbie = c.st.wantTlbie := rfl
theorem effIar_dataPageShiftValid (g : Bool) (v : BitVec 64) (c : Ctx) : (effIar g v c).rcd.dataPageShiftValid = c.rcd.dataPageShiftValid := rfl
theorem effBranch_wantBranch (br : Bool) (c : Ctx) : (effBranch br c).st.wantBranch = c.st.wantBranch := rfl
theorem effBranch_wantTlbie (br : Bool) (c : Ctx) : (effBranch br c).st.wantTlbie = c.st.wantTlbie := rfl
theorem effBranch_dataPageShiftValid (br : Bool) (c : Ctx) : (effBranch br c).rcd.dataPageShiftValid = c.rcd.dataPageShiftValid := rfl
theorem effInsnWalk_wantBranch (x : Radix) (c : Ctx) : (effInsnWalk x c).st.wantBranch = c.st.wantBranch := rfl
theorem effInsnWalk_wantTlbie (x : Radix) (c : Ctx) : (effInsnWalk x c).st.wantTlbie = c.st.wantTlbie := rfl
theorem effInsnWalk_dataPageShiftValid (x : Radix) (c : Ctx) : (effInsnWalk x c).rcd.dataPageShiftValid = c.rcd.dataPageShiftValid := rfl
theorem effInsnRpn_wantBranch (g : Bool) (v : BitVec 32) (c : Ctx) : (effInsnRpn g v c).st.wantBranch = c.st.wantBranch := rfl
theorem effInsnRpn_wantTlbie (g : Bool) (v : BitVec 32) (c : Ctx) : (effInsnRpn g v c).st.wantTlbie = c.st.wantTlbie := rfl
theorem effInsnRpn_dataPageShiftValid (g : Bool) (v : BitVec 32) (c : Ctx) : (effInsnRpn g v c).rcd.dataPageShiftValid = c.rcd.dataPageShiftValid := rfl
theorem effInsnPage_wantBranch (g : Bool) (v : Nat) (c : Ctx) : (effInsnPage g v c).st.wantBranch = c.st.wantBranch := rfl
theorem effInsnPage_wantTlbie (g : Bool) (v : Nat) (c : Ctx) : (effInsnPage g v c).st.wantTlbie = c.st.wantTlbie := rfl
theorem effInsnPage_dataPageShiftValid (g : Bool) (v : Nat) (c : Ctx) : (effInsnPage g v c).rcd.dataPageShiftValid = c.rcd.dataPageShiftValid := rfl
theorem effDataPage_wantBranch (g : Bool) (v : Nat) (c : Ctx) : (effDataPage g v c).st.wantBranch = c.st.wantBranch := rfl
theorem effDataPage_wantTlbie (g : Bool) (v : Nat) (c : Ctx) : (effDataPage g v c).st.wantTlbie = c.st.wantTlbie := rfl
theorem effGuestPage_wantBranch (g : Bool) (v : Nat) (g2 : Bool) (v2 : Nat) (c : Ctx) : (effGuestPage g v g2 v2 c).st.wantBranch = c.st.wantBranch := rfl
theorem effGuestPage_wantTlbie (g : Bool) (v : Nat) (g2 : Bool) (v2 : Nat) (c : Ctx) : (effGuestPage g v g2 v2 c).st.wantTlbie = c.st.wantTlbie := rfl
theorem effGuestPage_dataPageShiftValid (g : Bool) (v : Nat) (g2 : Bool) (v2 : Nat) (c : Ctx) : (effGuestPage g v g2 v2 c).rcd.dataPageShiftValid = c.rcd.dataPageShiftValid := rfl

/-- Effect of everything after the instruction word, for the record `prev` followed by `cur`. -/
def effHead (prev cur : Record) (dw iw : Walk) (c : Ctx) : Ctx :=
  let br := writeIsBranch prev cur
  let c := effDataAddr prev.dataAddrValid prev.dataAddr (effTerm br prev (effNode br c))
  effBranch br (effIar (iarChange prev cur) cur.insnAddr
    (effDataRpn prev.dataRaValid (rpnOf prev.dataRa prev.dataPageShiftValid prev.dataPageShift)
      (effDataWalk (dataWalkOut prev.dataRaValid dw iw prev.radixData c.rcd.radixData) c)))

def effTail (prev cur : Record) (iw : Walk) (c : Ctx) : Ctx :=
  let chg := iarChange prev cur
  let gv := cur.guestInsnPageShiftValid && chg
  let dv := prev.dataPageShiftValid
  effGuestPage gv (if dv then prev.dataPageShift else cur.guestInsnPageShift)
    prev.guestDataPageShiftValid prev.guestDataPageShift
    (effDataPage dv (if gv then cur.guestInsnPageShift else prev.dataPageShift)
      (effInsnPage (cur.insnPageShiftValid && chg) cur.insnPageShift
        (effInsnRpn (cur.insnRaValid && chg) (rpnOf cur.insnRa cur.insnPageShiftValid cur.insnPageShift)
          (effInsnWalk (insnWalkOut (cur.insnRaValid && chg) iw cur.radixInsn c.st.nextRadixInsn) c))))

def effBody (prev cur : Record) (dw iw : Walk) (c : Ctx) : Ctx :=
  effTail prev cur iw (effHead prev cur dw iw c)

theorem WRes.bind_ok {α β} {x : WRes α} {f : α → WRes β} {b : β} (h : (x >>= f) = .ok b) :
    ∃ a, x = .ok a ∧ f a = .ok b := by
  cases x with
  | ok a => exact ⟨a, rfl, h⟩
  | abort => exact nomatch h
  | ub => exact nomatch h

/-- What the writer produced for `prev` followed by `cur`, taken apart. -/
theorem recordBytes_ok {prev cur : Record} {b : Bytes} (h : recordBytes prev cur = .ok b) :
    ∃ dw iw,
      walkIf prev.dataRaValid prev.radixData = .ok dw ∧
      walkIf (cur.insnRaValid && iarChange prev cur) cur.radixInsn = .ok iw ∧
      b = be32 prev.insn ++ be16 (recFlags prev cur) ++ be16 (recFlags2 prev cur dw iw)
        ++ putIf (dw != .none || iw != .none) (be16 (recFlags3 dw iw))
        ++ putIf (writeIsBranch prev cur) [0, 0, termCodeOf prev]
        ++ putIf prev.dataAddrValid (be64 prev.dataAddr)
        ++ walkBytes dw prev.radixData
        ++ putIf prev.dataRaValid (be32 (rpnOf prev.dataRa prev.dataPageShiftValid prev.dataPageShift))
        ++ putIf (iarChange prev cur) (be64 cur.insnAddr)
        ++ walkBytes iw cur.radixInsn
        ++ putIf (cur.insnRaValid && iarChange prev cur)
            (be32 (rpnOf cur.insnRa cur.insnPageShiftValid cur.insnPageShift))
        ++ putIf (cur.insnPageShiftValid && iarChange prev cur) (put8n cur.insnPageShift)
        ++ putIf (cur.guestInsnPageShiftValid && iarChange prev cur) (put8n cur.guestInsnPageShift)
        ++ putIf prev.dataPageShiftValid (put8n prev.dataPageShift)
        ++ putIf prev.guestDataPageShiftValid (put8n prev.guestDataPageShift) := by
  unfold recordBytes at h
  obtain ⟨dw, hdw, h⟩ := WRes.bind_ok h
  obtain ⟨iw, hiw, h⟩ := WRes.bind_ok h
  obtain ⟨dr, hdr, h⟩ := WRes.bind_ok h
  obtain ⟨ir, hir, h⟩ := WRes.bind_ok h
  refine ⟨dw, iw, hdw, hiw, ?_⟩
  rw [(putRpnIf_ok hdr).1, (putRpnIf_ok hir).1] at h
  exact (WRes.ok.inj h).symm

/-- Conditions under which the reader stays in step with the writer. -/
structure InStep (prev cur : Record) (dw iw : Walk) : Prop where
  prevShift : Spec.ShiftsOk prev
  curShift : Spec.ShiftsOk cur
  hd : walkIf prev.dataRaValid prev.radixData = .ok dw
  hi : walkIf (cur.insnRaValid && iarChange prev cur) cur.radixInsn = .ok iw
  c1 : prev.dataRaValid = true → iw ≠ .none → dw ≠ .none
  c2 : (cur.insnRaValid && iarChange prev cur) = true → dw ≠ .none → iw ≠ .none
  c3 : dw = .nested → iw = .none ∨ iw = .nested

theorem recFlags3_none : recFlags3 .none .none = 0 := rfl

theorem recFlags_has (prev cur : Record) :
    let f := recFlags prev cur
    let chg := iarChange prev cur
    let br := writeIsBranch prev cur
    has f 0x0001 = true ∧ has f 0x4000 = br ∧ has f 0x2000 = br ∧ has f 0x1000 = false ∧
    has f 0x0800 = prev.dataAddrValid ∧
    has f 0x0400 = false ∧ has f 0x0200 = prev.dataRaValid ∧ has f 0x0040 = chg ∧ has f 0x0020 = false ∧
    has f 0x0010 = (cur.insnRaValid && chg) ∧ has f 0x0008 = false ∧ has f (~~~ 0xFFF9) = false :=
  has_recFlags _ _ _ _ _

theorem recFlags2_has (prev cur : Record) (dw iw : Walk) :
    let g := recFlags2 prev cur dw iw
    let chg := iarChange prev cur
    has g 0x0001 = (dw != .none || iw != .none) ∧ has g 0x4000 = false ∧ has g 0x1000 = false ∧
    has g 0x0020 = false ∧ has g 0x0200 = (cur.insnPageShiftValid && chg) ∧
    has g 0x0100 = prev.dataPageShiftValid ∧ has g 0x0008 = (cur.guestInsnPageShiftValid && chg) ∧
    has g 0x0004 = prev.guestDataPageShiftValid ∧ has g (~~~ 0x532F) = false :=
  has_recFlags2 _ _ _ _ _ _

attribute [local irreducible] effNode effTerm effDataAddr effDataWalk effDataRpn effIar effBranch effInsnWalk effInsnRpn effInsnPage effDataPage effGuestPage recFlags recFlags2 recFlags3 has rpnOf iarChange writeIsBranch in
theorem bodySection_reads {m c prev cur dw iw} (H : InStep prev cur dw iw)
    (hdp : c.rcd.dataPageShiftValid = false)
    (w1 : c.st.wantBranch = false) (w2 : c.st.wantTlbie = false) :
    Reads bodySection m c
      (be16 (recFlags prev cur) ++ be16 (recFlags2 prev cur dw iw)
        ++ putIf (dw != .none || iw != .none) (be16 (recFlags3 dw iw))
        ++ putIf (writeIsBranch prev cur) [0, 0, termCodeOf prev]
        ++ putIf prev.dataAddrValid (be64 prev.dataAddr)
        ++ walkBytes dw prev.radixData
        ++ putIf prev.dataRaValid (be32 (rpnOf prev.dataRa prev.dataPageShiftValid prev.dataPageShift))
        ++ putIf (iarChange prev cur) (be64 cur.insnAddr)
        ++ walkBytes iw cur.radixInsn
        ++ putIf (cur.insnRaValid && iarChange prev cur)
            (be32 (rpnOf cur.insnRa cur.insnPageShiftValid cur.insnPageShift))
        ++ putIf (cur.insnPageShiftValid && iarChange prev cur) (put8n cur.insnPageShift)
        ++ putIf (cur.guestInsnPageShiftValid && iarChange prev cur) (put8n cur.guestInsnPageShift)
        ++ putIf prev.dataPageShiftValid (put8n prev.dataPageShift)
        ++ putIf prev.guestDataPageShiftValid (put8n prev.guestDataPageShift))
      () (effBody prev cur dw iw c) := by
  obtain ⟨a1, a2, a3, a4, a5, a6, a7, a8, a9, a10, a11, a12⟩ := recFlags_has prev cur
  obtain ⟨b1, b2, b3, b4, b5, b6, b7, b8, b9⟩ := recFlags2_has prev cur dw iw
  have hf3 : (dw != .none || iw != .none) = false → recFlags3 dw iw = 0 := by
    intro h
    have : dw = .none ∧ iw = .none := by simpa using h
    rw [this.1, this.2]; exact recFlags3_none
  have hbr : putIf (writeIsBranch prev cur) [0, 0, termCodeOf prev] =
      putIf (writeIsBranch prev cur) [0] ++ putIf (writeIsBranch prev cur) [0, termCodeOf prev] := by
    cases writeIsBranch prev cur <;> rfl
  have hsw := swapped_bytes (cur.guestInsnPageShiftValid && iarChange prev cur) prev.dataPageShiftValid
    cur.guestInsnPageShift prev.dataPageShift
  obtain ⟨p1, p2, p3, p4⟩ := H.prevShift
  obtain ⟨q1, q2, q3, q4⟩ := H.curShift
  rw [hbr]
  unfold bodySection
  have hfl := flagsSection_reads (m := m) (c := c) (recFlags prev cur) (recFlags2 prev cur dw iw)
    (recFlags3 dw iw) (dw != .none || iw != .none) a1 b1 hf3 a12 b9
  refine Reads.congr (b := (be16 (recFlags prev cur) ++ be16 (recFlags2 prev cur dw iw)
        ++ putIf (dw != .none || iw != .none) (be16 (recFlags3 dw iw)))
        ++ (putIf (writeIsBranch prev cur) [0]
        ++ (putIf (writeIsBranch prev cur) [0, termCodeOf prev]
        ++ (putIf prev.dataAddrValid (be64 prev.dataAddr)
        ++ (walkBytes dw prev.radixData
        ++ (putIf prev.dataRaValid (be32 (rpnOf prev.dataRa prev.dataPageShiftValid prev.dataPageShift))
        ++ (putIf (iarChange prev cur) (be64 cur.insnAddr)
        ++ (walkBytes iw cur.radixInsn
        ++ (putIf (cur.insnRaValid && iarChange prev cur)
            (be32 (rpnOf cur.insnRa cur.insnPageShiftValid cur.insnPageShift))
        ++ (putIf (cur.insnPageShiftValid && iarChange prev cur) (put8n cur.insnPageShift)
        ++ (putIf prev.dataPageShiftValid (put8n
              (if (cur.guestInsnPageShiftValid && iarChange prev cur) then cur.guestInsnPageShift
                else prev.dataPageShift))
        ++ (putIf (cur.guestInsnPageShiftValid && iarChange prev cur) (put8n
              (if prev.dataPageShiftValid then prev.dataPageShift else cur.guestInsnPageShift))
        ++ putIf prev.guestDataPageShiftValid (put8n prev.guestDataPageShift))))))))))))) ?_ ?_ rfl rfl
  · refine Reads.bind hfl ?_
    refine Reads.bind (nodeSection_reads a2) ?_
    refine Reads.bind (termSection_reads prev a3) ?_
    refine Reads.bind (dataAddrSection_reads _ a4 a5 a6) ?_
    refine Reads.bind (dataWalkSection_reads prev.dataRaValid dw iw prev.radixData a7 b1 ?_ ?_ H.c1 H.c3) ?_
    · intro h; have := H.hd; rwa [walkIf, if_pos h] at this
    · intro h; have := H.hd; rw [h] at this; simpa [walkIf] using this.symm
    refine Reads.bind (dataRpnSection_reads _ a7) ?_
    refine Reads.bind (iarSection_reads _ a8) ?_
    refine Reads.bind0 (branchSection_reads a3) ?_
    refine Reads.bind (insnWalkSection_reads (cur.insnRaValid && iarChange prev cur) dw iw cur.radixInsn
      a9 a10 b1 ?_ ?_ H.c2) ?_
    · intro h; have := H.hi; rwa [walkIf, if_pos h] at this
    · intro h; have := H.hi; rw [h] at this; simpa [walkIf] using this.symm
    refine Reads.bind (insnRpnSection_reads _ a10) ?_
    refine Reads.bind0 (regsSection_reads a11) ?_
    refine Reads.bind0 (seqSection_reads b2 b3 b4) ?_
    refine Reads.bind (insnPageSection_reads _ ?_ b5) ?_
    · intro h; have := q1 (by simp at h; exact h.1); omega
    refine Reads.bind (dataPageSection_reads _ ?_ ?_ b6) ?_
    · intro h
      split
      · rename_i hg; exact q2 (by simp at hg; exact hg.1)
      · exact p3 h
    · simp only [effNode_dataPageShiftValid, effTerm_dataPageShiftValid, effDataAddr_dataPageShiftValid,
        effDataWalk_dataPageShiftValid, effDataRpn_dataPageShiftValid, effIar_dataPageShiftValid,
        effBranch_dataPageShiftValid, effInsnWalk_dataPageShiftValid, effInsnRpn_dataPageShiftValid,
        effInsnPage_dataPageShiftValid, hdp]
    refine Reads.bindR (guestPageSection_reads _ _ ?_ ?_ b7 b8) ?_
    · intro h
      split
      · rename_i hg; have := p3 hg; omega
      · have := q2 (by simp at h; exact h.1); omega
    · intro h; have := p4 h; omega
    exact annotateSection_reads (by simp only [effNode_wantBranch, effTerm_wantBranch, effDataAddr_wantBranch, effDataWalk_wantBranch, effDataRpn_wantBranch, effIar_wantBranch, effBranch_wantBranch, effInsnWalk_wantBranch, effInsnRpn_wantBranch, effInsnPage_wantBranch, effDataPage_wantBranch, effGuestPage_wantBranch, w1]) (by simp only [effNode_wantTlbie, effTerm_wantTlbie, effDataAddr_wantTlbie, effDataWalk_wantTlbie, effDataRpn_wantTlbie, effIar_wantTlbie, effBranch_wantTlbie, effInsnWalk_wantTlbie, effInsnRpn_wantTlbie, effInsnPage_wantTlbie, effDataPage_wantTlbie, effGuestPage_wantTlbie, w2])
  · simp only [List.append_assoc]
    rw [← List.append_assoc (putIf prev.dataPageShiftValid _), ← hsw]
    simp only [List.append_assoc]

/-- Effect of qtreader.c:706-725 on the context. -/
def effInsn (insn : BitVec 32) (c : Ctx) : Ctx :=
  { st := { c.st with suffix := if c.st.prefixed then insn else c.st.suffix
                      prefixed := insn >>> 26 == 1 }
    rcd := { c.rcd with
      insn := insn
      insnRaValid := c.st.insnRpnValid || c.rcd.insnRaValid
      insnRa := if c.st.insnRpnValid then
          raOf c.st.insnRpn (shiftOr16 c.st.insnPageShiftValid c.st.insnPageShift) c.rcd.insnAddr
        else c.rcd.insnRa } }

theorem insnRaSection_reads {m c}
    (h : c.st.insnRpnValid = true → shiftOr16 c.st.insnPageShiftValid c.st.insnPageShift < 64) :
    Reads insnRaSection m c [] ()
      { c with rcd := { c.rcd with
        insnRaValid := c.st.insnRpnValid || c.rcd.insnRaValid
        insnRa := if c.st.insnRpnValid then
          raOf c.st.insnRpn (shiftOr16 c.st.insnPageShiftValid c.st.insnPageShift) c.rcd.insnAddr
        else c.rcd.insnRa } } := by
  unfold insnRaSection
  refine Reads.getCtx_bind (fun _ => rfl) ?_
  cases hv : c.st.insnRpnValid
  · exact Reads.when_false rfl
  · refine Reads.when_true rfl ?_
    exact Reads.bind0 (Reads.combineRa _ _ _ (h hv)) Reads.modRec

theorem insnSection_reads {m c} (insn : BitVec 32) :
    Reads insnSection m c (be32 insn) ()
      { st := { c.st with suffix := if c.st.prefixed then insn else c.st.suffix
                          prefixed := insn >>> 26 == 1 }
        rcd := { c.rcd with insn := insn } } := by
  refine Reads.bindR (Reads.get32 insn) ?_
  refine Reads.bind0 Reads.modRec ?_
  exact (Reads.modSt (fun _ _ => rfl))

/-- The context after reading back `prev` followed by `cur` from reader state `s`. -/
def recOut (s : RState) (prev cur : Record) (dw iw : Walk) : Ctx :=
  effBody prev cur dw iw (effInsn prev.insn (applyNext { st := s, rcd := .zero }))

theorem applyNext_at (c : Ctx) (p : Nat) : applyNext (c.at p) = (applyNext c).at p := by
  unfold applyNext Ctx.at RState.at
  by_cases h1 : c.st.nextInsnRpnValid = true <;> by_cases h2 : c.st.nextInsnPageShiftValid = true <;>
    by_cases h3 : c.st.nextRadixInsn.nrPtes = 0 <;> by_cases h4 : c.st.nextGuestInsnPageShiftValid = true <;>
    simp [h1, h2, h3, h4]

theorem applyNext_reads {m} (c : Ctx) : Reads (fun _ c => .ok () (applyNext c) : Rd Unit) m c [] ()
    (applyNext c) := by
  intro p rest _
  show Out.ok () (applyNext (c.at p)) = _
  rw [applyNext_at]; rfl

/-! Closed forms of the fields `applyNext` computes. -/
section
variable (s : RState)
theorem applyNext_zero :
    applyNext { st := s, rcd := .zero } =
      { st := { s with
          insnRpnValid := s.nextInsnRpnValid || s.insnRpnValid
          insnRpn := if s.nextInsnRpnValid then s.nextInsnRpn else s.insnRpn
          insnPageShiftValid := s.nextInsnPageShiftValid || s.insnPageShiftValid
          insnPageShift := if s.nextInsnPageShiftValid then s.nextInsnPageShift else s.insnPageShift
          radixInsn := if s.nextRadixInsn.nrPtes ≠ 0 then s.nextRadixInsn else s.radixInsn
          guestInsnPageShiftValid := s.nextGuestInsnPageShiftValid || s.guestInsnPageShiftValid
          guestInsnPageShift :=
            if s.nextGuestInsnPageShiftValid then s.nextGuestInsnPageShift else s.guestInsnPageShift }
        rcd := { Record.zero with
          insnAddr := s.nextInsnAddr
          insnPageShiftValid := s.nextInsnPageShiftValid || s.insnPageShiftValid
          insnPageShift := if s.nextInsnPageShiftValid || s.insnPageShiftValid then
            (if s.nextInsnPageShiftValid then s.nextInsnPageShift else s.insnPageShift) else 0
          radixInsn := if s.nextRadixInsn.nrPtes ≠ 0 then s.nextRadixInsn else
            if s.radixInsn.nrPtes ≠ 0 then s.radixInsn else {}
          guestInsnPageShiftValid := s.nextGuestInsnPageShiftValid || s.guestInsnPageShiftValid
          guestInsnPageShift := if s.nextGuestInsnPageShiftValid || s.guestInsnPageShiftValid then
            (if s.nextGuestInsnPageShiftValid then s.nextGuestInsnPageShift else s.guestInsnPageShift)
            else 0 } } := by
  unfold applyNext
  by_cases h1 : s.nextInsnRpnValid = true <;> by_cases h2 : s.nextInsnPageShiftValid = true <;>
    by_cases h3 : s.nextRadixInsn.nrPtes = 0 <;> by_cases h4 : s.nextGuestInsnPageShiftValid = true <;>
    by_cases h5 : s.insnPageShiftValid = true <;> by_cases h6 : s.guestInsnPageShiftValid = true <;>
    by_cases h7 : s.radixInsn.nrPtes = 0 <;>
    (cases s; simp_all [Record.zero])
end

/-- State conditions under which reading one record cannot fail. -/
structure Ready (s : RState) : Prop where
  w1 : s.wantBranch = false
  w2 : s.wantTlbie = false
  p1 : s.insnPageShiftValid = true → s.insnPageShift < 64
  p2 : s.nextInsnPageShiftValid = true → s.nextInsnPageShift < 64

theorem readOne_reads {m s prev cur dw iw} (H : InStep prev cur dw iw) (R : Ready s) {b : Bytes}
    (hb : recordBytes prev cur = .ok b) :
    Reads readOne m { st := s, rcd := .zero } b () (recOut s prev cur dw iw) := by
  obtain ⟨dw', iw', hd, hi, rfl⟩ := recordBytes_ok hb
  obtain rfl : dw = dw' := WRes.ok.inj (H.hd.symm.trans hd)
  obtain rfl : iw = iw' := WRes.ok.inj (H.hi.symm.trans hi)
  unfold readOne recOut
  refine Reads.bind0 (applyNext_reads _) ?_
  have hz := applyNext_zero s
  refine Reads.bind0 (insnRaSection_reads ?_) ?_
  · rw [hz]
    intro _
    have := R.p1
    have := R.p2
    simp only [shiftOr16]
    split
    · rename_i h; simp at h; grind
    · omega
  simp only [List.append_assoc]
  refine Reads.bind (insnSection_reads prev.insn) ?_
  have := bodySection_reads (m := m) (c := effInsn prev.insn (applyNext { st := s, rcd := .zero })) H
    (by rw [hz]; rfl) (by rw [hz]; exact R.w1) (by rw [hz]; exact R.w2)
  simp only [List.append_assoc] at this
  exact this

end Qt
