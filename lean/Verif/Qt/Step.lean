import Verif.Qt.Sections
/-! Helper lemmas: reading back one record stored by the writer. -/
namespace Qt

/-- `(rpn << p) | (ea & ((1 << p) - 1))`. -/
def raOf (rpn : BitVec 32) (p : Nat) (ea : BitVec 64) : BitVec 64 :=
  ((rpn.setWidth 64) <<< p) ||| (ea &&& ((1#64 <<< p) - 1))

def shiftOr16 (valid : Bool) (s : Nat) : Nat := if valid then s % 256 else 16

/-- The 32-bit page number stored for a real address. -/
def rpnOf (ra : BitVec 64) (valid : Bool) (s : Nat) : BitVec 32 := (ra >>> shiftOr16 valid s).setWidth 32

theorem Reads.combineRa {m c} (rpn p ea) (hp : p < 64) : Reads (combineRa rpn p ea) m c [] (raOf rpn p ea) c := by
  unfold Qt.combineRa
  rw [if_pos hp]
  exact Reads.pure _ _ _

theorem rpnBytes_ok {ra v s b} (h : rpnBytes ra v s = .ok b) :
    b = be32 (rpnOf ra v s) ∧ shiftOr16 v s < 64 := by
  unfold rpnBytes at h
  simp only [rpnOf, shiftOr16]
  cases v <;> grind

theorem putRpnIf_ok {c ra v s b} (h : putRpnIf c ra v s = .ok b) :
    b = putIf c (be32 (rpnOf ra v s)) ∧ (c = true → shiftOr16 v s < 64) := by
  unfold putRpnIf at h
  cases c
  · simp at h; simp [putIf, h]
  · simp only [if_true] at h
    have := rpnBytes_ok h
    simp [putIf, this]

/-! ### Effects of the sections on the context, field by field -/

def effNode (br : Bool) (c : Ctx) : Ctx :=
  { c with rcd := { c.rcd with nodeValid := br || c.rcd.nodeValid, node := if br then 0 else c.rcd.node } }

theorem nodeSection_reads {m c f br} (h : has f 0x4000 = br) :
    Reads (nodeSection f) m c (putIf br [0]) () (effNode br c) := by
  unfold nodeSection
  refine Reads.when h ?_ ?_
  · rintro rfl
    exact Reads.bindR (Reads.get8 0) Reads.modRec
  · rintro rfl; rfl

def effTerm (br : Bool) (prev : Record) (c : Ctx) : Ctx :=
  { c with rcd := { c.rcd with
      branch := br || c.rcd.branch
      termNode := if br then 0 else c.rcd.termNode
      termCode := if br then termCodeOf prev else c.rcd.termCode
      conditionalBranch := if br then prev.branch && prev.conditionalBranch else c.rcd.conditionalBranch } }

theorem termSection_reads {m c f br} (prev : Record) (h : has f 0x2000 = br) :
    Reads (termSection f) m c (putIf br [0, termCodeOf prev]) () (effTerm br prev c) := by
  unfold termSection
  refine Reads.when h ?_ ?_
  · rintro rfl
    refine Reads.bind (b₁ := [0]) (Reads.get8 0) (Reads.bindR (Reads.get8 _) ?_)
    refine Reads.bind0 Reads.modRec ?_
    have ht : Reads (termCheck (termCodeOf prev)) m
        { c with rcd := { c.rcd with branch := true, termNode := 0, termCode := termCodeOf prev } } [] ()
        { c with rcd := { c.rcd with branch := true, termNode := 0, termCode := termCodeOf prev,
                                     conditionalBranch := prev.branch && prev.conditionalBranch } } := by
      unfold termCheck
      by_cases h1 : termCodeOf prev = 0x40 ∨ termCodeOf prev = 0x80
      · rw [if_pos h1]
        refine Reads.modRec.congr rfl rfl ?_
        unfold termCodeOf at h1
        cases hb : prev.branch <;> cases hc : prev.conditionalBranch <;> simp [hb, hc] at h1 ⊢
      · have h2 : termCodeOf prev = 0x08 ∨ termCodeOf prev = 0x10 := by
          unfold termCodeOf at h1 ⊢
          cases hb : prev.branch <;> cases hc : prev.conditionalBranch <;> simp [hb, hc] at h1 ⊢
        rw [if_neg h1, if_pos h2]
        refine Reads.modRec.congr rfl rfl ?_
        unfold termCodeOf at h2
        cases hb : prev.branch <;> cases hc : prev.conditionalBranch <;> simp [hb, hc] at h2 ⊢
    exact ht
  · rintro rfl; rfl

def effDataAddr (g : Bool) (a : BitVec 64) (c : Ctx) : Ctx :=
  { c with rcd := { c.rcd with dataAddrValid := g || c.rcd.dataAddrValid
                               dataAddr := if g then a else c.rcd.dataAddr } }

theorem dataAddrSection_reads {m c f g} (a : BitVec 64) (h1 : has f 0x1000 = false) (h : has f 0x0800 = g)
    (h2 : has f 0x0400 = false) :
    Reads (dataAddrSection f) m c (putIf g (be64 a)) () (effDataAddr g a c) := by
  unfold dataAddrSection
  refine Reads.bind0 (Reads.when_false h1) (Reads.bindR (Reads.when h ?_ ?_) (Reads.when_false h2))
  · rintro rfl
    exact Reads.bindR (Reads.get64 a) Reads.modRec
  · rintro rfl; rfl

def effDataWalk (x : Radix) (c : Ctx) : Ctx := { c with rcd := { c.rcd with radixData := x } }

/-- Result of the data walk section. -/
def dataWalkOut (g : Bool) (dw iw : Walk) (x x0 : Radix) : Radix :=
  if g then walkOut dw (getRadixType 14 12 (recFlags3 dw iw)) x x0 else x0

theorem dataWalkSection_reads {m c f f2} (g : Bool) (dw iw : Walk) (x : Radix) (hg : has f 0x0200 = g)
    (h2 : has f2 0x0001 = (dw != .none || iw != .none))
    (hd : g = true → radixWalk x = .ok dw) (hd0 : g = false → dw = .none)
    (hc : g = true → iw ≠ .none → dw ≠ .none)
    (hn : dw = .nested → iw = .none ∨ iw = .nested) :
    Reads (dataWalkSection f f2 (recFlags3 dw iw)) m c (walkBytes dw x) ()
      (effDataWalk (dataWalkOut g dw iw x c.rcd.radixData) c) := by
  unfold dataWalkSection
  rw [hg, h2]
  cases g
  · rw [hd0 rfl]
    exact Reads.when_false rfl
  · by_cases hdn : dw = .none
    · have : iw = .none := Classical.byContradiction fun hi => hc rfl hi hdn
      subst hdn this
      exact Reads.when_false rfl
    · have : (dw != .none || iw != .none) = true := by simp [hdn]
      rw [this]
      refine Reads.when_true rfl ?_
      refine Reads.getCtx_bind (fun _ => rfl) ?_
      have hw := walkSection_reads (m := m) (c := c) (hs := 14) (gs := 12) (st := true)
        (f3 := recFlags3 dw iw) dw x c.rcd.radixData (hd rfl) hdn ?_ ?_
      · exact Reads.bindR hw Reads.modRec
      · cases dw with
        | none => cases iw with
          | none => decide
          | single b => cases b <;> decide
          | nested => decide
        | single a => cases iw with
          | none => cases a <;> decide
          | single b => cases a <;> cases b <;> decide
          | nested => cases a <;> decide
        | nested => cases iw with
          | none => decide
          | single b => cases b <;> decide
          | nested => decide
      · cases dw with
        | none => exact absurd rfl hdn
        | single a => cases iw with
          | none => cases a <;> decide
          | single b => cases a <;> cases b <;> decide
          | nested => cases a <;> decide
        | nested =>
          cases hn rfl with
          | inl h => subst h; decide
          | inr h => subst h; decide

def effDataRpn (g : Bool) (v : BitVec 32) (c : Ctx) : Ctx :=
  { c with st := { c.st with dataRpnValid := g, dataRpn := if g then v else c.st.dataRpn } }

theorem dataRpnSection_reads {m c f g} (v : BitVec 32) (h : has f 0x0200 = g) :
    Reads (dataRpnSection f) m c (putIf g (be32 v)) () (effDataRpn g v c) := by
  unfold dataRpnSection
  rw [h]
  cases g
  · simp only [Bool.false_eq_true, if_false]
    exact Reads.modSt (fun _ _ => rfl)
  · exact Reads.bindR (Reads.get32 v) (Reads.modSt (fun _ _ => rfl))

def effIar (g : Bool) (v : BitVec 64) (c : Ctx) : Ctx :=
  let n := if g then v else c.st.nextInsnAddr + 4
  { st := { c.st with nextInsnAddr := n }, rcd := { c.rcd with nextInsnAddr := n } }

theorem iarSection_reads {m c f g} (v : BitVec 64) (h : has f 0x0040 = g) :
    Reads (iarSection f) m c (putIf g (be64 v)) () (effIar g v c) := by
  have e1 : Reads (iarFetch f) m c (putIf g (be64 v)) ()
      { c with st := { c.st with nextInsnAddr := if g then v else c.st.nextInsnAddr + 4 } } := by
    unfold iarFetch
    rw [h]
    cases g
    · simp only [Bool.false_eq_true, if_false]
      exact Reads.modSt (fun _ _ => rfl)
    · exact Reads.bindR (Reads.get64 v) (Reads.modSt (fun _ _ => rfl))
  exact Reads.bindR e1 (Reads.getCtx_bind (fun _ => rfl) Reads.modRec)

def effBranch (br : Bool) (c : Ctx) : Ctx :=
  { c with rcd := { c.rcd with
      branchTaken := if br then c.st.nextInsnAddr != c.rcd.insnAddr + 4 else c.rcd.branchTaken
      branch := c.rcd.branch || (!br && isConditionalBranch c.rcd.insn)
      conditionalBranch :=
        if br then (if isUnconditionalBranch c.rcd.insn then false else c.rcd.conditionalBranch)
        else c.rcd.conditionalBranch || isConditionalBranch c.rcd.insn } }

theorem branchSection_reads {m c f br} (h : has f 0x2000 = br) :
    Reads (branchSection f) m c [] () (effBranch br c) := by
  unfold branchSection
  refine Reads.getCtx_bind (fun _ => rfl) ?_
  rw [h]
  cases br
  · simp only [Bool.false_eq_true, if_false]
    cases hi : isConditionalBranch c.rcd.insn
    · simp only [Bool.false_eq_true, if_false]
      refine (Reads.pure () m c).congr rfl rfl ?_
      simp [effBranch, hi]
    · simp only [if_true]
      refine Reads.modRec.congr rfl rfl ?_
      simp [effBranch, hi]
  · simp only [if_true]
    refine Reads.modRec.congr rfl rfl ?_
    simp [effBranch]

def effInsnWalk (x : Radix) (c : Ctx) : Ctx := { c with st := { c.st with nextRadixInsn := x } }

def insnWalkOut (g : Bool) (iw : Walk) (x x0 : Radix) : Radix := if g then walkOut iw x0.type x x0 else x0

theorem insnWalkSection_reads {m c f f2} (g : Bool) (dw iw : Walk) (x : Radix) (hv : has f 0x0020 = false)
    (hg : has f 0x0010 = g)
    (h2 : has f2 0x0001 = (dw != .none || iw != .none))
    (hd : g = true → radixWalk x = .ok iw) (hd0 : g = false → iw = .none)
    (hc : g = true → dw ≠ .none → iw ≠ .none) :
    Reads (insnWalkSection f f2 (recFlags3 dw iw)) m c (walkBytes iw x) ()
      (effInsnWalk (insnWalkOut g iw x c.st.nextRadixInsn) c) := by
  unfold insnWalkSection
  refine Reads.bind0 (Reads.when_false hv) ?_
  rw [hg, h2]
  cases g
  · rw [hd0 rfl]
    exact Reads.when_false rfl
  · by_cases hin : iw = .none
    · have : dw = .none := Classical.byContradiction fun hi => hc rfl hi hin
      subst hin this
      exact Reads.when_false rfl
    · have : (dw != .none || iw != .none) = true := by simp [hin]
      rw [this]
      refine Reads.when_true rfl ?_
      refine Reads.getCtx_bind (fun _ => rfl) ?_
      have hw := walkSection_reads (m := m) (c := c) (hs := 10) (gs := 8) (st := false)
        (f3 := recFlags3 dw iw) iw x c.st.nextRadixInsn (hd rfl) hin ?_ ?_
      · exact Reads.bindR hw (Reads.modSt (fun _ _ => rfl))
      · cases dw with
        | none => cases iw with
          | none => decide
          | single b => cases b <;> decide
          | nested => decide
        | single a => cases iw with
          | none => cases a <;> decide
          | single b => cases a <;> cases b <;> decide
          | nested => cases a <;> decide
        | nested => cases iw with
          | none => decide
          | single b => cases b <;> decide
          | nested => decide
      · cases iw with
        | none => exact absurd rfl hin
        | single a => cases dw with
          | none => cases a <;> decide
          | single b => cases a <;> cases b <;> decide
          | nested => cases a <;> decide
        | nested => cases dw with
          | none => decide
          | single b => cases b <;> decide
          | nested => decide

def effInsnRpn (g : Bool) (v : BitVec 32) (c : Ctx) : Ctx :=
  { c with st := { c.st with nextInsnRpnValid := g, nextInsnRpn := if g then v else c.st.nextInsnRpn } }

theorem insnRpnSection_reads {m c f g} (v : BitVec 32) (h : has f 0x0010 = g) :
    Reads (insnRpnSection f) m c (putIf g (be32 v)) () (effInsnRpn g v c) := by
  unfold insnRpnSection
  rw [h]
  cases g
  · simp only [Bool.false_eq_true, if_false]
    exact Reads.modSt (fun _ _ => rfl)
  · exact Reads.bindR (Reads.get32 v) (Reads.modSt (fun _ _ => rfl))

theorem regsSection_reads {m c f} (h : has f 0x0008 = false) : Reads (regsSection f) m c [] () c :=
  Reads.when_false h

theorem seqSection_reads {m c f2} (h1 : has f2 0x4000 = false) (h2 : has f2 0x1000 = false)
    (h3 : has f2 0x0020 = false) : Reads (seqSection f2) m c [] () c :=
  Reads.bind0 (Reads.when_false h1) (Reads.bind0 (Reads.when_false h2) (Reads.when_false h3))

def effInsnPage (g : Bool) (v : Nat) (c : Ctx) : Ctx :=
  { c with st := { c.st with nextInsnPageShiftValid := g
                             nextInsnPageShift := if g then v else c.st.nextInsnPageShift } }

theorem insnPageSection_reads {m c f2 g} (v : Nat) (hv : g = true → v < 256) (h : has f2 0x0200 = g) :
    Reads (insnPageSection f2) m c (putIf g (put8n v)) () (effInsnPage g v c) := by
  unfold insnPageSection
  rw [h]
  cases g
  · simp only [Bool.false_eq_true, if_false]
    exact Reads.modSt (fun _ _ => rfl)
  · exact Reads.bindR (Reads.get8n v (hv rfl)) (Reads.modSt (fun _ _ => rfl))

def effDataPage (g : Bool) (v : Nat) (c : Ctx) : Ctx :=
  let sv := g || c.rcd.dataPageShiftValid
  let sh := if g then v else c.rcd.dataPageShift
  { c with rcd := { c.rcd with
      dataPageShiftValid := sv
      dataPageShift := sh
      dataRaValid := c.st.dataRpnValid || c.rcd.dataRaValid
      dataRa := if c.st.dataRpnValid then
          raOf c.st.dataRpn (shiftOr16 sv sh) (if c.rcd.dataAddrValid then c.rcd.dataAddr else 0)
        else c.rcd.dataRa } }

theorem dataPageSection_reads {m c f2 g} (v : Nat) (hv : g = true → v < 64)
    (h0 : c.rcd.dataPageShiftValid = false) (h : has f2 0x0100 = g) :
    Reads (dataPageSection f2) m c (putIf g (put8n v)) () (effDataPage g v c) := by
  unfold dataPageSection
  have h1 : Reads (whenR (has f2 0x0100) do
      let v ← get8n
      modRec fun r => { r with dataPageShiftValid := true, dataPageShift := v }) m c (putIf g (put8n v)) ()
      { c with rcd := { c.rcd with
        dataPageShiftValid := g || c.rcd.dataPageShiftValid
        dataPageShift := if g then v else c.rcd.dataPageShift } } := by
    refine Reads.when h ?_ ?_
    · rintro rfl
      exact Reads.bindR (Reads.get8n v (by have := hv rfl; omega)) Reads.modRec
    · rintro rfl; rfl
  refine Reads.bindR h1 ?_
  refine Reads.getCtx_bind (fun _ => rfl) ?_
  simp only
  cases hr : c.st.dataRpnValid
  · refine (Reads.when_false rfl).congr rfl rfl ?_
    simp [effDataPage, hr]
  · refine Reads.when_true rfl ?_
    refine Reads.bind0 (Reads.combineRa _ _ _ ?_) (Reads.modRec.congr rfl rfl ?_)
    · cases g
      · simp [h0]
      · have := hv rfl
        simp; omega
    · simp [effDataPage, hr, shiftOr16]

def effGuestPage (g : Bool) (v : Nat) (g2 : Bool) (v2 : Nat) (c : Ctx) : Ctx :=
  { st := { c.st with nextGuestInsnPageShiftValid := g
                      nextGuestInsnPageShift := if g then v else c.st.nextGuestInsnPageShift }
    rcd := { c.rcd with guestDataPageShiftValid := g2 || c.rcd.guestDataPageShiftValid
                        guestDataPageShift := if g2 then v2 else c.rcd.guestDataPageShift } }

theorem guestPageSection_reads {m c f2 g g2} (v v2 : Nat) (hv : g = true → v < 256)
    (hv2 : g2 = true → v2 < 256) (h : has f2 0x0008 = g) (h2 : has f2 0x0004 = g2) :
    Reads (guestPageSection f2) m c (putIf g (put8n v) ++ putIf g2 (put8n v2)) ()
      (effGuestPage g v g2 v2 c) := by
  have e1 : Reads (guestInsnPage f2) m c (putIf g (put8n v)) () (effGuestPage g v false 0 c) := by
    unfold guestInsnPage
    rw [h]
    cases g
    · simp only [Bool.false_eq_true, if_false]
      exact Reads.modSt (fun _ _ => rfl)
    · exact Reads.bindR (Reads.get8n v (hv rfl)) (Reads.modSt (fun _ _ => rfl))
  refine Reads.bind e1 (Reads.when h2 ?_ ?_)
  · rintro rfl
    exact Reads.bindR (Reads.get8n v2 (hv2 rfl)) Reads.modRec
  · rintro rfl; rfl

theorem annotateSection_reads {m c} (h1 : c.st.wantBranch = false) (h2 : c.st.wantTlbie = false) :
    Reads annotateSection m c [] () c := by
  unfold annotateSection
  refine Reads.getCtx_bind (fun _ => rfl) ?_
  refine Reads.bind0 (Reads.when_false (by simp [h1])) ?_
  refine Reads.getCtx_bind (fun _ => rfl) ?_
  exact Reads.when_false h2

/-- The writer stores the guest instruction and data page shifts in the opposite order to the one in which
the reader fetches them. -/
theorem swapped_bytes (g d : Bool) (a b : Nat) :
    putIf g (put8n a) ++ putIf d (put8n b) =
      putIf d (put8n (if g then a else b)) ++ putIf g (put8n (if d then b else a)) := by
  cases g <;> cases d <;> simp [putIf]

end Qt
