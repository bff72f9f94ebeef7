import Verif.Dis.Frame
import Verif.Dis.Model
import Verif.Dis.Spec
import Verif.Qt.ReaderFrame

/-! # Helper lemmas for the disassembly listing -/

namespace Dis
open Qt DisSpec

theorem isPrefix_iff (w : BitVec 32) : (w >>> 26 == 1) = decide (IsPrefix w) := by
  rw [Bool.eq_iff_iff, beq_iff_eq, decide_eq_true_iff]
  unfold IsPrefix
  constructor
  · intro h
    have := congrArg BitVec.toNat h
    simpa [Nat.shiftRight_eq_div_pow] using this
  · intro h
    apply BitVec.eq_of_toNat_eq
    simpa [Nat.shiftRight_eq_div_pow] using h

/-! ## The data side of a record -/

def raKey (c : Ctx) : Bool := c.rcd.dataRaValid
instance : PosFree raKey := ⟨fun _ _ => rfl⟩

def dataKey (c : Ctx) : (BitVec 32 × Bool) × (BitVec 64 × Bool) × (BitVec 64 × Bool) × Nat × Bool :=
  ((c.st.dataRpn, c.st.dataRpnValid), (c.rcd.dataRa, c.rcd.dataRaValid), (c.rcd.dataAddr, c.rcd.dataAddrValid),
    c.rcd.dataPageShift, c.rcd.dataPageShiftValid)
instance : PosFree dataKey := ⟨fun _ _ => rfl⟩

macro "keepr" : tactic => `(tactic| repeat' (first
  | exact kget8 | exact kget16 | exact kget32 | exact kget64 | exact kskip _ | exact kget8n
  | exact kbump _ | exact kwalk _ _ _ _ _ | exact kregs | exact kcombine _ _ _ | assumption
  | exact kpure _ | exact kgetCtx | exact kthrow _
  | exact kmodSt (fun _ => rfl)
  | exact kmodRec (fun _ => rfl)
  | exact kmodSt (fun c => by cases hv : c.st.nextInsnRpnValid <;> simp only [hv, raKey, dataKey] <;> rfl)
  | apply kwhen | apply kite | refine kbind ?_ (fun _ => ?_)))

theorem rheader : KeepK raKey parseHeader := by
  unfold Qt.parseHeader
  refine kbind (by unfold Qt.headerFlags; keepr) fun a => ?_
  obtain ⟨f2, f3, h⟩ := a
  exact kbind (by unfold Qt.headerIds; keepr) fun _ => kbind (by unfold Qt.headerWalk; keepr) fun _ =>
    kbind (by unfold Qt.headerPages; keepr) fun _ => by unfold Qt.headerTail; keepr

theorem rpeek : KeepK raKey peekInsn := by intro m c a c' h; cases h; rfl

theorem rheaders : ∀ fuel, KeepK raKey (skipHeaders fuel)
  | 0 => kthrow _
  | fuel + 1 => by
    unfold Qt.skipHeaders
    exact kbind rpeek fun _ => kbind kgetCtx fun _ => kite (kbind rheader fun _ => rheaders fuel) (kpure _)

theorem applyNext_ra (c : Ctx) : (applyNext c).rcd.dataRaValid = c.rcd.dataRaValid := by
  unfold applyNext
  dsimp only
  simp only [apply_ite Record.dataRaValid, ite_self]

/-- The sections between the next instruction address and the page size of the data. -/
def bodyMid (f f2 f3 : BitVec 16) : Rd Unit := do
  branchSection f
  insnWalkSection f f2 f3
  insnRpnSection f
  regsSection f
  seqSection f2
  insnPageSection f2

theorem back_split (f f2 f3) : bodyBack f f2 f3 = bodyMid f f2 f3 >>= fun _ => dataPageSection f2 >>= fun _ => guestPageSection f2 := by
  unfold bodyBack bodyMid
  simp only [Rd.bind_assoc]

theorem rfront (f f2 f3) : KeepK raKey (bodyFront f f2 f3) := by
  unfold bodyFront nodeSection termSection termCheck dataAddrSection dataWalkSection dataRpnSection; keepr
theorem rmid (f f2 f3) : KeepK raKey (bodyMid f f2 f3) := by
  unfold bodyMid branchSection insnWalkSection insnRpnSection regsSection seqSection insnPageSection; keepr
theorem dguest (f2) : KeepK dataKey (guestPageSection f2) := by
  unfold guestPageSection guestInsnPage; keepr

/-- The real address of a data access, as computed at the end of a record. -/
def dataReal (c : Ctx) : BitVec 64 :=
  let p := if c.rcd.dataPageShiftValid then c.rcd.dataPageShift % 256 else 16
  (c.st.dataRpn.setWidth 64 <<< p) ||| ((if c.rcd.dataAddrValid then c.rcd.dataAddr else 0) &&& ((1#64 <<< p) - 1))

theorem dataPage_out {f2 : BitVec 16} {m : Mem} {c c' : Ctx} (h : dataPageSection f2 m c = .ok () c')
    (h0 : c.rcd.dataRaValid = false) :
    c'.rcd.dataRaValid = c'.st.dataRpnValid ∧ (c'.st.dataRpnValid = true → c'.rcd.dataRa = dataReal c') := by
  unfold dataPageSection at h
  obtain ⟨_, c1, h1, h⟩ := Rd.bind_inv h
  obtain ⟨_, c2, h2, h⟩ := Rd.bind_inv h
  cases h2
  have k1 : raKey c1 = raKey c := by
    refine (show KeepK raKey (whenR (has f2 0x0100) (do
      let v ← get8n
      modRec fun r => { r with dataPageShiftValid := true, dataPageShift := v })) from ?_) _ _ _ _ h1
    keepr
  have k1' : c1.rcd.dataRaValid = false := k1.trans h0
  cases hv : c1.st.dataRpnValid with
  | false =>
    rw [hv] at h
    cases h
    exact ⟨k1'.trans hv.symm, fun e => by rw [hv] at e; cases e⟩
  | true =>
    rw [hv] at h
    obtain ⟨ra, c3, h3, h⟩ := Rd.bind_inv (show (combineRa _ _ _ >>= fun _ => _) m _ = _ from h)
    cases h
    unfold combineRa at h3
    by_cases hp : (if c1.rcd.dataPageShiftValid then c1.rcd.dataPageShift % 256 else 16) < 64
    · rw [if_pos hp] at h3
      cases h3
      exact ⟨hv.symm, fun _ => rfl⟩
    · rw [if_neg hp] at h3
      cases h3

theorem nextRecord_data {m : Mem} {s : RState} {c : Ctx} (h : nextRecord m s = .ok () c) (hb : s.wantBranch = false)
    (ht : s.wantTlbie = false) :
    c.rcd.dataRaValid = c.st.dataRpnValid ∧ (c.st.dataRpnValid = true → c.rcd.dataRa = dataReal c) := by
  obtain ⟨-, -, -, -, -⟩ := nextRecord_words h hb ht
  unfold nextRecord nextRecordRd at h
  obtain ⟨_, c1, h1, h⟩ := Rd.bind_inv h
  cases h1
  obtain ⟨_, c2, h2, h⟩ := Rd.bind_inv h
  have w2 := kheaders _ _ _ _ _ h2
  have r2 := rheaders _ _ _ _ _ h2
  unfold readOne at h
  obtain ⟨_, c3, h3, h⟩ := Rd.bind_inv h
  have w3 := kapply m _ _ _ h3
  have r3 : raKey c3 = raKey c2 := by cases h3; exact applyNext_ra _
  obtain ⟨_, c4, h4, h⟩ := Rd.bind_inv h
  have w4 : wordKey c4 = wordKey c3 := by
    refine (show KeepK wordKey insnRaSection from ?_) _ _ _ _ h4
    unfold insnRaSection; keepk
  have r4 : raKey c4 = raKey c3 := by
    refine (show KeepK raKey insnRaSection from ?_) _ _ _ _ h4
    unfold insnRaSection; keepr
  obtain ⟨_, c5, h5, h⟩ := Rd.bind_inv h
  have w5 : c5.st.wantBranch = c4.st.wantBranch ∧ c5.st.wantTlbie = c4.st.wantTlbie := by
    unfold insnSection at h5
    obtain ⟨w, c6, h6, h5⟩ := Rd.bind_inv h5
    obtain ⟨_, c7, h7, h5⟩ := Rd.bind_inv h5
    have k6 := kget32 (K := wordKey) _ _ _ _ h6
    unfold wordKey at k6
    simp only [Prod.mk.injEq] at k6
    cases h7; cases h5
    exact ⟨k6.2.2.2.1, k6.2.2.2.2⟩
  have r5 : raKey c5 = raKey c4 := by
    refine (show KeepK raKey insnSection from ?_) _ _ _ _ h5
    unfold insnSection; keepr
  rw [body_split] at h
  obtain ⟨x, d1, g1, h⟩ := Rd.bind_inv h
  obtain ⟨_, d2, g2, h⟩ := Rd.bind_inv h
  obtain ⟨_, d3, g3, h⟩ := Rd.bind_inv h
  obtain ⟨_, d4, g4, h⟩ := Rd.bind_inv h
  have q1 : raKey d1 = raKey c5 := by
    refine (show KeepK raKey flagsSection from ?_) _ _ _ _ g1
    unfold flagsSection; keepr
  have q2 := rfront _ _ _ _ _ _ _ g2
  have q3 : raKey d3 = raKey d2 := by
    refine (show KeepK raKey (iarSection x.1) from ?_) _ _ _ _ g3
    unfold iarSection iarFetch; keepr
  have ww : wordKey d4 = wordKey c5 :=
    (kback _ _ _ _ _ _ _ g4).trans ((kiar _ _ _ _ _ g3).trans ((kfront _ _ _ _ _ _ _ g2).trans (kflags _ _ _ _ g1)))
  rw [back_split] at g4
  obtain ⟨_, e1, j1, g4⟩ := Rd.bind_inv g4
  obtain ⟨_, e2, j2, j3⟩ := Rd.bind_inv g4
  have q4 := rmid _ _ _ _ _ _ _ j1
  have zero : e1.rcd.dataRaValid = false := by
    have : raKey e1 = false := by
      rw [q4, q3, q2, q1, r5, r4, r3, r2]; rfl
    exact this
  have D := dataPage_out j2 zero
  have k := dguest _ _ _ _ _ j3
  unfold wordKey at w2 w3 w4 ww
  simp only [Prod.mk.injEq] at w2 w3 w4 ww
  have e := annotate_off h (by rw [ww.2.2.2.1, w5.1, w4.2.2.2.1, w3.2.2.2.1, w2.2.2.2.1]; exact hb)
    (by rw [ww.2.2.2.2, w5.2, w4.2.2.2.2, w3.2.2.2.2, w2.2.2.2.2]; exact ht)
  subst e
  unfold dataKey at k
  simp only [Prod.mk.injEq] at k
  obtain ⟨⟨k1, k2⟩, ⟨k3, k4⟩, ⟨k5, k6⟩, k7, k8⟩ := k
  refine ⟨by rw [k4, k2]; exact D.1, fun hv => ?_⟩
  rw [k2] at hv
  rw [k3, D.2 hv]
  unfold dataReal
  rw [k1, k5, k6, k7, k8]

/-! ## The loop -/

/-- The listing in terms of the records. -/
def expected : BitVec 64 → Bool → BitVec 32 → List (Record × Option Record) → List Line
  | _, _, _, [] => []
  | ea, p, suf, (r, none) :: l => ⟨ea, r.insn, none⟩ :: expected r.nextInsnAddr false (if p then r.insn else suf) l
  | ea, p, suf, (r, some s) :: l =>
    ⟨ea, r.insn, some (if p then r.insn else suf)⟩ :: expected s.nextInsnAddr (decide (IsPrefix s.insn)) s.insn l

theorem instructions_prefix (r s : Record) (rest) (h : IsPrefix r.insn) :
    instructions (r :: s :: rest) = (r, some s) :: instructions rest := by
  simp [instructions, h]

theorem instructions_plain (r : Record) (rest) (h : ¬ IsPrefix r.insn) :
    instructions (r :: rest) = (r, none) :: instructions rest := by
  cases rest <;> simp [instructions, h]

theorem loop_expected (m : Mem) : ∀ fuel (s : RState) ea, 0 < fuel → m.bytes.length < 6 * fuel + s.pos →
    s.wantBranch = false → s.wantTlbie = false → Complete (readLoop m fuel s).records →
    (loop m fuel ea s).shown.map line = expected ea s.prefixed s.suffix (instructions (readLoop m fuel s).records) ∧
    (loop m fuel ea s).shown.map (·.rcd) = (instructions (readLoop m fuel s).records).map (·.1) ∧
    (loop m fuel ea s).final = (readLoop m fuel s).final ∧
    ∀ x ∈ (loop m fuel ea s).shown, ∃ s', s'.wantBranch = false ∧ s'.wantTlbie = false ∧
      nextRecord m s' = .ok () ⟨x.st, x.rcd⟩
  | 0, s, ea, h0, _, _, _, _ => by omega
  | fuel + 1, s, ea, _, hp, hb, ht, hC => by
    cases h : nextRecord m s with
    | err e c =>
      have e1 : loop m (fuel + 1) ea s = { shown := [], final := e } := by simp [loop, h]
      have e2 : (readLoop m (fuel + 1) s).records = [] := by simp [readLoop, h]
      have e3 : (readLoop m (fuel + 1) s).final = e := by simp [readLoop, h]
      rw [e1, e2, e3]
      exact ⟨rfl, rfl, rfl, fun x hx => by cases hx⟩
    | ok a c =>
      have np := nextRecord_pos h
      obtain ⟨w1, w2, w3, w4, w5⟩ := nextRecord_words h hb ht
      rw [isPrefix_iff] at w1
      have hf : 0 < fuel := by omega
      rw [readLoop_ok h] at hC ⊢
      dsimp only at hC ⊢
      by_cases hpre : IsPrefix c.rcd.insn
      · have cp : c.st.prefixed = true := by rw [w1]; simpa using hpre
        cases h2 : nextRecord m c.st with
        | err e c2 =>
          exfalso
          obtain ⟨f', rfl⟩ : ∃ f', fuel = f' + 1 := ⟨fuel - 1, by omega⟩
          have e2 : (readLoop m (f' + 1) c.st).records = [] := by simp [readLoop, h2]
          rw [e2] at hC
          exact hC (c.rcd, none) (by simp [instructions]) rfl hpre
        | ok a2 c2 =>
          have np2 := nextRecord_pos h2
          obtain ⟨v1, v2, v3, v4, v5⟩ := nextRecord_words h2 w3 w4
          rw [isPrefix_iff] at v1
          obtain ⟨f', rfl⟩ : ∃ f', fuel = f' + 1 := ⟨fuel - 1, by omega⟩
          have el : loop m (f' + 1 + 1) ea s =
              { loop m (f' + 1) c2.st.nextInsnAddr c2.st with
                shown := ⟨c.st, c.rcd, ea⟩ :: (loop m (f' + 1) c2.st.nextInsnAddr c2.st).shown } := by
            rw [loop, h]
            dsimp only
            rw [if_pos cp, h2]
          have er : readLoop m f' c2.st = readLoop m (f' + 1) c2.st :=
            readLoop_fuel m _ _ _ (by omega) (by omega) (by omega) (by omega)
          rw [readLoop_ok h2] at hC ⊢
          rw [er] at hC ⊢
          dsimp only at hC ⊢
          rw [instructions_prefix _ _ _ hpre] at ⊢
          have hC' : Complete (readLoop m (f' + 1) c2.st).records := by
            unfold Complete at hC
            rw [instructions_prefix _ _ _ hpre] at hC
            exact fun x hx => hC x (List.mem_cons_of_mem _ hx)
          obtain ⟨i1, i2, i3, i4⟩ := loop_expected m (f' + 1) c2.st c2.st.nextInsnAddr (by omega) (by omega) v3 v4 hC'
          rw [el]
          refine ⟨?_, ?_, i3, ?_⟩
          · rw [List.map_cons, i1, expected]
            rw [v5, v1, v2, cp, if_pos rfl]
            unfold line
            dsimp only
            rw [cp, if_pos rfl, w2]
          · rw [List.map_cons, List.map_cons, i2]
          · intro x hx
            rcases List.mem_cons.mp hx with rfl | hx
            · exact ⟨s, hb, ht, h⟩
            · exact i4 x hx
      · have cp : c.st.prefixed = false := by rw [w1]; simpa using hpre
        have el : loop m (fuel + 1) ea s =
            { loop m fuel c.st.nextInsnAddr c.st with
              shown := ⟨c.st, c.rcd, ea⟩ :: (loop m fuel c.st.nextInsnAddr c.st).shown } := by
          rw [loop, h]
          dsimp only
          rw [if_neg (by rw [cp]; exact Bool.false_ne_true)]
        rw [instructions_plain _ _ hpre]
        have hC' : Complete (readLoop m fuel c.st).records := by
          unfold Complete at hC
          rw [instructions_plain _ _ hpre] at hC
          exact fun x hx => hC x (List.mem_cons_of_mem _ hx)
        obtain ⟨i1, i2, i3, i4⟩ := loop_expected m fuel c.st c.st.nextInsnAddr hf (by omega) w3 w4 hC'
        rw [el]
        refine ⟨?_, ?_, i3, ?_⟩
        · rw [List.map_cons, i1, expected]
          rw [w5, cp, w2]
          unfold line
          dsimp only
          rw [cp, if_neg Bool.false_ne_true]
        · rw [List.map_cons, List.map_cons, i2]
        · intro x hx
          rcases List.mem_cons.mp hx with rfl | hx
          · exact ⟨s, hb, ht, h⟩
          · exact i4 x hx

theorem expected_words : ∀ (l : List (Record × Option Record)) ea p suf,
    (expected ea p suf l).map (fun x => (x.word, x.suffix.isSome)) = l.map (fun x => (x.1.insn, x.2.isSome))
  | [], _, _, _ => rfl
  | (r, none) :: l, ea, p, suf => by
    rw [expected, List.map_cons, expected_words l]; rfl
  | (r, some s) :: l, ea, p, suf => by
    rw [expected, List.map_cons, expected_words l]; rfl

theorem expected_shift : ∀ (l : List (Record × Option Record)) ea suf,
    (∀ x ∈ l, ∀ s, x.2 = some s → ¬ IsPrefix s.insn) →
    (expected ea false suf l).filterMap (·.suffix) = (suf :: l.filterMap (fun x => x.2.map (·.insn))).dropLast
  | [], _, _, _ => rfl
  | (r, none) :: l, ea, suf, H => by
    rw [expected, if_neg Bool.false_ne_true, List.filterMap_cons_none rfl, List.filterMap_cons_none rfl]
    exact expected_shift l _ _ fun x hx => H x (List.mem_cons_of_mem _ hx)
  | (r, some s) :: l, ea, suf, H => by
    have hs : decide (IsPrefix s.insn) = false := by simpa using H (r, some s) (by simp) s rfl
    have e1 : ∀ t : List Line, (⟨ea, r.insn, some suf⟩ :: t : List Line).filterMap (·.suffix) = suf :: t.filterMap (·.suffix) :=
      fun _ => rfl
    have e2 : ((r, some s) :: l).filterMap (fun x => x.2.map (·.insn)) = s.insn :: l.filterMap (fun x => x.2.map (·.insn)) :=
      rfl
    rw [expected, if_neg Bool.false_ne_true, hs, e1, e2, expected_shift l _ _ fun x hx => H x (List.mem_cons_of_mem _ hx)]
    rfl

/-- The first record of every instruction follows the last one of the instruction before. -/
theorem expected_eas : ∀ (n : Nat) (rs : List Record), rs.length ≤ n → ∀ ea p suf, Linked rs →
    (∀ r, rs.head? = some r → r.insnAddr = ea) →
    (expected ea p suf (instructions rs)).map (·.ea) = (instructions rs).map (·.1.insnAddr)
  | _, [], _, _, _, _, _, _ => rfl
  | 0, _ :: _, h, _, _, _, _, _ => by simp at h
  | n + 1, r :: rest, hn, ea, p, suf, hL, hh => by
    have h0 := hh r rfl
    by_cases hpre : IsPrefix r.insn
    · cases rest with
      | nil => simp [instructions, expected, h0]
      | cons s rest =>
        rw [instructions_prefix _ _ _ hpre, expected, List.map_cons, List.map_cons, h0]
        have hL2 := hL.2
        rw [expected_eas n rest (by simp at hn; omega) _ _ _ (by cases rest; exact trivial; exact hL2.2)
          (by cases rest with
            | nil => intro r h; cases h
            | cons t rest => intro r h; cases h; exact hL2.1)]
    · rw [instructions_plain _ _ hpre, expected, List.map_cons, List.map_cons, h0]
      rw [expected_eas n rest (by simp at hn; omega) _ _ _ (by cases rest; exact trivial; exact hL.2)
        (by cases rest with
          | nil => intro r h; cases h
          | cons t rest => intro r h; cases h; exact hL.1)]

end Dis
