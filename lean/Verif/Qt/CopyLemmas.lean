import Verif.Qt.Moves
/-! Helper lemmas: facts about every record the reader returns, whatever the trace is. -/
namespace Qt
open Spec

/-! ### Headers -/

def HeaderMove (c c' : Ctx) : Prop :=
  c'.st.prefixed = c.st.prefixed ∧ c'.rcd = c.rcd ∧ (c.st.insnRpnValid = true → c'.st.insnRpnValid = true) ∧
  (c.st.insnPageShiftValid = true → c'.st.insnPageShiftValid = true) ∧
  (c.st.guestInsnPageShiftValid = true → c'.st.guestInsnPageShiftValid = true)

theorem HeaderMove.composes : Composes HeaderMove where
  refl _ := ⟨rfl, rfl, id, id, id⟩
  trans _ _ _ h1 h2 := ⟨h2.1.trans h1.1, h2.2.1.trans h1.2.1, fun h => h2.2.2.1 (h1.2.2.1 h), fun h => h2.2.2.2.1 (h1.2.2.2.1 h),
    fun h => h2.2.2.2.2 (h1.2.2.2.2 h)⟩
  pos _ _ := ⟨rfl, rfl, id, id, id⟩

macro "hmoves" : tactic => `(tactic| repeat' (first
  | exact Moves.get8 HeaderMove.composes | exact Moves.get16 HeaderMove.composes | exact Moves.get32 HeaderMove.composes
  | exact Moves.get64 HeaderMove.composes | exact Moves.skipN HeaderMove.composes _
  | assumption
  | exact Moves.pure HeaderMove.composes _ | exact Moves.getCtx HeaderMove.composes | exact Moves.throwErr _
  | exact Moves.modSt (fun _ => ⟨rfl, rfl, id, id, id⟩)
  | exact Moves.modSt (fun _ => ⟨rfl, rfl, fun _ => rfl, id, id⟩)
  | exact Moves.modSt (fun _ => ⟨rfl, rfl, id, fun _ => rfl, id⟩)
  | exact Moves.modSt (fun _ => ⟨rfl, rfl, id, id, fun _ => rfl⟩)
  | apply Moves.whenR HeaderMove.composes | apply Moves.ite | refine Moves.bind HeaderMove.composes ?_ (fun _ => ?_)))

theorem headerMove_parse : Moves HeaderMove parseHeader := by
  have S := HeaderMove.composes
  have h8 := Moves.get8n S
  unfold parseHeader
  refine Moves.bind S (by unfold headerFlags; hmoves) fun a => ?_
  obtain ⟨f2, f3, h⟩ := a
  refine Moves.bind S (by unfold headerIds; hmoves) fun _ => Moves.bind S ?_ fun _ =>
    Moves.bind S (by unfold headerPages; hmoves) fun _ => by unfold headerTail; hmoves
  unfold headerWalk
  exact Moves.whenR S (Moves.bind S (Moves.getCtx S) fun _ => Moves.bind S (Moves.walkSection S _ _ _ _ _) fun _ =>
    Moves.modSt fun _ => ⟨rfl, rfl, id, id, id⟩)

theorem skipHeaders_facts : ∀ fuel m c c', skipHeaders fuel m c = .ok () c' →
    HeaderMove c c' ∧ ¬ (peek32 m c'.st.pos = 0 ∧ c'.st.prefixed = false)
  | 0, m, c, c', h => by cases h
  | fuel + 1, m, c, c', h => by
    rcases skipHeaders_cases h with ⟨_, _, c1, h1, h2⟩ | ⟨hz, rfl⟩
    · have p1 := headerMove_parse _ _ _ _ h1
      obtain ⟨p2, p3⟩ := skipHeaders_facts fuel m c1 c' h2
      exact ⟨HeaderMove.composes.trans c c1 c' (show HeaderMove c c1 from p1) p2, p3⟩
    · exact ⟨⟨rfl, rfl, id, id, id⟩, hz⟩

/-! ### Carrying the translation over -/

theorem applyNext_facts (c : Ctx) :
    (applyNext c).st.prefixed = c.st.prefixed ∧
    (c.st.insnRpnValid = true → (applyNext c).st.insnRpnValid = true) ∧
    (c.st.insnPageShiftValid = true → (applyNext c).st.insnPageShiftValid = true) ∧
    (c.st.guestInsnPageShiftValid = true → (applyNext c).st.guestInsnPageShiftValid = true) ∧
    (c.rcd = .zero → (applyNext c).rcd.insnRaValid = false ∧ (applyNext c).rcd.dataRaValid = false ∧
      (applyNext c).rcd.insnPageShiftValid = (applyNext c).st.insnPageShiftValid ∧
      ((applyNext c).st.insnPageShiftValid = true → (applyNext c).rcd.insnPageShift = (applyNext c).st.insnPageShift) ∧
      (applyNext c).rcd.guestInsnPageShiftValid = (applyNext c).st.guestInsnPageShiftValid) := by
  have e := applyNext_rcd c
  refine ⟨?_, ?_, ?_, ?_, ?_⟩
  · unfold applyNext
    by_cases h1 : c.st.nextInsnRpnValid = true <;> by_cases h2 : c.st.nextInsnPageShiftValid = true <;>
      by_cases h3 : c.st.nextRadixInsn.nrPtes = 0 <;> by_cases h4 : c.st.nextGuestInsnPageShiftValid = true <;>
      simp [h1, h2, h3, h4]
  · unfold applyNext
    by_cases h1 : c.st.nextInsnRpnValid = true <;> by_cases h2 : c.st.nextInsnPageShiftValid = true <;>
      by_cases h3 : c.st.nextRadixInsn.nrPtes = 0 <;> by_cases h4 : c.st.nextGuestInsnPageShiftValid = true <;>
      simp [h1, h2, h3, h4]
  · unfold applyNext
    by_cases h1 : c.st.nextInsnRpnValid = true <;> by_cases h2 : c.st.nextInsnPageShiftValid = true <;>
      by_cases h3 : c.st.nextRadixInsn.nrPtes = 0 <;> by_cases h4 : c.st.nextGuestInsnPageShiftValid = true <;>
      simp [h1, h2, h3, h4]
  · unfold applyNext
    by_cases h1 : c.st.nextInsnRpnValid = true <;> by_cases h2 : c.st.nextInsnPageShiftValid = true <;>
      by_cases h3 : c.st.nextRadixInsn.nrPtes = 0 <;> by_cases h4 : c.st.nextGuestInsnPageShiftValid = true <;>
      simp [h1, h2, h3, h4]
  · intro hz
    rw [e, hz]
    generalize (applyNext c).st = s
    unfold nextRec
    refine ⟨?_, ?_, ?_, ?_, ?_⟩ <;> repeat' split
    all_goals simp_all [Record.zero]

/-- What carrying over and the real address of the instruction leave. -/
theorem insnRa_facts {m c c'} (h : insnRaSection m c = .ok () c') (h0 : c.rcd.insnRaValid = false) :
    c'.st = c.st ∧ c'.rcd.insnRaValid = c.st.insnRpnValid ∧ c'.rcd.insnAddr = c.rcd.insnAddr ∧ c'.rcd.pages = c.rcd.pages ∧
    c'.rcd.dataRaValid = c.rcd.dataRaValid ∧
    (c.st.insnRpnValid = true → shiftOr16 c.st.insnPageShiftValid c.st.insnPageShift < 64 ∧
      c'.rcd.insnRa = raOf c.st.insnRpn (shiftOr16 c.st.insnPageShiftValid c.st.insnPageShift) c.rcd.insnAddr) := by
  obtain ⟨_, _, k1, k2⟩ := bind_split h
  cases k1
  unfold whenR at k2
  cases hv : c.st.insnRpnValid with
  | true =>
    rw [if_pos hv] at k2
    obtain ⟨ra, c2, k3, k4⟩ := bind_split k2
    cases k4
    unfold combineRa at k3
    by_cases hp : (if c.st.insnPageShiftValid = true then c.st.insnPageShift % 256 else 16) < 64
    · rw [if_pos hp] at k3
      cases k3
      exact ⟨rfl, rfl, rfl, rfl, rfl, fun _ => ⟨hp, rfl⟩⟩
    · rw [if_neg hp] at k3; cases k3
  | false =>
    rw [if_neg (by simp [hv])] at k2
    cases k2
    exact ⟨rfl, h0, rfl, rfl, rfl, fun h => by cases h⟩

/-- The instruction word is the one looked at before. -/
theorem insnSection_facts {m c c'} (h : insnSection m c = .ok () c') :
    c'.rcd = { c.rcd with insn := peek32 m c.st.pos } ∧
    c'.st.prefixed = (peek32 m c.st.pos >>> 26 == 1) ∧ c'.st.insnRpnValid = c.st.insnRpnValid ∧
    c'.st.insnPageShiftValid = c.st.insnPageShiftValid ∧ c'.st.guestInsnPageShiftValid = c.st.guestInsnPageShiftValid := by
  unfold insnSection at h
  obtain ⟨w, c1, e1, h⟩ := bind_split h
  obtain ⟨_, c2, e2, h⟩ := bind_split h
  cases e2; cases h
  have hw : w = peek32 m c.st.pos := by
    unfold get32 at e1
    split at e1
    · rename_i a b d e t hd
      have g : ∀ i, m.bytes[c.st.pos + i]? = (a :: b :: d :: e :: t)[i]? := by
        intro i; rw [← hd, List.getElem?_drop]
      cases e1
      have g0 := g 0; have g1 := g 1; have g2 := g 2; have g3 := g 3
      simp at g0 g1 g2 g3
      unfold peek32
      simp only [g0, g1, g2, g3]
    · cases e1
  obtain ⟨rfl, _⟩ := get32_split e1
  subst hw
  exact ⟨rfl, rfl, rfl, rfl, rfl⟩

/-! ### The data part -/

def SameDataRa (c c' : Ctx) : Prop := c'.rcd.dataRaValid = c.rcd.dataRaValid

theorem SameDataRa.composes : Composes SameDataRa where
  refl _ := rfl
  trans _ _ _ h1 h2 := Eq.trans (b := _) h2 h1
  pos _ _ := rfl

/-- What the record says about the data. -/
def Record.datum (r : Record) : Bool × BitVec 64 × Bool × BitVec 64 × Bool × Nat :=
  (r.dataAddrValid, r.dataAddr, r.dataRaValid, r.dataRa, r.dataPageShiftValid, r.dataPageShift)

def SameDatum (c c' : Ctx) : Prop := c'.rcd.datum = c.rcd.datum

theorem SameDatum.composes : Composes SameDatum where
  refl _ := rfl
  trans _ _ _ h1 h2 := Eq.trans (b := _) h2 h1
  pos _ _ := rfl

theorem dataPage_facts {f2 m c c'} (h : dataPageSection f2 m c = .ok () c') (h0 : c.rcd.dataRaValid = false) :
    c'.rcd.dataRaValid = true →
      shiftOr16 c'.rcd.dataPageShiftValid c'.rcd.dataPageShift < 64 ∧ ∃ rpn,
      c'.rcd.dataRa = raOf rpn (shiftOr16 c'.rcd.dataPageShiftValid c'.rcd.dataPageShift)
        (if c'.rcd.dataAddrValid then c'.rcd.dataAddr else 0) := by
  have S := SameDataRa.composes
  have h8 := Moves.get8n S
  unfold dataPageSection at h
  obtain ⟨_, c1, e1, h⟩ := bind_split h
  have k1 : c1.rcd.dataRaValid = false := by
    have : Moves SameDataRa (whenR (has f2 0x0100) do
      let v ← get8n
      modRec fun r => { r with dataPageShiftValid := true, dataPageShift := v }) := by moves S
    exact (this _ _ _ _ e1).trans h0
  obtain ⟨_, c2, e2, h⟩ := bind_split h
  cases e2
  unfold whenR at h
  cases hv : c1.st.dataRpnValid with
  | false =>
    rw [if_neg (by simp [hv])] at h; cases h
    intro h; rw [k1] at h; cases h
  | true =>
    rw [if_pos hv] at h
    obtain ⟨ra, c3, e3, h⟩ := bind_split h
    cases h
    unfold combineRa at e3
    by_cases hp : (if c1.rcd.dataPageShiftValid = true then c1.rcd.dataPageShift % 256 else 16) < 64
    · rw [if_pos hp] at e3
      cases e3
      exact fun _ => ⟨hp, c1.st.dataRpn, rfl⟩
    · rw [if_neg hp] at e3; cases e3

theorem body_data {m c c'} (h : bodyPlain m c = .ok () c') (h0 : c.rcd.dataRaValid = false) :
    c'.rcd.dataRaValid = true →
      shiftOr16 c'.rcd.dataPageShiftValid c'.rcd.dataPageShift < 64 ∧ ∃ rpn,
      c'.rcd.dataRa = raOf rpn (shiftOr16 c'.rcd.dataPageShiftValid c'.rcd.dataPageShift)
        (if c'.rcd.dataAddrValid then c'.rcd.dataAddr else 0) := by
  have S := SameDataRa.composes
  have h8 := Moves.get8n S
  unfold bodyPlain at h
  obtain ⟨⟨f, f2, f3⟩, c1, e1, h⟩ := bind_split h
  obtain ⟨_, c2, e2, h⟩ := bind_split h
  obtain ⟨_, c3, e3, h⟩ := bind_split h
  obtain ⟨_, c4, e4, h⟩ := bind_split h
  obtain ⟨_, c5, e5, h⟩ := bind_split h
  obtain ⟨_, c6, e6, h⟩ := bind_split h
  obtain ⟨_, c7, e7, h⟩ := bind_split h
  obtain ⟨_, c8, e8, h⟩ := bind_split h
  obtain ⟨_, c9, e9, h⟩ := bind_split h
  obtain ⟨_, c10, e10, h⟩ := bind_split h
  obtain ⟨_, c11, e11, h⟩ := bind_split h
  obtain ⟨_, c12, e12, h⟩ := bind_split h
  obtain ⟨_, c13, e13, h⟩ := bind_split h
  obtain ⟨_, c14, e14, h⟩ := bind_split h
  have k1 := (show Moves SameDataRa flagsSection by unfold flagsSection; moves S) _ _ _ _ e1
  have k2 := (show Moves SameDataRa (nodeSection f) by unfold nodeSection; moves S) _ _ _ _ e2
  have k3 := (show Moves SameDataRa (termSection f) by unfold termSection termCheck; moves S) _ _ _ _ e3
  have k4 := (show Moves SameDataRa (dataAddrSection f) by unfold dataAddrSection; moves S) _ _ _ _ e4
  have k5 := (show Moves SameDataRa (dataWalkSection f f2 f3) from Moves.whenR S (Moves.bind S (Moves.getCtx S) fun _ =>
    Moves.bind S (Moves.walkSection S _ _ _ _ _) fun _ => Moves.modRec fun _ => rfl)) _ _ _ _ e5
  have k6 := (show Moves SameDataRa (dataRpnSection f) by unfold dataRpnSection; moves S) _ _ _ _ e6
  have k7 := (show Moves SameDataRa (iarSection f) by unfold iarSection iarFetch; moves S) _ _ _ _ e7
  have k8 := (show Moves SameDataRa (branchSection f) by unfold branchSection; moves S) _ _ _ _ e8
  have k9 := (show Moves SameDataRa (insnWalkSection f f2 f3) from
    Moves.bind S (Moves.whenR S (Moves.skipN S _)) fun _ => Moves.whenR S (Moves.bind S (Moves.getCtx S) fun _ =>
      Moves.bind S (Moves.walkSection S _ _ _ _ _) fun _ => Moves.modSt fun _ => rfl)) _ _ _ _ e9
  have k10 := (show Moves SameDataRa (insnRpnSection f) by unfold insnRpnSection; moves S) _ _ _ _ e10
  have k11 := (show Moves SameDataRa (regsSection f) from Moves.whenR S (Moves.bind S (Moves.parseRegs S) fun _ =>
    Moves.modRec fun _ => rfl)) _ _ _ _ e11
  have k12 := (show Moves SameDataRa (seqSection f2) by unfold seqSection; moves S) _ _ _ _ e12
  have k13 := (show Moves SameDataRa (insnPageSection f2) by unfold insnPageSection; moves S) _ _ _ _ e13
  have k : c13.rcd.dataRaValid = false :=
    k13.trans (k12.trans (k11.trans (k10.trans (k9.trans (k8.trans (k7.trans (k6.trans (k5.trans (k4.trans (k3.trans (k2.trans
      (k1.trans h0))))))))))))
  have D := dataPage_facts e14 k
  have T := SameDatum.composes
  have t8 := Moves.get8n T
  have kg := (show Moves SameDatum (guestPageSection f2) by unfold guestPageSection guestInsnPage; moves T) _ _ _ _ h
  simp only [SameDatum, Record.datum, Prod.mk.injEq] at kg
  obtain ⟨g1, g2, g3, g4, g5, g6⟩ := kg
  rw [g1, g2, g3, g4, g5, g6]
  exact D

/-! ### A record -/

theorem raOk_of {ra ea : BitVec 64} {rpn : BitVec 32} {p : Nat} (hp : p < 64) (h : ra = raOf rpn p ea) : RaOk ra ea p := by
  have e := raOf_toNat rpn p ea hp
  rw [h]
  have hpos := Nat.two_pow_pos p
  have hr := rpn.isLt
  have hsplit : 2 ^ 64 = 2 ^ p * 2 ^ (64 - p) := by rw [← Nat.pow_add]; congr 1; omega
  have hm : rpn.toNat * 2 ^ p % 2 ^ 64 = 2 ^ p * (rpn.toNat % 2 ^ (64 - p)) := by
    rw [hsplit, Nat.mul_comm, Nat.mul_mod_mul_left]
  rw [hm] at e
  unfold RaOk
  rw [e]
  constructor
  · rw [Nat.mul_add_div hpos, Nat.div_eq_of_lt (Nat.mod_lt _ hpos), Nat.add_zero]
    exact Nat.lt_of_le_of_lt (Nat.mod_le _ _) hr
  · rw [Nat.mul_add_mod, Nat.mod_mod]

theorem shiftOr16_page {v : Bool} {s : Nat} (h : v = true → s < 64) : shiftOr16 v s = pageShift v s := by
  unfold shiftOr16 pageShift
  cases v
  · rfl
  · have := h rfl
    simp; omega

/-- Facts about a record and the state it leaves. -/
structure RecordFacts (s : RState) (c' : Ctx) : Prop where
  zero : c'.rcd.insn = 0 → s.prefixed = true
  pre : c'.st.prefixed = (c'.rcd.insn >>> 26 == 1)
  ra : s.insnRpnValid = true → c'.rcd.insnRaValid = true
  page : s.insnPageShiftValid = true → c'.rcd.insnPageShiftValid = true
  guest : s.guestInsnPageShiftValid = true → c'.rcd.guestInsnPageShiftValid = true
  raS : c'.st.insnRpnValid = c'.rcd.insnRaValid
  pageS : c'.st.insnPageShiftValid = c'.rcd.insnPageShiftValid
  guestS : c'.st.guestInsnPageShiftValid = c'.rcd.guestInsnPageShiftValid
  translated : ShiftsOk c'.rcd → TranslationOk c'.rcd
  branch : BranchInv c'.rcd

theorem plainRd_facts {m s c'} (h : plainRd m { st := s, rcd := .zero } = .ok () c') : RecordFacts s c' := by
  have hb := plainRd_inv h
  unfold plainRd at h
  obtain ⟨_, c1, e1, h1⟩ := bind_split h
  obtain ⟨_, c2, e2, h2⟩ := bind_split h1
  obtain ⟨_, c3, e3, h3⟩ := bind_split h2
  obtain ⟨_, c4, e4, h4⟩ := bind_split h3
  obtain ⟨_, c5, e5, h5⟩ := bind_split h4
  cases e1
  obtain ⟨⟨q1, q2, q3, q4, q5⟩, hz⟩ := skipHeaders_facts _ _ _ _ e2
  cases e3
  obtain ⟨a1, a2, a3, a4, a5⟩ := applyNext_facts c2
  obtain ⟨z1, z2, z3, z4, z5⟩ := a5 q2
  obtain ⟨r1, r2, r3, r4, r5, r6⟩ := insnRa_facts e4 z1
  obtain ⟨i1, i2, i3, i4, i5⟩ := insnSection_facts e5
  have B := sameInsn_body _ _ _ _ h5
  simp only [SameInsn, Record.place, Record.pages, RState.kept, Prod.mk.injEq] at B
  obtain ⟨⟨b1, b2, b3, b4⟩, ⟨b5, b6, b7, b8⟩, b9, b10, b11, b12⟩ := B
  simp only [Record.pages, Prod.mk.injEq] at r4
  obtain ⟨r41, r42, r43, r44⟩ := r4
  have hpos : c4.st.pos = c2.st.pos := by rw [r1]; exact applyNext_pos c2
  have D := body_data h5 (by rw [i1]; exact r5.trans z2)
  have hinsn : c'.rcd.insn = peek32 m c2.st.pos := by rw [b1, i1, hpos]
  have hra : c'.rcd.insnRaValid = (applyNext c2).st.insnRpnValid := by rw [b3, i1]; exact r2
  have hpv : c'.rcd.insnPageShiftValid = (applyNext c2).st.insnPageShiftValid := by rw [b5, i1]; exact r41.trans z3
  have hgv : c'.rcd.guestInsnPageShiftValid = (applyNext c2).st.guestInsnPageShiftValid := by rw [b7, i1]; exact r43.trans z5
  refine ⟨?_, ?_, ?_, ?_, ?_, ?_, ?_, ?_, ?_, hb⟩
  · intro h0
    rw [hinsn] at h0
    have : c2.st.prefixed = true := by
      cases hc : c2.st.prefixed with
      | true => rfl
      | false => exact absurd ⟨h0, hc⟩ hz
    rw [q1] at this; exact this
  · rw [b9, i2, hinsn, hpos]
  · intro hv; rw [hra]; exact a2 (q3 hv)
  · intro hv; rw [hpv]; exact a3 (q4 hv)
  · intro hv; rw [hgv]; exact a4 (q5 hv)
  · rw [b10, i3, r1, hra]
  · rw [b11, i4, r1, hpv]
  · rw [b12, i5, r1, hgv]
  · intro hs
    constructor
    · intro hv
      rw [hra] at hv
      obtain ⟨r61, r62⟩ := r6 hv
      have e1 : c'.rcd.insnRa = c4.rcd.insnRa := by rw [b4, i1]
      have e2 : c'.rcd.insnAddr = (applyNext c2).rcd.insnAddr := by rw [b2, i1]; exact r3
      have e3 : shiftOr16 (applyNext c2).st.insnPageShiftValid (applyNext c2).st.insnPageShift =
          pageShift c'.rcd.insnPageShiftValid c'.rcd.insnPageShift := by
        rw [← shiftOr16_page hs.1]
        cases hp : (applyNext c2).st.insnPageShiftValid with
        | false => rw [hpv, hp]; rfl
        | true => rw [hpv, hp, b6, i1]; show _ = shiftOr16 true c4.rcd.insnPageShift; rw [r42, z4 hp]
      rw [e3] at r61 r62
      exact raOk_of r61 (by rw [e1, e2]; exact r62)
    · intro hv
      obtain ⟨d1, rpn, d2⟩ := D hv
      rw [shiftOr16_page hs.2.2.1] at d1 d2
      exact raOk_of d1 d2

theorem nextRecord_facts {m s c'} (hw : s.wantBranch = false ∧ s.wantTlbie = false) (h : nextRecord m s = .ok () c') :
    RecordFacts s c' ∧ c'.st.wantBranch = false ∧ c'.st.wantTlbie = false := by
  have e : s = s.want (false, false) := by
    obtain ⟨w1, w2⟩ := hw
    cases s
    simp only at w1 w2
    subst w1 w2
    rfl
  rw [e, nextRecord_want] at h
  cases hp : plainRd m { st := s, rcd := .zero } with
  | err e c => rw [hp] at h; cases h
  | ok a c =>
    rw [hp] at h
    replace h : annotateSection m (c.want (false, false)) = .ok () c' := h
    rw [annotateSection_false] at h
    have F := plainRd_facts hp
    cases h
    exact ⟨⟨F.zero, F.pre, F.ra, F.page, F.guest, F.raS, F.pageS, F.guestS, F.translated, F.branch⟩, rfl, rfl⟩

theorem isPrefix_beq (w : BitVec 32) : (w >>> 26 == 1) = true ↔ IsPrefix w := by
  unfold IsPrefix
  rw [beq_iff_eq, ← BitVec.toNat_inj, BitVec.toNat_ushiftRight, Nat.shiftRight_eq_div_pow]
  rfl

/-- What holds of a record and the next one read, whatever the trace is. -/
def ReadStep (a b : Record) : Prop :=
  (b.insn = 0 → IsPrefix a.insn) ∧ (a.insnRaValid = true → b.insnRaValid = true) ∧
  (a.insnPageShiftValid = true → b.insnPageShiftValid = true) ∧
  (a.guestInsnPageShiftValid = true → b.guestInsnPageShiftValid = true)

theorem readLoop_facts (m : Mem) : ∀ fuel s, s.wantBranch = false ∧ s.wantTlbie = false →
    Chain ReadStep (readLoop m fuel s).records ∧
    (∀ r ∈ (readLoop m fuel s).records, BranchInv r ∧ (ShiftsOk r → TranslationOk r)) ∧
    (∀ r, (readLoop m fuel s).records.head? = some r → (r.insn = 0 → s.prefixed = true) ∧
      (s.insnRpnValid = true → r.insnRaValid = true) ∧ (s.insnPageShiftValid = true → r.insnPageShiftValid = true) ∧
      (s.guestInsnPageShiftValid = true → r.guestInsnPageShiftValid = true))
  | 0, s, _ => ⟨trivial, by simp [readLoop], by simp [readLoop]⟩
  | fuel + 1, s, hw => by
    cases hn : nextRecord m s with
    | err e c =>
      have : (readLoop m (fuel + 1) s).records = [] := by unfold readLoop; rw [hn]
      rw [this]
      exact ⟨trivial, by simp, by simp⟩
    | ok u c =>
      have e : (readLoop m (fuel + 1) s).records = c.rcd :: (readLoop m fuel c.st).records := by
        conv => lhs; unfold readLoop
        rw [hn]
      obtain ⟨F, w⟩ := nextRecord_facts hw hn
      obtain ⟨i1, i2, i3⟩ := readLoop_facts m fuel c.st w
      rw [e]
      refine ⟨?_, ?_, ?_⟩
      · cases hl : (readLoop m fuel c.st).records with
        | nil => trivial
        | cons b l =>
          rw [hl] at i1 i3
          obtain ⟨j1, j2, j3, j4⟩ := i3 b rfl
          refine ⟨⟨fun h0 => ?_, fun h => j2 (F.raS.trans h), fun h => j3 (F.pageS.trans h), fun h => j4 (F.guestS.trans h)⟩, i1⟩
          have := j1 h0
          rw [F.pre] at this
          exact (isPrefix_beq _).mp this
      · intro r hr
        rcases List.mem_cons.mp hr with rfl | hr
        · exact ⟨F.branch, F.translated⟩
        · exact i2 r hr
      · intro r hr
        cases hr
        exact ⟨F.zero, F.ra, F.page, F.guest⟩

theorem readTrace_facts (m : Mem) :
    Chain ReadStep (readTrace m false false).records ∧
    (∀ r ∈ (readTrace m false false).records, BranchInv r ∧ (ShiftsOk r → TranslationOk r)) ∧
    (∀ r, (readTrace m false false).records.head? = some r → r.insn ≠ 0) := by
  unfold readTrace
  cases hi : readerInit m with
  | err e c => exact ⟨trivial, by simp, by simp⟩
  | ok u c =>
    obtain ⟨h1, h2, h3⟩ := readLoop_facts m (m.bytes.length + 1) { c.st with wantBranch := false, wantTlbie := false } ⟨rfl, rfl⟩
    refine ⟨h1, h2, fun r hr h0 => ?_⟩
    have hp := (h3 r hr).1 h0
    have hm := (headerMove_parse _ _ _ _ hi).1
    replace hp : c.st.prefixed = true := hp
    rw [hm] at hp
    cases hp

end Qt
