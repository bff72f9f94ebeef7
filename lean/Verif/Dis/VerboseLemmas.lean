import Verif.Dis.SpecVerbose
import Verif.Dis.Written

/-! # Helper lemmas for the verbose listing -/

namespace Dis
open Qt DisSpec
open Qt.Spec hiding IsPrefix

/-! ## Remarks -/

theorem mem_noteIf {c : Bool} {x y : Remark} : y ∈ noteIf c x ↔ c = true ∧ y = x := by
  unfold noteIf
  cases c <;> simp

theorem isWalk_rows (x : Radix) : IsWalk (rows x) x := by
  have get : ∀ j (w : Row), (rows x)[j]? = some w → j < x.nrWalks ∧ w =
      { guest := x.guestRas j, host := (List.range x.nrPtes).map (x.hostPtes j), real := if j < x.nrWalks - 1 then some (x.hostRas j) else none } := by
    intro j w h
    unfold rows at h
    rw [List.getElem?_map] at h
    by_cases hj : j < x.nrWalks
    · rw [List.getElem?_range hj] at h
      exact ⟨hj, (Option.some.inj h).symm⟩
    · rw [List.getElem?_eq_none (by rw [List.length_range]; omega)] at h
      cases h
  refine ⟨by simp [rows], ?_, ?_, ?_⟩
  · intro j w h; rw [(get j w h).2]
  · intro j w h
    rw [(get j w h).2]
    refine ⟨by simp, fun i e he => ?_⟩
    dsimp only at he
    rw [List.getElem?_map] at he
    by_cases hi : i < x.nrPtes
    · rw [List.getElem?_range hi] at he
      exact (Option.some.inj he).symm
    · rw [List.getElem?_eq_none (by rw [List.length_range]; omega)] at he
      cases he
  · intro j w h
    obtain ⟨hj, rfl⟩ := get j w h
    dsimp only
    by_cases h1 : j + 1 = x.nrWalks
    · rw [if_pos h1, if_neg (by omega)]
    · rw [if_neg h1, if_pos (by omega)]

/-- The page number is in the real address that was put together from it. -/
theorem pageNumber_raOf (v : BitVec 32) {p : Nat} (hp : p ≤ 32) (ea : BitVec 64) :
    pageNumber ((v.setWidth 64 <<< p) ||| (ea &&& ((1#64 <<< p) - 1))) p = v := by
  have h : ((((v.setWidth 64 <<< p) ||| (ea &&& ((1#64 <<< p) - 1))) >>> p).setWidth 32) = v := by
    apply BitVec.eq_of_getLsbD_eq
    intro i hi
    have hm : ∀ j, p ≤ j → ((1#64 <<< p) - 1).getLsbD j = false := by
      intro j hj
      have : ((1#64 <<< p) - 1).toNat < 2 ^ p := by
        have h1 : (1#64 <<< p).toNat = 2 ^ p := by
          rw [BitVec.toNat_shiftLeft, BitVec.toNat_ofNat, Nat.shiftLeft_eq]
          rw [Nat.mod_eq_of_lt (a := 1) (by decide), Nat.one_mul, Nat.mod_eq_of_lt]
          exact Nat.pow_lt_pow_right (by decide) (by omega)
        have h2 : (1#64 : BitVec 64) ≤ 1#64 <<< p := by
          rw [BitVec.le_def, h1]; exact Nat.one_le_two_pow
        rw [show ((1#64 <<< p) - 1 : BitVec 64) = (1#64 <<< p) - 1#64 from rfl, BitVec.toNat_sub_of_le h2, h1]
        have := Nat.two_pow_pos p
        show 2 ^ p - 1 < 2 ^ p
        omega
      unfold BitVec.getLsbD
      exact Nat.testBit_lt_two_pow (Nat.lt_of_lt_of_le this (Nat.pow_le_pow_right (by decide) hj))
    rw [BitVec.getLsbD_setWidth, BitVec.getLsbD_ushiftRight, BitVec.getLsbD_or, BitVec.getLsbD_and, hm _ (Nat.le_add_right p i), BitVec.getLsbD_shiftLeft,
      BitVec.getLsbD_setWidth]
    simp [hi, show p + i < 64 by omega, show i < 64 by omega, show ¬ p + i < p by omega]
  refine Eq.trans ?_ h
  unfold pageNumber
  apply BitVec.eq_of_toNat_eq
  rw [BitVec.toNat_ofNat, BitVec.toNat_setWidth, BitVec.toNat_ushiftRight, Nat.shiftRight_eq_div_pow]

/-! ## The walk of the data comes with a page number -/

def walkKey (c : Ctx) : Nat × Bool := (c.rcd.radixData.nrPtes, c.st.dataRpnValid)
instance : PosFree walkKey := ⟨fun _ _ => rfl⟩

macro "keepw" : tactic => `(tactic| repeat' (first
  | exact kget8 | exact kget16 | exact kget32 | exact kget64 | exact kskip _ | exact kget8n
  | exact kbump _ | exact kwalk _ _ _ _ _ | exact kregs | exact kcombine _ _ _ | assumption
  | exact kpure _ | exact kgetCtx | exact kthrow _
  | exact kmodSt (fun _ => rfl)
  | exact kmodRec (fun _ => rfl)
  | exact kmodSt (fun c => by cases hv : c.st.nextInsnRpnValid <;> simp only [hv, walkKey] <;> rfl)
  | apply kwhen | apply kite | refine kbind ?_ (fun _ => ?_)))

theorem wheader : KeepK walkKey parseHeader := by
  unfold Qt.parseHeader
  refine kbind (by unfold Qt.headerFlags; keepw) fun a => ?_
  obtain ⟨f2, f3, h⟩ := a
  exact kbind (by unfold Qt.headerIds; keepw) fun _ => kbind (by unfold Qt.headerWalk; keepw) fun _ =>
    kbind (by unfold Qt.headerPages; keepw) fun _ => by unfold Qt.headerTail; keepw

theorem wpeek : KeepK walkKey peekInsn := by intro m c a c' h; cases h; rfl

theorem wheaders : ∀ fuel, KeepK walkKey (skipHeaders fuel)
  | 0 => kthrow _
  | fuel + 1 => by
    unfold Qt.skipHeaders
    exact kbind wpeek fun _ => kbind kgetCtx fun _ => kite (kbind wheader fun _ => wheaders fuel) (kpure _)

theorem applyNext_walk (c : Ctx) : (applyNext c).rcd.radixData = c.rcd.radixData := by
  unfold applyNext
  dsimp only
  simp only [apply_ite Record.radixData, ite_self]

theorem wback (f f2 f3) : KeepK walkKey (bodyBack f f2 f3) := by
  unfold bodyBack branchSection insnWalkSection insnRpnSection regsSection seqSection insnPageSection dataPageSection
    guestPageSection guestInsnPage; keepw

theorem front_out {f f2 f3 : BitVec 16} {m : Mem} {c c' : Ctx} (h : bodyFront f f2 f3 m c = .ok () c') (h0 : c.rcd.radixData.nrPtes = 0)
    (h1 : c'.rcd.radixData.nrPtes ≠ 0) : c'.st.dataRpnValid = true := by
  unfold bodyFront at h
  obtain ⟨_, c1, g1, h⟩ := Rd.bind_inv h
  obtain ⟨_, c2, g2, h⟩ := Rd.bind_inv h
  obtain ⟨_, c3, g3, h⟩ := Rd.bind_inv h
  obtain ⟨_, c4, g4, h⟩ := Rd.bind_inv h
  have k1 : walkKey c1 = walkKey c := by
    refine (show KeepK walkKey (nodeSection f) from ?_) _ _ _ _ g1
    unfold nodeSection; keepw
  have k2 : walkKey c2 = walkKey c1 := by
    refine (show KeepK walkKey (termSection f) from ?_) _ _ _ _ g2
    unfold termSection termCheck; keepw
  have k3 : walkKey c3 = walkKey c2 := by
    refine (show KeepK walkKey (dataAddrSection f) from ?_) _ _ _ _ g3
    unfold dataAddrSection; keepw
  have e3 : c3.rcd.radixData.nrPtes = 0 := by
    have := congrArg Prod.fst (k3.trans (k2.trans k1))
    exact this.trans h0
  unfold dataRpnSection at h
  cases hf : has f 0x0200 with
  | false =>
    exfalso
    unfold dataWalkSection at g4
    rw [hf] at g4 h
    cases g4
    cases h
    exact h1 e3
  | true =>
    rw [hf, if_pos rfl] at h
    obtain ⟨v, c5, g5, h⟩ := Rd.bind_inv h
    cases h
    rfl

theorem nextRecord_walk {m : Mem} {s : RState} {c : Ctx} (h : nextRecord m s = .ok () c) (hb : s.wantBranch = false)
    (ht : s.wantTlbie = false) (hn : c.rcd.radixData.nrPtes ≠ 0) : c.st.dataRpnValid = true := by
  unfold nextRecord nextRecordRd at h
  obtain ⟨_, c1, h1, h⟩ := Rd.bind_inv h
  cases h1
  obtain ⟨_, c2, h2, h⟩ := Rd.bind_inv h
  have w2 := kheaders _ _ _ _ _ h2
  have r2 := congrArg Prod.fst (wheaders _ _ _ _ _ h2)
  unfold readOne at h
  obtain ⟨_, c3, h3, h⟩ := Rd.bind_inv h
  have w3 := kapply m _ _ _ h3
  have r3 : c3.rcd.radixData.nrPtes = c2.rcd.radixData.nrPtes := by cases h3; rw [applyNext_walk]
  obtain ⟨_, c4, h4, h⟩ := Rd.bind_inv h
  have w4 : wordKey c4 = wordKey c3 := by
    refine (show KeepK wordKey insnRaSection from ?_) _ _ _ _ h4
    unfold insnRaSection; keepk
  have r4 : walkKey c4 = walkKey c3 := by
    refine (show KeepK walkKey insnRaSection from ?_) _ _ _ _ h4
    unfold insnRaSection; keepw
  obtain ⟨_, c5, h5, h⟩ := Rd.bind_inv h
  have w5 : c5.st.wantBranch = c4.st.wantBranch ∧ c5.st.wantTlbie = c4.st.wantTlbie := by
    unfold insnSection at h5
    obtain ⟨w, c6, h6, h5⟩ := Rd.bind_inv h5
    obtain ⟨_, c7, h7, h5⟩ := Rd.bind_inv h5
    have k6 := kget32 (K := wordKey) _ _ _ _ h6
    unfold wordKey at k6
    simp only [Prod.mk.injEq] at k6
    cases h7; cases h5
    exact ⟨k6.2.2.2.1, k6.2.2.2.2⟩
  have r5 : walkKey c5 = walkKey c4 := by
    refine (show KeepK walkKey insnSection from ?_) _ _ _ _ h5
    unfold insnSection; keepw
  rw [body_split] at h
  obtain ⟨x, d1, g1, h⟩ := Rd.bind_inv h
  obtain ⟨_, d2, g2, h⟩ := Rd.bind_inv h
  obtain ⟨_, d3, g3, h⟩ := Rd.bind_inv h
  obtain ⟨_, d4, g4, h⟩ := Rd.bind_inv h
  have q1 : walkKey d1 = walkKey c5 := by
    refine (show KeepK walkKey flagsSection from ?_) _ _ _ _ g1
    unfold flagsSection; keepw
  have q3 : walkKey d3 = walkKey d2 := by
    refine (show KeepK walkKey (iarSection x.1) from ?_) _ _ _ _ g3
    unfold iarSection iarFetch; keepw
  have q4 := wback _ _ _ _ _ _ _ g4
  have ww : wordKey d4 = wordKey c5 :=
    (kback _ _ _ _ _ _ _ g4).trans ((kiar _ _ _ _ _ g3).trans ((kfront _ _ _ _ _ _ _ g2).trans (kflags _ _ _ _ g1)))
  unfold wordKey at w2 w3 w4 ww
  simp only [Prod.mk.injEq] at w2 w3 w4 ww
  have e := annotate_off h (by rw [ww.2.2.2.1, w5.1, w4.2.2.2.1, w3.2.2.2.1, w2.2.2.2.1]; exact hb)
    (by rw [ww.2.2.2.2, w5.2, w4.2.2.2.2, w3.2.2.2.2, w2.2.2.2.2]; exact ht)
  subst e
  have z : d1.rcd.radixData.nrPtes = 0 := by
    have a := congrArg Prod.fst (q1.trans (r5.trans r4))
    exact a.trans (r3.trans r2)
  have k := q4.trans q3
  have k1 := congrArg Prod.fst k
  have k2 := congrArg Prod.snd k
  have := front_out g2 z (by rw [← show c.rcd.radixData.nrPtes = d2.rcd.radixData.nrPtes from k1]; exact hn)
  exact k2.trans this

end Dis
