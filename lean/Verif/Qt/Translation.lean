import Verif.Qt.File
import Verif.Qt.SpecTranslation
/-! Helper lemmas for C03 and C05: the translation state of the reader follows the records written. -/
namespace Qt
open Spec

theorem toNat_mod_two_pow_testBit {a b : Nat} {p i : Nat} (h : a % 2 ^ p = b % 2 ^ p) (hi : i < p) :
    a.testBit i = b.testBit i := by
  have h1 := Nat.testBit_mod_two_pow a p i
  have h2 := Nat.testBit_mod_two_pow b p i
  rw [h] at h1
  rw [h1] at h2
  simpa [hi] using h2

theorem raOf_rpn {ra ea : BitVec 64} {p : Nat} (hp : p < 64) (h : RaOk ra ea p) :
    raOf ((ra >>> p).setWidth 32) p ea = ra := by
  obtain ⟨h1, h2⟩ := h
  apply BitVec.eq_of_getLsbD_eq
  intro i hi
  have hm : ∀ i, i < 64 → ((1#64 <<< p) - 1).getLsbD i = decide (i < p) := by
    intro i hi
    have e : ((1#64 <<< p) - 1).toNat = 2 ^ p - 1 := by
      rw [BitVec.toNat_sub_of_le]
      · rw [BitVec.toNat_shiftLeft]
        have : 2 ^ p < 2 ^ 64 := Nat.pow_lt_pow_right (by omega) hp
        simp only [BitVec.toNat_ofNat, Nat.shiftLeft_eq]
        rw [Nat.mod_eq_of_lt (by simpa using this)]
        simp
      · rw [BitVec.le_def, BitVec.toNat_shiftLeft]
        have : 2 ^ p < 2 ^ 64 := Nat.pow_lt_pow_right (by omega) hp
        simp only [BitVec.toNat_ofNat, Nat.shiftLeft_eq]
        rw [Nat.mod_eq_of_lt (by simpa using this)]
        have := Nat.two_pow_pos p
        simp
        omega
    rw [← BitVec.testBit_toNat, e, Nat.testBit_two_pow_sub_one]
  unfold raOf
  rw [BitVec.getLsbD_or, BitVec.getLsbD_and, hm i hi, BitVec.getLsbD_shiftLeft]
  by_cases hip : i < p
  · have := toNat_mod_two_pow_testBit h2 hip
    rw [BitVec.testBit_toNat, BitVec.testBit_toNat] at this
    simp [hip, this]
  · have hip' : p + (i - p) = i := by omega
    simp only [hip, hi, decide_true, decide_false, Bool.true_and, Bool.not_false, Bool.and_false, Bool.or_false]
    rw [BitVec.getLsbD_setWidth, BitVec.getLsbD_setWidth, BitVec.getLsbD_ushiftRight, hip']
    by_cases h32 : i - p < 32
    · simp [h32]; omega
    · have : ra.getLsbD i = false := by
        rw [← BitVec.testBit_toNat]
        apply Nat.testBit_lt_two_pow
        have hlt : ra.toNat < 2 ^ (32 + p) := by
          rw [Nat.pow_add]
          exact (Nat.div_lt_iff_lt_mul (Nat.two_pow_pos p)).mp h1
        exact Nat.lt_of_lt_of_le hlt (Nat.pow_le_pow_right (by omega) (by omega))
      simp [h32, this]

theorem shiftOr16_eq {v : Bool} {s : Nat} (h : v = true → s < 64) :
    shiftOr16 v s = pageShift v s ∧ pageShift v s < 64 := by
  unfold shiftOr16 pageShift
  cases v
  · simp
  · have := h rfl
    simp; omega

theorem raOf_rpnOf {ra ea : BitVec 64} {v : Bool} {s : Nat} (hs : v = true → s < 64)
    (h : RaOk ra ea (pageShift v s)) : raOf (rpnOf ra v s) (shiftOr16 v s) ea = ra := by
  obtain ⟨h1, h2⟩ := shiftOr16_eq hs
  unfold rpnOf
  rw [h1]
  exact raOf_rpn h2 h

theorem rpnOf_congr {ra rb : BitVec 64} {v v' : Bool} {s s' : Nat} (hs : v = true → s < 64)
    (hs' : v' = true → s' < 64) (h : ra.toNat / 2 ^ pageShift v s = rb.toNat / 2 ^ pageShift v' s') :
    rpnOf ra v s = rpnOf rb v' s' := by
  unfold rpnOf
  rw [(shiftOr16_eq hs).1, (shiftOr16_eq hs').1]
  congr 1
  rw [← BitVec.toNat_inj, BitVec.toNat_ushiftRight, BitVec.toNat_ushiftRight, Nat.shiftRight_eq_div_pow,
    Nat.shiftRight_eq_div_pow, h]

/-- The reader's notion of the current translation is that of the record about to be read. -/
structure TransInv (s : RState) (a : Record) : Prop where
  addr : s.nextInsnAddr = a.insnAddr
  rv : (s.nextInsnRpnValid || s.insnRpnValid) = a.insnRaValid
  rpn : a.insnRaValid = true → (if s.nextInsnRpnValid then s.nextInsnRpn else s.insnRpn) =
    rpnOf a.insnRa a.insnPageShiftValid a.insnPageShift
  pv : (s.nextInsnPageShiftValid || s.insnPageShiftValid) = a.insnPageShiftValid
  ps : a.insnPageShiftValid = true →
    (if s.nextInsnPageShiftValid then s.nextInsnPageShift else s.insnPageShift) = a.insnPageShift
  gv : (s.nextGuestInsnPageShiftValid || s.guestInsnPageShiftValid) = a.guestInsnPageShiftValid
  gs : a.guestInsnPageShiftValid = true →
    (if s.nextGuestInsnPageShiftValid then s.nextGuestInsnPageShift else s.guestInsnPageShift) =
      a.guestInsnPageShift

theorem TransInv.start (magic r w) : TransInv (startState magic r w) r := by
  constructor <;> simp [startState, hdrOut, RState.initial] <;> grind

theorem TransInv.step {s a b} (h : TransInv s a) (ha : ShiftsOk a) (hb : ShiftsOk b)
    (ht : TranslationStep a b) : TransInv (outOf s a b).st b := by
  obtain ⟨addr, rv, rpn, pv, ps, gv, gs⟩ := h
  obtain ⟨t1, t2, t3, t4, t5⟩ := ht
  unfold outOf
  rw [recOut_st]
  by_cases hj : Jumps a b
  · have hc : iarChange a b = true := iarChange_iff.mpr hj
    have t5 := t5 hj
    constructor <;> simp only [hc, Bool.and_true] <;> grind
  · have hc : iarChange a b = false := by
      rw [← Bool.not_eq_true, iarChange_iff]; exact hj
    obtain ⟨q1, q2, q3, q4, q5, q6⟩ := t1 hj
    have hrp : a.insnRaValid = true → rpnOf b.insnRa b.insnPageShiftValid b.insnPageShift =
        rpnOf a.insnRa a.insnPageShiftValid a.insnPageShift := fun h => rpnOf_congr hb.1 ha.1 (q6 h)
    have hadr : b.insnAddr = a.insnAddr + 4 := Classical.byContradiction fun hne => hj hne
    constructor <;> simp only [hc, Bool.and_false, Bool.false_or, Bool.false_eq_true, if_false]
    · rw [addr, hadr]
    · grind
    · grind
    · grind
    · grind
    · grind
    · grind

/-! ### Page walks -/

theorem walkOut_same {w : Walk} {ty : XlateType} {x x0 : Radix} (h : radixWalk x = .ok w) (hn : w ≠ .none)
    (h4 : FourIfSingle x) : SameWalk x (walkOut w ty x x0) := by
  cases w with
  | none => exact absurd rfl hn
  | single g =>
    have hs : x.nrPtes ≠ 0 ∧ x.nrWalks = 1 := by
      unfold radixWalk at h
      split at h
      · assumption
      · split at h
        · split at h <;> simp at h
        · simp at h
    have h4' := h4 hs
    refine ⟨h4'.symm, hs.2.symm, ?_, ?_, ?_⟩
    · intro i j hi hj
      have : i = 0 := by omega
      subst this
      simp only [walkOut]
      rw [if_pos ⟨trivial, by omega⟩]
    · intro i h2 _; omega
    · intro i h2 _; omega
  | nested =>
    refine ⟨rfl, rfl, ?_, ?_, ?_⟩
    · intro i j hi hj; simp only [walkOut]; rw [if_pos ⟨hi, hj⟩]
    · intro i _ hi; simp only [walkOut]; rw [if_pos hi]
    · intro i _ hi; simp only [walkOut]; rw [if_pos hi]

theorem SameWalk.via {x y z : Radix} (h : SameWalk x y) (h' : SameWalk x z) : SameWalk z y := by
  obtain ⟨a1, a2, a3, a4, a5⟩ := h
  obtain ⟨b1, b2, b3, b4, b5⟩ := h'
  refine ⟨by omega, by omega, ?_, ?_, ?_⟩
  · intro i j hi hj; rw [a3 i j (by omega) (by omega), b3 i j (by omega) (by omega)]
  · intro i h2 hi; rw [a4 i (by omega) (by omega), b4 i (by omega) (by omega)]
  · intro i h2 hi; rw [a5 i (by omega) (by omega), b5 i (by omega) (by omega)]

/-- The walk the reader would report for the next instruction. -/
def effRadix (s : RState) : Radix := if s.nextRadixInsn.nrPtes ≠ 0 then s.nextRadixInsn else s.radixInsn

def WalkInv (s : RState) (a : Record) : Prop :=
  a.insnRaValid = true → ¬ NoWalk a.radixInsn → SameWalk a.radixInsn (effRadix s)

theorem WalkInv.start {magic r w} (hw : radixWalk r.radixInsn = .ok w)
    (hn : r.radixInsn.nrPtes ≠ 0 → r.insnRaValid = true ∧ w ≠ .none) (h4 : FourIfSingle r.radixInsn) :
    WalkInv (startState magic r w) r := by
  intro _ h
  have hwn := (hn h).2
  have := walkOut_same (ty := getRadixType 10 8 (hdrFlags3 w)) (x0 := RState.initial.nextRadixInsn) hw hwn h4
  unfold effRadix
  have e : (startState magic r w).nextRadixInsn =
    walkOut w (getRadixType 10 8 (hdrFlags3 w)) r.radixInsn RState.initial.nextRadixInsn := rfl
  rw [e, if_pos (by rw [this.1]; exact h)]
  exact this

theorem WalkInv.step {s a b} (h : WalkInv s a) (hb : RecordOk b) (h4 : FourIfSingle b.radixInsn)
    (hs : WalkStep a b) : WalkInv (outOf s a b).st b := by
  intro hv hn
  unfold outOf
  rw [recOut_st]
  unfold effRadix
  by_cases hj : Jumps a b
  · have hc : iarChange a b = true := iarChange_iff.mpr hj
    have ei := iwOf_eq (prev := a) hb
    obtain ⟨w, e, a1, _⟩ := radixWalk_of_ok (hb.2.1 hv)
    rw [hv, hc] at ei
    obtain rfl : w = iwOf a b := WRes.ok.inj (e.symm.trans ei)
    have := walkOut_same (ty := s.nextRadixInsn.type) (x0 := s.nextRadixInsn) e (fun h => hn (a1.mp h)) h4
    simp only [hc, hv, Bool.and_true, insnWalkOut, if_true]
    rw [if_pos (by rw [this.1]; exact hn)]
    exact this
  · have hc : iarChange a b = false := by
      rw [← Bool.not_eq_true, iarChange_iff]; exact hj
    obtain ⟨q1, q2⟩ := hs hj hv hn
    have hna : ¬ NoWalk a.radixInsn := by
      intro hz; apply hn; unfold NoWalk at *; rw [q2.1]; exact hz
    have hI := h q1 hna
    simp only [hc, Bool.and_false, insnWalkOut, Bool.false_eq_true, if_false]
    have : effRadix s = (if s.nextRadixInsn.nrPtes ≠ 0 then s.nextRadixInsn else
        (if s.nextRadixInsn.nrPtes ≠ 0 then s.nextRadixInsn else s.radixInsn)) := by
      unfold effRadix; split <;> rfl
    rw [← this]
    exact SameWalk.via hI q2

theorem radixWalk_single {x : Radix} {g : Bool} (h : radixWalk x = .ok (.single g)) :
    x.type = if g then .guestReal else .hostRadix := by
  unfold radixWalk at h
  split at h
  · cases ht : x.type <;> simp [ht] at h <;> simp [← h]
  · split at h
    · split at h <;> simp at h
    · simp at h

theorem dataWalk_type {a b : Record} (ha : RecordOk a) (hb : RecordOk b) (hv : a.dataRaValid = true)
    (hsg : Single a.radixData)
    (hty : Jumps a b → b.insnRaValid = true → Single b.radixInsn → b.radixInsn.type = a.radixData.type) :
    (dataWalkOut a.dataRaValid (dwOf a) (iwOf a b) a.radixData {}).type = a.radixData.type := by
  have ed := dwOf_eq ha
  have ei := iwOf_eq (prev := a) hb
  obtain ⟨w, e, a1, a2, a3⟩ := radixWalk_of_ok (ha.2.2 hv)
  rw [hv] at ed
  obtain rfl : w = dwOf a := WRes.ok.inj (e.symm.trans ed)
  obtain ⟨g, hg⟩ := a3.mpr hsg
  have ht := radixWalk_single (hg ▸ e)
  simp only [dataWalkOut, hv, if_true]
  rw [hg]
  simp only [walkOut]
  rw [ht]
  cases hiw : iwOf a b with
  | none => cases g <;> decide
  | nested => cases g <;> decide
  | single g' =>
    obtain ⟨hc, hr⟩ := walkIf_true (hiw ▸ ei) (by simp)
    simp only [Bool.and_eq_true] at hc
    obtain ⟨v, e', _, _, b3⟩ := radixWalk_of_ok (hb.2.1 hc.1)
    obtain rfl : v = .single g' := WRes.ok.inj (e'.symm.trans hr)
    have hsi : Single b.radixInsn := b3.mp ⟨g', rfl⟩
    have := hty (iarChange_iff.mp hc.2) hc.1 hsi
    rw [radixWalk_single hr, ht] at this
    cases g <;> cases g' <;> first | decide | simp at this

end Qt
