import Verif.Qt.Translation
import Verif.Qt.SpecTold
/-! Helper lemmas: the reader's state follows what the trace said last about the pages of instructions. -/
namespace Qt
open Spec

/-- `carried`, walking along the list. -/
def carry {α : Type} (f : Record → Option α) (v : Option α) (a b : Record) : Option α :=
  if iarChange a b then (f b).or v else v

theorem carried_succ {α : Type} (f : Record → Option α) (rs : List Record) (i : Nat) (a b : Record) (ha : rs[i]? = some a)
    (hb : rs[i + 1]? = some b) : carried f rs (i + 1) = carry f (carried f rs i) a b := by
  show (match rs[i]?, rs[i + 1]? with
    | some a, some b => if b.insnAddr ≠ a.insnAddr + 4 then (f b).or (carried f rs i) else carried f rs i
    | _, _ => none) = _
  rw [ha, hb]
  unfold carry iarChange
  dsimp only
  by_cases h : b.insnAddr = a.insnAddr + 4
  · rw [if_neg (by simp [h]), if_neg (by simp [h])]
  · rw [if_pos h, if_pos (bne_iff_ne.mpr h)]

/-- `sim_forall` with something that is carried along. -/
theorem sim_ghost {γ : Type} (up : γ → Record → Record → γ) (Inv : RState → Record → γ → Prop) (Pair : Record → Record → Prop)
    (Q : Record → Prop) (P : Record → γ → Record → Prop)
    (hP : ∀ s a b g, Inv s a g → Q a → P a g (outOf s a b).rcd)
    (hI : ∀ s a b g, Inv s a g → Pair a b → Inv (outOf s a b).st b (up g a b)) (c : Record) (G : Nat → γ) :
    ∀ (rs : List Record) (r : Record) (s : RState) (k : Nat), Inv s r (G k) → Chain Pair (r :: rs) → (∀ x ∈ r :: rs, Q x) →
      (∀ i a b, (r :: rs)[i]? = some a → (r :: rs)[i + 1]? = some b → G (k + i + 1) = up (G (k + i)) a b) →
      ∀ (i : Nat) (a : Record), (r :: rs)[i]? = some a →
        ∃ o, (sim s r (rs ++ [c])).1[i]? = some o ∧ P a (G (k + i)) o
  | [], r, s, k, hs, _, hq, _, i, a, ha => by
    cases i with
    | zero =>
      obtain rfl : r = a := by simpa using ha
      exact ⟨_, rfl, hP s r c _ hs (hq r (by simp))⟩
    | succ i => simp at ha
  | x :: l, r, s, k, hs, hp, hq, hg, i, a, ha => by
    cases i with
    | zero =>
      obtain rfl : r = a := by simpa using ha
      exact ⟨_, rfl, hP s r x _ hs (hq r (by simp))⟩
    | succ i =>
      rw [List.getElem?_cons_succ] at ha
      have h0 := hg 0 r x rfl rfl
      rw [Nat.add_zero] at h0
      have ih := sim_ghost up Inv Pair Q P hP hI c G l x (outOf s r x).st (k + 1) (by rw [h0]; exact hI s r x _ hs hp.1) hp.2
        (fun y hy => hq y (List.mem_cons_of_mem _ hy))
        (fun i a b h1 h2 => by
          have := hg (i + 1) a b (by rw [List.getElem?_cons_succ]; exact h1) (by rw [List.getElem?_cons_succ]; exact h2)
          rw [show k + 1 + i + 1 = k + (i + 1) + 1 by omega, show k + 1 + i = k + (i + 1) by omega]; exact this) i a ha
      obtain ⟨o, h1, h3⟩ := ih
      exact ⟨o, h1, by rw [show k + (i + 1) = k + 1 + i by omega]; exact h3⟩

/-- The page number as the file has it. -/
def frame32 (r : Record) : Option (BitVec 32) :=
  if r.insnRaValid then some (rpnOf r.insnRa r.insnPageShiftValid r.insnPageShift) else none

/-- What the reader holds for the instruction it reads next. -/
structure ToldInv (s : RState) (a : Record) (g : Option (BitVec 32) × Option Nat) : Prop where
  addr : s.nextInsnAddr = a.insnAddr
  rv : (s.nextInsnRpnValid || s.insnRpnValid) = g.1.isSome
  rpn : ∀ n, g.1 = some n → (if s.nextInsnRpnValid then s.nextInsnRpn else s.insnRpn) = n
  pv : (s.nextInsnPageShiftValid || s.insnPageShiftValid) = g.2.isSome
  ps : ∀ n, g.2 = some n → (if s.nextInsnPageShiftValid then s.nextInsnPageShift else s.insnPageShift) = n
  small : ∀ n, g.2 = some n → n < 64

theorem ToldInv.start {magic r w} (h : ShiftsOk r) : ToldInv (startState magic r w) r (frame32 r, insnShift r) := by
  have := h.1
  constructor <;> simp [startState, hdrOut, RState.initial, frame32, insnShift] <;> grind

def carry2 (g : Option (BitVec 32) × Option Nat) (a b : Record) : Option (BitVec 32) × Option Nat :=
  (carry frame32 g.1 a b, carry insnShift g.2 a b)

theorem ToldInv.step {s a b g} (h : ToldInv s a g) (hb : ShiftsOk b) : ToldInv (outOf s a b).st b (carry2 g a b) := by
  obtain ⟨addr, rv, rpn, pv, ps, sm⟩ := h
  obtain ⟨g1, g2⟩ := g
  unfold outOf
  rw [recOut_st]
  have hb1 := hb.1
  by_cases hj : Jumps a b
  · have hc : iarChange a b = true := iarChange_iff.mpr hj
    constructor <;> simp only [hc, Bool.and_true, carry2, carry, if_true, frame32, insnShift]
    · cases b.insnRaValid <;> simp_all
    · cases b.insnRaValid <;> simp_all
    · cases b.insnPageShiftValid <;> simp_all
    · cases b.insnPageShiftValid <;> simp_all
    · intro n hn
      cases hv : b.insnPageShiftValid with
      | true =>
        rw [hv] at hn
        exact Option.some.inj hn ▸ hb1 hv
      | false =>
        rw [hv] at hn
        exact sm n hn
  · have hc : iarChange a b = false := by
      rw [← Bool.not_eq_true, iarChange_iff]; exact hj
    have hadr : b.insnAddr = a.insnAddr + 4 := Classical.byContradiction fun hne => hj hne
    constructor <;> simp only [hc, Bool.and_false, Bool.false_or, Bool.false_eq_true, if_false, carry2, carry]
    · rw [addr, hadr]
    · exact rv
    · exact rpn
    · exact pv
    · exact ps
    · exact sm

theorem raOf_toNat (rpn : BitVec 32) (p : Nat) (ea : BitVec 64) (hp : p < 64) :
    (raOf rpn p ea).toNat = rpn.toNat * 2 ^ p % 2 ^ 64 + ea.toNat % 2 ^ p := by
  have hpl : 2 ^ p < 2 ^ 64 := Nat.pow_lt_pow_right (by omega) hp
  have hpos := Nat.two_pow_pos p
  have e : ((1#64 <<< p) - 1).toNat = 2 ^ p - 1 := by
    rw [BitVec.toNat_sub_of_le]
    · rw [BitVec.toNat_shiftLeft]
      simp only [BitVec.toNat_ofNat, Nat.shiftLeft_eq]
      rw [Nat.mod_eq_of_lt (by simpa using hpl)]
      simp
    · rw [BitVec.le_def, BitVec.toNat_shiftLeft]
      simp only [BitVec.toNat_ofNat, Nat.shiftLeft_eq]
      rw [Nat.mod_eq_of_lt (by simpa using hpl)]
      simp
      omega
  unfold raOf
  rw [BitVec.toNat_or, BitVec.toNat_and, e, Nat.and_two_pow_sub_one_eq_mod, BitVec.toNat_shiftLeft, Nat.shiftLeft_eq,
    BitVec.toNat_setWidth, Nat.mod_eq_of_lt (show rpn.toNat < 2 ^ 64 by have := rpn.isLt; omega)]
  have hsplit : rpn.toNat * 2 ^ p % 2 ^ 64 = 2 ^ p * (rpn.toNat % 2 ^ (64 - p)) := by
    rw [show (2:Nat) ^ 64 = 2 ^ (64 - p) * 2 ^ p by rw [← Nat.pow_add]; congr 1; omega, Nat.mul_mod_mul_right, Nat.mul_comm]
  rw [hsplit, ← Nat.two_pow_add_eq_or_of_lt (Nat.mod_lt _ hpos)]

theorem carried_map {α β : Type} (f : Record → Option α) (g : α → β) (rs : List Record) (i : Nat) :
    carried (fun r => (f r).map g) rs i = (carried f rs i).map g := by
  induction i with
  | zero =>
    show rs[0]?.bind _ = (rs[0]?.bind _).map g
    cases rs[0]? <;> rfl
  | succ i ih =>
    show (match rs[i]?, rs[i + 1]? with
      | some a, some b => if b.insnAddr ≠ a.insnAddr + 4 then ((f b).map g).or (carried (fun r => (f r).map g) rs i)
        else carried (fun r => (f r).map g) rs i
      | _, _ => none) = Option.map g (match rs[i]?, rs[i + 1]? with
      | some a, some b => if b.insnAddr ≠ a.insnAddr + 4 then (f b).or (carried f rs i) else carried f rs i
      | _, _ => none)
    cases rs[i]? with
    | none => rfl
    | some a =>
      cases rs[i + 1]? with
      | none => rfl
      | some b =>
        dsimp only
        split
        · rw [ih]; cases f b <;> rfl
        · exact ih

theorem frame32_eq {r : Record} (h : ShiftsOk r) : frame32 r = (insnFrame r).map (BitVec.ofNat 32) := by
  unfold frame32 insnFrame
  cases r.insnRaValid with
  | false => rfl
  | true =>
    rw [if_pos rfl, if_pos rfl]
    unfold rpnOf
    rw [(shiftOr16_eq h.1).1, Option.map_some]
    congr 1
    apply BitVec.eq_of_toNat_eq
    rw [BitVec.toNat_setWidth, BitVec.toNat_ofNat, BitVec.toNat_ushiftRight, Nat.shiftRight_eq_div_pow]

theorem carried_congr {α : Type} {f g : Record → Option α} {rs : List Record} (h : ∀ r ∈ rs, f r = g r) (i : Nat) :
    carried f rs i = carried g rs i := by
  induction i with
  | zero =>
    show rs[0]?.bind _ = rs[0]?.bind _
    cases e : rs[0]? with
    | none => rfl
    | some a => exact h a (List.mem_of_getElem? e)
  | succ i ih =>
    show (match rs[i]?, rs[i + 1]? with
      | some a, some b => if b.insnAddr ≠ a.insnAddr + 4 then (f b).or (carried f rs i) else carried f rs i
      | _, _ => none) = (match rs[i]?, rs[i + 1]? with
      | some a, some b => if b.insnAddr ≠ a.insnAddr + 4 then (g b).or (carried g rs i) else carried g rs i
      | _, _ => none)
    cases rs[i]? with
    | none => rfl
    | some a =>
      cases e : rs[i + 1]? with
      | none => rfl
      | some b =>
        dsimp only
        rw [ih, h b (List.mem_of_getElem? e)]

end Qt
