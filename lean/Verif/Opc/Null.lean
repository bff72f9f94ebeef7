import Verif.Opc.Masks
import Verif.Opc.Spec

/-! Operands without functions. -/
namespace Opc

variable {i x m w : W} {v inv : Int} {e : Bool}

theorem get_left {n k : Nat} (hm : (m <<< n) >>> n = m) (h : m.getLsbD k = true) : n + k < 64 := by
  rw [← hm, BitVec.getLsbD_ushiftRight] at h
  exact BitVec.lt_of_getLsbD h

/-- A field at a left shift is read back. -/
theorem left_field {n : Nat} (hm : (m <<< n) >>> n = m) (hi : i &&& (m <<< n) = 0#64) : ((i ||| ((x &&& m) <<< n)) >>> n) &&& m = x &&& m := by
  apply BitVec.eq_of_getLsbD_eq
  intro k hk
  by_cases a : m.getLsbD k = true
  · have hn := get_left hm a
    have hz := congrArg (fun y => y.getLsbD (n + k)) hi
    simp [BitVec.getLsbD_and, BitVec.getLsbD_shiftLeft, hn] at hz
    have hz' : i.getLsbD (n + k) = false := by
      cases hik : i.getLsbD (n + k)
      · rfl
      · rw [BitVec.getLsbD_eq_getElem hn] at hik
        rw [BitVec.getLsbD_eq_getElem hk] at a
        rw [hz hik] at a; cases a
    rw [BitVec.getLsbD_and, BitVec.getLsbD_ushiftRight, BitVec.getLsbD_or, BitVec.getLsbD_shiftLeft, BitVec.getLsbD_and, hz', a]
    simp [hn, show ¬n + k < n by omega]
  · have a' : m.getLsbD k = false := by simpa using a
    rw [BitVec.getLsbD_and, BitVec.getLsbD_and, a', Bool.and_false, Bool.and_false]

/-- A field at a right shift is read back. -/
theorem right_field {n : Nat} (hm : (m >>> n) <<< n = m) (hi : i &&& (m >>> n) = 0#64) : ((i ||| ((x &&& m) >>> n)) <<< n) &&& m = x &&& m := by
  apply BitVec.eq_of_getLsbD_eq
  intro k hk
  by_cases a : m.getLsbD k = true
  · have hn : n ≤ k := by
      rw [← hm, BitVec.getLsbD_shiftLeft] at a
      simp at a
      omega
    have hz := congrArg (fun y => y.getLsbD (k - n)) hi
    simp only [BitVec.getLsbD_and, BitVec.getLsbD_ushiftRight, show n + (k - n) = k by omega, a, Bool.and_true, BitVec.getLsbD_zero] at hz
    rw [BitVec.getLsbD_and, BitVec.getLsbD_shiftLeft, BitVec.getLsbD_or, BitVec.getLsbD_ushiftRight, BitVec.getLsbD_and, hz]
    simp [show n + (k - n) = k by omega, hk, show ¬k < n by omega]
  · have a' : m.getLsbD k = false := by simpa using a
    rw [BitVec.getLsbD_and, BitVec.getLsbD_and, a', Bool.and_false, Bool.and_false]

theorem left_back {n : Nat} : (i &&& ~~~(m <<< n)) ||| ((((i >>> n) &&& m)) <<< n) = i := by
  apply BitVec.eq_of_getLsbD_eq
  intro k hk
  rw [BitVec.getLsbD_or, BitVec.getLsbD_and, BitVec.getLsbD_not, BitVec.getLsbD_shiftLeft, BitVec.getLsbD_shiftLeft, BitVec.getLsbD_and,
    BitVec.getLsbD_ushiftRight]
  by_cases a : k < n
  · simp [a, hk]
  · rw [show n + (k - n) = k by omega]
    cases i.getLsbD k <;> cases m.getLsbD (k - n) <;> simp [a, hk]

theorem right_back {n : Nat} (hm : (m >>> n) <<< n = m) : (i &&& ~~~(m >>> n)) ||| ((((i <<< n) &&& m)) >>> n) = i := by
  apply BitVec.eq_of_getLsbD_eq
  intro k hk
  rw [BitVec.getLsbD_or, BitVec.getLsbD_and, BitVec.getLsbD_not, BitVec.getLsbD_ushiftRight, BitVec.getLsbD_ushiftRight, BitVec.getLsbD_and,
    BitVec.getLsbD_shiftLeft, show n + k - n = k by omega]
  cases hmk : m.getLsbD (n + k)
  · simp [hk]
  · have := BitVec.lt_of_getLsbD hmk
    cases i.getLsbD k <;> simp [hk, this]

theorem and_and_mask : (x &&& m) &&& m = x &&& m := by rw [BitVec.and_assoc, BitVec.and_self]

theorem left_frame {n : Nat} : (i ||| ((x &&& m) <<< n)) &&& ~~~(m <<< n) = i &&& ~~~(m <<< n) := by
  apply BitVec.eq_of_getLsbD_eq
  intro k hk
  simp only [BitVec.getLsbD_or, BitVec.getLsbD_and, BitVec.getLsbD_not, BitVec.getLsbD_shiftLeft, hk, decide_true, Bool.true_and]
  cases i.getLsbD k <;> cases x.getLsbD (k - n) <;> cases m.getLsbD (k - n) <;> cases decide (k < n) <;> rfl

theorem right_frame {n : Nat} : (i ||| ((x &&& m) >>> n)) &&& ~~~(m >>> n) = i &&& ~~~(m >>> n) := by
  apply BitVec.eq_of_getLsbD_eq
  intro k hk
  simp only [BitVec.getLsbD_or, BitVec.getLsbD_and, BitVec.getLsbD_not, BitVec.getLsbD_ushiftRight, hk, decide_true, Bool.true_and]
  cases i.getLsbD k <;> cases x.getLsbD (n + k) <;> cases m.getLsbD (n + k) <;> rfl

/-- What is needed of a row without functions. -/
def Operand.plain (o : Operand) : Bool :=
  match o.shift with
  | none => false
  | some s =>
    decide (o.bitm = BitVec.ofNat 64 (2 ^ o.hi - 2 ^ o.lo)) && decide (o.lo ≤ o.hi) && decide (o.hi < 64) &&
    (if 0 ≤ s then decide ((o.bitm <<< s.toNat) >>> s.toNat = o.bitm) && decide (bits o.field = o.bitm <<< s.toNat)
      else decide ((o.bitm >>> (-s).toNat) <<< (-s).toNat = o.bitm) && decide (bits o.field = o.bitm >>> (-s).toNat)) &&
    (!o.signed || (decide (0 < o.hi) && decide (o.bitm.toNat.log2 = o.hi - 1) && !o.negative))

theorem plain_rows : ∀ o ∈ operands, o.ins = .null → o.plain = true := by decide +kernel

theorem and_mask_multiple {lo hi : Nat} (hl : lo ≤ hi) (hh : hi < 64) (hd : (2 : Int) ^ lo ∣ v) :
    BitVec.ofInt 64 v &&& BitVec.ofNat 64 (2 ^ hi - 2 ^ lo) = BitVec.ofInt 64 v &&& BitVec.ofNat 64 (2 ^ hi - 1) := by
  have p1 : 2 ^ hi < 2 ^ 64 := Nat.pow_lt_pow_right (by omega) hh
  have hdn : 2 ^ lo ∣ (BitVec.ofInt 64 v).toNat := by
    rw [toNat_ofInt64]
    have h64 : (2 : Int) ^ lo ∣ 2 ^ 64 := by
      have : (2 : Nat) ^ lo ∣ 2 ^ 64 := Nat.pow_dvd_pow 2 (by omega)
      exact_mod_cast this
    have : (2 : Int) ^ lo ∣ v % 2 ^ 64 := by
      rw [Int.emod_def]
      exact Int.dvd_sub hd (Int.dvd_mul_of_dvd_left h64)
    have hnn : 0 ≤ v % 2 ^ 64 := Int.emod_nonneg _ (by decide)
    obtain ⟨n, hn⟩ := Int.eq_ofNat_of_zero_le hnn
    rw [hn] at this ⊢
    simp only [Int.toNat_natCast]
    exact_mod_cast this
  apply BitVec.eq_of_getLsbD_eq
  intro k hk
  rw [BitVec.getLsbD_and, BitVec.getLsbD_and]
  by_cases a : k < lo
  · have : (BitVec.ofInt 64 v).getLsbD k = false := by
      rw [← BitVec.testBit_toNat]; exact testBit_multiple hdn a
    rw [this, Bool.false_and, Bool.false_and]
  · have e1 : (BitVec.ofNat 64 (2 ^ hi - 2 ^ lo)).getLsbD k = (BitVec.ofNat 64 (2 ^ hi - 1)).getLsbD k := by
      rw [BitVec.getLsbD_ofNat, BitVec.getLsbD_ofNat]
      by_cases b : k < hi
      · rw [testBit_mask (by omega) b, Nat.testBit_two_pow_sub_one]; simp [b]
      · have l1 : (2 ^ hi - 2 ^ lo).testBit k = false :=
          Nat.testBit_lt_two_pow (Nat.lt_of_lt_of_le (show 2 ^ hi - 2 ^ lo < 2 ^ hi by have := Nat.two_pow_pos lo; have := Nat.two_pow_pos hi; omega) (Nat.pow_le_pow_right (by omega) (by omega)))
        rw [l1, Nat.testBit_two_pow_sub_one]; simp [b]
    rw [e1]

/-- The value that the bits of the operand stand for. -/
theorem plain_value {o : Operand} (hp : o.plain = true) (h1 : o.plus1 = false) (hv : o.Range v) :
    (if o.signed then signExtend o.bitm (BitVec.ofInt 64 v &&& o.bitm) else BitVec.ofInt 64 v &&& o.bitm) = BitVec.ofInt 64 v := by
  unfold Operand.plain at hp
  split at hp
  · cases hp
  · simp only [Bool.and_eq_true, decide_eq_true_eq, Bool.or_eq_true, Bool.not_eq_true'] at hp
    obtain ⟨⟨⟨⟨hm, hl⟩, hh⟩, _⟩, hs⟩ := hp
    obtain ⟨hd, hr⟩ := hv
    rcases hs with hs | ⟨⟨hs0, hs1⟩, hs2⟩
    · rw [hs] at hr ⊢
      simp only [Bool.false_eq_true, if_false, h1, false_and, or_false] at hr ⊢
      have := unsigned_bits hr.1 hr.2 hd
      rw [← hm] at this
      exact and_self_of this
    · cases hsig : o.signed
      · rw [hsig] at hr
        simp only [Bool.false_eq_true, if_false, h1, false_and, or_false] at hr ⊢
        have := unsigned_bits hr.1 hr.2 hd
        rw [← hm] at this
        exact and_self_of this
      · rw [hsig, if_pos rfl, hs2] at hr
        simp only [Bool.false_eq_true, if_false] at hr
        rw [if_pos rfl]
        have e1 : BitVec.ofInt 64 v &&& o.bitm = BitVec.ofInt 64 v &&& BitVec.ofNat 64 (2 ^ o.hi - 1) := by
          rw [hm]; exact and_mask_multiple hl hh hd
        have e2 := sext_value (t := o.hi - 1) (by omega) hr.1 hr.2
        rw [show o.hi - 1 + 1 = o.hi by omega] at e2
        rw [signExtend, hs1, e1]
        exact e2

theorem insertNull_cases {o : Operand} (hp : o.plain = true) (h : o.insertNull i x = some (w, e)) :
    e = false ∧ ((∃ n : Nat, o.shift = some (n : Int) ∧ (o.bitm <<< n) >>> n = o.bitm ∧ bits o.field = o.bitm <<< n ∧ w = i ||| ((x &&& o.bitm) <<< n)) ∨
      (∃ n : Nat, 0 < n ∧ o.shift = some (-(n : Int)) ∧ (o.bitm >>> n) <<< n = o.bitm ∧ bits o.field = o.bitm >>> n ∧ w = i ||| ((x &&& o.bitm) >>> n))) := by
  unfold Operand.plain at hp
  unfold Operand.insertNull at h
  split at hp
  · cases hp
  · next s hs =>
    rw [hs] at h
    simp only [Bool.and_eq_true] at hp
    obtain ⟨⟨_, hq⟩, _⟩ := hp
    by_cases a : 0 ≤ s
    · simp only [if_pos a, Bool.and_eq_true, decide_eq_true_eq, Option.some.injEq, Prod.mk.injEq] at hq h
      exact ⟨h.2.symm, .inl ⟨s.toNat, by rw [hs, Int.toNat_of_nonneg a], hq.1, hq.2, h.1.symm⟩⟩
    · simp only [if_neg a, Bool.and_eq_true, decide_eq_true_eq, Option.some.injEq, Prod.mk.injEq] at hq h
      exact ⟨h.2.symm, .inr ⟨(-s).toNat, by omega, by rw [hs, Int.toNat_of_nonneg (by omega), Int.neg_neg], hq.1, hq.2, h.1.symm⟩⟩

theorem insertNull_some {o : Operand} (hp : o.plain = true) : ∃ w, o.insertNull i x = some (w, false) := by
  unfold Operand.plain at hp
  unfold Operand.insertNull
  split at hp
  · cases hp
  · next s hs =>
    rw [hs]
    simp only
    split
    · exact ⟨_, rfl⟩
    · exact ⟨_, rfl⟩

theorem extractNull_left {o : Operand} {n : Nat} (hs : o.shift = some (n : Int)) :
    o.extractNull w inv = (if o.signed then signExtend o.bitm ((w >>> n) &&& o.bitm) else (w >>> n) &&& o.bitm, inv) := by
  unfold Operand.extractNull
  rw [hs]
  simp

theorem extractNull_right {o : Operand} {n : Nat} (h0 : 0 < n) (hs : o.shift = some (-(n : Int))) :
    o.extractNull w inv = (if o.signed then signExtend o.bitm ((w <<< n) &&& o.bitm) else (w <<< n) &&& o.bitm, inv) := by
  unfold Operand.extractNull
  rw [hs]
  simp only [if_neg (show ¬(0 : Int) ≤ -(n : Int) by omega), Int.neg_neg, Int.toNat_natCast]

theorem rtNull {o : Operand} (hp : o.plain = true) (h1 : o.plus1 = false) (hv : o.Range v) (hi : i &&& bits o.field = 0#64)
    (h : o.insertNull i (BitVec.ofInt 64 v) = some (w, e)) : o.extractNull w inv = (BitVec.ofInt 64 v, inv) := by
  obtain ⟨_, ⟨n, hs, hm, hf, hw⟩ | ⟨n, h0, hs, hm, hf, hw⟩⟩ := insertNull_cases hp h
  · rw [hf] at hi
    rw [extractNull_left hs, hw, left_field hm hi, plain_value hp h1 hv]
  · rw [hf] at hi
    rw [extractNull_right h0 hs, hw, right_field hm hi, plain_value hp h1 hv]

theorem frNull {o : Operand} (hp : o.plain = true) (h : o.insertNull i x = some (w, e)) :
    w &&& ~~~bits o.field = i &&& ~~~bits o.field ∧ i &&& ~~~w = 0#64 := by
  obtain ⟨_, ⟨n, hs, hm, hf, hw⟩ | ⟨n, h0, hs, hm, hf, hw⟩⟩ := insertNull_cases hp h
  · rw [hf, hw]; exact ⟨left_frame, and_not_or _ _⟩
  · rw [hf, hw]; exact ⟨right_frame, and_not_or _ _⟩

/-- The bits of the operand from the extracted value. -/
theorem plain_bits {o : Operand} (hp : o.plain = true) {y : W} (hy : y &&& o.bitm = y) :
    (if o.signed then signExtend o.bitm y else y) &&& o.bitm = y := by
  unfold Operand.plain at hp
  split at hp
  · cases hp
  · simp only [Bool.and_eq_true, decide_eq_true_eq, Bool.or_eq_true, Bool.not_eq_true'] at hp
    obtain ⟨⟨⟨⟨hm, hl⟩, hh⟩, _⟩, hs⟩ := hp
    cases hsig : o.signed
    · simpa using hy
    · rw [hsig] at hs
      simp only [Bool.true_eq_false, false_or] at hs
      obtain ⟨⟨hs0, hs1⟩, hs2⟩ := hs
      have p1 : 2 ^ o.hi < 2 ^ 64 := Nat.pow_lt_pow_right (by omega) hh
      have hb : o.bitm &&& BitVec.ofNat 64 (2 ^ o.hi - 1) = o.bitm := by
        rw [hm]
        apply BitVec.eq_of_toNat_eq
        rw [and_low _ (by omega), BitVec.toNat_ofNat]
        have := Nat.two_pow_pos o.lo
        have := Nat.two_pow_pos o.hi
        rw [Nat.mod_eq_of_lt (show 2 ^ o.hi - 2 ^ o.lo < 2 ^ 64 by omega)]
        exact Nat.mod_eq_of_lt (by omega)
      have hlt : y.toNat < 2 ^ (o.hi - 1 + 1) := by
        rw [show o.hi - 1 + 1 = o.hi by omega]
        have : y = y &&& BitVec.ofNat 64 (2 ^ o.hi - 1) := by
          rw [← hy, BitVec.and_assoc, hb]
        rw [this, and_low _ (by omega)]
        exact Nat.mod_lt _ (Nat.two_pow_pos _)
      have e := sext_low (t := o.hi - 1) (by omega) hlt
      rw [show o.hi - 1 + 1 = o.hi by omega] at e
      rw [if_pos rfl, signExtend, hs1]
      change sext (o.hi - 1) y &&& o.bitm = y
      rw [show sext (o.hi - 1) y &&& o.bitm = (sext (o.hi - 1) y &&& BitVec.ofNat 64 (2 ^ o.hi - 1)) &&& o.bitm by
        rw [BitVec.and_assoc, BitVec.and_comm (BitVec.ofNat 64 (2 ^ o.hi - 1)) o.bitm, hb], e, hy]

theorem bkNull {o : Operand} (hp : o.plain = true) : o.insertNull (o.without i) (o.extractNull i inv).1 = some (i, false) := by
  obtain ⟨w, h⟩ := insertNull_some (i := o.without i) (x := (o.extractNull i inv).1) hp
  rw [h]
  obtain ⟨_, ⟨n, hs, hm, hf, hw⟩ | ⟨n, h0, hs, hm, hf, hw⟩⟩ := insertNull_cases hp h
  · rw [hw, extractNull_left hs]
    simp only [plain_bits hp and_and_mask, Operand.without, hf, left_back]
  · rw [hw, extractNull_right h0 hs]
    simp only [plain_bits hp and_and_mask, Operand.without, hf, right_back hm]

end Opc
