import Verif.Htm.Recode
import Verif.Htm.PropsBits
/-!
C24: recoded branches point at the traced target.

The specification is the Power ISA: the fields of an instruction word, bit 0 being the most significant, and the target of a
branch.  The traced target has the low bits stored in the word; its upper bits are those of the address of the branch, plus
one or minus one as told by the carry mode.
-/
namespace Htm

/-! ### The instruction set -/

/-- Bits `a` to `b` of an instruction word. -/
def field (w : BitVec 32) (a b : Nat) : Nat := w.toNat / 2 ^ (31 - b) % 2 ^ (b - a + 1)

/-- The displacement of a branch: `n` low bits of the word, without the two lowest, sign extended. -/
def displacement (n : Nat) (w : BitVec 32) : BitVec 64 := ((w.setWidth n) &&& ~~~ 3#n).signExtend 64

/-- The target of a branch at an address: bit 30 (`AA`) selects absolute addresses. -/
def target (n : Nat) (w : BitVec 32) (address : BitVec 64) : BitVec 64 :=
  if w.getMsbD 30 then displacement n w else address + displacement n w

/-- I-form: 26 bits of displacement. -/
def targetI := target 26
/-- B-form: 16 bits of displacement. -/
def targetB := target 16

/-! ### The trace -/

/-- The carry of a mode. -/
def carry (mode : Nat) : Int := if mode = 1 then 1 else if mode = 3 then -1 else 0

/-- The traced target with `n` low bits. -/
def traced (n mode low : Nat) (iea : BitVec 64) : BitVec 64 :=
  BitVec.ofInt 64 (((iea.toNat / 2 ^ n : Nat) + carry mode) * 2 ^ n + low)

/-- A displacement that `n` bits can hold. -/
def Encodable (n : Nat) (target iea : BitVec 64) : Prop :=
  -2 ^ (n - 1) ≤ (target - iea).toInt ∧ (target - iea).toInt < 2 ^ (n - 1)

instance (n : Nat) (a b : BitVec 64) : Decidable (Encodable n a b) := by unfold Encodable; infer_instance

/-! ### Lemmas -/

theorem displacement_eq {n : Nat} (hn : 2 ≤ n) (hn' : n ≤ 32) {w : BitVec 32} {d : BitVec 64} (hw : ∀ i, 2 ≤ i → i < n → w.getLsbD i = d.getLsbD i)
    (h0 : d.getLsbD 0 = false) (h1 : d.getLsbD 1 = false) (hl : -2 ^ (n - 1) ≤ d.toInt) (hu : d.toInt < 2 ^ (n - 1)) :
    displacement n w = d := by
  have h3 : ∀ i, i < n → (3#n).getLsbD i = decide (i < 2) := by
    intro i hi
    rw [BitVec.getLsbD_ofNat]
    rw [show (3 : Nat) = 2 ^ 2 - 1 from rfl, Nat.testBit_two_pow_sub_one]
    simp [hi]
  have e : ((w.setWidth n) &&& ~~~ 3#n) = d.setWidth n := by
    apply BitVec.eq_of_getLsbD_eq
    intro i hi
    rw [BitVec.getLsbD_and, BitVec.getLsbD_not, h3 i hi, BitVec.getLsbD_setWidth, BitVec.getLsbD_setWidth]
    by_cases h2 : i < 2
    · rcases (by omega : i = 0 ∨ i = 1) with h | h
      · subst h; rw [h0]; simp
      · subst h; rw [h1]; simp
    · rw [hw i (by omega) hi]; simp [h2, hi]
  unfold displacement
  rw [e]
  apply BitVec.eq_of_toInt_eq
  rw [BitVec.toInt_signExtend_of_le (by omega), BitVec.toInt_setWidth]
  have hd : d.toInt = (d.toNat : Int) ∨ d.toInt = (d.toNat : Int) - 2 ^ 64 := by
    rw [BitVec.toInt_eq_toNat_cond]; split <;> omega
  have hb : (d.toInt).bmod (2 ^ n) = d.toInt := by
    have e : (2 : Int) ^ n = 2 * 2 ^ (n - 1) := by
      rw [← Int.pow_succ']; congr 1; omega
    apply Int.bmod_eq_of_le
    · push_cast; rw [e]; omega
    · push_cast; rw [e]; omega
  rw [← hb]
  rcases hd with h | h
  · rw [h]
  · rw [h]
    have : (2 : Int) ^ 64 = ((2 ^ n : Nat) : Int) * 2 ^ (64 - n) := by
      rw [show ((2 ^ n : Nat) : Int) = 2 ^ n from by simp, ← Int.pow_add, show n + (64 - n) = 64 from by omega]
    rw [this, Int.sub_mul_bmod_self_left]

theorem displacement_eq' {n : Nat} (hn : 2 ≤ n) (hn' : n ≤ 32) {w : BitVec 32} {d : BitVec 64}
    (hw : w.toNat % 2 ^ n / 2 ^ 2 = d.toNat % 2 ^ n / 2 ^ 2) (h4 : d.toNat % 4 = 0) (hl : -2 ^ (n - 1) ≤ d.toInt) (hu : d.toInt < 2 ^ (n - 1)) :
    displacement n w = d := by
  refine displacement_eq hn hn' ?_ ?_ ?_ hl hu
  · intro i h1 h2
    have h := congrArg (fun x => Nat.testBit x (i - 2)) hw
    simp only [Nat.testBit_div_two_pow, Nat.testBit_mod_two_pow, BitVec.testBit_toNat, show i - 2 + 2 = i from by omega, h2,
      decide_true, Bool.true_and] at h
    exact h
  · rw [← BitVec.testBit_toNat, Nat.testBit_zero]
    have : d.toNat % 2 = 0 := by omega
    simp [this]
  · rw [← BitVec.testBit_toNat, Nat.testBit_eq_decide_div_mod_eq]
    have : d.toNat / 2 ^ 1 % 2 = 0 := by omega
    simp [this]

theorem or_add {w k : Nat} {a b : BitVec w} (ha : a.toNat % 2 ^ k = 0) (hb : b.toNat < 2 ^ k) : (a ||| b).toNat = a.toNat + b.toNat := by
  rw [BitVec.toNat_or]
  have : a.toNat = 2 ^ k * (a.toNat / 2 ^ k) := by
    have := Nat.div_add_mod a.toNat (2 ^ k); omega
  rw [this, Nat.two_pow_add_eq_or_of_lt hb]

theorem and_mask {w : Nat} (x : BitVec w) {lo hi : Nat} (hlo : lo ≤ hi) (hhi : hi ≤ w) :
    (x &&& BitVec.ofNat w ((2 ^ (hi - lo) - 1) * 2 ^ lo)).toNat = x.toNat % 2 ^ hi / 2 ^ lo * 2 ^ lo := by
  apply Nat.eq_of_testBit_eq
  intro i
  rw [BitVec.testBit_toNat, BitVec.getLsbD_and, BitVec.getLsbD_ofNat, Nat.testBit_mul_two_pow, Nat.testBit_two_pow_sub_one,
    Nat.testBit_mul_two_pow, Nat.testBit_div_two_pow, Nat.testBit_mod_two_pow, BitVec.testBit_toNat]
  by_cases h1 : lo ≤ i
  · rw [show i - lo + lo = i from by omega]
    by_cases h2 : i < hi
    · simp [h1, h2, show i - lo < hi - lo from by omega, show i < w from by omega]
    · simp [h2, show ¬ i - lo < hi - lo from by omega]
  · simp [h1]

theorem sub_mod4 {a b : BitVec 64} (ha : a.toNat % 4 = 0) (hb : b.toNat % 4 = 0) : (a - b).toNat % 4 = 0 := by
  rw [BitVec.toNat_sub]; omega

theorem or_low {n : Nat} (hn : n < 64) {x l : BitVec 64} (hl : l.toNat < 2 ^ n) : x <<< n ||| l = x * BitVec.twoPow 64 n + l := by
  rw [← BitVec.shiftLeft_eq_mul_twoPow, BitVec.add_eq_or_of_and_eq_zero]
  apply BitVec.eq_of_getLsbD_eq
  intro i hi
  rw [BitVec.getLsbD_and, BitVec.getLsbD_shiftLeft]
  by_cases h : i < n
  · simp [h]
  · have : l.getLsbD i = false := by
      rw [← BitVec.testBit_toNat]
      exact Nat.testBit_lt_two_pow (Nat.lt_of_lt_of_le hl (Nat.pow_le_pow_right (by omega) (by omega)))
    simp [this]

theorem ofInt_pow {n : Nat} (hn : n < 64) : BitVec.ofInt 64 (2 ^ n) = BitVec.twoPow 64 n := by
  apply BitVec.eq_of_toNat_eq
  rw [BitVec.toNat_twoPow, BitVec.toNat_ofInt]
  have h : 2 ^ n < 2 ^ 64 := Nat.pow_lt_pow_right (by omega) hn
  rw [Nat.mod_eq_of_lt h]
  have : ((2 : Int) ^ n) = ((2 ^ n : Nat) : Int) := by simp
  rw [this]
  generalize 2 ^ n = k at *
  omega

theorem traced_eq {n : Nat} (hn : n < 64) (m : BitVec 32) (hm : m = 0 ∨ m = 1 ∨ m = 3) (iea : BitVec 64) {l : BitVec 64}
    (hl : l.toNat < 2 ^ n) : targetMsb m n iea ||| l = traced n m.toNat l.toNat iea := by
  have hq : iea >>> n = BitVec.ofInt 64 (iea.toNat / 2 ^ n : Nat) := by
    apply BitVec.eq_of_toNat_eq
    rw [BitVec.toNat_ushiftRight, Nat.shiftRight_eq_div_pow, BitVec.toNat_ofInt]
    have h1 : iea.toNat / 2 ^ n ≤ iea.toNat := Nat.div_le_self _ _
    have h2 := iea.isLt
    generalize iea.toNat / 2 ^ n = q at *
    omega
  have hlo : l = BitVec.ofInt 64 (l.toNat : Int) := by
    apply BitVec.eq_of_toNat_eq
    rw [BitVec.toNat_ofInt]
    have := l.isLt
    omega
  unfold targetMsb traced
  rw [BitVec.ofInt_add, BitVec.ofInt_mul, BitVec.ofInt_add, ← hq, ← hlo, ofInt_pow hn]
  rcases hm with h | h | h <;> subst h
  · rw [if_pos rfl, or_low hn hl, show carry (0 : BitVec 32).toNat = 0 from by decide,
      show BitVec.ofInt 64 0 = 0#64 from by decide, BitVec.add_zero]
  · rw [if_neg (by decide), if_pos rfl, or_low hn hl, show carry (1 : BitVec 32).toNat = 1 from by decide,
      show BitVec.ofInt 64 1 = 1#64 from by decide]
    rfl
  · rw [if_neg (by decide), if_neg (by decide), if_pos rfl, or_low hn hl, show carry (3 : BitVec 32).toNat = -1 from by decide,
      show BitVec.ofInt 64 (-1) = -1#64 from by decide, BitVec.sub_eq_add_neg]
    rfl


theorem traced_mod4 {n : Nat} (hn : 2 ≤ n) (m : BitVec 32) (hm : m = 0 ∨ m = 1 ∨ m = 3) (iea : BitVec 64) {l : BitVec 64}
    (hl : l.toNat % 4 = 0) : (targetMsb m n iea ||| l).toNat % 4 = 0 := by
  have hz : ∀ x : BitVec 64, (x <<< n).toNat % 4 = 0 := by
    intro x
    rw [BitVec.toNat_shiftLeft, Nat.shiftLeft_eq, show (2 : Nat) ^ n = 4 * 2 ^ (n - 2) from by
      rw [show (4 : Nat) = 2 ^ 2 from rfl, ← Nat.pow_add]; congr 1; omega]
    rw [show x.toNat * (4 * 2 ^ (n - 2)) = 4 * (x.toNat * 2 ^ (n - 2)) from by rw [Nat.mul_left_comm]]
    generalize x.toNat * 2 ^ (n - 2) = y
    omega
  have hor : ∀ x y : BitVec 64, x.toNat % 4 = 0 → y.toNat % 4 = 0 → (x ||| y).toNat % 4 = 0 := by
    intro x y hx hy
    rw [BitVec.toNat_or, show 4 = 2 ^ 2 from rfl, Nat.or_mod_two_pow, show 2 ^ 2 = 4 from rfl, hx, hy]
    rfl
  apply hor _ _ _ hl
  unfold targetMsb
  rcases hm with h | h | h <;> subst h
  · rw [if_pos rfl]; exact hz _
  · rw [if_neg (by decide), if_pos rfl]; exact hz _
  · rw [if_neg (by decide), if_neg (by decide), if_pos rfl]; exact hz _

/-- The displacement is read back from the word. -/
theorem target_relative {n : Nat} (hn : 2 ≤ n) (hn' : n ≤ 32) {w : BitVec 32} {t iea : BitVec 64} (haa : field w 30 30 = 0)
    (hw : w.toNat % 2 ^ n / 2 ^ 2 = (t - iea).toNat % 2 ^ n / 2 ^ 2) (ht : t.toNat % 4 = 0) (hi : iea.toNat % 4 = 0)
    (he : Encodable n t iea) : target n w iea = t := by
  unfold target
  have h0 : w.getMsbD 30 = false := by
    rw [BitVec.getMsbD, show 32 - 1 - 30 = 1 from rfl, ← BitVec.testBit_toNat, Nat.testBit_eq_decide_div_mod_eq]
    unfold field at haa
    simp only [show 31 - 30 = 1 from rfl, show 30 - 30 + 1 = 1 from rfl] at haa
    rw [show 2 ^ 1 = 2 from rfl] at haa ⊢
    simp [haa]
  rw [h0, if_neg (by simp), displacement_eq' hn hn' hw (sub_mod4 ht hi) he.1 he.2]
  rw [BitVec.add_comm, BitVec.sub_add_cancel]

theorem target_absolute {n : Nat} {w : BitVec 32} {iea : BitVec 64} (haa : field w 30 30 = 1) : target n w iea = displacement n w := by
  unfold target
  have h0 : w.getMsbD 30 = true := by
    rw [BitVec.getMsbD, show 32 - 1 - 30 = 1 from rfl, ← BitVec.testBit_toNat, Nat.testBit_eq_decide_div_mod_eq]
    unfold field at haa
    simp only [show 31 - 30 = 1 from rfl, show 30 - 30 + 1 = 1 from rfl] at haa
    rw [show 2 ^ 1 = 2 from rfl] at haa ⊢
    simp [haa]
  rw [h0, if_pos rfl]

theorem displacement_absolute {n : Nat} (hn : 2 ≤ n) {w : BitVec 32} {low : Nat} (hw : w.toNat % 2 ^ n / 4 * 4 = low % 2 ^ n) :
    displacement n w = (BitVec.ofNat n low).signExtend 64 := by
  unfold displacement
  congr 1
  apply BitVec.eq_of_toNat_eq
  rw [BitVec.toNat_ofNat, ← hw]
  have : (~~~ 3#n : BitVec n) = BitVec.ofNat n ((2 ^ (n - 2) - 1) * 2 ^ 2) := by
    apply BitVec.eq_of_getLsbD_eq
    intro i hi
    rw [BitVec.getLsbD_not, BitVec.getLsbD_ofNat, BitVec.getLsbD_ofNat, Nat.testBit_mul_two_pow, Nat.testBit_two_pow_sub_one,
      show (3 : Nat) = 2 ^ 2 - 1 from rfl, Nat.testBit_two_pow_sub_one]
    by_cases h : i < 2
    · simp [h, hi, show ¬ 2 ≤ i from by omega]
    · simp [h, hi, show 2 ≤ i from by omega, show i - 2 < n - 2 from by omega]
  rw [this, and_mask _ hn (Nat.le_refl n), BitVec.toNat_setWidth, Nat.mod_mod]

theorem field_eq {w : BitVec 32} {a b : Nat} (hb : b < 32) (hab : a ≤ b) : (bits32 w a b).toNat = field w a b := bits32_toNat hb hab

theorem field_lt (w : BitVec 32) (a b : Nat) : field w a b < 2 ^ (b - a + 1) := Nat.mod_lt _ (Nat.two_pow_pos _)

theorem shl_toNat {x : BitVec 32} {k n : Nat} (h : x.toNat < 2 ^ k) (hk : k + n ≤ 32) : (x <<< n).toNat = x.toNat * 2 ^ n := by
  rw [BitVec.toNat_shiftLeft, Nat.shiftLeft_eq, Nat.mod_eq_of_lt]
  calc x.toNat * 2 ^ n < 2 ^ k * 2 ^ n := Nat.mul_lt_mul_of_pos_right h (Nat.two_pow_pos n)
    _ = 2 ^ (k + n) := (Nat.pow_add ..).symm
    _ ≤ 2 ^ 32 := Nat.pow_le_pow_right (by omega) hk

/-! ### POWER10: the fields of the stored word -/

/-- The low target bits of an I-form branch. -/
def p10LowI (op : BitVec 32) : Nat := (field op 4 10 * 2 ^ 17 + field op 15 31) * 4
/-- The low target bits of a B-form branch. -/
def p10LowB (op : BitVec 32) : Nat := (field op 4 4 * 2 ^ 13 + field op 19 31) * 4
def p10BO (op : BitVec 32) : Nat := field op 5 8 * 2 + field op 13 13
def p10BI (op : BitVec 32) : Nat := field op 10 10 * 16 + field op 15 18

theorem lowI_toNat (op : BitVec 32) : (lowI op).toNat = p10LowI op := by
  have h1 := field_lt op 4 10
  have h2 := field_lt op 15 31
  have e1 : (bits32 op 4 10 <<< 17).toNat = field op 4 10 * 2 ^ 17 := by
    rw [shl_toNat (k := 7) (by rw [field_eq (by omega) (by omega)]; exact h1) (by omega), field_eq (by omega) (by omega)]
  have e2 : ((bits32 op 4 10 <<< 17) ||| bits32 op 15 31).toNat = field op 4 10 * 2 ^ 17 + field op 15 31 := by
    rw [or_add (k := 17) (by rw [e1]; omega) (by rw [field_eq (by omega) (by omega)]; exact h2), e1, field_eq (by omega) (by omega)]
  unfold lowI p10LowI
  simp only [show 10 - 4 + 1 = 7 from rfl, show 31 - 15 + 1 = 17 from rfl] at h1 h2
  rw [shl_toNat (k := 24) (by rw [e2]; omega) (by omega), e2]

theorem lowB_toNat (op : BitVec 32) : (lowB op).toNat = p10LowB op := by
  have h1 := field_lt op 4 4
  have h2 := field_lt op 19 31
  have e1 : (bits32 op 4 4 <<< 13).toNat = field op 4 4 * 2 ^ 13 := by
    rw [shl_toNat (k := 1) (by rw [field_eq (by omega) (by omega)]; exact h1) (by omega), field_eq (by omega) (by omega)]
  have e2 : ((bits32 op 4 4 <<< 13) ||| bits32 op 19 31).toNat = field op 4 4 * 2 ^ 13 + field op 19 31 := by
    rw [or_add (k := 13) (by rw [e1]; omega) (by rw [field_eq (by omega) (by omega)]; exact h2), e1, field_eq (by omega) (by omega)]
  unfold lowB p10LowB
  simp only [show 4 - 4 + 1 = 1 from rfl, show 31 - 19 + 1 = 13 from rfl] at h1 h2
  rw [shl_toNat (k := 14) (by rw [e2]; omega) (by omega), e2]

theorem boB_toNat (op : BitVec 32) : (boB op).toNat = p10BO op := by
  have h1 := field_lt op 5 8
  have h2 := field_lt op 13 13
  have e1 : (bits32 op 5 8 <<< 1).toNat = field op 5 8 * 2 ^ 1 := by
    rw [shl_toNat (k := 4) (by rw [field_eq (by omega) (by omega)]; exact h1) (by omega), field_eq (by omega) (by omega)]
  unfold boB p10BO
  rw [or_add (k := 1) (by rw [e1]; omega) (by rw [field_eq (by omega) (by omega)]; exact h2), e1, field_eq (by omega) (by omega)]

theorem biOf_toNat (op : BitVec 32) : (biOf op).toNat = p10BI op := by
  have h1 := field_lt op 10 10
  have h2 := field_lt op 15 18
  have e1 : (bits32 op 10 10 <<< 4).toNat = field op 10 10 * 2 ^ 4 := by
    rw [shl_toNat (k := 1) (by rw [field_eq (by omega) (by omega)]; exact h1) (by omega), field_eq (by omega) (by omega)]
  unfold biOf p10BI
  rw [or_add (k := 4) (by rw [e1]; omega) (by rw [field_eq (by omega) (by omega)]; exact h2), e1, field_eq (by omega) (by omega)]

theorem field_bits (op : BitVec 32) {a b : Nat} (hb : b < 32) (hab : a ≤ b) (c : BitVec 32) : bits32 op a b = c ↔ field op a b = c.toNat := by
  rw [← field_eq hb hab]
  exact ⟨fun h => by rw [h], BitVec.eq_of_toNat_eq⟩

theorem mode_cases (op : BitVec 32) (h : field op 2 3 ≠ 2) : bits32 op 2 3 = 0 ∨ bits32 op 2 3 = 1 ∨ bits32 op 2 3 = 3 := by
  rw [field_bits op (by omega) (by omega), field_bits op (by omega) (by omega), field_bits op (by omega) (by omega)]
  have := field_lt op 2 3
  simp only [show 3 - 2 + 1 = 2 from rfl] at this
  show field op 2 3 = 0 ∨ field op 2 3 = 1 ∨ field op 2 3 = 3
  omega


/-- The displacement part of the word. -/
theorem disp26 (d : BitVec 64) : (((d &&& 0x03fffffc).setWidth 32 : BitVec 32)).toNat = d.toNat % 2 ^ 26 / 4 * 4 := by
  rw [BitVec.toNat_setWidth, show (0x03fffffc : BitVec 64) = BitVec.ofNat 64 ((2 ^ (26 - 2) - 1) * 2 ^ 2) from rfl,
    and_mask d (by omega) (by omega)]
  omega

theorem disp16 (d : BitVec 64) : (((d &&& 0x0000fffc).setWidth 32 : BitVec 32)).toNat = d.toNat % 2 ^ 16 / 4 * 4 := by
  rw [BitVec.toNat_setWidth, show (0x0000fffc : BitVec 64) = BitVec.ofNat 64 ((2 ^ (16 - 2) - 1) * 2 ^ 2) from rfl,
    and_mask d (by omega) (by omega)]
  omega

theorem recodeI_relative_toNat {op : BitVec 32} (hm : field op 2 3 ≠ 2) (iea : BitVec 64) :
    (recodeI op iea).toNat = 0x48000000 + (traced 26 (field op 2 3) (p10LowI op) iea - iea).toNat % 2 ^ 26 / 4 * 4 + field op 1 1 := by
  have hl : ((lowI op).setWidth 64 : BitVec 64).toNat = p10LowI op := by
    rw [BitVec.toNat_setWidth, lowI_toNat, Nat.mod_eq_of_lt]
    have := (lowI op).isLt
    rw [lowI_toNat] at this
    omega
  have hlt : p10LowI op < 2 ^ 26 := by
    have h1 := field_lt op 4 10
    have h2 := field_lt op 15 31
    simp only [show 10 - 4 + 1 = 7 from rfl, show 31 - 15 + 1 = 17 from rfl] at h1 h2
    unfold p10LowI; omega
  have ht := traced_eq (n := 26) (by omega) _ (mode_cases op hm) iea (l := (lowI op).setWidth 64) (by rw [hl]; exact hlt)
  rw [hl, field_eq (by omega) (by omega)] at ht
  have hlk := field_lt op 1 1
  have hlk' := field_eq (w := op) (a := 1) (b := 1) (by omega) (by omega)
  unfold recodeI
  rw [if_neg (by rw [field_bits op (by omega) (by omega)]; exact hm), ht]
  generalize traced 26 (field op 2 3) (p10LowI op) iea - iea = d
  have hd := disp26 d
  have hor : ((0x48000000 : BitVec 32) ||| (d &&& 0x03fffffc).setWidth 32).toNat = 0x48000000 + d.toNat % 2 ^ 26 / 4 * 4 := by
    rw [or_add (k := 27) (by rfl) (by rw [hd]; omega), hd]; rfl
  rw [or_add (k := 2) (by rw [hor]; omega) (by rw [hlk']; omega), hor, hlk']

theorem p10LowI_mod4 (op : BitVec 32) : (((lowI op).setWidth 64 : BitVec 64)).toNat % 4 = 0 := by
  rw [BitVec.toNat_setWidth, lowI_toNat]; unfold p10LowI; omega

theorem p10LowB_mod4 (op : BitVec 32) : (((lowB op).setWidth 64 : BitVec 64)).toNat % 4 = 0 := by
  rw [BitVec.toNat_setWidth, lowB_toNat]; unfold p10LowB; omega

/-- The traced target is a multiple of four if its low bits are. -/
theorem traced_aligned {n : Nat} (hn : 2 ≤ n) (hn' : n < 64) {mode low : Nat} (hm : mode ≠ 2) (hm' : mode < 4) (hlow : low < 2 ^ n) (h4 : low % 4 = 0)
    (iea : BitVec 64) : (traced n mode low iea).toNat % 4 = 0 := by
  have hll : low < 2 ^ 64 := Nat.lt_trans hlow (Nat.pow_lt_pow_right (by omega) hn')
  have hl : (BitVec.ofNat 64 low).toNat = low := by rw [BitVec.toNat_ofNat, Nat.mod_eq_of_lt hll]
  have hmm : (BitVec.ofNat 32 mode).toNat = mode := by rw [BitVec.toNat_ofNat]; omega
  have hc : BitVec.ofNat 32 mode = 0 ∨ BitVec.ofNat 32 mode = 1 ∨ BitVec.ofNat 32 mode = 3 := by
    rcases (by omega : mode = 0 ∨ mode = 1 ∨ mode = 3) with h | h | h <;> subst h <;> simp
  have e := traced_eq hn' _ hc iea (l := BitVec.ofNat 64 low) (by rw [hl]; exact hlow)
  rw [hl, hmm] at e
  rw [← e]
  exact traced_mod4 hn _ hc iea (by rw [hl]; exact h4)

/-- POWER10, I-form, relative: the instruction is a branch with the traced link bit, and its target is the traced one. -/
theorem C24_p10_i {op : BitVec 32} {iea : BitVec 64} (ht : field op 11 12 = 0) (hm : field op 2 3 ≠ 2) (ha : iea.toNat % 4 = 0)
    (he : Encodable 26 (traced 26 (field op 2 3) (p10LowI op) iea) iea) :
    field (recodeP10 op iea) 0 5 = 18 ∧ field (recodeP10 op iea) 30 30 = 0 ∧ field (recodeP10 op iea) 31 31 = field op 1 1 ∧
    targetI (recodeP10 op iea) iea = traced 26 (field op 2 3) (p10LowI op) iea := by
  have hw : recodeP10 op iea = recodeI op iea := by
    unfold recodeP10
    rw [if_pos ((field_bits op (by omega) (by omega) 0).2 ht)]
  have hn := recodeI_relative_toNat hm iea
  rw [← hw] at hn
  have hlk := field_lt op 1 1
  have hml := field_lt op 2 3
  have h1 := field_lt op 4 10
  have h2 := field_lt op 15 31
  simp only [show 10 - 4 + 1 = 7 from rfl, show 31 - 15 + 1 = 17 from rfl, show 1 - 1 + 1 = 1 from rfl, show 3 - 2 + 1 = 2 from rfl] at h1 h2 hlk hml
  have hta : (traced 26 (field op 2 3) (p10LowI op) iea).toNat % 4 = 0 :=
    traced_aligned (by omega) (by omega) hm (by omega) (by unfold p10LowI; omega) (by unfold p10LowI; omega) iea
  have hd4 := sub_mod4 hta ha
  have haa : field (recodeP10 op iea) 30 30 = 0 := by
    unfold field at *; rw [hn]; omega
  refine ⟨?_, haa, ?_, ?_⟩
  · unfold field at *; rw [hn]; omega
  · rw [show field (recodeP10 op iea) 31 31 = (recodeP10 op iea).toNat / 2 ^ (31 - 31) % 2 ^ (31 - 31 + 1) from rfl, hn]
    generalize field op 1 1 = l at *
    omega
  · apply target_relative (by omega) (by omega) haa _ hta ha he
    rw [hn]
    generalize field op 1 1 = l at *
    omega

/-- POWER10, I-form, absolute. -/
theorem C24_p10_i_absolute {op : BitVec 32} (iea : BitVec 64) (ht : field op 11 12 = 0) (hm : field op 2 3 = 2) :
    field (recodeP10 op iea) 0 5 = 18 ∧ field (recodeP10 op iea) 30 30 = 1 ∧ field (recodeP10 op iea) 31 31 = field op 1 1 ∧
    targetI (recodeP10 op iea) iea = (BitVec.ofNat 26 (p10LowI op)).signExtend 64 := by
  have hw : recodeP10 op iea = recodeI op iea := by
    unfold recodeP10
    rw [if_pos ((field_bits op (by omega) (by omega) 0).2 ht)]
  have hlk := field_lt op 1 1
  have h1 := field_lt op 4 10
  have h2 := field_lt op 15 31
  simp only [show 10 - 4 + 1 = 7 from rfl, show 31 - 15 + 1 = 17 from rfl, show 1 - 1 + 1 = 1 from rfl] at h1 h2 hlk
  have hl := lowI_toNat op
  have hlt : p10LowI op < 2 ^ 26 := by unfold p10LowI; omega
  have h4 : p10LowI op % 4 = 0 := by unfold p10LowI; omega
  have hlk' := field_eq (w := op) (a := 1) (b := 1) (by omega) (by omega)
  have hn : (recodeP10 op iea).toNat = 0x48000000 + p10LowI op + 2 + field op 1 1 := by
    rw [hw]
    unfold recodeI
    rw [if_pos ((field_bits op (by omega) (by omega) 2).2 hm)]
    have e1 : ((0x48000000 : BitVec 32) ||| lowI op).toNat = 0x48000000 + p10LowI op := by
      rw [or_add (k := 27) (by rfl) (by rw [hl]; omega), hl]; rfl
    have e2 : ((0x48000000 : BitVec 32) ||| lowI op ||| 2).toNat = 0x48000000 + p10LowI op + 2 := by
      rw [or_add (k := 2) (by rw [e1]; omega) (by decide), e1]; rfl
    rw [or_add (k := 1) (by rw [e2]; omega) (by rw [hlk']; omega), e2, hlk']
  have haa : field (recodeP10 op iea) 30 30 = 1 := by
    rw [show field (recodeP10 op iea) 30 30 = (recodeP10 op iea).toNat / 2 ^ (31 - 30) % 2 ^ (30 - 30 + 1) from rfl, hn]
    omega
  refine ⟨?_, haa, ?_, ?_⟩
  · rw [show field (recodeP10 op iea) 0 5 = (recodeP10 op iea).toNat / 2 ^ (31 - 5) % 2 ^ (5 - 0 + 1) from rfl, hn]
    omega
  · rw [show field (recodeP10 op iea) 31 31 = (recodeP10 op iea).toNat / 2 ^ (31 - 31) % 2 ^ (31 - 31 + 1) from rfl, hn]
    omega
  · unfold targetI
    rw [target_absolute haa, displacement_absolute (by omega)]
    rw [hn]
    omega


theorem fld (w : BitVec 32) (a b : Nat) : field w a b = w.toNat / 2 ^ (31 - b) % 2 ^ (b - a + 1) := rfl

theorem p10BO_lt (op : BitVec 32) : p10BO op < 32 := by
  have h1 := field_lt op 5 8
  have h2 := field_lt op 13 13
  simp only [show 8 - 5 + 1 = 4 from rfl, show 13 - 13 + 1 = 1 from rfl] at h1 h2
  unfold p10BO; omega

theorem p10BI_lt (op : BitVec 32) : p10BI op < 32 := by
  have h1 := field_lt op 10 10
  have h2 := field_lt op 15 18
  simp only [show 10 - 10 + 1 = 1 from rfl, show 18 - 15 + 1 = 4 from rfl] at h1 h2
  unfold p10BI; omega

theorem p10LowB_lt (op : BitVec 32) : p10LowB op < 2 ^ 16 := by
  have h1 := field_lt op 4 4
  have h2 := field_lt op 19 31
  simp only [show 4 - 4 + 1 = 1 from rfl, show 31 - 19 + 1 = 13 from rfl] at h1 h2
  unfold p10LowB; omega

theorem one_lt (op : BitVec 32) (a : Nat) : field op a a < 2 := by
  have h := field_lt op a a
  rw [show a - a + 1 = 1 from by omega] at h
  exact h

/-- A word assembled from the fields of a B-form branch. -/
theorem assembleB {x y bo bi lk : BitVec 32} (hx : x.toNat = 0x40000000) (hy : y.toNat < 2 ^ 16) (hy2 : y.toNat % 2 = 0) (hbo : bo.toNat < 32)
    (hbi : bi.toNat < 32) (hlk : lk.toNat < 2) :
    (x ||| y ||| bo <<< 21 ||| bi <<< 16 ||| lk).toNat =
      0x40000000 + bo.toNat * 2 ^ 21 + bi.toNat * 2 ^ 16 + y.toNat + lk.toNat := by
  have e : x ||| y ||| bo <<< 21 ||| bi <<< 16 ||| lk = x ||| bo <<< 21 ||| bi <<< 16 ||| y ||| lk := by
    rw [BitVec.or_assoc x y, BitVec.or_comm y, ← BitVec.or_assoc, BitVec.or_assoc _ y, BitVec.or_comm y, ← BitVec.or_assoc]
  rw [e]
  have h1 : (bo <<< 21).toNat = bo.toNat * 2 ^ 21 := shl_toNat (k := 5) hbo (by omega)
  have h2 : (bi <<< 16).toNat = bi.toNat * 2 ^ 16 := shl_toNat (k := 5) hbi (by omega)
  have e1 : (x ||| bo <<< 21).toNat = 0x40000000 + bo.toNat * 2 ^ 21 := by
    rw [or_add (k := 26) (by rw [hx]) (by rw [h1]; omega), hx, h1]
  have e2 : (x ||| bo <<< 21 ||| bi <<< 16).toNat = 0x40000000 + bo.toNat * 2 ^ 21 + bi.toNat * 2 ^ 16 := by
    rw [or_add (k := 21) (by rw [e1]; omega) (by rw [h2]; omega), e1, h2]
  have e3 : (x ||| bo <<< 21 ||| bi <<< 16 ||| y).toNat = 0x40000000 + bo.toNat * 2 ^ 21 + bi.toNat * 2 ^ 16 + y.toNat := by
    rw [or_add (k := 16) (by rw [e2]; omega) hy, e2]
  rw [or_add (k := 1) (by rw [e3]; omega) hlk, e3]

/-- POWER10, B-form, relative: the fields and the target are the traced ones. -/
theorem C24_p10_b {op : BitVec 32} {iea : BitVec 64} (ht : field op 11 12 = 1) (hm : field op 2 3 ≠ 2) (ha : iea.toNat % 4 = 0)
    (he : Encodable 16 (traced 16 (field op 2 3) (p10LowB op) iea) iea) :
    field (recodeP10 op iea) 0 5 = 16 ∧ field (recodeP10 op iea) 6 10 = p10BO op ∧ field (recodeP10 op iea) 11 15 = p10BI op ∧
    field (recodeP10 op iea) 30 30 = 0 ∧ field (recodeP10 op iea) 31 31 = field op 1 1 ∧
    targetB (recodeP10 op iea) iea = traced 16 (field op 2 3) (p10LowB op) iea := by
  have hw : recodeP10 op iea = recodeB op iea := by
    unfold recodeP10
    rw [if_neg (by rw [field_bits op (by omega) (by omega), ht]; decide), if_pos ((field_bits op (by omega) (by omega) 1).2 ht)]
  have hl : ((lowB op).setWidth 64 : BitVec 64).toNat = p10LowB op := by
    rw [BitVec.toNat_setWidth, lowB_toNat, Nat.mod_eq_of_lt]
    have := (lowB op).isLt
    rw [lowB_toNat] at this
    omega
  have hlt := p10LowB_lt op
  have h4 : p10LowB op % 4 = 0 := by unfold p10LowB; omega
  have htr := traced_eq (n := 16) (by omega) _ (mode_cases op hm) iea (l := (lowB op).setWidth 64) (by rw [hl]; exact hlt)
  rw [hl, field_eq (by omega) (by omega)] at htr
  have hml := field_lt op 2 3
  simp only [show 3 - 2 + 1 = 2 from rfl] at hml
  have hta : (traced 16 (field op 2 3) (p10LowB op) iea).toNat % 4 = 0 :=
    traced_aligned (by omega) (by omega) hm (by omega) hlt h4 iea
  have hd4 := sub_mod4 hta ha
  have hlk := one_lt op 1
  have hlk' := field_eq (w := op) (a := 1) (b := 1) (by omega) (by omega)
  have hn : (recodeP10 op iea).toNat = 0x40000000 + p10BO op * 2 ^ 21 + p10BI op * 2 ^ 16 +
      (traced 16 (field op 2 3) (p10LowB op) iea - iea).toNat % 2 ^ 16 / 4 * 4 + field op 1 1 := by
    rw [hw]
    unfold recodeB
    rw [if_neg (by rw [field_bits op (by omega) (by omega)]; exact hm), htr]
    generalize traced 16 (field op 2 3) (p10LowB op) iea - iea = d
    have hd := disp16 d
    rw [assembleB rfl (by rw [hd]; omega) (by rw [hd]; omega) (by rw [boB_toNat]; exact p10BO_lt op)
      (by rw [biOf_toNat]; exact p10BI_lt op) (by rw [hlk']; exact hlk), boB_toNat, biOf_toNat, hd, hlk']
  have hbo := p10BO_lt op
  have hbi := p10BI_lt op
  have haa : field (recodeP10 op iea) 30 30 = 0 := by rw [fld, hn]; omega
  refine ⟨?_, ?_, ?_, haa, ?_, ?_⟩
  · rw [fld, hn]; omega
  · rw [fld, hn]; omega
  · rw [fld, hn]; omega
  · rw [fld, hn]; omega
  · apply target_relative (by omega) (by omega) haa _ hta ha he
    rw [hn]; omega

theorem biAbs_toNat {op : BitVec 32} : (biAbs op).toNat = field op 10 10 * 2 ^ 5 + field op 15 18 := by
  have h1 := field_lt op 10 10
  have h2 := field_lt op 15 18
  simp only [show 10 - 10 + 1 = 1 from rfl, show 18 - 15 + 1 = 4 from rfl] at h1 h2
  have e1 : (bits32 op 10 10 <<< 5).toNat = field op 10 10 * 2 ^ 5 := by
    rw [shl_toNat (k := 1) (by rw [field_eq (by omega) (by omega)]; exact h1) (by omega), field_eq (by omega) (by omega)]
  unfold biAbs
  rw [or_add (k := 4) (by rw [e1]; omega) (by rw [field_eq (by omega) (by omega)]; exact h2), e1, field_eq (by omega) (by omega)]

theorem recodeB_absolute {op : BitVec 32} (iea : BitVec 64) (ht : field op 11 12 = 1) (hm : field op 2 3 = 2) :
    recodeP10 op iea = (0x40000000 : BitVec 32) ||| (2 : BitVec 32) ||| lowB op ||| boB op <<< 21 ||| biAbs op <<< 16 ||| bits32 op 1 1 := by
  unfold recodeP10
  rw [if_neg (by rw [field_bits op (by omega) (by omega), ht]; decide), if_pos ((field_bits op (by omega) (by omega) 1).2 ht)]
  unfold recodeB
  rw [if_pos ((field_bits op (by omega) (by omega) 2).2 hm)]

/-- POWER10, B-form, absolute: only for the lower half of the condition bits. -/
theorem C24_p10_b_absolute_partial {op : BitVec 32} (iea : BitVec 64) (ht : field op 11 12 = 1) (hm : field op 2 3 = 2) (hbi : p10BI op < 16) :
    field (recodeP10 op iea) 0 5 = 16 ∧ field (recodeP10 op iea) 6 10 = p10BO op ∧ field (recodeP10 op iea) 11 15 = p10BI op ∧
    field (recodeP10 op iea) 30 30 = 1 ∧ field (recodeP10 op iea) 31 31 = field op 1 1 ∧
    targetB (recodeP10 op iea) iea = (BitVec.ofNat 16 (p10LowB op)).signExtend 64 := by
  have hbit : field op 10 10 = 0 := by
    have := one_lt op 10
    unfold p10BI at hbi
    omega
  have hbiv : (biAbs op).toNat = p10BI op := by rw [biAbs_toNat]; unfold p10BI; rw [hbit]
  have hlt := p10LowB_lt op
  have h4 : p10LowB op % 4 = 0 := by unfold p10LowB; omega
  have hlk := one_lt op 1
  have hlk' := field_eq (w := op) (a := 1) (b := 1) (by omega) (by omega)
  have hbo := p10BO_lt op
  have hn : (recodeP10 op iea).toNat = 0x40000000 + p10BO op * 2 ^ 21 + p10BI op * 2 ^ 16 + (p10LowB op + 2) + field op 1 1 := by
    rw [recodeB_absolute iea ht hm, BitVec.or_assoc (0x40000000 : BitVec 32) (2 : BitVec 32)]
    have hy : ((2 : BitVec 32) ||| lowB op).toNat = p10LowB op + 2 := by
      rw [BitVec.or_comm, or_add (k := 2) (by rw [lowB_toNat]; omega) (by decide), lowB_toNat]; rfl
    rw [assembleB rfl (by rw [hy]; omega) (by rw [hy]; omega) (by rw [boB_toNat]; exact hbo) (by rw [hbiv]; omega)
      (by rw [hlk']; exact hlk), boB_toNat, hbiv, hy, hlk']
  have haa : field (recodeP10 op iea) 30 30 = 1 := by rw [fld, hn]; omega
  refine ⟨?_, ?_, ?_, haa, ?_, ?_⟩
  · rw [fld, hn]; omega
  · rw [fld, hn]; omega
  · rw [fld, hn]; omega
  · rw [fld, hn]; omega
  · unfold targetB
    rw [target_absolute haa, displacement_absolute (by omega)]
    rw [hn]; omega

/-- POWER10, B-form, absolute, with a condition bit of the upper half: the instruction always tests another bit. -/
theorem C24_p10_b_absolute_refuted {op : BitVec 32} (iea : BitVec 64) (ht : field op 11 12 = 1) (hm : field op 2 3 = 2) (hbi : 16 ≤ p10BI op) :
    field (recodeP10 op iea) 11 15 ≠ p10BI op := by
  have hlow := field_lt op 15 18
  simp only [show 18 - 15 + 1 = 4 from rfl] at hlow
  have hb : (biAbs op <<< 16).toNat = (field op 10 10 * 2 ^ 5 + field op 15 18) * 2 ^ 16 := by
    have := one_lt op 10
    rw [shl_toNat (k := 6) (by rw [biAbs_toNat]; omega) (by omega), biAbs_toNat]
  have hbo := p10BO_lt op
  have h1 : (boB op <<< 21).toNat = p10BO op * 2 ^ 21 := by
    rw [shl_toNat (k := 5) (by rw [boB_toNat]; exact hbo) (by omega), boB_toNat]
  have hlt := p10LowB_lt op
  have hlk := one_lt op 1
  have hlk' := field_eq (w := op) (a := 1) (b := 1) (by omega) (by omega)
  -- bit 11 of the word is clear
  have hbit : (recodeP10 op iea).getLsbD 20 = false := by
    have hz : ∀ {x : BitVec 32} (k : Nat), x.toNat % 2 ^ 21 < 2 ^ 20 → x.getLsbD 20 = false := by
      intro x _ hx
      rw [← BitVec.testBit_toNat, Nat.testBit_eq_decide_div_mod_eq]
      have : x.toNat / 2 ^ 20 % 2 = 0 := by omega
      simp [this]
    rw [recodeB_absolute iea ht hm]
    simp only [BitVec.getLsbD_or]
    rw [hz 0 (x := 0x40000000) (by decide), hz 0 (x := 2) (by decide), hz 0 (x := lowB op) (by rw [lowB_toNat]; omega),
      hz 0 (x := boB op <<< 21) (by rw [h1]; omega), hz 0 (x := biAbs op <<< 16) (by rw [hb]; omega),
      hz 0 (x := bits32 op 1 1) (by rw [hlk']; omega)]
    rfl
  rw [← BitVec.testBit_toNat, Nat.testBit_eq_decide_div_mod_eq] at hbit
  have hbit : (recodeP10 op iea).toNat / 2 ^ 20 % 2 = 0 := by
    have : ¬ (recodeP10 op iea).toNat / 2 ^ 20 % 2 = 1 := by simpa using hbit
    omega
  rw [fld]
  omega

theorem boXL_cases (op : BitVec 32) : (boXL op).toNat = if field op 8 8 = 1 then p10BO op else field op 5 8 * 2 := by
  have h1 := field_lt op 5 8
  simp only [show 8 - 5 + 1 = 4 from rfl] at h1
  have e1 : (bits32 op 5 8 <<< 1).toNat = field op 5 8 * 2 ^ 1 := by
    rw [shl_toNat (k := 4) (by rw [field_eq (by omega) (by omega)]; exact h1) (by omega), field_eq (by omega) (by omega)]
  have e2 : ((bits32 op 5 8 <<< 1) &&& 2 ≠ 0) ↔ field op 8 8 = 1 := by
    have hm := and_mask (bits32 op 5 8 <<< 1) (lo := 1) (hi := 2) (by omega) (by omega)
    rw [show (2 : BitVec 32) = BitVec.ofNat 32 ((2 ^ (2 - 1) - 1) * 2 ^ 1) from rfl, ne_eq, ← BitVec.toNat_inj, hm, e1,
      show (0 : BitVec 32).toNat = 0 from rfl]
    rw [fld op 5 8, fld op 8 8]
    omega
  unfold boXL
  by_cases h : field op 8 8 = 1
  · rw [if_pos (e2.2 h), if_pos h]
    exact boB_toNat op
  · rw [if_neg (fun hh => h (e2.1 hh)), if_neg h, e1]

/-- POWER10, branch to the link register: the fields are the traced ones; the low bit of `BO` is stored for hints only. -/
theorem C24_p10_bclr {op : BitVec 32} (iea : BitVec 64) (ht : field op 11 12 = 2) :
    field (recodeP10 op iea) 0 5 = 19 ∧ field (recodeP10 op iea) 21 30 = 16 ∧
    field (recodeP10 op iea) 6 10 = (if field op 8 8 = 1 then p10BO op else field op 5 8 * 2) ∧
    field (recodeP10 op iea) 11 15 = p10BI op ∧ field (recodeP10 op iea) 19 20 = field op 21 22 ∧
    field (recodeP10 op iea) 31 31 = field op 1 1 := by
  have hw : recodeP10 op iea = recodeXL 0x4c000020 op := by
    unfold recodeP10
    rw [if_neg (by rw [field_bits op (by omega) (by omega), ht]; decide), if_neg (by rw [field_bits op (by omega) (by omega), ht]; decide),
      if_pos ((field_bits op (by omega) (by omega) 2).2 ht)]
  have hbo : (boXL op).toNat < 32 := by
    rw [boXL_cases]
    have h1 := field_lt op 5 8
    simp only [show 8 - 5 + 1 = 4 from rfl] at h1
    split
    · exact p10BO_lt op
    · omega
  have hbi := p10BI_lt op
  have hbh := field_lt op 21 22
  simp only [show 22 - 21 + 1 = 2 from rfl] at hbh
  have hlk := one_lt op 1
  have hlk' := field_eq (w := op) (a := 1) (b := 1) (by omega) (by omega)
  have h1 : (boXL op <<< 21).toNat = (boXL op).toNat * 2 ^ 21 := shl_toNat (k := 5) hbo (by omega)
  have h2 : (biOf op <<< 16).toNat = p10BI op * 2 ^ 16 := by
    rw [shl_toNat (k := 5) (by rw [biOf_toNat]; exact hbi) (by omega), biOf_toNat]
  have h3 : (bits32 op 21 22 <<< 11).toNat = field op 21 22 * 2 ^ 11 := by
    rw [shl_toNat (k := 2) (by rw [field_eq (by omega) (by omega)]; exact hbh) (by omega), field_eq (by omega) (by omega)]
  have hn : (recodeP10 op iea).toNat = 0x4c000000 + (boXL op).toNat * 2 ^ 21 + p10BI op * 2 ^ 16 + field op 21 22 * 2 ^ 11 + 0x20 + field op 1 1 := by
    rw [hw]
    unfold recodeXL
    have e : (0x4c000020 : BitVec 32) ||| boXL op <<< 21 ||| biOf op <<< 16 ||| bits32 op 21 22 <<< 11 ||| bits32 op 1 1 =
        (0x4c000000 : BitVec 32) ||| boXL op <<< 21 ||| biOf op <<< 16 ||| bits32 op 21 22 <<< 11 ||| 0x20 ||| bits32 op 1 1 := by
      rw [show (0x4c000020 : BitVec 32) = 0x4c000000 ||| 0x20 from rfl, BitVec.or_assoc 0x4c000000 0x20, BitVec.or_comm 0x20,
        ← BitVec.or_assoc, BitVec.or_assoc _ 0x20, BitVec.or_comm 0x20, ← BitVec.or_assoc, BitVec.or_assoc _ 0x20, BitVec.or_comm 0x20,
        ← BitVec.or_assoc]
    rw [e]
    have e1 : ((0x4c000000 : BitVec 32) ||| boXL op <<< 21).toNat = 0x4c000000 + (boXL op).toNat * 2 ^ 21 := by
      rw [or_add (k := 26) (by rfl) (by rw [h1]; omega), h1]; rfl
    have e2 : ((0x4c000000 : BitVec 32) ||| boXL op <<< 21 ||| biOf op <<< 16).toNat = 0x4c000000 + (boXL op).toNat * 2 ^ 21 + p10BI op * 2 ^ 16 := by
      rw [or_add (k := 21) (by rw [e1]; omega) (by rw [h2]; omega), e1, h2]
    have e3 : ((0x4c000000 : BitVec 32) ||| boXL op <<< 21 ||| biOf op <<< 16 ||| bits32 op 21 22 <<< 11).toNat =
        0x4c000000 + (boXL op).toNat * 2 ^ 21 + p10BI op * 2 ^ 16 + field op 21 22 * 2 ^ 11 := by
      rw [or_add (k := 16) (by rw [e2]; omega) (by rw [h3]; omega), e2, h3]
    have e4 : ((0x4c000000 : BitVec 32) ||| boXL op <<< 21 ||| biOf op <<< 16 ||| bits32 op 21 22 <<< 11 ||| 0x20).toNat =
        0x4c000000 + (boXL op).toNat * 2 ^ 21 + p10BI op * 2 ^ 16 + field op 21 22 * 2 ^ 11 + 0x20 := by
      rw [or_add (k := 6) (by rw [e3]; omega) (by decide), e3]; rfl
    rw [or_add (k := 1) (by rw [e4]; omega) (by rw [hlk']; exact hlk), e4, hlk']
  rw [← boXL_cases]
  generalize (boXL op).toNat = bo at *
  generalize field op 21 22 = bh at *
  refine ⟨?_, ?_, ?_, ?_, ?_, ?_⟩
  all_goals
    rw [fld, hn]
    generalize field op 1 1 = lk at *
    omega

end Htm
