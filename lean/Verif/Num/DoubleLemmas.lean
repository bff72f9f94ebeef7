import Verif.Num.Double
import Mathlib.Tactic.Linarith
import Mathlib.Tactic.FieldSimp
import Mathlib.Tactic.Ring
import Mathlib.Tactic.NormNum
import Mathlib.Tactic.Positivity
import Mathlib.Algebra.Order.Ring.Rat
import Mathlib.Algebra.Order.Field.Basic
/-! Helper lemmas: errors of rounding. -/
namespace Num

/-- The rational number. -/
def Val.q (v : Val) : ℚ := (v.num : ℚ) / (v.den : ℚ)

theorem nearest_spec (n d : Nat) (hd : 0 < d) : 2 * n ≤ (2 * nearest n d + 1) * d ∧ 2 * nearest n d * d ≤ 2 * n + d := by
  have hm := Nat.div_add_mod n d
  have hlt := Nat.mod_lt n hd
  generalize hq : n / d = q at *
  generalize hr : n % d = r at *
  have hn : n = d * q + r := hm.symm
  subst hn
  have e : nearest (d * q + r) d = if 2 * r < d then q else if d < 2 * r then q + 1 else if q % 2 = 0 then q else q + 1 := by
    unfold nearest; rw [hq, hr]
  rw [e]
  have key : ∀ k, (k = q ∧ 2 * r ≤ d) ∨ (k = q + 1 ∧ d ≤ 2 * r) →
      2 * (d * q + r) ≤ (2 * k + 1) * d ∧ 2 * k * d ≤ 2 * (d * q + r) + d := by
    rintro k (⟨rfl, h⟩ | ⟨rfl, h⟩) <;> constructor <;> nlinarith
  apply key
  split
  · exact .inl ⟨rfl, by omega⟩
  · split
    · exact .inr ⟨rfl, by omega⟩
    · split
      · exact .inl ⟨rfl, by omega⟩
      · exact .inr ⟨rfl, by omega⟩

theorem nearest_q (n d : Nat) (hd : 0 < d) : |(nearest n d : ℚ) - n / d| ≤ 1 / 2 := by
  obtain ⟨h1, h2⟩ := nearest_spec n d hd
  have h1 : (2 * n : ℚ) ≤ (2 * nearest n d + 1) * d := by exact_mod_cast h1
  have h2 : (2 * nearest n d * d : ℚ) ≤ 2 * n + d := by exact_mod_cast h2
  have hd' : (0 : ℚ) < d := by exact_mod_cast hd
  have e : (n : ℚ) = n / d * d := by field_simp
  rw [abs_le]
  constructor
  · by_contra h
    have : (nearest n d : ℚ) * d < (n / d - 1 / 2) * d := by apply mul_lt_mul_of_pos_right _ hd'; linarith
    nlinarith
  · by_contra h
    have : (n / d + 1 / 2) * d < (nearest n d : ℚ) * d := by apply mul_lt_mul_of_pos_right _ hd'; linarith
    nlinarith

theorem digits {p : Nat} (hp : 0 < p) {v : Val} (hn : v.num ≠ 0) :
    v.den * 2 ^ down v * 2 ^ (p - 1) ≤ v.num * 2 ^ up p v := by
  unfold down up
  obtain ⟨p, rfl⟩ : ∃ k, p = k + 1 := ⟨p - 1, by omega⟩
  split
  · rename_i h
    rw [show p + 1 + v.den.log2 - 1 = v.den.log2 + p by omega, Nat.pow_add, ← Nat.mul_assoc, Nat.add_sub_cancel]
    exact Nat.mul_le_mul_right _ h
  · have h1 : 2 ^ v.num.log2 ≤ v.num := Nat.log2_self_le hn
    have h2 : v.den ≤ 2 ^ (v.den.log2 + 1) := Nat.le_of_lt Nat.lt_log2_self
    rw [show p + 1 + v.den.log2 - 0 = v.den.log2 + 1 + p by omega, Nat.pow_add, ← Nat.mul_assoc, Nat.add_sub_cancel,
      Nat.mul_comm v.den]
    exact Nat.mul_le_mul_right _ (Nat.mul_le_mul h1 h2)

theorem round_den {p : Nat} {v : Val} (hd : 0 < v.den) : 0 < (round p v).den := by
  unfold round
  split
  · exact hd
  · exact Nat.two_pow_pos _

/-- The relative error of rounding to `p` digits is at most `2 ^ -p`. -/
theorem round_error {p : Nat} (hp : 0 < p) {v : Val} (hd : 0 < v.den) : |(round p v).q - v.q| ≤ v.q / 2 ^ p := by
  unfold round
  split
  · rename_i h
    have : v.q = 0 := by unfold Val.q; rw [h]; simp
    rw [this]; simp
  · rename_i hn
    have hdig := digits hp hn
    generalize up p v = u at *
    generalize down v = w at *
    have hdq : (0 : ℚ) < v.den := by exact_mod_cast hd
    have hnear := nearest_q (v.num * 2 ^ u) (v.den * 2 ^ w) (Nat.mul_pos hd (Nat.two_pow_pos _))
    generalize nearest (v.num * 2 ^ u) (v.den * 2 ^ w) = m at *
    have hu : (0 : ℚ) < 2 ^ u := by positivity
    have hw : (0 : ℚ) < 2 ^ w := by positivity
    have hdig : (v.den : ℚ) * 2 ^ w * 2 ^ (p - 1) ≤ v.num * 2 ^ u := by exact_mod_cast hdig
    push_cast at hnear
    unfold Val.q
    dsimp only
    push_cast
    have e1 : (m : ℚ) * 2 ^ w / 2 ^ u - v.num / v.den = (m - v.num * 2 ^ u / (v.den * 2 ^ w)) * (2 ^ w / 2 ^ u) := by
      field_simp
    have hr : (0 : ℚ) < 2 ^ w / 2 ^ u := by positivity
    rw [e1, abs_mul, abs_of_pos hr]
    have h2 : (2 : ℚ) ^ w / 2 ^ u * 2 ^ (p - 1) ≤ v.num / v.den := by
      rw [le_div_iff₀ hdq, div_mul_eq_mul_div, div_mul_eq_mul_div, div_le_iff₀ hu]
      linarith
    have e2 : (2 : ℚ) ^ p = 2 * 2 ^ (p - 1) := by
      rw [← pow_succ', Nat.sub_add_cancel hp]
    rw [e2, le_div_iff₀ (by positivity)]
    have h3 := mul_le_mul_of_nonneg_right hnear (le_of_lt hr)
    have h4 : (0 : ℚ) < 2 ^ (p - 1) := by positivity
    have h5 := mul_le_mul_of_nonneg_right h3 (le_of_lt h4)
    linarith

/-- The same as a factor. -/
theorem round_factor {p : Nat} (hp : 0 < p) {v : Val} (hd : 0 < v.den) :
    ∃ e : ℚ, |e| ≤ 1 / 2 ^ p ∧ (round p v).q = v.q * (1 + e) := by
  have h := round_error hp hd
  by_cases h0 : v.q = 0
  · refine ⟨0, by simp, ?_⟩
    rw [h0] at h ⊢
    simp only [zero_div, sub_zero] at h
    have := abs_eq_zero.1 (le_antisymm h (abs_nonneg _))
    rw [this]; simp
  · have hpos : 0 < v.q := lt_of_le_of_ne (by unfold Val.q; positivity) (Ne.symm h0)
    refine ⟨(round p v).q / v.q - 1, ?_, by field_simp; ring⟩
    have e : (round p v).q / v.q - 1 = ((round p v).q - v.q) / v.q := by field_simp
    rw [e, abs_div, abs_of_pos hpos, div_le_iff₀ hpos]
    calc _ ≤ _ := h
      _ = _ := by ring

/-- `x` is within a part `e` of `y`. -/
def Within (e x y : ℚ) : Prop := y * (1 - e) ≤ x ∧ x ≤ y * (1 + e)

theorem hundredths_nearest {v : Val} (hd : 0 < v.den) {a b : Nat} (hb : 0 < b) {e : ℚ}
    (hw : Within e v.q (100 * a / b)) (hs : 20000 * e * a < 1) :
    20000 * a ≤ (2 * hundredths v + 1) * b ∧ 2 * hundredths v * b ≤ 20000 * a + b := by
  have hn := nearest_q (100 * v.num) v.den hd
  change |(hundredths v : ℚ) - _| ≤ _ at hn
  have eq : ((100 * v.num : ℕ) : ℚ) / v.den = 100 * v.q := by unfold Val.q; push_cast; ring
  rw [eq, abs_le] at hn
  obtain ⟨w1, w2⟩ := hw
  obtain ⟨n1, n2⟩ := hn
  generalize hundredths v = c at *
  generalize v.q = x at *
  have hbq : (0 : ℚ) < b := by exact_mod_cast hb
  have haq : (0 : ℚ) ≤ a := by positivity
  have w1' : 100 * a * (1 - e) ≤ x * b := by
    have := mul_le_mul_of_nonneg_right w1 (le_of_lt hbq)
    calc (100 * a * (1 - e) : ℚ) = 100 * a / b * (1 - e) * b := by field_simp
      _ ≤ _ := this
  have w2' : x * b ≤ 100 * a * (1 + e) := by
    have := mul_le_mul_of_nonneg_right w2 (le_of_lt hbq)
    calc x * b ≤ 100 * a / b * (1 + e) * b := this
      _ = _ := by field_simp
  constructor
  · by_contra h
    have h : (2 * c + 1) * b + 1 ≤ 20000 * a := by omega
    have h : (2 * c + 1) * b + 1 ≤ (20000 * a : ℚ) := by exact_mod_cast h
    have : (100 * x - 1 / 2) * b ≤ c * b := mul_le_mul_of_nonneg_right (by linarith) (le_of_lt hbq)
    nlinarith
  · by_contra h
    have h : 20000 * a + b + 1 ≤ 2 * c * b := by omega
    have h : (20000 * a + b + 1 : ℚ) ≤ 2 * c * b := by exact_mod_cast h
    have : c * b ≤ (100 * x + 1 / 2) * b := mul_le_mul_of_nonneg_right (by linarith) (le_of_lt hbq)
    nlinarith

/-- Without a limit on the total: off by at most the half of a hundredth and a small part more. -/
theorem hundredths_close {v : Val} (hd : 0 < v.den) {a b : Nat} (hb : 0 < b) {e : ℚ}
    (hw : Within e v.q (100 * a / b)) {k : Nat} (hk : 0 < k) (hs : 20000 * e * k ≤ 1) :
    20000 * a * k ≤ (2 * hundredths v + 1) * b * k + a ∧ 2 * hundredths v * b * k ≤ 20000 * a * k + b * k + a := by
  have hn := nearest_q (100 * v.num) v.den hd
  change |(hundredths v : ℚ) - _| ≤ _ at hn
  have eq : ((100 * v.num : ℕ) : ℚ) / v.den = 100 * v.q := by unfold Val.q; push_cast; ring
  rw [eq, abs_le] at hn
  obtain ⟨w1, w2⟩ := hw
  obtain ⟨n1, n2⟩ := hn
  generalize hundredths v = c at *
  generalize v.q = x at *
  have hbq : (0 : ℚ) < b := by exact_mod_cast hb
  have hkq : (0 : ℚ) < k := by exact_mod_cast hk
  have haq : (0 : ℚ) ≤ a := by positivity
  have w1' : 100 * a * (1 - e) ≤ x * b := by
    have := mul_le_mul_of_nonneg_right w1 (le_of_lt hbq)
    calc (100 * a * (1 - e) : ℚ) = 100 * a / b * (1 - e) * b := by field_simp
      _ ≤ _ := this
  have w2' : x * b ≤ 100 * a * (1 + e) := by
    have := mul_le_mul_of_nonneg_right w2 (le_of_lt hbq)
    calc x * b ≤ 100 * a / b * (1 + e) * b := this
      _ = _ := by field_simp
  have hbe : (a : ℚ) * (20000 * e * k) ≤ a := by
    have := mul_le_mul_of_nonneg_left hs haq
    linarith
  have c1 : (100 * x - 1 / 2) * b ≤ c * b := mul_le_mul_of_nonneg_right (by linarith) (le_of_lt hbq)
  have c2 : c * b ≤ (100 * x + 1 / 2) * b := mul_le_mul_of_nonneg_right (by linarith) (le_of_lt hbq)
  constructor
  · have h1 : 20000 * a ≤ (2 * c + 1) * b + 20000 * e * (a : ℚ) := by nlinarith
    have h2 := mul_le_mul_of_nonneg_right h1 (le_of_lt hkq)
    have : (20000 * a * k : ℚ) ≤ (2 * c + 1) * b * k + a := by nlinarith
    exact_mod_cast this
  · have h1 : 2 * c * b ≤ 20000 * a + b + 20000 * e * (a : ℚ) := by nlinarith
    have h2 := mul_le_mul_of_nonneg_right h1 (le_of_lt hkq)
    have : (2 * c * b * k : ℚ) ≤ 20000 * a * k + b * k + a := by nlinarith
    exact_mod_cast this

theorem ofNat_factor {p : Nat} (hp : 0 < p) (n : Nat) : ∃ e : ℚ, |e| ≤ 1 / 2 ^ p ∧ (ofNat p n).q = n * (1 + e) := by
  obtain ⟨e, h1, h2⟩ := round_factor (p := p) hp (v := ⟨n, 1⟩) Nat.one_pos
  exact ⟨e, h1, h2.trans (by unfold Val.q; simp)⟩

theorem times100_factor {p : Nat} (hp : 0 < p) {v : Val} (hd : 0 < v.den) :
    ∃ e : ℚ, |e| ≤ 1 / 2 ^ p ∧ (times100 p v).q = 100 * v.q * (1 + e) := by
  obtain ⟨e, h1, h2⟩ := round_factor (p := p) hp (v := ⟨100 * v.num, v.den⟩) hd
  refine ⟨e, h1, h2.trans ?_⟩
  unfold Val.q; push_cast; ring

theorem over_factor {p : Nat} (hp : 0 < p) {v w : Val} (hv : 0 < v.den) (hw : 0 < w.num) :
    ∃ e : ℚ, |e| ≤ 1 / 2 ^ p ∧ (over p v w).q = v.q / w.q * (1 + e) := by
  obtain ⟨e, h1, h2⟩ := round_factor (p := p) hp (v := ⟨v.num * w.den, v.den * w.num⟩) (Nat.mul_pos hv hw)
  refine ⟨e, h1, h2.trans ?_⟩
  congr 1
  unfold Val.q; push_cast
  rw [div_div_div_eq]

theorem q_pos {v : Val} (h : 0 < v.q) : 0 < v.num := by
  rcases Nat.eq_zero_or_pos v.num with h0 | h0
  · unfold Val.q at h; rw [h0] at h; simp at h
  · exact h0

theorem ofNat_pos {n : Nat} (hn : 0 < n) : 0 < (ofNat 53 n).num := by
  apply q_pos
  obtain ⟨e, h1, h2⟩ := ofNat_factor (p := 53) (by decide) n
  rw [h2]
  have := (abs_le.1 h1).1
  have hq : (0 : ℚ) < n := by exact_mod_cast hn
  apply mul_pos hq
  have : (1 : ℚ) / 2 ^ 53 < 1 := by norm_num
  linarith

theorem ofNat_den (p n : Nat) : 0 < (ofNat p n).den := round_den (v := ⟨n, 1⟩) Nat.one_pos
theorem times100_den {p : Nat} {v : Val} (h : 0 < v.den) : 0 < (times100 p v).den := round_den h
theorem over_den {p : Nat} {v w : Val} (hv : 0 < v.den) (hw : 0 < w.num) : 0 < (over p v w).den :=
  round_den (Nat.mul_pos hv hw)

/-- Factors near one. -/
theorem factors {u x y z w : ℚ} (hu : u = 1 / 2 ^ 53) (hx : |x| ≤ u) (hy : |y| ≤ u) (hz : |z| ≤ u) (hw : |w| ≤ u) :
    1 - 5 * u ≤ (1 + x) * (1 + y) / (1 + z) * (1 + w) ∧ (1 + x) * (1 + y) / (1 + z) * (1 + w) ≤ 1 + 5 * u := by
  obtain ⟨x1, x2⟩ := abs_le.1 hx
  obtain ⟨y1, y2⟩ := abs_le.1 hy
  obtain ⟨z1, z2⟩ := abs_le.1 hz
  obtain ⟨w1, w2⟩ := abs_le.1 hw
  have hu0 : 0 < u := by rw [hu]; norm_num
  have hu1 : u < 1 / 1000 := by rw [hu]; norm_num
  have hz0 : 0 < 1 + z := by linarith
  have hxy1 : (1 - u) * (1 - u) ≤ (1 + x) * (1 + y) := mul_le_mul (by linarith) (by linarith) (by linarith) (by linarith)
  have hxy2 : (1 + x) * (1 + y) ≤ (1 + u) * (1 + u) := mul_le_mul (by linarith) (by linarith) (by linarith) (by linarith)
  have hp1 : (1 - u) * (1 - u) * (1 - u) ≤ (1 + x) * (1 + y) * (1 + w) :=
    mul_le_mul hxy1 (by linarith) (by linarith) (by nlinarith)
  have hp2 : (1 + x) * (1 + y) * (1 + w) ≤ (1 + u) * (1 + u) * (1 + u) :=
    mul_le_mul hxy2 (by linarith) (by linarith) (by nlinarith)
  rw [div_mul_eq_mul_div]
  constructor
  · rw [le_div_iff₀ hz0]
    have : (1 - 5 * u) * (1 + z) ≤ (1 - 5 * u) * (1 + u) := mul_le_mul_of_nonneg_left (by linarith) (by linarith)
    nlinarith
  · rw [div_le_iff₀ hz0]
    have : (1 + 5 * u) * (1 - u) ≤ (1 + 5 * u) * (1 + z) := mul_le_mul_of_nonneg_left (by linarith) (by linarith)
    nlinarith

theorem share_within (a : Nat) {b : Nat} (hb : 0 < b) :
    Within (5 / 2 ^ 53) (over 53 (times100 53 (ofNat 53 a)) (ofNat 53 b)).q (100 * a / b) ∧
    0 < (over 53 (times100 53 (ofNat 53 a)) (ofNat 53 b)).den := by
  obtain ⟨x, hx, ex⟩ := ofNat_factor (p := 53) (by decide) a
  obtain ⟨z, hz, ez⟩ := ofNat_factor (p := 53) (by decide) b
  obtain ⟨y, hy, ey⟩ := times100_factor (p := 53) (by decide) (ofNat_den 53 a)
  obtain ⟨w, hw, ew⟩ := over_factor (p := 53) (by decide) (times100_den (p := 53) (ofNat_den 53 a)) (ofNat_pos hb)
  refine ⟨?_, over_den (times100_den (ofNat_den 53 a)) (ofNat_pos hb)⟩
  have hbq : (0 : ℚ) < b := by exact_mod_cast hb
  have hq : (0 : ℚ) ≤ 100 * a / b := by positivity
  obtain ⟨f1, f2⟩ := factors rfl hx hy hz hw
  have e : (over 53 (times100 53 (ofNat 53 a)) (ofNat 53 b)).q =
      100 * a / b * ((1 + x) * (1 + y) / (1 + z) * (1 + w)) := by
    have hz0 : 1 + z ≠ 0 := by
      have h1 : (1 : ℚ) / 2 ^ 53 < 1 := by norm_num
      have h2 := (abs_le.1 hz).1
      intro h3
      linarith
    rw [ew, ey, ex, ez]
    field_simp
  unfold Within
  rw [e]
  constructor
  · refine mul_le_mul_of_nonneg_left (le_trans (le_of_eq ?_) f1) hq
    ring
  · refine mul_le_mul_of_nonneg_left (le_trans f2 (le_of_eq ?_)) hq
    ring

theorem quotient_within (a : Nat) {b : Nat} (hb : 0 < b) :
    Within (5 / 2 ^ 53) (times100 53 (over 53 (ofNat 53 a) (ofNat 53 b))).q (100 * a / b) ∧
    0 < (times100 53 (over 53 (ofNat 53 a) (ofNat 53 b))).den := by
  obtain ⟨x, hx, ex⟩ := ofNat_factor (p := 53) (by decide) a
  obtain ⟨z, hz, ez⟩ := ofNat_factor (p := 53) (by decide) b
  obtain ⟨y, hy, ey⟩ := over_factor (p := 53) (by decide) (ofNat_den 53 a) (ofNat_pos hb)
  obtain ⟨w, hw, ew⟩ := times100_factor (p := 53) (by decide) (over_den (p := 53) (ofNat_den 53 a) (ofNat_pos hb))
  refine ⟨?_, times100_den (over_den (ofNat_den 53 a) (ofNat_pos hb))⟩
  have hbq : (0 : ℚ) < b := by exact_mod_cast hb
  have hq : (0 : ℚ) ≤ 100 * a / b := by positivity
  obtain ⟨f1, f2⟩ := factors rfl hx hy hz hw
  have e : (times100 53 (over 53 (ofNat 53 a) (ofNat 53 b))).q =
      100 * a / b * ((1 + x) * (1 + y) / (1 + z) * (1 + w)) := by
    have hz0 : 1 + z ≠ 0 := by
      have h1 : (1 : ℚ) / 2 ^ 53 < 1 := by norm_num
      have h2 := (abs_le.1 hz).1
      intro h3
      linarith
    rw [ew, ey, ex, ez]
    field_simp
  unfold Within
  rw [e]
  constructor
  · refine mul_le_mul_of_nonneg_left (le_trans (le_of_eq ?_) f1) hq
    ring
  · refine mul_le_mul_of_nonneg_left (le_trans f2 (le_of_eq ?_)) hq
    ring

/-- Rounded once more, to `float`. -/
theorem float_within {v : Val} (hd : 0 < v.den) {y : ℚ} (hy : 0 ≤ y) (h : Within (5 / 2 ^ 53) v.q y) :
    Within (1 / 2 ^ 24 + 6 / 2 ^ 53) (round 24 v).q y := by
  obtain ⟨e, he, eq⟩ := round_factor (p := 24) (by decide) hd
  obtain ⟨h1, h2⟩ := h
  obtain ⟨e1, e2⟩ := abs_le.1 he
  have hv : 0 ≤ v.q := by unfold Val.q; positivity
  have he0 : (0 : ℚ) < 1 + e := by
    have : (1 : ℚ) / 2 ^ 24 < 1 := by norm_num
    linarith
  unfold Within
  rw [eq]
  constructor
  · calc y * (1 - (1 / 2 ^ 24 + 6 / 2 ^ 53)) ≤ y * ((1 - 5 / 2 ^ 53) * (1 - 1 / 2 ^ 24)) :=
        mul_le_mul_of_nonneg_left (by norm_num) hy
      _ = y * (1 - 5 / 2 ^ 53) * (1 - 1 / 2 ^ 24) := by ring
      _ ≤ v.q * (1 - 1 / 2 ^ 24) := mul_le_mul_of_nonneg_right h1 (by norm_num)
      _ ≤ v.q * (1 + e) := mul_le_mul_of_nonneg_left (by linarith) hv
  · calc v.q * (1 + e) ≤ v.q * (1 + 1 / 2 ^ 24) := mul_le_mul_of_nonneg_left (by linarith) hv
      _ ≤ y * (1 + 5 / 2 ^ 53) * (1 + 1 / 2 ^ 24) := mul_le_mul_of_nonneg_right h2 (by norm_num)
      _ = y * ((1 + 5 / 2 ^ 53) * (1 + 1 / 2 ^ 24)) := by ring
      _ ≤ y * (1 + (1 / 2 ^ 24 + 6 / 2 ^ 53)) := mul_le_mul_of_nonneg_left (by norm_num) hy

theorem nearest_exact (k d : Nat) (hd : 0 < d) : nearest (k * d) d = k := by
  unfold nearest
  rw [Nat.mul_mod_left, Nat.mul_div_cancel _ hd, if_pos (by omega)]

/-- A whole number of at most `p` binary digits is not changed. -/
theorem round_exact {p k d : Nat} (hd : 0 < d) (hk : k < 2 ^ p) : (round p ⟨k * d, d⟩).q = k := by
  have hdq : (d : ℚ) ≠ 0 := by exact_mod_cast hd.ne'
  unfold round
  split
  · unfold Val.q; push_cast; field_simp
  · rename_i hn
    have hn : k * d ≠ 0 := hn
    have hle : down ⟨k * d, d⟩ ≤ up p ⟨k * d, d⟩ := by
      unfold down up
      dsimp only
      have h1 : 2 ^ (k * d).log2 ≤ k * d := Nat.log2_self_le hn
      have h2 : d < 2 ^ (d.log2 + 1) := Nat.lt_log2_self
      split
      · rename_i h
        have h3 : d * 2 ^ (k * d).log2 ≤ d * (k * 2 ^ d.log2) := by
          calc _ ≤ _ := h
            _ = _ := by ring
        have h3 := Nat.le_of_mul_le_mul_left h3 hd
        have h4 : 2 ^ (k * d).log2 < 2 ^ (p + d.log2) := by
          rw [Nat.pow_add]
          exact Nat.lt_of_le_of_lt h3 (Nat.mul_lt_mul_of_pos_right hk (Nat.two_pow_pos _))
        have := (Nat.pow_lt_pow_iff_right (by decide : 1 < 2)).1 h4
        omega
      · have h4 : 2 ^ (k * d).log2 < 2 ^ (p + (d.log2 + 1)) := by
          rw [Nat.pow_add]
          exact Nat.lt_of_le_of_lt h1 (Nat.mul_lt_mul'' hk h2)
        have := (Nat.pow_lt_pow_iff_right (by decide : 1 < 2)).1 h4
        omega
    generalize down ⟨k * d, d⟩ = w at *
    generalize up p ⟨k * d, d⟩ = u at *
    obtain ⟨j, rfl⟩ : ∃ j, u = w + j := ⟨u - w, by omega⟩
    have e : k * d * 2 ^ (w + j) = k * 2 ^ j * (d * 2 ^ w) := by rw [Nat.pow_add]; ring
    dsimp only
    rw [e, nearest_exact _ _ (Nat.mul_pos hd (Nat.two_pow_pos _))]
    unfold Val.q
    push_cast
    rw [pow_add]
    field_simp

theorem val_eq {v : Val} (hd : 0 < v.den) {k : Nat} (h : v.q = k) : v.num = k * v.den := by
  unfold Val.q at h
  have hdq : (v.den : ℚ) ≠ 0 := by exact_mod_cast hd.ne'
  rw [div_eq_iff hdq] at h
  exact_mod_cast h

theorem ofNat_exact {p n : Nat} (h : n < 2 ^ p) : (ofNat p n).num = n * (ofNat p n).den :=
  val_eq (ofNat_den p n) (by unfold ofNat; have := round_exact (d := 1) Nat.one_pos h; rwa [Nat.mul_one] at this)

theorem times100_exact {p n : Nat} {v : Val} (hd : 0 < v.den) (hv : v.num = n * v.den) (h : 100 * n < 2 ^ p) :
    (times100 p v).num = 100 * n * (times100 p v).den := by
  refine val_eq (times100_den hd) ?_
  unfold times100
  rw [hv, ← Nat.mul_assoc]
  exact round_exact hd h

/-- Rounding does not go past a whole number of at most `p` digits. -/
theorem round_exact' {p k : Nat} {v : Val} (hd : 0 < v.den) (hv : v.num = k * v.den) (hk : k < 2 ^ p) :
    (round p v).num = k * (round p v).den := by
  refine val_eq (round_den hd) ?_
  obtain ⟨n, d⟩ := v
  obtain rfl : n = k * d := hv
  exact round_exact hd hk

end Num
