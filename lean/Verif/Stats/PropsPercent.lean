import Verif.Num.DoubleLemmas
import Verif.Num.SpecPercent
import Verif.Stats.Percent
import Verif.Stats.PropsPrint
import Verif.Stats.Fuzzy
import Verif.Stats.PropsImix
import Verif.Stats.PropsBbExact
import Verif.Stats.PropsScript
import Verif.Branch.PropsRing
/-! Property C104: the percentages that the tools print. -/
namespace Num
open Spec

/-! ### The number and its text -/

theorem digitFacts : ∀ d : Fin 10, (Nat.digitChar d).isDigit = true ∧ (Nat.digitChar d).toNat - 48 = d ∧ (Nat.digitChar d == ' ') = false := by
  decide

theorem dec_digits (n : Nat) : (∀ c ∈ Nat.toDigits 10 n, c.isDigit = true ∧ (c == ' ') = false) ∧ Spec.number (Nat.toDigits 10 n) = n := by
  induction n using Nat.strongRecOn with
  | _ n ih =>
    by_cases h : n < 10
    · rw [Nat.toDigits_of_lt_base h]
      have hf := digitFacts ⟨n, h⟩
      refine ⟨fun c hc => ?_, ?_⟩
      · rw [List.mem_singleton] at hc; subst hc; exact ⟨hf.1, hf.2.2⟩
      · show 10 * 0 + _ = _
        have := hf.2.1
        simp only at this
        omega
    · obtain ⟨i1, i2⟩ := ih (n / 10) (by omega)
      rw [Nat.toDigits_of_base_le (by omega) (by omega)]
      have hf := digitFacts ⟨n % 10, by omega⟩
      refine ⟨fun c hc => ?_, ?_⟩
      · rcases List.mem_append.1 hc with hc | hc
        · exact i1 c hc
        · rw [List.mem_singleton] at hc; subst hc; exact ⟨hf.1, hf.2.2⟩
      · unfold Spec.number at i2 ⊢
        rw [List.foldl_append, i2]
        show 10 * (n / 10) + _ = _
        have := hf.2.1
        simp only at this
        omega

theorem takeWhile_to {p : Char → Bool} : ∀ {l r : List Char} {c : Char}, (∀ x ∈ l, p x = true) → p c = false →
    (l ++ c :: r).takeWhile p = l ∧ (l ++ c :: r).dropWhile p = c :: r
  | [], r, c, _, hc => by simp [hc]
  | x :: l, r, c, h, hc => by
    obtain ⟨h1, h2⟩ := takeWhile_to (l := l) (r := r) (fun y hy => h y (List.mem_cons_of_mem _ hy)) hc
    have hx := h x (List.mem_cons_self ..)
    simp [hx, h1, h2]

/-- C104. The printed text, of any width, is read as the hundredths. -/
theorem C104_text (width c : Nat) : reading ((Shown.hundredths c).text width) = some c := by
  obtain ⟨hd, hv⟩ := dec_digits (c / 100)
  have hx := digitFacts ⟨c / 10 % 10, by omega⟩
  have hy := digitFacts ⟨c % 10, by omega⟩
  simp only at hx hy
  generalize hX : Nat.digitChar (c / 10 % 10) = x at *
  generalize hY : Nat.digitChar (c % 10) = y at *
  have hne : Nat.toDigits 10 (c / 100) ≠ [] := Nat.toDigits_ne_nil
  unfold Shown.text reading
  simp only [hX, hY]
  generalize Nat.toDigits 10 (c / 100) = w at *
  obtain ⟨z, w', rfl⟩ : ∃ z w', w = z :: w' := by cases w with | nil => exact absurd rfl hne | cons z w' => exact ⟨z, w', rfl⟩
  have hz := hd z (List.mem_cons_self ..)
  rw [List.cons_append, (takeWhile_to (p := (· == ' ')) (fun x hx => by rw [List.eq_of_mem_replicate hx]; rfl) hz.2).2]
  obtain ⟨h1, h2⟩ := takeWhile_to (p := Char.isDigit) (l := z :: w') (r := [x, y]) (c := '.') (fun x hx => (hd x hx).1) rfl
  rw [← List.cons_append, h1, h2]
  simp only [hx.1, hy.1, ne_eq, reduceCtorEq, not_false_eq_true, and_self, if_true]
  rw [hv]
  congr 1
  show 100 * (c / 100) + (10 * (10 * 0 + (x.toNat - 48)) + (y.toNat - 48)) = c
  rw [hx.2.1, hy.2.1]; omega

/-! ### Quotients -/

/-- C104 (partial). Where a `double` is printed, any share of up to 2^36 in any total is rounded correctly. -/
theorem C104_double_partial (a b : Nat) (hb : 0 < b) (ha : a < 2 ^ 36) : ∃ c, percent a b = .hundredths c ∧ Right c a b := by
  obtain ⟨h1, h2⟩ := share_within a hb
  refine ⟨_, if_neg (by omega), hundredths_nearest h2 hb h1 ?_⟩
  have : (a : ℚ) < 2 ^ 36 := by exact_mod_cast ha
  linarith

/-- C104 (partial). Larger ones are off by less than the 10^10-th part of a hundredth more. -/
theorem C104_close_partial (a b : Nat) (hb : 0 < b) : ∃ c, percent a b = .hundredths c ∧ Near (9 * 10 ^ 10) c a b := by
  obtain ⟨h1, h2⟩ := share_within a hb
  exact ⟨_, if_neg (by omega), hundredths_close h2 hb h1 (by decide) (by norm_num)⟩

/-- C104 (partial). Where a `float` is printed, shares of up to 838 are rounded correctly, and larger ones are off by less than
the 1600th part of a hundredth more. -/
theorem C104_float_partial (a b : Nat) (hb : 0 < b) : ∃ c, usage a b = .hundredths c ∧ (a ≤ 838 → Right c a b) ∧ Near 838 c a b := by
  obtain ⟨h1, h2⟩ := quotient_within a hb
  have hq : (0 : ℚ) ≤ 100 * a / b := by positivity
  have h3 := float_within h2 hq h1
  refine ⟨_, if_neg (by omega), fun ha => hundredths_nearest (round_den h2) hb h3 ?_,
    hundredths_close (round_den h2) hb h3 (by decide) (by norm_num)⟩
  have : (a : ℚ) ≤ 838 := by exact_mod_cast ha
  norm_num
  linarith

theorem right_unique {c d a b : Nat} (h1 : Right c a b) (h2 : Right d a b) (ht : ∀ k, 20000 * a ≠ (2 * k + 1) * b) : c = d := by
  obtain ⟨p1, p2⟩ := h1
  obtain ⟨q1, q2⟩ := h2
  by_contra hne
  rcases Nat.lt_or_gt_of_ne hne with h | h
  · have e : 2 * d * b = (2 * (d - 1) + 1) * b + b := by
      obtain ⟨k, rfl⟩ : ∃ k, d = k + 1 := ⟨d - 1, by omega⟩
      rw [Nat.add_sub_cancel]; ring
    have h3 : (2 * c + 1) * b ≤ (2 * (d - 1) + 1) * b := Nat.mul_le_mul_right _ (by omega)
    have h4 : 20000 * a = (2 * (d - 1) + 1) * b := by omega
    exact ht _ h4
  · have e : 2 * c * b = (2 * (c - 1) + 1) * b + b := by
      obtain ⟨k, rfl⟩ : ∃ k, c = k + 1 := ⟨c - 1, by omega⟩
      rw [Nat.add_sub_cancel]; ring
    have h3 : (2 * d + 1) * b ≤ (2 * (c - 1) + 1) * b := Nat.mul_le_mul_right _ (by omega)
    have h4 : 20000 * a = (2 * (c - 1) + 1) * b := by omega
    exact ht _ h4

/-- C104. All of a total is 100.00 and nothing of it is 0.00, however large it is. -/
theorem C104_ends (b : Nat) (hb : 0 < b) : percent b b = .hundredths 10000 ∧ percent 0 b = .hundredths 0 ∧
    usage b b = .hundredths 10000 ∧ usage 0 b = .hundredths 0 := by
  have all : ∀ {k c : Nat}, 2 ≤ k → Near k c b b → c = 10000 := by
    intro k c hk ⟨h1, h2⟩
    have e1 : 20000 * b * k = b * (20000 * k) := by ring
    have e2 : (2 * c + 1) * b * k + b = b * ((2 * c + 1) * k + 1) := by ring
    have e3 : 2 * c * b * k = b * (2 * c * k) := by ring
    have e4 : 20000 * b * k + b * k + b = b * (20000 * k + k + 1) := by ring
    rw [e1, e2] at h1
    rw [e3, e4] at h2
    have h1 := Nat.le_of_mul_le_mul_left h1 hb
    have h2 := Nat.le_of_mul_le_mul_left h2 hb
    by_contra hne
    rcases Nat.lt_or_gt_of_ne hne with h | h
    · have : (2 * c + 1) * k ≤ 19999 * k := Nat.mul_le_mul_right _ (by omega)
      omega
    · have : 20002 * k ≤ 2 * c * k := Nat.mul_le_mul_right _ (by omega)
      omega
  have none : ∀ {k c : Nat}, 0 < k → Near k c 0 b → c = 0 := by
    intro k c hk ⟨h1, h2⟩
    have e3 : 2 * c * b * k = b * k * (2 * c) := by ring
    rw [e3] at h2
    have h2 : b * k * (2 * c) ≤ b * k * 1 := by omega
    have := Nat.le_of_mul_le_mul_left h2 (Nat.mul_pos hb hk)
    omega
  obtain ⟨c1, e1, n1⟩ := C104_close_partial b b hb
  obtain ⟨c2, e2, n2⟩ := C104_close_partial 0 b hb
  obtain ⟨c3, e3, -, n3⟩ := C104_float_partial b b hb
  obtain ⟨c4, e4, -, n4⟩ := C104_float_partial 0 b hb
  rw [e1, e2, e3, e4, all (by decide) n1, none (by decide) n2, all (by decide) n3, none (by decide) n4]
  exact ⟨rfl, rfl, rfl, rfl⟩

/-- Some of them: a third, an eighth of a hundredth (half way, the even one is taken), two thirds. -/
example : (percent 1 3).text 6 = " 33.33".toList ∧ (percent 1 800).text 0 = "0.12".toList ∧ (percent 3 800).text 0 = "0.38".toList ∧
    (usage 2 3).text 5 = "66.67".toList ∧ Right 3333 1 3 ∧ ¬ Right 3334 1 3 := by decide +kernel

/-- C104 in full is violated: a total of 2^54.6 is not rounded correctly, 12 hundredths instead of 13. -/
theorem C104_large_refuted : ∃ a b c, a ≤ b ∧ b < 2 ^ 64 ∧ percent a b = .hundredths c ∧ ¬ Right c a b :=
  ⟨2 ^ 45, 800 * 2 ^ 45 - 1, 12, by decide +kernel⟩

/-- C104 in full is violated: a block that was executed for 1714 of 1941 instructions is printed as 88.31%, and 88.30% is right. -/
theorem C104_block_refuted : usage 1714 1941 = .hundredths 8831 ∧ ¬ Right 8831 1714 1941 ∧ Right 8830 1714 1941 := by decide +kernel

/-! ### The warning about context switches -/

theorem single_tenth {m c : Nat} (hc : 0 < c) (hl : c < 2 ^ 23) (hm : m < 2 ^ 46) : 10 * (single m c).den < (single m c).num ↔ c < 10 * m := by
  obtain ⟨h1, h2⟩ := share_within m hc
  have hd : 0 < (single m c).den := round_den h2
  have hq : (0 : ℚ) ≤ 100 * m / c := by positivity
  obtain ⟨w1, w2⟩ := float_within h2 hq h1
  change _ ≤ (single m c).q at w1
  change (single m c).q ≤ _ at w2
  have hcq : (0 : ℚ) < c := by exact_mod_cast hc
  have hlq : (c : ℚ) < 2 ^ 23 := by exact_mod_cast hl
  have hdq : (0 : ℚ) < (single m c).den := by exact_mod_cast hd
  have hiff : 10 * (single m c).den < (single m c).num ↔ 10 < (single m c).q := by
    unfold Val.q
    rw [lt_div_iff₀ hdq]
    exact_mod_cast Iff.rfl
  rw [hiff]
  rcases Nat.lt_trichotomy c (10 * m) with h | h | h
  · refine ⟨fun _ => h, fun _ => lt_of_lt_of_le ?_ w1⟩
    have h : (c + 1 : ℚ) ≤ 10 * m := by exact_mod_cast h
    have e : (100 * m / c : ℚ) * (1 - (1 / 2 ^ 24 + 6 / 2 ^ 53)) = 100 * m * (1 - (1 / 2 ^ 24 + 6 / 2 ^ 53)) / c := by ring
    rw [e, lt_div_iff₀ hcq]
    norm_num
    linarith
  · have hex : (single m c).num = 10 * (single m c).den := by
      unfold single
      refine round_exact' h2 ?_ (by decide)
      have e1 := times100_exact (p := 53) (ofNat_den 53 m) (ofNat_exact (show m < 2 ^ 53 by omega)) (by omega)
      have e2 := ofNat_exact (p := 53) (show c < 2 ^ 53 by omega)
      have d1 := times100_den (p := 53) (ofNat_den 53 m)
      have d2 := ofNat_pos hc
      unfold over
      refine round_exact' (k := 10) (Nat.mul_pos d1 d2) ?_ (by decide)
      dsimp only
      rw [e1, e2, h]; ring
    have hq : (single m c).q = 10 := by
      unfold Val.q
      rw [hex]; push_cast; field_simp
    rw [hq]
    constructor <;> intro h' <;> [exact absurd h' (lt_irrefl _); omega]
  · refine ⟨fun h' => ?_, fun h' => by omega⟩
    exfalso
    have h : (10 * m + 1 : ℚ) ≤ c := by exact_mod_cast h
    have e : (100 * m / c : ℚ) * (1 + (1 / 2 ^ 24 + 6 / 2 ^ 53)) = 100 * m * (1 + (1 / 2 ^ 24 + 6 / 2 ^ 53)) / c := by ring
    rw [e, le_div_iff₀ hcq] at w2
    have h'' : 10 * (c : ℚ) < (single m c).q * c := mul_lt_mul_of_pos_right h' hcq
    norm_num at w2
    linarith

end Num

open Num Num.Spec

/-- What is shown is the share `a` of `b`, rounded to two decimals. -/
def Num.Shown.Is (x : Shown) (a b : Nat) : Prop := ∃ c, x = .hundredths c ∧ Right c a b

/-! ### The link stack program -/

namespace LinkStack

theorem true_false (outs : List Bool) : outs.count true + outs.count false = outs.length := by
  induction outs with
  | nil => rfl
  | cons b l ih => cases b <;> simp only [List.count_cons, List.length_cons] <;> simp <;> omega

/-- C104 (partial). After any history of calls and returns with at least one and fewer than 2^36 returns, the printed rate is
the share of the returns that were predicted. -/
theorem C104_rate_partial (depth : Nat) (h1 : 0 < depth) (h2 : depth < 2 ^ 64) (history : List Op)
    (hr : 0 < history.countP isRet) (hl : history.countP isRet < 2 ^ 36) :
    ∃ answers p, run (init depth) history = some (answers, p) ∧ answers.length = history.countP isRet ∧
      (rate p).Is (answers.count true) answers.length := by
  obtain ⟨p, e, q, m⟩ := C16_exact depth h1 h2 history
  have hlen : ∀ (l : List Op) (r : List (BitVec 64)), (ring r l).length = l.countP isRet := by
    intro l
    induction l with
    | nil => intro r; rfl
    | cons o l ih =>
      intro r
      cases o with
      | call a => rw [ring, ih, List.countP_cons]; rfl
      | ret t => rw [ring, List.length_cons, ih, List.countP_cons]; rfl
  refine ⟨_, p, e, hlen _ _, ?_⟩
  have hl := hlen history (List.replicate depth 0)
  generalize ring (List.replicate depth 0) history = outs at *
  have hc := true_false outs
  unfold rate
  rw [q, m, show (outs.length + 2 ^ 64 - outs.count false) % 2 ^ 64 = outs.count true by omega]
  exact C104_double_partial _ _ (by omega) (by omega)

theorem ringAnswers_length : ∀ (l : List CallSpec.Step) (r : List (BitVec 64)), (CallSpec.ringAnswers r l).length = CallSpec.returnsMade l
  | [], _ => rfl
  | x :: l, r => by
    unfold CallSpec.ringAnswers CallSpec.returnsMade
    by_cases hc : CallSpec.Calls x l
    · have hr : ¬ CallSpec.Returns x l := fun h => call_not_return hc.2 h.2
      rw [if_pos hc, if_neg hr, ringAnswers_length l, Nat.zero_add]
    · rw [if_neg hc]
      by_cases hr : CallSpec.Returns x l
      · rw [if_pos hr, if_pos hr, List.length_cons, ringAnswers_length l, Nat.add_comm]
      · rw [if_neg hr, if_neg hr, ringAnswers_length l, Nat.zero_add]

/-- C104 (partial). Run on the file of a trace (as in C90) with at least one and fewer than 2^36 returns, the program prints
the share of the returns that were predicted. -/
theorem C104_tool_partial (depth : Nat) (h1 : 0 < depth) (h2 : depth < 2 ^ 64) (magic : BitVec 32) (rs : List Qt.Record)
    (hx : Qt.Spec.Expressible rs)
    (hc : ∀ r ∈ rs, Qt.Spec.conditional r.insn.toNat → r.branch = true ∧ r.conditionalBranch = true)
    (hb : ∀ r ∈ rs, ¬ CallSpec.AlwaysBc r.insn.toNat)
    (hr : 0 < CallSpec.returnsMade (rs.map stepOf)) (hl : CallSpec.returnsMade (rs.map stepOf) < 2 ^ 36) :
    ∃ file, Qt.writeTrace magic rs = .ok file ∧ ∀ beyond, ∃ answers p, tool depth { bytes := file, beyond := beyond } = .done answers p ∧
      (rate p).Is (answers.count true) (CallSpec.returnsMade (rs.map stepOf)) := by
  have hne : rs ≠ [] := by rintro rfl; exact absurd hr (by decide)
  obtain ⟨file, e, H⟩ := C90_exact_partial depth h1 h2 magic rs hne hx hc hb
  refine ⟨file, e, fun beyond => ?_⟩
  obtain ⟨p, e2, q, m⟩ := H beyond
  refine ⟨_, p, e2, ?_⟩
  have hlen := ringAnswers_length (rs.map stepOf) (List.replicate depth 0)
  generalize CallSpec.ringAnswers (List.replicate depth 0) (rs.map stepOf) = outs at *
  have hc := true_false outs
  unfold rate
  rw [q, m, show (CallSpec.returnsMade (rs.map stepOf) + 2 ^ 64 - outs.count false) % 2 ^ 64 = outs.count true by omega]
  exact C104_double_partial _ _ (by omega) (by omega)

/-- Two of three returns predicted. -/
example : ((run (init 2) [.call 0x100, .ret 0x104, .call 0x200, .ret 0x204, .ret 0x300]).map fun x => (rate x.2).text 0) =
    some "66.67".toList := by decide +kernel

/-- C104 in full is violated: without any return there is no rate; the program prints `nan` (or `-nan`). -/
theorem C104_none_refuted (depth : Nat) : ∃ p, run (init depth) [] = some ([], p) ∧ rate p = .nan :=
  ⟨_, rfl, by show percent ((0 + 2 ^ 64 - 0) % 2 ^ 64) 0 = _; rw [Nat.zero_add, Nat.sub_zero, Nat.mod_self]; rfl⟩

end LinkStack

/-! ### The statistics of qtdis -/

namespace Stats
open Stats.Spec

theorem count_here (q : Insn → Bool) : ∀ h : List Insn, count (fun _ x => q x) h = h.countP q
  | [] => rfl
  | x :: h => by rw [count, count_here q h, List.countP_cons]

theorem count_toNat (q : Insn → Bool) {l : List Insn} (hl : l.length < 2 ^ 64) :
    (BitVec.ofNat 64 (count (fun _ x => q x) l.reverse)).toNat = l.countP q := by
  have : l.countP q ≤ l.length := List.countP_le_length
  rw [count_here, List.countP_reverse, BitVec.toNat_ofNat, Nat.mod_eq_of_lt (by omega)]

theorem partOf_is {a b : BitVec 64} (ha : a.toNat < 2 ^ 36) (hab : b.toNat = 0 → a.toNat = 0) : (partOf a b).Is a.toNat b.toNat := by
  unfold partOf
  by_cases hb : b = 0
  · subst hb
    rw [if_pos rfl]
    refine ⟨0, rfl, ?_⟩
    rw [hab rfl]
    exact ⟨Nat.le_refl _, Nat.le_refl _⟩
  · rw [if_neg hb]
    refine C104_double_partial _ _ (Nat.pos_of_ne_zero fun h => hb (BitVec.eq_of_toNat_eq (by rw [h]; rfl))) ha

/-- C104 (partial). For every trace of at least one and fewer than 2^36 instructions, the percentages of the kernel, of the
firmware and of user programs are the shares of the instructions executed there, and those of libraries and of the program
itself are the shares of the user instructions. -/
theorem C104_statistics_partial {t : Tables} (ht : t.Good) (l : List Insn) (hn : l ≠ []) (hl : l.length < 2 ^ 36) :
    ∃ s, run t (init t) l = some s ∧
      s.percentages.system.Is (l.countP fun x => region x.ea == .kernel) l.length ∧
      s.percentages.opal.Is (l.countP fun x => region x.ea == .firmware) l.length ∧
      s.percentages.user.Is (l.countP fun x => region x.ea == .library || region x.ea == .binary) l.length ∧
      s.percentages.lib.Is (l.countP fun x => region x.ea == .library) (l.countP fun x => region x.ea == .library || region x.ea == .binary) ∧
      s.percentages.bin.Is (l.countP fun x => region x.ea == .binary) (l.countP fun x => region x.ea == .library || region x.ea == .binary) ∧
      (s.idle.toNat < 2 ^ 36 → 0 < s.system.toNat → s.percentages.idle.Is s.idle.toNat s.system.toNat) := by
  obtain ⟨s, h1, h2⟩ := C27_counts ht l
  have h64 : l.length < 2 ^ 64 := by omega
  have hc : ∀ q : Insn → Bool, l.countP q ≤ l.length := fun q => List.countP_le_length
  have hpos : 0 < l.length := List.length_pos_of_ne_nil hn
  have htot : s.total.toNat = l.length := by
    rw [h2.total, List.length_reverse, BitVec.toNat_ofNat, Nat.mod_eq_of_lt h64]
  have hu : s.user.toNat = l.countP (fun x => region x.ea == .library || region x.ea == .binary) := by
    rw [h2.user]; exact count_toNat (fun x => region x.ea == .library || region x.ea == .binary) h64
  have hlib : s.userlib.toNat = l.countP (fun x => region x.ea == .library) := by rw [h2.userlib]; exact count_toNat (fun x => region x.ea == .library) h64
  have hbin : s.userbin.toNat = l.countP (fun x => region x.ea == .binary) := by rw [h2.userbin]; exact count_toNat (fun x => region x.ea == .binary) h64
  have hlu : (l.countP fun x => region x.ea == .library) ≤ l.countP fun x => region x.ea == .library || region x.ea == .binary :=
    List.countP_mono_left fun x _ h => by rw [h]; rfl
  have hbu : (l.countP fun x => region x.ea == .binary) ≤ l.countP fun x => region x.ea == .library || region x.ea == .binary :=
    List.countP_mono_left fun x _ h => by rw [h]; exact Bool.or_true _
  refine ⟨s, h1, ?_, ?_, ?_, ?_, ?_, fun hi hs => ?_⟩
  · have := hc fun x => region x.ea == .kernel
    show (percent s.system.toNat s.total.toNat).Is _ _
    rw [htot, h2.system, count_toNat (fun x => region x.ea == .kernel) h64]
    exact C104_double_partial _ _ hpos (by omega)
  · have := hc fun x => region x.ea == .firmware
    show (percent s.opal.toNat s.total.toNat).Is _ _
    rw [htot, h2.opal, count_toNat (fun x => region x.ea == .firmware) h64]
    exact C104_double_partial _ _ hpos (by omega)
  · have := hc fun x => region x.ea == .library || region x.ea == .binary
    show (percent s.user.toNat s.total.toNat).Is _ _
    rw [htot, hu]
    exact C104_double_partial _ _ hpos (by omega)
  · have := hc fun x => region x.ea == .library
    rw [← hu, ← hlib]
    exact partOf_is (by omega) (by omega)
  · have := hc fun x => region x.ea == .binary
    rw [← hu, ← hbin]
    exact partOf_is (by omega) (by omega)
  · exact partOf_is hi (by omega)

/-- The trace `sample` of seven instructions, two of them in the kernel. -/
example : sample ≠ [] ∧ sample.length < 2 ^ 36 ∧ ((run tables (init tables) sample).map fun s => (s.percentages.system.text 6, s.percentages.lib.text 6)) =
    some (" 28.57".toList, " 33.33".toList) := by decide +kernel

/-- C104 in full is violated: for an empty trace `nan` is printed. -/
theorem C104_empty_refuted : ∃ s, run tables (init tables) [] = some s ∧ s.percentages.system = .nan ∧ s.percentages.user = .nan :=
  ⟨_, rfl, rfl, rfl⟩

theorem warning_tenth (s : Stats) (hc : s.ctxswitch.toNat < 2 ^ 23) (hm : s.ctxswitchEaMultiple.toNat ≤ s.ctxswitch.toNat) :
    (s.warning ≠ none ↔ s.ctxswitch.toNat < 10 * s.ctxswitchEaMultiple.toNat) ∧
    ∀ x, s.warning = some x → ∃ c, x = .hundredths c ∧ Near 838 c s.ctxswitchEaMultiple.toNat s.ctxswitch.toNat := by
  unfold Stats.warning
  by_cases h0 : s.ctxswitch = 0
  · have e0 : s.ctxswitch.toNat = 0 := by rw [h0]; rfl
    have e1 : s.ctxswitchEaMultiple = 0 := BitVec.eq_of_toNat_eq (by rw [show (0 : BitVec 64).toNat = 0 from rfl]; omega)
    rw [if_pos h0, if_pos e1]
    refine ⟨by simp; omega, fun x h => by cases h⟩
  · have hpos : 0 < s.ctxswitch.toNat := Nat.pos_of_ne_zero fun h => h0 (BitVec.eq_of_toNat_eq (by rw [h]; rfl))
    rw [if_neg h0]
    have ht := single_tenth (m := s.ctxswitchEaMultiple.toNat) hpos hc (by omega)
    by_cases h1 : s.ctxswitch.toNat < 10 * s.ctxswitchEaMultiple.toNat
    · rw [if_pos (ht.2 h1)]
      refine ⟨by simp [h1], fun x h => ?_⟩
      obtain ⟨w1, w2⟩ := share_within s.ctxswitchEaMultiple.toNat hpos
      have hq : (0 : ℚ) ≤ 100 * s.ctxswitchEaMultiple.toNat / s.ctxswitch.toNat := by positivity
      exact ⟨_, (Option.some.inj h).symm, hundredths_close (round_den w2) hpos (float_within w2 hq w1) (by decide) (by norm_num)⟩
    · rw [if_neg (fun h => h1 (ht.1 h))]
      exact ⟨by simp; omega, fun x h => by cases h⟩

/-- C104 (partial). After every trace with fewer than 2^23 counted context switches, there is a warning exactly if more than a
tenth of them were at another address than the first one, and the percentage in it is near their share. -/
theorem C104_warning_partial {t : Tables} (ht : t.Good) (l : List Insn) (hl : l.length < 2 ^ 64) (hc : l.countP switches < 2 ^ 23) :
    ∃ s, run t (init t) l = some s ∧ (s.warning ≠ none ↔ l.countP switches < 10 * elsewhere l) ∧
      ∀ x, s.warning = some x → ∃ c, x = .hundredths c ∧ Near 838 c (elsewhere l) (l.countP switches) := by
  obtain ⟨s, h1, h2⟩ := C27_counts ht l
  have e1 : s.ctxswitch.toNat = l.countP switches := by rw [h2.ctxswitch]; exact count_toNat switches hl
  have hle := elsewhere_le l
  have e2 : s.ctxswitchEaMultiple.toNat = elsewhere l := by
    rw [run_elsewhere l h1 rfl]
    show (0#64 + BitVec.ofNat 64 (elsewhere l)).toNat = _
    rw [BitVec.zero_add, BitVec.toNat_ofNat, Nat.mod_eq_of_lt (by omega)]
  have := warning_tenth s (by omega) (by omega)
  rw [e1, e2] at this
  exact ⟨s, h1, this⟩

/-- A context switch at one address and one at another: half of them are elsewhere. -/
example : elsewhere [⟨0xc000000000000100, 0x7c0042a6⟩, ⟨0xc000000000000200, 0x7c0042a6⟩] = 1 ∧
    ((run tables (init tables) [⟨0xc000000000000100, 0x7c0042a6⟩, ⟨0xc000000000000200, 0x7c0042a6⟩]).map fun s => s.warning.map (·.text 0)) =
      some (some "50.00".toList) := by decide +kernel

/-- Exactly a tenth is no reason for a warning, one in nine is. -/
example : Stats.warning { init tables with ctxswitch := 30, ctxswitchEaMultiple := 3 } = none ∧
    (Stats.warning { init tables with ctxswitch := 9, ctxswitchEaMultiple := 1 }).map (·.text 0) = some "11.11".toList := by decide +kernel

/-- C104 (partial). For every table of instructions and every trace of at least one and fewer than 2^36 instructions, the
percentage beside entry `k` of the instruction mix is the share of the instructions of this kind. -/
theorem C104_mix_partial {tbl : List Entry} (h : Covered tbl) (l : List (BitVec 32)) (hn : l ≠ []) (hl : l.length < 2 ^ 36) :
    ∃ s, (Imix.init tbl).run tbl (majors tbl) l = some s ∧ ∀ k < tbl.length, ∃ x, s.share (BitVec.ofNat 64 l.length) k = some x ∧
      x.Is (l.countP fun w => kind tbl.dropLast w == some k) l.length := by
  obtain ⟨s, h1, h2⟩ := C28_counts_partial h l
  refine ⟨s, h1, fun k hk => ?_⟩
  have hle : (l.countP fun w => kind tbl.dropLast w == some k) ≤ l.length := List.countP_le_length
  have hpos : 0 < l.length := List.length_pos_of_ne_nil hn
  unfold Imix.share
  rw [h2.counts, counters_get, if_pos hk]
  refine ⟨_, rfl, ?_⟩
  dsimp only
  rw [← List.countP_eq_length_filter, BitVec.toNat_ofNat, BitVec.toNat_ofNat, Nat.mod_eq_of_lt (by omega), Nat.mod_eq_of_lt (by omega)]
  exact C104_double_partial _ _ hpos (by omega)

end Stats

/-! ### The blocks of qtdis -/

namespace Bb
open Bb.Spec

/-- C104 (partial). For every trace of at least one instruction (fewer than 2^64, at most 2^30 addresses), the percentage
beside a block is near the share of the instructions it accounts for, and right if these are at most 838. -/
theorem C104_blocks_partial (l : List (BitVec 64)) (hn : l ≠ []) (hl : l.length < 2 ^ 64) (hf : (firsts l).length ≤ 2 ^ 30) :
    ∃ s, run init l = some s ∧ ∀ t : Bbe, ∃ c, s.usage t = .hundredths c ∧ Near 838 c t.num.toNat l.length ∧
      (t.num.toNat ≤ 838 → Right c t.num.toNat l.length) := by
  obtain ⟨s, h1, -, -, -, h5⟩ := (C29_exact l).1 hf
  refine ⟨s, h1, fun t => ?_⟩
  have hnum : s.num.toNat = l.length := by rw [h5, BitVec.toNat_ofNat, Nat.mod_eq_of_lt hl]
  unfold Cache.usage
  rw [hnum]
  obtain ⟨c, e, h2, h3⟩ := C104_float_partial t.num.toNat l.length (List.length_pos_of_ne_nil hn)
  exact ⟨c, e, h3, h2⟩

/-- Three instructions, one of them executed twice. -/
example : ([0x100, 0x104, 0x104, 0x200] : List (BitVec 64)) ≠ [] ∧
    ((run init [0x100, 0x104, 0x104, 0x200]).map fun s => s.entries.map fun t => (s.usage t).text 5) =
      some ["25.00".toList, "50.00".toList, "25.00".toList] := by decide +kernel

end Bb

/-! ### The statistics script -/

namespace Script

/-- C104 (partial). The four percentages of the script are the shares of its counters (the second and the last may be more
than the total, see C79), if they are below 2^36. -/
theorem C104_script_partial (s : State) (r : Shares) (h : shares s = some r) (hs : s.system < 2 ^ 35) (hu : s.user < 2 ^ 36)
    (ho : s.opal < 2 ^ 36) (hi : s.idle < 2 ^ 35) :
    ∃ a b c d, r.printed = [a, b, c, d] ∧ a.Is s.user (s.system + s.user) ∧ b.Is s.opal (s.system + s.user) ∧
      c.Is ((s.system : Int) - s.idle).natAbs (s.system + s.user) ∧ d.Is s.idle (s.system + s.user) := by
  unfold shares at h
  by_cases h0 : s.system + s.user = 0
  · rw [if_pos h0] at h; cases h
  · rw [if_neg h0] at h
    obtain rfl := Option.some.inj h
    have hp : 0 < s.system + s.user := by omega
    exact ⟨_, _, _, _, rfl, C104_double_partial s.user _ hp hu, C104_double_partial s.opal _ hp ho,
      C104_double_partial ((s.system : Int) - s.idle).natAbs _ hp (by omega), C104_double_partial s.idle _ hp (by omega)⟩

/-- A listing of two lines. -/
example : ((report [sysRead, inModule]).map fun r => r.printed.map (·.text 13)) =
    some ["        50.00".toList, "         0.00".toList, "        50.00".toList, "         0.00".toList] := by decide +kernel

end Script
