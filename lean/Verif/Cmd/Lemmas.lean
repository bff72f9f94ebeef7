import Verif.Cmd.Spec

/-! Helper lemmas: command lines. -/

namespace Cmd
open CmdSpec

/-- The string of options knows the letter, and whether it takes an argument. -/
def Knows {σ} (face : σ → Face) (s : List Char) : Prop := ∀ x, takes (face x).letter s = some (face x).value.isSome

/-- As `getopt` reports it. -/
def seen (f : Face) : Char × Arg := (f.letter, f.value.getD [])

theorem takes_dash {σ} {face : σ → Face} {s : List Char} (h : Knows face s) (hd : takes '-' s = none) (x) : (face x).letter ≠ '-' := by
  intro e
  have := h x
  rw [e, hd] at this
  cases this

theorem word_group {σ} {face : σ → Face} {s : List Char} (h : Knows face s) {g : List σ} {cs : List Char} {ex : List Arg} (w : Word face g cs ex) :
    (ex = [] ∧ group s cs = (g.map (seen ∘ face), .done)) ∨
    (∃ g' x v, g = g' ++ [x] ∧ ex = [v] ∧ (face x).value = some v ∧ group s cs = (g'.map (seen ∘ face), .wants (face x).letter)) := by
  induction w with
  | nil => exact .inl ⟨rfl, rfl⟩
  | @flag x ss cs ex hv _ ih =>
    have ht := h x
    rw [hv] at ht
    have e : seen (face x) = ((face x).letter, []) := by simp [seen, hv]
    rcases ih with ⟨rfl, ih⟩ | ⟨g', y, v, rfl, rfl, hy, ih⟩
    · refine .inl ⟨rfl, ?_⟩
      rw [group, ht]
      simp only [Option.isSome, ih, List.map_cons, Function.comp, e]
    · refine .inr ⟨x :: g', y, v, rfl, rfl, hy, ?_⟩
      rw [group, ht]
      simp only [Option.isSome, ih, List.map_cons, Function.comp, e]
  | @attached x v hv hne =>
    have ht := h x
    rw [hv] at ht
    refine .inl ⟨rfl, ?_⟩
    rw [group, ht]
    simp [hne, seen, hv]
  | @separate x v hv =>
    have ht := h x
    rw [hv] at ht
    refine .inr ⟨[], x, v, rfl, rfl, hv, ?_⟩
    rw [group, ht]
    simp

theorem word_first {σ} {face : σ → Face} {g : List σ} {cs : List Char} {ex : List Arg} (w : Word face g cs ex) (hc : cs ≠ []) :
    ∃ x, cs.head? = some (face x).letter := by
  cases w with
  | nil => exact absurd rfl hc
  | flag => exact ⟨_, rfl⟩
  | attached => exact ⟨_, rfl⟩
  | separate => exact ⟨_, rfl⟩

theorem getopt_line {σ} {face : σ → Face} {s : List Char} {first : Bool} (h : Knows face s) (hd : takes '-' s = none) {ss : List σ} {ops as : List Arg}
    (l : Line face first ss ops as) : getopt s first none as = ⟨ss.map (seen ∘ face), false, ops⟩ := by
  have opnd : ∀ w, Operand w → w ≠ ['-', '-'] ∧ ¬ (w.head? = some '-' ∧ w.tail ≠ []) := by
    intro w hw
    rcases hw with hw | rfl
    · exact ⟨by rintro rfl; exact hw rfl, fun h => hw h.1⟩
    · exact ⟨by decide, by simp⟩
  induction l with
  | nil => rfl
  | dashes ops => rw [getopt, if_pos rfl]; rfl
  | @stop w ops hf hw =>
    rw [getopt, if_neg (opnd w hw).1, if_neg (opnd w hw).2, if_pos hf]; rfl
  | @operand w ss ops as hf hw _ ih =>
    rw [getopt, if_neg (opnd w hw).1, if_neg (opnd w hw).2, if_neg (by simp [hf]), ih]
  | @word g cs ex ss ops as w hc _ ih =>
    obtain ⟨x, hx⟩ := word_first w hc
    have n1 : ('-' :: cs) ≠ ['-', '-'] := by
      intro e
      rw [(List.cons.inj e).2] at hx
      exact takes_dash h hd x (Option.some.inj hx).symm
    have n2 : ('-' :: cs).head? = some '-' ∧ ('-' :: cs).tail ≠ [] := ⟨rfl, hc⟩
    rw [getopt, if_neg n1, if_pos n2]
    simp only [List.tail_cons]
    rcases word_group h w with ⟨rfl, e⟩ | ⟨g', y, v, rfl, rfl, hy, e⟩
    · rw [e]
      simp only [List.nil_append, ih, List.map_append]
    · rw [e]
      simp only [List.cons_append, List.nil_append, getopt, ih, List.map_append, List.map_cons, List.map_nil, List.append_assoc, Function.comp, seen, hy,
        Option.getD_some]

/-! ## Numbers -/

theorem digits_append (l : List Char) (h : ∀ c ∈ l, c.isDigit = true) (n : Nat) (r : List Char) : digits n (l ++ r) = digits (digits n l) r := by
  induction l generalizing n with
  | nil => rfl
  | cons c l ih =>
    have hc := h c (List.mem_cons_self ..)
    show (if c.isDigit then _ else n) = digits (if c.isDigit then _ else n) r
    rw [if_pos hc, if_pos hc]
    exact ih (fun x hx => h x (List.mem_cons_of_mem _ hx)) _

theorem digit_facts : ∀ d : Fin 10, (Nat.digitChar d).isDigit = true ∧ (Nat.digitChar d).toNat - 48 = d ∧ isSpace (Nat.digitChar d) = false ∧
    Nat.digitChar d ≠ '-' ∧ Nat.digitChar d ≠ '+' := by decide

theorem decimal_all (n : Nat) : ∀ c ∈ decimal n, c.isDigit = true ∧ isSpace c = false ∧ c ≠ '-' ∧ c ≠ '+' := by
  unfold decimal
  induction n using Nat.strongRecOn with
  | _ n ih =>
    intro c hc
    by_cases h : n < 10
    · rw [Nat.toDigits_of_lt_base h, List.mem_singleton] at hc
      subst hc
      have := digit_facts ⟨n, h⟩
      exact ⟨this.1, this.2.2⟩
    · rw [Nat.toDigits_of_base_le (by omega) (by omega), List.mem_append, List.mem_singleton] at hc
      rcases hc with hc | rfl
      · exact ih _ (by omega) c hc
      · have := digit_facts ⟨n % 10, by omega⟩
        exact ⟨this.1, this.2.2⟩

theorem digits_decimal (n : Nat) : digits 0 (decimal n) = n := by
  induction n using Nat.strongRecOn with
  | _ n ih =>
    by_cases h : n < 10
    · unfold decimal
      rw [Nat.toDigits_of_lt_base h]
      have := digit_facts ⟨n, h⟩
      simp only [digits, this.1, if_true]
      have := this.2.1
      simp only at this
      omega
    · have hs : decimal n = decimal (n / 10) ++ [Nat.digitChar (n % 10)] := by
        unfold decimal
        rw [Nat.toDigits_of_base_le (by omega) (by omega)]
      rw [hs, digits_append _ (fun c hc => (decimal_all _ c hc).1), ih _ (by omega)]
      have := digit_facts ⟨n % 10, by omega⟩
      simp only [digits, this.1, if_true]
      have := this.2.1
      simp only at this
      omega

theorem number_decimal (n : Nat) : number (decimal n) = (false, n) := by
  have hw : (decimal n).dropWhile isSpace = decimal n := by
    cases h : decimal n with
    | nil => rfl
    | cons c l =>
      have := decimal_all n c (by rw [h]; exact List.mem_cons_self ..)
      rw [List.dropWhile_cons, if_neg (by simp [this.2.1])]
  have hh : ∀ c, c = '-' ∨ c = '+' → (decimal n).head? ≠ some c := by
    intro c hc e
    have := decimal_all n c (List.mem_of_mem_head? e)
    rcases hc with rfl | rfl
    · exact this.2.2.1 rfl
    · exact this.2.2.2 rfl
  unfold number
  rw [hw, if_neg (hh _ (.inl rfl)), if_neg (hh _ (.inr rfl)), digits_decimal]

theorem strtol_decimal {n : Nat} (h : n < 2 ^ 63) : strtol (decimal n) = n := by
  unfold strtol
  rw [number_decimal]
  simp only [Bool.false_eq_true, if_false]
  omega

theorem strtoul_decimal {n : Nat} (h : n < 2 ^ 64) : strtoul (decimal n) = BitVec.ofNat 64 n := by
  unfold strtoul
  rw [number_decimal]
  rw [if_neg (by simp only; omega)]
  rfl

theorem atoi_decimal {n : Nat} (h : n < 2 ^ 31) : atoi (decimal n) = some (n : Int) := by
  unfold atoi
  rw [number_decimal]
  simp only [Bool.false_eq_true, if_false]
  rw [if_pos (by omega)]

/-! ## The loops -/

theorem rounds_fold {σ κ} {face : σ → Face} {f : κ → Char → Arg → Start κ} {g : κ → σ → κ} {ss : List σ}
    (h : ∀ k, ∀ s ∈ ss, f k (face s).letter ((face s).value.getD []) = .run (g k s) []) (k : κ) :
    rounds f k (ss.map (seen ∘ face)) = .run (ss.foldl g k) [] := by
  induction ss generalizing k with
  | nil => rfl
  | cons s ss ih =>
    show rounds f k ((seen (face s)) :: _) = _
    unfold seen rounds
    rw [h k s (List.mem_cons_self ..)]
    exact ih (fun k s hs => h k s (List.mem_cons_of_mem _ hs)) _

/-- A setting that the last option about it decides. -/
theorem fold_last {σ κ α} {g : κ → σ → κ} {p : κ → α} {f : σ → Option α} (h : ∀ k s, p (g k s) = (f s).getD (p k)) (ss : List σ) (k : κ) :
    p (ss.foldl g k) = (last f ss).getD (p k) := by
  induction ss generalizing k with
  | nil => rfl
  | cons s ss ih =>
    rw [List.foldl_cons, ih, h]
    unfold last
    rw [List.filterMap_cons]
    cases hf : f s with
    | none => rfl
    | some a =>
      simp only [Option.getD_some]
      rw [List.getLast?_cons]
      rfl

theorem fold_or {σ κ α} {g : κ → σ → κ} {p : κ → Option α} {f : σ → Option α} (h : ∀ k s, p (g k s) = (f s).or (p k)) (ss : List σ) (k : κ) :
    p (ss.foldl g k) = (last f ss).or (p k) := by
  induction ss generalizing k with
  | nil => rfl
  | cons s ss ih =>
    rw [List.foldl_cons, ih, h]
    unfold last
    rw [List.filterMap_cons]
    cases hf : f s with
    | none => rfl
    | some a =>
      simp only [Option.some_or]
      rw [List.getLast?_cons]
      cases (ss.filterMap f).getLast? <;> rfl

/-- A flag: whether the option was given. -/
theorem fold_flag {σ κ} {g : κ → σ → κ} {p : κ → Bool} {q : σ → Bool} (h : ∀ k s, p (g k s) = (q s || p k)) (ss : List σ) (k : κ) :
    p (ss.foldl g k) = (ss.any q || p k) := by
  induction ss generalizing k with
  | nil => rfl
  | cons s ss ih =>
    rw [List.foldl_cons, ih, h, List.any_cons]
    cases q s <;> simp

end Cmd
