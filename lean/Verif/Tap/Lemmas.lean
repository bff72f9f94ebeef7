import Verif.Tap.Spec
import Verif.Stats.PropsPercent
/-! Helper lemmas: what a harness reads of the lines that a test program prints. -/
namespace Tap
open Spec

theorem lines_line (l rest : Text) (h : '\n' ∉ l) : lines (l ++ '\n' :: rest) = l :: lines rest := by
  induction l with
  | nil => rw [List.nil_append, lines, if_pos rfl]
  | cons c l ih =>
    rw [List.cons_append, lines, if_neg (fun e : c = '\n' => h (e ▸ List.mem_cons_self)), ih fun hx => h (List.mem_cons_of_mem _ hx)]

/-- A text of whole lines that is read as the entries. -/
inductive Says : Text → List Entry → Prop
  | nil : Says [] []
  | line {t es} (l : Text) : '\n' ∉ l → Says t es → Says (l ++ '\n' :: t) ((readLine l).toList ++ es)

theorem Says.read {t : Text} {es : List Entry} (h : Says t es) : read t = es := by
  induction h with
  | nil => rfl
  | line l hl _ ih =>
    rw [Spec.read, lines_line l _ hl, List.filterMap_cons]
    rw [Spec.read] at ih
    cases readLine l with
    | none => simpa using ih
    | some e => simpa using ih

theorem Says.append {t u : Text} {es fs : List Entry} (h : Says t es) (k : Says u fs) : Says (t ++ u) (es ++ fs) := by
  induction h with
  | nil => exact k
  | line l hl _ ih => rw [List.append_assoc, List.append_assoc, List.cons_append]; exact .line l hl ih

theorem Says.one {l : Text} {es : List Entry} (h : '\n' ∉ l) (he : (readLine l).toList = es) : Says (l ++ ['\n']) es := by
  have := Says.line l h .nil
  rwa [he, List.append_nil] at this

theorem Says.comment {t : Text} (h : '\n' ∉ t) : Says ("# ".toList ++ t ++ ['\n']) [] := by
  refine .one ?_ rfl
  intro hm
  rcases List.mem_append.1 hm with hm | hm
  · exact absurd hm (by decide)
  · exact h hm

/-! ### Numbers -/

theorem showInt_eq (v : BitVec 32) (h : v.toNat < 2 ^ 31) : showInt v = Nat.toDigits 10 v.toNat := by
  have e : v.toInt = (v.toNat : Int) := by
    rw [BitVec.toInt_eq_toNat_cond, if_pos (by omega)]
  unfold showInt
  rw [e, if_neg (by omega), Int.natAbs_natCast]

theorem digits_noline (n : Nat) : '\n' ∉ Nat.toDigits 10 n := fun h => absurd ((Num.dec_digits n).1 _ h).1 (by decide)

theorem showInt_noline (v : BitVec 32) : '\n' ∉ showInt v := by
  unfold showInt
  split
  · intro h
    rcases List.mem_cons.1 h with h | h
    · exact absurd h (by decide)
    · exact digits_noline _ h
  · exact digits_noline _

theorem takeWhile_digits (n : Nat) (r : Text) (h : ∀ c, r.head? = some c → c.isDigit = false) :
    (Nat.toDigits 10 n ++ r).takeWhile Char.isDigit = Nat.toDigits 10 n ∧ (Nat.toDigits 10 n ++ r).dropWhile Char.isDigit = r := by
  have hd := fun c hc => ((Num.dec_digits n).1 c hc).1
  cases r with
  | nil =>
    rw [List.append_nil]
    generalize Nat.toDigits 10 n = l at hd
    constructor
    · induction l with
      | nil => rfl
      | cons c l ih => rw [List.takeWhile_cons, if_pos (hd c List.mem_cons_self), ih fun x hx => hd x (List.mem_cons_of_mem _ hx)]
    · induction l with
      | nil => rfl
      | cons c l ih => rw [List.dropWhile_cons, if_pos (hd c List.mem_cons_self), ih fun x hx => hd x (List.mem_cons_of_mem _ hx)]
  | cons c r => exact Num.takeWhile_to hd (h c rfl)

/-! ### Names -/

theorem escape_noline {n : Text} (h : '\n' ∉ n) : '\n' ∉ escape n := by
  induction n with
  | nil => exact h
  | cons c t ih =>
    rw [escape]
    have ht := ih fun hx => h (List.mem_cons_of_mem _ hx)
    have hc : '\n' ≠ c := fun e => h (e ▸ List.mem_cons_self)
    split
    · intro hm
      rcases List.mem_cons.1 hm with hm | hm
      · exact absurd hm (by decide)
      · rcases List.mem_cons.1 hm with hm | hm
        · exact absurd hm (by decide)
        · exact ht hm
    · intro hm
      rcases List.mem_cons.1 hm with hm | hm
      · exact hc hm
      · exact ht hm

theorem cut_escape (n r : Text) (hr : ∀ t, r ≠ '#' :: t) : ∀ b : Bool,
    cut b (escape n ++ r) = ((if b then '\\' :: (n ++ (cut false r).1) else n ++ (cut false r).1), (cut false r).2) := by
  induction n with
  | nil =>
    intro b
    show cut b r = _
    cases b with
    | false => rfl
    | true =>
      cases r with
      | nil => rfl
      | cons c t =>
        have hc : c ≠ '#' := fun e => hr t (e ▸ rfl)
        rw [cut, cut, if_neg hc, if_neg hc]
        simp
  | cons c t ih =>
    intro b
    rw [escape]
    by_cases hc : c = '#'
    · subst hc
      rw [if_pos rfl]
      show cut b ('\\' :: '#' :: (escape t ++ r)) = _
      rw [cut, if_neg (by decide)]
      simp only [if_true]
      rw [cut, if_pos rfl]
      simp only [if_true]
      rw [ih false]
      cases b <;> simp
    · rw [if_neg hc, List.cons_append, cut, if_neg hc]
      by_cases hs : c = '\\'
      · subst hs
        simp only [if_true]
        rw [ih true]
        cases b <;> simp
      · simp only [if_neg hs]
        rw [ih false]
        cases b <;> simp

/-! ### Test lines -/

theorem behind_append (p l : Text) : behind p (p ++ l) = some l := by
  unfold behind
  rw [if_pos (by simp), List.drop_left]

/-- What is printed behind the name of a test. -/
def mark : Option Text → Text
  | none => []
  | some t => ' ' :: '#' :: (" TODO ".toList ++ t)

theorem cut_plain (c : Char) (t : Text) (h1 : c ≠ '#') (h2 : c ≠ '\\') : cut false (c :: t) = (c :: (cut false t).1, (cut false t).2) := by
  rw [cut, if_neg h1]; simp only [if_neg h2]; rfl

theorem mark_chars : " # TODO ".toList = ' ' :: '#' :: " TODO ".toList := by decide

theorem skip_chars : " # skip ".toList = ' ' :: '#' :: " skip ".toList := by decide

theorem name_chars : " - ".toList = [' ', '-', ' '] := by decide

theorem cut_special (t : Text) : cut false (' ' :: '#' :: t) = ([' '], some t) := by
  rw [cut_plain _ _ (by decide) (by decide), cut, if_pos rfl]; rfl

theorem cut_mark (y : Text) : cut false (mark (some y)) = ([' '], some (" TODO ".toList ++ y)) := by
  exact cut_special _

theorem behind_other (p l : Text) (h : p.isPrefixOf l = false) : behind p l = none := by
  unfold behind
  rw [if_neg (by rw [h]; decide)]

theorem skip_not_todo (y : Text) : behind " skip ".toList (" TODO ".toList ++ y) = none :=
  behind_other _ _ (by
    rw [show " skip ".toList = [' ', 's', 'k', 'i', 'p', ' '] by decide, show " TODO ".toList = [' ', 'T', 'O', 'D', 'O', ' '] by decide]
    rfl)

theorem todo_not_skip (y : Text) : behind " TODO ".toList (" skip ".toList ++ y) = none :=
  behind_other _ _ (by
    rw [show " skip ".toList = [' ', 's', 'k', 'i', 'p', ' '] by decide, show " TODO ".toList = [' ', 'T', 'O', 'D', 'O', ' '] by decide]
    rfl)

theorem name_not_nil : behind " - ".toList [] = none := behind_other _ _ (by decide)

theorem readTest_line (b : Bool) (n : Nat) (name todo : Option Text) :
    readTest b (Nat.toDigits 10 n ++ (nameText name ++ mark todo)) = .test n { passed := b, name, todo } := by
  have hh : ∀ c, (nameText name ++ mark todo).head? = some c → c.isDigit = false := by
    intro c hc
    cases name with
    | some x => injection hc with e; subst e; decide
    | none =>
      cases todo with
      | none => cases hc
      | some x => injection hc with e; subst e; decide
  obtain ⟨h1, h2⟩ := takeWhile_digits n _ hh
  unfold readTest
  simp only [h1, h2, (Num.dec_digits n).2]
  have hm : ∀ t, mark todo ≠ '#' :: t := by
    intro t
    cases todo with
    | none => simp [mark]
    | some x =>
      intro e
      exact absurd (List.cons.inj e).1 (by decide)
  cases name with
  | none =>
    rw [show nameText none ++ mark todo = mark todo from rfl]
    cases todo with
    | none =>
      rw [show cut false (mark none) = ([], none) from rfl]
      simp only [name_not_nil]
    | some x =>
      rw [cut_mark]
      simp only [behind_append, skip_not_todo]
      rw [show ([' '] : Text).dropLast = [] from rfl, name_not_nil]
  | some x =>
    have hc : cut false (nameText (some x) ++ mark todo) = (" - ".toList ++ (x ++ (cut false (mark todo)).1), (cut false (mark todo)).2) := by
      rw [nameText, name_chars]
      show cut false (' ' :: '-' :: ' ' :: (escape x ++ mark todo)) = _
      have e := cut_escape x (mark todo) hm false
      rw [cut_plain _ _ (by decide) (by decide), cut_plain _ _ (by decide) (by decide), cut_plain _ _ (by decide) (by decide), e]
      rfl
    rw [hc]
    cases todo with
    | none =>
      rw [show cut false (mark none) = ([], none) from rfl]
      simp only [behind_append, List.append_nil]
    | some y =>
      rw [cut_mark]
      simp only [behind_append, skip_not_todo]
      rw [← List.append_assoc, List.dropLast_concat, behind_append]

theorem readTest_skip (n : Nat) (why : Text) :
    readTest true (Nat.toDigits 10 n ++ (" # skip ".toList ++ why)) = .test n { passed := true, skipped := some why } := by
  rw [skip_chars]
  obtain ⟨h1, h2⟩ := takeWhile_digits n (' ' :: '#' :: (" skip ".toList ++ why)) (fun c hc => by injection hc with e; subst e; decide)
  unfold readTest
  simp only [List.cons_append, h1, h2, (Num.dec_digits n).2, cut_special, behind_append, todo_not_skip]
  rw [show ([' '] : Text).dropLast = [] from rfl, name_not_nil]

end Tap
