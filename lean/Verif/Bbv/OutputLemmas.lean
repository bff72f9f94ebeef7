import Verif.Bbv.Output
import Verif.Bbv.SpecOutput
import Verif.Bbv.MatrixLemmas

/-! The printed text is read back. -/
namespace Bbv
open BbvText

theorem digit_char : ∀ d : Fin 10, (Nat.digitChar d).isDigit = true ∧ (Nat.digitChar d).toNat - 48 = d := by decide

theorem digits_all (n : Nat) : ∀ c ∈ Nat.toDigits 10 n, c.isDigit = true := by
  induction n using Nat.strongRecOn with
  | _ n ih =>
    intro c hc
    by_cases h : n < 10
    · rw [Nat.toDigits_of_lt_base h, List.mem_singleton] at hc
      subst hc
      exact (digit_char ⟨n, h⟩).1
    · rw [Nat.toDigits_of_base_le (by omega) (by omega), List.mem_append, List.mem_singleton] at hc
      rcases hc with hc | rfl
      · exact ih _ (by omega) c hc
      · exact (digit_char ⟨n % 10, by omega⟩).1

theorem digits_ne (n : Nat) : Nat.toDigits 10 n ≠ [] := by
  by_cases h : n < 10
  · rw [Nat.toDigits_of_lt_base h]; simp
  · rw [Nat.toDigits_of_base_le (by omega) (by omega)]; simp

theorem digits_value (n : Nat) : value (Nat.toDigits 10 n) = n := by
  induction n using Nat.strongRecOn with
  | _ n ih =>
    by_cases h : n < 10
    · rw [Nat.toDigits_of_lt_base h]
      have := (digit_char ⟨n, h⟩).2
      simp only [value, List.foldl_cons, List.foldl_nil] at this ⊢
      omega
    · rw [Nat.toDigits_of_base_le (by omega) (by omega)]
      have h1 := ih (n / 10) (by omega)
      have h2 := (digit_char ⟨n % 10, by omega⟩).2
      unfold value at h1 ⊢
      rw [List.foldl_append, h1, List.foldl_cons, List.foldl_nil]
      simp only at h2
      omega

/-- A text that does not go on with a digit. -/
def Ends (r : List Char) : Prop := ∀ c l, r = c :: l → c.isDigit = false

theorem natural_digits (n : Nat) {r : List Char} (hr : Ends r) : natural (Nat.toDigits 10 n ++ r) = some (n, r) := by
  have t : (Nat.toDigits 10 n ++ r).takeWhile Char.isDigit = Nat.toDigits 10 n := by
    rw [List.takeWhile_append_of_pos (digits_all n)]
    cases r with
    | nil => simp
    | cons c l => simp [hr c l rfl]
  have d : (Nat.toDigits 10 n ++ r).dropWhile Char.isDigit = r := by
    rw [List.dropWhile_append_of_pos (digits_all n)]
    cases r with
    | nil => rfl
    | cons c l => simp [hr c l rfl]
  unfold natural
  rw [t, d, if_neg (digits_ne n), digits_value]

theorem integer_ld (v : BitVec 64) {r : List Char} (hr : Ends r) : integer (ld v ++ r) = some (v.toInt, r) := by
  unfold ld
  split
  · next h =>
    rw [List.cons_append, integer, natural_digits _ hr, Option.map_some]
    congr 2
    omega
  · next h =>
    have hn : ∀ l, Nat.toDigits 10 v.toInt.toNat ++ r ≠ '-' :: l := by
      intro l hl
      cases hd : Nat.toDigits 10 v.toInt.toNat with
      | nil => exact digits_ne _ hd
      | cons c m =>
        rw [hd, List.cons_append] at hl
        have := digits_all v.toInt.toNat c (by rw [hd]; exact List.mem_cons_self)
        rw [(List.cons.inj hl).1] at this
        exact absurd this (by decide)
    rw [integer]
    · rw [natural_digits _ hr, Option.map_some]
      congr 2
      omega
    · exact hn

theorem ld_chars (v : BitVec 64) : ∀ c ∈ ld v, c.isDigit = true ∨ c = '-' := by
  unfold ld
  intro c hc
  split at hc
  · rcases List.mem_cons.mp hc with rfl | hc
    · exact Or.inr rfl
    · exact Or.inl (digits_all _ c hc)
  · exact Or.inl (digits_all _ c hc)

theorem ld_inner (v : BitVec 64) : ∀ c ∈ ld v, c ≠ '\n' ∧ c ≠ '\t' := by
  intro c hc
  rcases ld_chars v c hc with h | rfl
  · constructor
    · rintro rfl; exact absurd h (by decide)
    · rintro rfl; exact absurd h (by decide)
  · decide

theorem ld_ne (v : BitVec 64) : ld v ≠ [] := by
  unfold ld
  split
  · simp
  · exact digits_ne _

theorem whole_ld (v : BitVec 64) : whole (ld v) = some v.toInt := by
  unfold whole
  have := integer_ld v (r := []) (by intro c l h; cases h)
  rw [List.append_nil] at this
  rw [this]

theorem ends_cons {c : Char} {l : List Char} (h : c.isDigit = false) : Ends (c :: l) := by
  intro c' l' e
  rw [← (List.cons.inj e).1]; exact h

theorem split_part (sep : Char) : ∀ (l part r : List Char), (∀ c ∈ l, c ≠ sep) → split sep part (l ++ sep :: r) = (part ++ l) :: split sep [] r
  | [], part, r, _ => by rw [List.nil_append, split, if_pos rfl, List.append_nil]
  | c :: l, part, r, h => by
    rw [List.cons_append, split, if_neg (h c List.mem_cons_self), split_part sep l _ r fun x hx => h x (List.mem_cons_of_mem _ hx), List.append_assoc]
    rfl

theorem split_line {sep : Char} {l : List Char} (r : List Char) (h : ∀ c ∈ l, c ≠ sep) : split sep [] (l ++ sep :: r) = l :: split sep [] r := by
  rw [split_part sep l [] r h, List.nil_append]

/-- A line of a table, without its end. -/
def Line.row (l : Line) : List Char := ld l.first ++ '-' :: (ld l.last ++ '\t' :: ld (BitVec.ofNat 64 l.count))

theorem Line.text_row (l : Line) : l.text = l.row ++ ['\n'] := by simp [Line.text, Line.row]

theorem row_inner (l : Line) : ∀ c ∈ l.row, c ≠ '\n' := by
  intro c hc
  simp only [Line.row, List.mem_append, List.mem_cons] at hc
  rcases hc with h | rfl | h | rfl | h
  · exact (ld_inner _ c h).1
  · decide
  · exact (ld_inner _ c h).1
  · decide
  · exact (ld_inner _ c h).1

theorem row_ne (l : Line) : l.row ≠ [] := by
  unfold Line.row
  intro h
  exact ld_ne _ (List.append_eq_nil_iff.mp h).1

theorem range_row (l : Line) : range l.row = some (l.first.toInt, l.last.toInt, (BitVec.ofNat 64 l.count).toInt) := by
  unfold range Line.row
  simp only [integer_ld _ (ends_cons (show ('-').isDigit = false by decide)), integer_ld _ (ends_cons (show ('\t').isDigit = false by decide)), whole_ld,
    Option.map_some]

theorem split_table : ∀ (ls : List Line) (r : List Char), split '\n' [] ((ls.map Line.text).flatten ++ r) = ls.map Line.row ++ split '\n' [] r
  | [], _ => rfl
  | l :: ls, r => by
    rw [List.map_cons, List.flatten_cons, Line.text_row, List.append_assoc, List.append_assoc, List.singleton_append, split_line _ (row_inner l), split_table ls r]
    rfl

/-- The lines of a report. -/
def Report.rows (r : Report) : List (List Char) :=
  ("Testing K=".toList ++ ld (BitVec.ofNat 64 r.k)) :: ("Cost: ".toList ++ ld r.cost) :: "Medoids:".toList :: r.lines.map Line.row

theorem title_inner {t : List Char} (v : BitVec 64) (ht : ∀ c ∈ t, c ≠ '\n') : ∀ c ∈ t ++ ld v, c ≠ '\n' := by
  intro c hc
  rcases List.mem_append.mp hc with h | h
  · exact ht c h
  · exact (ld_inner _ c h).1

theorem split_report (r : Report) (t : List Char) : split '\n' [] (r.text ++ t) = r.rows ++ [] :: split '\n' [] t := by
  unfold Report.text
  have e : "Testing K=".toList ++ (ld (BitVec.ofNat 64 r.k) ++ '\n' :: ("Cost: ".toList ++ (ld r.cost ++ '\n' :: ("Medoids:".toList ++ '\n' ::
      ((r.lines.map Line.text).flatten ++ ['\n']))))) ++ t =
      ("Testing K=".toList ++ ld (BitVec.ofNat 64 r.k)) ++ '\n' :: (("Cost: ".toList ++ ld r.cost) ++ '\n' :: ("Medoids:".toList ++ '\n' ::
      ((r.lines.map Line.text).flatten ++ ('\n' :: t)))) := by
    simp only [List.append_assoc, List.cons_append, List.nil_append]
  rw [e, split_line _ (title_inner _ (by decide)), split_line _ (title_inner _ (by decide)), split_line _ (by decide), split_table]
  have : split '\n' [] ('\n' :: t) = [] :: split '\n' [] t := split_line (l := []) t (by simp)
  rw [this]
  rfl

theorem paragraph_part : ∀ (ls part rest : List (List Char)), (∀ l ∈ ls, l ≠ []) → paragraphs part (ls ++ [] :: rest) = (part ++ ls) :: paragraphs [] rest
  | [], part, rest, _ => by rw [List.nil_append, paragraphs, if_pos rfl, List.append_nil]
  | l :: ls, part, rest, h => by
    rw [List.cons_append, paragraphs, if_neg (h l List.mem_cons_self), paragraph_part ls _ rest fun x hx => h x (List.mem_cons_of_mem _ hx), List.append_assoc]
    rfl

theorem rows_ne (r : Report) : ∀ l ∈ r.rows, l ≠ [] := by
  intro l hl
  unfold Report.rows at hl
  simp only [List.mem_cons, List.mem_map] at hl
  rcases hl with rfl | rfl | rfl | ⟨x, _, rfl⟩
  · intro h; exact absurd (List.append_eq_nil_iff.mp h).1 (by decide)
  · intro h; exact absurd (List.append_eq_nil_iff.mp h).1 (by decide)
  · decide
  · exact row_ne x

theorem field_title (t : List Char) (v : BitVec 64) : field t (t ++ ld v) = some v.toInt := by
  unfold field
  rw [if_pos (by simp), List.drop_left, whole_ld]

theorem every_map {α β γ : Type} (f : β → Option γ) (g : α → β) (h : α → γ) (l : List α) (hf : ∀ a ∈ l, f (g a) = some (h a)) :
    every f (l.map g) = some (l.map h) := by
  induction l with
  | nil => rfl
  | cons a l ih => rw [List.map_cons, every, hf a List.mem_cons_self, ih fun x hx => hf x (List.mem_cons_of_mem _ hx)]; rfl

/-- What a report shows. -/
def Report.shown (r : Report) : Shown :=
  { k := (BitVec.ofNat 64 r.k).toInt, cost := r.cost.toInt, table := r.lines.map fun l => (l.first.toInt, l.last.toInt, (BitVec.ofNat 64 l.count).toInt) }

theorem clustering_rows (r : Report) : clustering r.rows = some r.shown := by
  unfold Report.rows clustering
  simp only [field_title, every_map range Line.row _ r.lines fun l _ => range_row l, if_true]
  rfl

theorem text_paragraphs (t : List Char) : ∀ rs : List Report, paragraphs [] (split '\n' [] (text rs ++ t)) = rs.map Report.rows ++ paragraphs [] (split '\n' [] t)
  | [] => rfl
  | r :: rs => by
    have : text (r :: rs) = r.text ++ text rs := rfl
    rw [this, List.append_assoc, split_report, paragraph_part _ _ _ (rows_ne r), text_paragraphs t rs]
    rfl

theorem text_read (rs : List Report) : BbvText.clusterings (text rs) = some (rs.map Report.shown) := by
  have := text_paragraphs [] rs
  rw [List.append_nil] at this
  unfold BbvText.clusterings
  rw [this]
  simp only [split, paragraphs, List.append_nil]
  exact every_map clustering Report.rows Report.shown rs fun r _ => clustering_rows r

theorem begun_read (rs : List Report) (v : BitVec 64) :
    BbvText.clusterings (text rs ++ ("Testing K=".toList ++ (ld v ++ ['\n']))) = some (rs.map Report.shown) := by
  have h1 : split '\n' [] ("Testing K=".toList ++ (ld v ++ ['\n'])) = ["Testing K=".toList ++ ld v] := by
    rw [← List.append_assoc, split_line [] (title_inner v (by decide))]; rfl
  have h2 : ("Testing K=".toList ++ ld v) ≠ [] := fun h => absurd (List.append_eq_nil_iff.mp h).1 (by decide)
  unfold BbvText.clusterings
  rw [text_paragraphs, h1]
  simp only [paragraphs, if_neg h2, List.append_nil]
  exact every_map clustering Report.rows Report.shown rs fun r _ => clustering_rows r

/-! ### Matrices -/

/-- The text of a row, without its end. -/
def cells (f : Nat → BitVec 64) (n : Nat) : List Char := ((List.range n).map fun c => ld (f c) ++ ['\t']).flatten

theorem cells_succ (f : Nat → BitVec 64) (n : Nat) : cells f (n + 1) = cells f n ++ (ld (f n) ++ ['\t']) := by
  unfold cells
  rw [List.range_succ, List.map_append, List.flatten_append]
  simp

theorem printRow_holds {m : Matrix} {R C : Nat} {f : Nat → Nat → BitVec 64} (h : Holds m R C f) {r : Nat} (hr : r < R) (out : List Char) :
    printRow m out (BitVec.ofNat 64 r) = .ok (out ++ (cells (f r) C ++ ['\n'])) := by
  have := loop_inv (fun i (t : List Char) => t = out ++ cells (f r) i) (n := m.cols) (s := out) (body := printEntry m (BitVec.ofNat 64 r))
    (by simp [cells]) (by
      intro i hi s hs
      rw [h.cols] at hi
      unfold printEntry
      rw [h.load hr hi]
      exact ⟨_, rfl, by rw [hs, cells_succ, List.append_assoc]⟩)
  obtain ⟨t, h1, h2⟩ := this
  rw [h.cols] at h2
  unfold printRow
  rw [h1, h2]
  simp only [List.append_assoc]

/-- The text of a matrix. -/
def sheet (f : Nat → Nat → BitVec 64) (C n : Nat) : List Char := ((List.range n).map fun r => cells (f r) C ++ ['\n']).flatten

theorem sheet_succ (f : Nat → Nat → BitVec 64) (C n : Nat) : sheet f C (n + 1) = sheet f C n ++ (cells (f n) C ++ ['\n']) := by
  unfold sheet
  rw [List.range_succ, List.map_append, List.flatten_append]
  simp

theorem print_holds {m : Matrix} {R C : Nat} {f : Nat → Nat → BitVec 64} (h : Holds m R C f) : m.print = .ok (sheet f C R) := by
  have := loop_inv (fun i (t : List Char) => t = sheet f C i) (n := m.rows) (s := []) (body := printRow m) rfl (by
      intro i hi s hs
      rw [h.rows] at hi
      exact ⟨_, printRow_holds h hi s, by rw [hs, sheet_succ]⟩)
  obtain ⟨t, h1, h2⟩ := this
  rw [h.rows] at h2
  unfold Matrix.print
  rw [h1, h2]

theorem split_cells (f : Nat → BitVec 64) (l : List Nat) (t : List Char) :
    split '\t' [] ((l.map fun c => ld (f c) ++ ['\t']).flatten ++ t) = (l.map fun c => ld (f c)) ++ split '\t' [] t := by
  induction l with
  | nil => rfl
  | cons c l ih =>
    rw [List.map_cons, List.flatten_cons, List.append_assoc, List.append_assoc, List.singleton_append, split_line _ fun x hx => (ld_inner _ x hx).2, ih]
    rfl

theorem cells_inner (f : Nat → BitVec 64) (n : Nat) : ∀ c ∈ cells f n, c ≠ '\n' := by
  intro c hc
  unfold cells at hc
  obtain ⟨l, hl, hc⟩ := List.mem_flatten.mp hc
  obtain ⟨x, _, rfl⟩ := List.mem_map.mp hl
  rcases List.mem_append.mp hc with h | h
  · exact (ld_inner _ c h).1
  · rw [List.mem_singleton] at h; subst h; decide

theorem split_sheet (f : Nat → Nat → BitVec 64) (C : Nat) (l : List Nat) :
    split '\n' [] ((l.map fun r => cells (f r) C ++ ['\n']).flatten) = l.map fun r => cells (f r) C := by
  induction l with
  | nil => rfl
  | cons c l ih =>
    rw [List.map_cons, List.flatten_cons, List.append_assoc, List.singleton_append, split_line _ (cells_inner _ _), ih]
    rfl

theorem sheet_read (f : Nat → Nat → BitVec 64) (R C : Nat) :
    matrix (sheet f C R) = some ((List.range R).map fun r => (List.range C).map fun c => (f r c).toInt) := by
  unfold matrix sheet
  rw [split_sheet]
  refine every_map _ (fun r => cells (f r) C) _ (List.range R) fun r _ => ?_
  have := split_cells (f r) (List.range C) []
  rw [List.append_nil] at this
  unfold cells
  rw [this]
  simp only [split, List.append_nil]
  exact every_map whole (fun c => ld (f r c)) (fun c => (f r c).toInt) (List.range C) fun c _ => whole_ld _

end Bbv
