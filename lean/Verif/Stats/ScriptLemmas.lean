import Verif.Stats.Script
/-!
Reading the lines of a listing: helper lemmas.
-/
namespace Script
open Ptr.Log

/-! ### Characters of numbers -/

theorem digitChar_props : ∀ d : Fin 16, isHex (Nat.digitChar d) = true ∧ isSpace (Nat.digitChar d) = false ∧ Nat.digitChar d ≠ '+' ∧
    digit (Nat.digitChar d) = d.val := by decide

theorem fmtX_all {P : Char → Prop} (hP : ∀ d : Fin 16, P (Nat.digitChar d)) (v : Nat) : ∀ c ∈ fmtX v, P c := by
  induction v using Nat.strongRecOn with
  | _ v ih =>
    intro c hc
    by_cases h : v < 16
    · rw [fmtX_low v h, List.mem_singleton] at hc
      subst hc
      exact hP ⟨v, h⟩
    · rw [fmtX_step v (by omega), List.mem_append, List.mem_singleton] at hc
      rcases hc with hc | rfl
      · exact ih _ (by omega) c hc
      · exact hP ⟨v % 16, by omega⟩

theorem fmtPad_all {P : Char → Prop} (hP : ∀ d : Fin 16, P (Nat.digitChar d)) (w v : Nat) : ∀ c ∈ fmtPad w v, P c := by
  intro c hc
  rw [fmtPad, List.mem_append] at hc
  rcases hc with hc | hc
  · rw [List.eq_of_mem_replicate hc]; exact hP 0
  · exact fmtX_all hP v c hc

theorem int16_snoc (l : List Char) (c : Char) : int16 (l ++ [c]) = 16 * int16 l + digit c := by simp [int16]

theorem int16_zeros : ∀ (k : Nat) (l : List Char), int16 (List.replicate k '0' ++ l) = int16 l
  | 0, _ => rfl
  | k + 1, l => by
    rw [List.replicate_succ]
    exact int16_zeros k l

theorem int16_fmtX (v : Nat) : int16 (fmtX v) = v := by
  induction v using Nat.strongRecOn with
  | _ v ih =>
    by_cases h : v < 16
    · rw [fmtX_low v h]
      show 16 * 0 + digit (Nat.digitChar v) = v
      rw [(digitChar_props ⟨v, h⟩).2.2.2]; show 16 * 0 + v = v; omega
    · rw [fmtX_step v (by omega), int16_snoc, ih (v / 16) (by omega), (digitChar_props ⟨v % 16, by omega⟩).2.2.2]
      show 16 * (v / 16) + v % 16 = v
      omega

theorem int16_fmtPad (w v : Nat) : int16 (fmtPad w v) = v := by rw [fmtPad, int16_zeros, int16_fmtX]

theorem fmtPad_ne (w v : Nat) : fmtPad w v ≠ [] := by
  unfold fmtPad
  intro h
  exact fmtX_ne v (List.append_eq_nil_iff.1 h).2

/-! ### Splitting -/

theorem takeWhile_stop {p : Char → Bool} : ∀ {l : List Char} {c : Char} {r : List Char}, (∀ x ∈ l, p x = true) → p c = false →
    (l ++ c :: r).takeWhile p = l ∧ (l ++ c :: r).dropWhile p = c :: r
  | [], c, r, _, hc => by simp [hc]
  | x :: l, c, r, h, hc => by
    obtain ⟨h1, h2⟩ := takeWhile_stop (l := l) (r := r) (fun y hy => h y (List.mem_cons_of_mem _ hy)) hc
    have hx := h x List.mem_cons_self
    simp only [List.cons_append, List.takeWhile_cons, hx, List.dropWhile_cons, if_true]
    exact ⟨by rw [h1], h2⟩

theorem takeWhile_all {p : Char → Bool} : ∀ {l : List Char}, (∀ x ∈ l, p x = true) → l.takeWhile p = l ∧ l.dropWhile p = []
  | [], _ => ⟨rfl, rfl⟩
  | x :: l, h => by
    obtain ⟨h1, h2⟩ := takeWhile_all (l := l) fun y hy => h y (List.mem_cons_of_mem _ hy)
    have hx := h x List.mem_cons_self
    simp only [List.takeWhile_cons, hx, List.dropWhile_cons, if_true]
    exact ⟨by rw [h1], h2⟩

/-- Blanks, a text and a line end. -/
theorem afterBlanks_eq {b t : List Char} (hb : b ≠ []) (hs : ∀ c ∈ b, isSpace c = true) (ht : ∀ c, t.head? = some c → isSpace c = false) (hn : '\n' ∉ t) :
    afterBlanks (b ++ (t ++ ['\n'])) = some t := by
  have hnl : isSpace '\n' = true := by decide
  unfold afterBlanks
  cases t with
  | nil =>
    have h : ∀ c ∈ b ++ ([] ++ ['\n']), isSpace c = true := by
      intro c hc
      simp only [List.nil_append, List.mem_append, List.mem_singleton] at hc
      rcases hc with hc | rfl
      · exact hs c hc
      · exact hnl
    obtain ⟨h1, h2⟩ := takeWhile_all h
    rw [h1, h2, if_neg (by simp)]; rfl
  | cons x t =>
    obtain ⟨h1, h2⟩ := takeWhile_stop (r := t ++ ['\n']) hs (ht x rfl)
    rw [List.cons_append, h1, h2, if_neg hb, ← List.cons_append]
    have hne : ∀ y ∈ x :: t, decide (y ≠ '\n') = true := by
      intro y hy
      simp only [ne_eq, decide_eq_true_eq]
      rintro rfl
      exact hn hy
    rw [(takeWhile_stop (r := []) hne (by decide)).1]

theorem fileLines_line : ∀ (l : List Char) (t : List Char), '\n' ∉ l → fileLines (l ++ '\n' :: t) = (l ++ ['\n']) :: fileLines t
  | [], t, _ => by simp [fileLines]
  | c :: l, t, h => by
    have e : fileLines (c :: l ++ '\n' :: t) = if c = '\n' then [c] :: fileLines (l ++ '\n' :: t) else
      (match fileLines (l ++ '\n' :: t) with
      | [] => [[c]]
      | l :: ls => (c :: l) :: ls) := rfl
    rw [e, if_neg (fun hc => h (by rw [hc]; exact List.mem_cons_self)), fileLines_line l t (fun hd => h (List.mem_cons_of_mem _ hd))]
    rfl

/-! ### Words in names -/

theorem within_iff (w : List Char) : ∀ n : List Char, occurs w n = true ↔ Spec.Within w n
  | [] => by
    constructor
    · intro h
      have : w = [] := by cases w with
        | nil => rfl
        | cons a b => exact absurd h (by simp [occurs])
      subst this
      exact ⟨[], [], rfl⟩
    · rintro ⟨a, b, h⟩
      have h := h.symm
      simp only [List.append_eq_nil_iff] at h
      simp [occurs, h.1.2]
  | c :: n => by
    rw [occurs, Bool.or_eq_true, within_iff w n]
    constructor
    · rintro (h | ⟨a, b, h⟩)
      · obtain ⟨t, ht⟩ := List.isPrefixOf_iff_prefix.1 h
        exact ⟨[], t, by simp [ht]⟩
      · exact ⟨c :: a, b, by simp [h]⟩
    · rintro ⟨a, b, h⟩
      cases a with
      | nil => exact .inl (List.isPrefixOf_iff_prefix.2 ⟨b, by rw [h]; rfl⟩)
      | cons x a =>
        simp only [List.cons_append, List.cons.injEq] at h
        exact .inr ⟨a, b, h.2⟩

/-- Nothing is removed where nothing occurs. -/
theorem removeFrom_clean (w : List Char) : ∀ n : List Char, occurs w n = false → removeFrom w 0 n = n
  | [], _ => rfl
  | c :: n, h => by
    rw [occurs, Bool.or_eq_false_iff] at h
    rw [removeFrom, h.1, if_neg (by simp), removeFrom_clean w n h.2]

theorem not_within {w n : List Char} : ¬Spec.Within w n ↔ occurs w n = false := by
  rw [← within_iff, Bool.not_eq_true]

/-- No `sys_` starts inside a prefix. -/
theorem occurs_sys_of_SyS (n : List Char) (h : occurs "sys_".toList n = false) : occurs "sys_".toList ("SyS_".toList ++ n) = false := by
  show occurs ['s', 'y', 's', '_'] ('S' :: 'y' :: 'S' :: '_' :: n) = false
  simp only [occurs, List.isPrefixOf, Bool.or_eq_false_iff]
  exact ⟨by simp, by simp, by simp, by simp, h⟩

theorem functionName_reported {n f : List Char} (h : Spec.Reported n f) (hp : ∀ c ∈ n, c ≠ '+') (r : List Char) :
    functionName (n ++ '+' :: r) = f := by
  unfold functionName
  have e : (n ++ '+' :: r).takeWhile (fun x => decide (x ≠ '+')) = n :=
    (takeWhile_stop (fun x hx => by simpa using hp x hx) (by decide)).1
  rw [e]
  cases h with
  | same _ hc => rw [removeFrom_clean _ _ (not_within.1 hc.1), removeFrom_clean _ _ (not_within.1 hc.2)]
  | sys m hc =>
    have e2 : removeFrom "sys_".toList 0 ("sys_".toList ++ f) = removeFrom "sys_".toList 0 f := by
      show removeFrom ['s', 'y', 's', '_'] 0 ('s' :: 'y' :: 's' :: '_' :: f) = _
      rw [removeFrom, if_pos (by simp [List.isPrefixOf])]
      rfl
    rw [e2, removeFrom_clean _ _ (not_within.1 hc.1), removeFrom_clean _ _ (not_within.1 hc.2)]
  | SyS m hc =>
    have e2 : removeFrom "SyS_".toList 0 ("SyS_".toList ++ f) = removeFrom "SyS_".toList 0 f := by
      show removeFrom ['S', 'y', 'S', '_'] 0 ('S' :: 'y' :: 'S' :: '_' :: f) = _
      rw [removeFrom, if_pos (by simp [List.isPrefixOf])]
      rfl
    rw [removeFrom_clean _ _ (occurs_sys_of_SyS f (not_within.1 hc.1)), e2, removeFrom_clean _ _ (not_within.1 hc.2)]

/-! ### Lines -/

theorem hexStop {w v : Nat} {c : Char} {r : List Char} (hc : isHex c = false) :
    (fmtPad w v ++ c :: r).takeWhile isHex = fmtPad w v ∧ (fmtPad w v ++ c :: r).dropWhile isHex = c :: r :=
  takeWhile_stop (fmtPad_all (fun d => (digitChar_props d).1) w v) hc

/-- What the script makes of the symbol of a line. -/
def functionOf : Option (List Char × BitVec 64) → List Char
  | some (n, o) => functionName (n ++ '+' :: '0' :: 'x' :: fmtX o.toNat)
  | none => []

theorem parse_item (x : Item) (hx : Spec.Plain x) :
    parseLine (printItem x) = some { addr := x.addr.toNat, insn := x.text, function := functionOf x.sym } := by
  have htab : isSpace '\t' = true := by decide
  have hsp : isSpace ' ' = true := by decide
  unfold parseLine printItem
  cases hs : x.sym with
  | some p =>
    obtain ⟨n, o⟩ := p
    have hname := hx.name n o hs
    have hin : ∀ c ∈ n ++ '+' :: '0' :: 'x' :: fmtX o.toNat ++ ['>'], (!isSpace c) = true := by
      intro c hc
      simp only [List.mem_append, List.mem_cons, List.not_mem_nil, or_false] at hc
      rcases hc with (hc | rfl | rfl | rfl | hc) | rfl
      · rw [(hname c hc).1]; rfl
      · decide
      · decide
      · decide
      · rw [fmtX_all (P := fun c => isSpace c = false) (fun d => (digitChar_props d).2.1) _ c hc]; rfl
      · decide
    have e : fmtPad 16 x.addr.toNat ++ ' ' :: ('<' :: (n ++ '+' :: '0' :: 'x' :: fmtX o.toNat ++ ['>', ' ']) ++ '\t' :: x.text ++ ['\n']) =
        fmtPad 16 x.addr.toNat ++ ' ' :: ('<' :: ((n ++ '+' :: '0' :: 'x' :: fmtX o.toNat ++ ['>']) ++ ' ' :: ('\t' :: x.text ++ ['\n']))) := by
      simp
    have hm : matchSym (fmtPad 16 x.addr.toNat ++ ' ' :: ('<' :: (n ++ '+' :: '0' :: 'x' :: fmtX o.toNat ++ ['>', ' ']) ++ '\t' :: x.text ++ ['\n'])) =
        some (fmtPad 16 x.addr.toNat, n ++ '+' :: '0' :: 'x' :: fmtX o.toNat, x.text) := by
      rw [e]
      obtain ⟨h1, h2⟩ := hexStop (w := 16) (v := x.addr.toNat) (c := ' ')
        (r := '<' :: ((n ++ '+' :: '0' :: 'x' :: fmtX o.toNat ++ ['>']) ++ ' ' :: ('\t' :: x.text ++ ['\n']))) (by decide)
      obtain ⟨h3, h4⟩ := takeWhile_stop (p := isSpace) (l := [' ']) (c := '<')
        (r := (n ++ '+' :: '0' :: 'x' :: fmtX o.toNat ++ ['>']) ++ ' ' :: ('\t' :: x.text ++ ['\n'])) (by simp [hsp]) (by decide)
      obtain ⟨h5, h6⟩ := takeWhile_stop (p := fun c => !isSpace c) (c := ' ') (r := '\t' :: x.text ++ ['\n']) hin (by decide)
      have h7 : afterBlanks (' ' :: ('\t' :: x.text ++ ['\n'])) = some x.text :=
        afterBlanks_eq (b := [' ', '\t']) (by simp) (by simp [hsp, htab]) (fun c hc => (hx.first c hc).1) hx.line
      unfold matchSym
      rw [h1, h2]
      simp only [List.cons_append, List.nil_append] at h3 h4
      simp only [List.cons_append] at h5 h6 ⊢
      rw [h3, h4, if_neg (by simp [fmtPad_ne])]
      dsimp only
      rw [h5, h6, if_pos ⟨rfl, by rw [List.getLast?_append]; rfl, by simp only [List.length_append, List.length_cons]; omega⟩]
      simp only [List.cons_append] at h7
      rw [h7]
      simp only [Option.map_some, List.dropLast_concat]
    dsimp only
    rw [hm]
    show some _ = some _
    rw [int16_fmtPad]
    rfl
  | none =>
    have e : fmtPad 16 x.addr.toNat ++ ' ' :: ([] ++ '\t' :: x.text ++ ['\n']) = fmtPad 16 x.addr.toNat ++ ' ' :: ('\t' :: (x.text ++ ['\n'])) := by simp
    obtain ⟨h1, h2⟩ := hexStop (w := 16) (v := x.addr.toNat) (c := ' ') (r := '\t' :: (x.text ++ ['\n'])) (by decide)
    have h7 : afterBlanks (' ' :: ('\t' :: (x.text ++ ['\n']))) = some x.text :=
      afterBlanks_eq (b := [' ', '\t']) (by simp) (by simp [hsp, htab]) (fun c hc => (hx.first c hc).1) hx.line
    have hm : matchSym (fmtPad 16 x.addr.toNat ++ ' ' :: ('\t' :: (x.text ++ ['\n']))) = none := by
      unfold matchSym
      rw [h1, h2]
      split
      · rfl
      · split
        · rename_i c r hr
          rw [if_neg]
          rintro ⟨rfl, -⟩
          cases ht : x.text with
          | nil =>
            rw [ht] at hr
            have : List.dropWhile isSpace (' ' :: '\t' :: ([] ++ ['\n'])) = [] := by decide
            rw [this] at hr
            cases hr
          | cons y t =>
            rw [ht] at hr
            have hy := hx.first y (by rw [ht]; rfl)
            have := (takeWhile_stop (p := isSpace) (l := [' ', '\t']) (c := y) (r := t ++ ['\n']) (by simp [hsp, htab]) hy.1).2
            simp only [List.cons_append, List.nil_append] at this hr
            rw [this] at hr
            exact hy.2 (List.cons.inj hr).1
        · rfl
    dsimp only
    rw [e, hm]
    dsimp only
    unfold matchNoSym
    rw [h1, h2, if_neg (fmtPad_ne _ _), h7]
    show some _ = some _
    rw [int16_fmtPad]
    rfl

/-- A line has one line end. -/
theorem printItem_line (x : Item) (hx : Spec.Plain x) : ∃ l, printItem x = l ++ ['\n'] ∧ '\n' ∉ l := by
  have hhex : ∀ v, '\n' ∉ fmtX v := fun v h => (fmtX_chars v _ h).1 rfl
  have hpad : ∀ v, '\n' ∉ fmtPad 16 v := fun v h => (fmtPad_chars 16 v _ h).1 rfl
  unfold printItem
  cases hs : x.sym with
  | some p =>
    obtain ⟨n, o⟩ := p
    refine ⟨fmtPad 16 x.addr.toNat ++ ' ' :: ('<' :: (n ++ '+' :: '0' :: 'x' :: fmtX o.toNat ++ ['>', ' ']) ++ '\t' :: x.text), by simp, ?_⟩
    intro h
    simp only [List.mem_append, List.mem_cons, List.not_mem_nil, or_false] at h
    have hn : '\n' ∉ n := fun hc => absurd (hx.name n o hs _ hc).1 (by decide)
    have := hx.line
    simp [hhex, hpad, hn, this] at h
  | none =>
    refine ⟨fmtPad 16 x.addr.toNat ++ ' ' :: ([] ++ '\t' :: x.text), by simp, ?_⟩
    intro h
    have := hx.line
    simp [hpad, this] at h

theorem lines_listing : ∀ l : List Item, (∀ x ∈ l, Spec.Plain x) → fileLines (listing l) = l.map printItem
  | [], _ => rfl
  | x :: l, h => by
    obtain ⟨t, ht, hn⟩ := printItem_line x (h x List.mem_cons_self)
    have e : listing (x :: l) = printItem x ++ listing l := rfl
    rw [e, ht, List.append_assoc]
    show fileLines (t ++ '\n' :: listing l) = _
    rw [fileLines_line t _ hn, lines_listing l (fun y hy => h y (List.mem_cons_of_mem _ hy)), ← ht]
    rfl

/-- What `parse_one` is given for an item. -/
def parsed (x : Item) : Parsed := { addr := x.addr.toNat, insn := x.text, function := functionOf x.sym }

theorem runLines_listing : ∀ (l : List Item) (s : State), (∀ x ∈ l, Spec.Plain x) →
    runLines s (l.map printItem) = some ((l.map parsed).foldl parseOne s)
  | [], _, _ => rfl
  | x :: l, s, h => by
    rw [List.map_cons, runLines, parse_item x (h x List.mem_cons_self)]
    exact runLines_listing l _ fun y hy => h y (List.mem_cons_of_mem _ hy)

theorem run_listing (l : List Item) (h : ∀ x ∈ l, Spec.Plain x) : run (listing l) = some ((l.map parsed).foldl parseOne {}) := by
  rw [run, lines_listing l h, runLines_listing l {} h]

end Script
