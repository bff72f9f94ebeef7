import Verif.Bbv.Verbose
import Verif.Bbv.SpecVerbose
import Verif.Bbv.OutputLemmas
import Verif.Bbv.PropsSweep
/-!
The text of the option `-v` as lines, and these lines read.
-/
namespace Bbv
open BbvText Spec

/-- Lines put together. -/
def unlines (ls : List (List Char)) : List Char := (ls.map (· ++ ['\n'])).flatten

theorem unlines_append (a b : List (List Char)) : unlines (a ++ b) = unlines a ++ unlines b := by simp [unlines]
theorem unlines_one (l : List Char) : unlines [l] = l ++ ['\n'] := by simp [unlines]
theorem unlines_cons (l : List Char) (ls : List (List Char)) : unlines (l :: ls) = l ++ '\n' :: unlines ls := by simp [unlines]

theorem split_unlines : ∀ ls : List (List Char), (∀ l ∈ ls, ∀ c ∈ l, c ≠ '\n') → split '\n' [] (unlines ls) = ls
  | [], _ => rfl
  | l :: ls, h => by
    rw [unlines_cons, split_line _ (h l List.mem_cons_self), split_unlines ls fun x hx => h x (List.mem_cons_of_mem _ hx)]

/-! Hexadecimal numbers. -/

theorem hex_char : ∀ d : Fin 16, hexDigit (Nat.digitChar d) = some d.val ∧ Nat.digitChar d ≠ '\n' := by decide

theorem hex_all (n : Nat) : ∀ c ∈ Nat.toDigits 16 n, (hexDigit c).isSome = true ∧ c ≠ '\n' := by
  induction n using Nat.strongRecOn with
  | _ n ih =>
    intro c hc
    by_cases h : n < 16
    · rw [Nat.toDigits_of_lt_base h, List.mem_singleton] at hc
      subst hc
      have := hex_char ⟨n, h⟩
      simp only at this
      rw [this.1]
      exact ⟨rfl, this.2⟩
    · rw [Nat.toDigits_of_base_le (by omega) (by omega), List.mem_append, List.mem_singleton] at hc
      rcases hc with hc | rfl
      · exact ih _ (by omega) c hc
      · have := hex_char ⟨n % 16, by omega⟩
        simp only at this
        rw [this.1]
        exact ⟨rfl, this.2⟩

theorem hex_ne (n : Nat) : Nat.toDigits 16 n ≠ [] := by
  by_cases h : n < 16
  · rw [Nat.toDigits_of_lt_base h]; simp
  · rw [Nat.toDigits_of_base_le (by omega) (by omega)]; simp

theorem hex_value (n : Nat) : hexValue (Nat.toDigits 16 n) = n := by
  induction n using Nat.strongRecOn with
  | _ n ih =>
    by_cases h : n < 16
    · rw [Nat.toDigits_of_lt_base h]
      have := (hex_char ⟨n, h⟩).1
      simp only [hexValue, List.foldl_cons, List.foldl_nil] at this ⊢
      rw [this]; simp
    · rw [Nat.toDigits_of_base_le (by omega) (by omega)]
      have h1 := ih (n / 16) (by omega)
      have h2 := (hex_char ⟨n % 16, by omega⟩).1
      simp only [hexValue, List.foldl_append, List.foldl_cons, List.foldl_nil] at h1 h2 ⊢
      rw [h1, h2]; simp only [Option.getD_some]; omega

/-! Blocks. -/

theorem d32_ld (v : BitVec 32) : d32 v = ld (BitVec.ofInt 64 v.toInt) := by
  have h : (BitVec.ofInt 64 v.toInt).toInt = v.toInt := by
    have h1 := v.toInt_lt
    have h2 := v.le_toInt
    rw [BitVec.toInt_ofInt, Int.bmod_eq_of_le_mul_two] <;> omega
  unfold d32 ld
  rw [h]

/-- The line of a block. -/
def blockRow (a : BitVec 64) (n : Nat) : List Char := "BB 0x".toList ++ (lx a ++ (" length ".toList ++ d32 (BitVec.ofNat 32 n)))

theorem after_title (t l : List Char) : after t (t ++ l) = some l := by
  unfold after
  rw [if_pos (by simp), List.drop_left]

theorem d32_int (v : BitVec 32) : (BitVec.ofInt 64 v.toInt).toInt = v.toInt := by
  have h1 := v.toInt_lt
  have h2 := v.le_toInt
  rw [BitVec.toInt_ofInt, Int.bmod_eq_of_le_mul_two] <;> omega

theorem block_row (a : BitVec 64) (n : Nat) : BbvText.block (blockRow a n) = some (a.toNat, (BitVec.ofNat 32 n).toInt) := by
  have ht : (lx a ++ (" length ".toList ++ d32 (BitVec.ofNat 32 n))).takeWhile (fun c => (hexDigit c).isSome) = lx a := by
    rw [List.takeWhile_append_of_pos (l₁ := lx a) fun c hc => (hex_all _ c hc).1]
    have : (" length ".toList ++ d32 (BitVec.ofNat 32 n)).takeWhile (fun c => (hexDigit c).isSome) = [] := rfl
    rw [this, List.append_nil]
  have hd : (lx a ++ (" length ".toList ++ d32 (BitVec.ofNat 32 n))).dropWhile (fun c => (hexDigit c).isSome) = " length ".toList ++ d32 (BitVec.ofNat 32 n) := by
    rw [List.dropWhile_append_of_pos (l₁ := lx a) fun c hc => (hex_all _ c hc).1]
    rfl
  unfold BbvText.block blockRow
  rw [after_title]
  simp only [ht, hd]
  rw [if_neg (show lx a ≠ [] from hex_ne _), d32_ld, field_title, d32_int]
  simp only [lx, hex_value]

theorem blockRow_inner (a : BitVec 64) (n : Nat) : ∀ c ∈ blockRow a n, c ≠ '\n' := by
  intro c hc
  unfold blockRow at hc
  rw [d32_ld] at hc
  simp only [List.mem_append] at hc
  rcases hc with h | h | h | h
  · intro e; subst e; exact absurd h (by decide)
  · exact (hex_all _ c h).2
  · intro e; subst e; exact absurd h (by decide)
  · exact (ld_inner _ c h).1

theorem blockRow_ne (a : BitVec 64) (n : Nat) : blockRow a n ≠ "Matrix:".toList := by
  intro h
  have := congrArg (fun l : List Char => l.head?) h
  exact absurd this (show ¬some 'B' = some 'M' by decide)

/-- The lines of the blocks. -/
def blockRows (l : List Block) : List (List Char) := l.map fun b => blockRow b.start b.length

theorem blockText_rows {e : Env} {recs : List Rec} (hf : Fits e recs) {n : Nat} {s : St} (hs : Reached e recs n s) {r : Rec} (hr : recs[n]? = some r) :
    unlines (blockRows (cut recs n).blocks) ++ blockText s r = unlines (blockRows (cut recs (n + 1)).blocks) := by
  rw [cut_succ hr]
  unfold blockText Cut.add
  by_cases hb : r.branch = true
  · rw [if_pos hb, if_pos hb]
    simp only [blockRows, List.map_append, List.map_cons, List.map_nil, unlines_append, unlines_one]
    rw [ea_set hf.addr hs, hs.size, ofNat32_succ]
    simp [blockRow]
  · rw [if_neg hb, if_neg hb, List.append_nil]

theorem recordsV_rows {e : Env} (he : e.Good) {recs : List Rec} (hf : Fits e recs) : ∀ (l : List Rec) (n : Nat) (s : St), recs.drop n = l → Reached e recs n s →
    ∃ s', (recordsV e s l).2 = .ok s' ∧ l.foldlM (record e) s = .ok s' ∧
      unlines (blockRows (cut recs n).blocks) ++ (recordsV e s l).1 = unlines (blockRows (cut recs (n + l.length)).blocks)
  | [], n, s, _, h => ⟨s, rfl, rfl, by simp [recordsV]⟩
  | r :: l, n, s, hl, h => by
    have hr : recs[n]? = some r := by
      have := congrArg (·[0]?) hl
      rw [show (recs.drop n)[0]? = recs[n + 0]? from List.getElem?_drop] at this
      simpa using this
    obtain ⟨s1, h1, h2⟩ := record_inv he hf hr h
    have hl' : recs.drop (n + 1) = l := by rw [← List.drop_drop, hl]; rfl
    obtain ⟨s2, h3, h4, h5⟩ := recordsV_rows he hf l (n + 1) s1 hl' h2
    refine ⟨s2, ?_, ?_, ?_⟩
    · simp only [recordsV, h1]; exact h3
    · rw [List.foldlM_cons, h1]; exact h4
    · simp only [recordsV, h1]
      rw [← List.append_assoc, blockText_rows hf h hr, h5, List.length_cons, show n + (l.length + 1) = n + 1 + l.length from by omega]

theorem parseV_rows {e : Env} (he : e.Good) {recs : List Rec} (hf : Fits e recs) :
    ∃ s, parse e recs = .ok s ∧ parseV e recs = (unlines (blockRows (cut recs recs.length).blocks), .ok s) := by
  obtain ⟨m, h1, h2⟩ := C31_create_partial e.heap 1000 10000 (by decide) (he.memory _)
  have h0 : start e 1000 10000 = .ok { table := [], nextId := 0, matrix := m, interval := 0, ea := 0xffffffffffffffff, size := 0, insns := 0 } := by
    unfold start; rw [h1]
  obtain ⟨s, h3, h4, h5⟩ := recordsV_rows he hf recs 0 (s := { table := [], nextId := 0, matrix := m, interval := 0, ea := 0xffffffffffffffff, size := 0, insns := 0 }) rfl (by
    refine ⟨rfl, rfl, rfl, rfl, ?_, ?_, ⟨1000, Nat.le_refl _, ?_, ?_, ?_⟩, ?_⟩
    · rw [Nat.zero_mod]; rfl
    · rw [Nat.zero_div]; rfl
    · rw [Nat.zero_div]; omega
    · omega
    · rw [Nat.zero_div]; exact h2
    · intro r j h; rw [Nat.zero_div] at h; omega)
  refine ⟨s, ?_, ?_⟩
  · unfold parse; rw [h0]; exact h4
  · unfold parseV; rw [h0]
    rw [Nat.zero_add] at h5
    exact Prod.ext h5 h3

/-! Costs. -/

theorem iterateV_snd : ∀ (n : Nat) (p : Pam), (iterateV n p).2 = iterate n p
  | 0, _ => rfl
  | n + 1, p => by
    rw [iterateV, iterate]
    cases h : iteration p with
    | none => rfl
    | some x =>
      obtain ⟨q, b⟩ := x
      cases b
      · rfl
      · exact iterateV_snd n q

/-- The costs on the way from one cost to another. -/
structure Falls (first last : Nat) (costs : List (BitVec 64)) : Prop where
  order : costs.Pairwise fun a b => b.toNat < a.toNat
  below : ∀ c ∈ costs, c.toNat < first
  above : ∀ c ∈ costs, last ≤ c.toNat
  final : ∀ c, costs.getLast? = some c → last = c.toNat ∨ last = 0

theorem iteration_stop {points : List Row} (hsm : Small points) {k : Nat} (hk : 0 < k) {p p' : Pam} (hp : Clustering points k p) (h : iteration p = some (p', false)) :
    p'.cost = p.cost ∨ p'.cost = 0 := by
  obtain ⟨pts, ms, c⟩ := p
  obtain ⟨hpt, h1, h2, h3, h4⟩ := hp
  simp only at hpt h1 h2 h3 h4
  subst hpt
  obtain ⟨s', r, g1, g2, g3, g4, g5⟩ := swapMedoids_inv hsm hk ms.length 0 { medoids := ms, cost := c, progress := false } ⟨h1, h2, h3, h4⟩
  unfold iteration at h
  simp only [g1, Option.some.injEq, Prod.mk.injEq] at h
  obtain ⟨e1, e2⟩ := h
  subst e1
  cases r
  · simp only [Bool.not_false, Bool.true_and] at e2
    left
    rw [(g4 rfl e2).1]
  · right; exact g3 rfl

theorem iterateV_falls {points : List Row} (hsm : Small points) {k : Nat} (hk : 0 < k) : ∀ (n : Nat) (p : Pam), Clustering points k p → p.cost.toNat < n →
    ∃ p', iterate n p = some (some p') ∧ Falls p.cost.toNat p'.cost.toNat (iterateV n p).1 ∧ ((iterateV n p).1 = [] → p'.cost = p.cost ∨ p'.cost = 0) ∧ p'.cost.toNat ≤ p.cost.toNat
  | 0, p, _, h => absurd h (by omega)
  | n + 1, p, hp, hn => by
    obtain ⟨p1, b, h1, h2, h3, h4⟩ := C34_iteration hsm hk hp
    rw [iterate, iterateV, h1]
    cases b
    · have hs := iteration_stop hsm hk hp h1
      refine ⟨p1, rfl, ⟨List.Pairwise.nil, fun c hc => (by cases hc), fun c hc => (by cases hc), fun c hc => (by cases hc)⟩, fun _ => hs, ?_⟩
      rcases hs with h | h
      · rw [h]; exact Nat.le_refl _
      · rw [h]; exact Nat.zero_le _
    · have hlt : p1.cost.toNat < p.cost.toNat := by rw [h2.cost, hp.cost]; exact h3 rfl
      obtain ⟨p', g1, g2, g3, g4⟩ := iterateV_falls hsm hk n p1 h2 (by omega)
      refine ⟨p', g1, ⟨?_, ?_, ?_, ?_⟩, fun h => (by cases h), by omega⟩
      · exact List.Pairwise.cons (fun c hc => g2.below c hc) g2.order
      · intro c hc
        rcases List.mem_cons.mp hc with rfl | hc
        · exact hlt
        · have := g2.below c hc; omega
      · intro c hc
        rcases List.mem_cons.mp hc with rfl | hc
        · exact g4
        · exact g2.above c hc
      · intro c hc
        cases hx : (iterateV n p1).1 with
        | nil =>
          simp only [hx, List.getLast?_singleton, Option.some.injEq] at hc
          subst hc
          rcases g3 hx with h | h
          · left; rw [h]
          · right; rw [h]; rfl
        | cons y ys =>
          simp only [hx, List.getLast?_cons_cons] at hc
          exact g2.final c (by rw [hx]; exact hc)

end Bbv
