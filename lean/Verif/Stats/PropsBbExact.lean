import Verif.Stats.PropsBb
/-!
C29: the exact number of addresses that the table of bb.c can take.
-/
namespace Bb
open Spec

/-- The array has a power of two of entries, at most 2^30. -/
def Sized (s : Cache) : Prop := ∃ k, k ≤ 30 ∧ s.arr.length = 2 ^ k

/-- A call either goes well or has to grow an array of 2^30 entries that are all in use. -/
theorem log_sized {l : List (BitVec 64)} {s : Cache} (hs : Logged l s) (hz : Sized s) (x : BitVec 64) :
    (∃ s', log s x = some s' ∧ Logged (l ++ [x]) s' ∧ Sized s') ∨
    (log s x = none ∧ (firsts l).length = 2 ^ 30 ∧ x ∉ l) := by
  obtain ⟨k, hk, hlen⟩ := hz
  have hnext := hs.next
  have same : ∀ s', log s x = some s' → s.arr.length ≠ s.next ∨ (s.index x).isSome → s'.arr.length = s.arr.length := by
    intro s' h hne
    unfold log at h
    dsimp only at h
    cases hx : s.index x with
    | some i =>
      rw [hx] at h
      unfold hitAt at h
      dsimp only at h
      split at h
      · cases h
      · cases h; exact List.length_set ..
    | none =>
      rw [hx] at h hne
      unfold add room at h
      dsimp only at h
      rw [if_neg (by simpa using hne)] at h
      unfold enter at h
      dsimp only at h
      split at h
      · cases h
      · cases h; exact List.length_set ..
  cases hx : s.index x with
  | some i =>
    obtain ⟨s', h1, h2⟩ := hitAt_logged hs hx
    have h1' : log s x = some s' := by unfold log; dsimp only; rw [hx]; exact h1
    exact .inl ⟨s', h1', h2, k, hk, by rw [same s' h1' (.inr (by rw [hx]; rfl)), hlen]⟩
  | none =>
    by_cases hfull : s.arr.length = s.next
    · by_cases hk30 : k = 30
      · refine .inr ⟨?_, by rw [← hnext, ← hfull, hlen, hk30], ?_⟩
        · unfold log
          dsimp only
          rw [hx]
          show add { s with num := s.num + 1 } x = none
          unfold add room
          dsimp only
          rw [if_pos hfull]
          unfold grow
          dsimp only
          rw [if_neg (by rw [hlen, hk30]; decide)]
        · intro hm
          obtain ⟨i, hi, he⟩ := List.getElem_of_mem ((mem_firsts l x).2 hm)
          have := (hs.index x i).2 (by rw [← he]; exact List.getElem?_eq_getElem hi)
          rw [hx] at this
          cases this
      · have hpow : 2 ^ k ≤ 2 ^ 29 := Nat.pow_le_pow_right (by omega) (by omega)
        obtain ⟨s', h1, h2⟩ := log_logged hs x (by rw [← hnext, ← hfull, hlen]; omega)
        refine .inl ⟨s', h1, h2, k + 1, by omega, ?_⟩
        unfold log at h1
        dsimp only at h1
        rw [hx] at h1
        have h1 : add { s with num := s.num + 1 } x = some s' := h1
        unfold add room at h1
        dsimp only at h1
        rw [if_pos hfull] at h1
        unfold grow at h1
        dsimp only at h1
        rw [if_pos (by omega)] at h1
        unfold enter at h1
        dsimp only at h1
        split at h1
        · cases h1
        · cases h1
          show (List.set _ _ _).length = _
          rw [List.length_set, List.length_append, List.length_replicate, hlen, Nat.pow_succ]
          omega
    · have hroom := hs.room
      obtain ⟨s', h1, h2⟩ : ∃ s', log s x = some s' ∧ Logged (l ++ [x]) s' := by
        unfold log
        dsimp only
        rw [hx]
        show ∃ s', add { s with num := s.num + 1 } x = some s' ∧ _
        unfold add room
        rw [if_neg hfull]
        exact enter_logged hs hx (by omega)
      exact .inl ⟨s', h1, h2, k, hk, by rw [same s' h1 (.inl hfull), hlen]⟩

theorem firsts_app_mem {g : List (BitVec 64)} {x : BitVec 64} (l : List (BitVec 64)) (hx : x ∉ g) :
    (firsts g).length < (firsts (g ++ x :: l)).length := by
  have h1 : (firsts (g ++ [x])).length = (firsts g).length + 1 := by
    rw [firsts_snoc, if_neg (fun h => hx ((mem_firsts g x).1 h)), List.length_append]; rfl
  have h2 := firsts_le l (g ++ [x])
  rw [List.append_assoc] at h2
  have h2 : (firsts (g ++ [x])).length ≤ (firsts (g ++ x :: l)).length := h2
  omega

theorem run_sized : ∀ (l g : List (BitVec 64)) (s : Cache), Logged g s → Sized s →
    ((firsts (g ++ l)).length ≤ 2 ^ 30 ∧ ∃ s', run s l = some s' ∧ Logged (g ++ l) s' ∧ Sized s') ∨
    (2 ^ 30 < (firsts (g ++ l)).length ∧ run s l = none)
  | [], g, s, hs, hz => by
    refine .inl ⟨?_, s, rfl, by rwa [List.append_nil], hz⟩
    obtain ⟨k, hk, hlen⟩ := hz
    have hpow : 2 ^ k ≤ 2 ^ 30 := Nat.pow_le_pow_right (by omega) hk
    rw [List.append_nil, ← hs.next]
    have := hs.room
    omega
  | x :: l, g, s, hs, hz => by
    have heq : g ++ [x] ++ l = g ++ x :: l := by rw [List.append_assoc]; rfl
    rcases log_sized hs hz x with ⟨s1, h1, h2, h3⟩ | ⟨h1, h2, h3⟩
    · have := run_sized l (g ++ [x]) s1 h2 h3
      rw [heq] at this
      rw [run, h1]
      exact this
    · refine .inr ⟨?_, by rw [run, h1]⟩
      have := firsts_app_mem l h3
      omega

/-- **C29**: a trace with up to 2^30 different addresses is counted: each address has one entry whose counter is the number
of times it was executed (modulo 2^64), and nothing else is in the table.  With one address more the size of the table does
not fit in an `int`. -/
theorem C29_exact (l : List (BitVec 64)) :
    ((firsts l).length ≤ 2 ^ 30 → ∃ s, run init l = some s ∧
      (s.entries.map (·.ea)).Nodup ∧ (∀ a, a ∈ s.entries.map (·.ea) ↔ a ∈ l) ∧
      (∀ e ∈ s.entries, e.hit = BitVec.ofNat 64 (l.count e.ea) ∧ e.size = 1 ∧ e.valid = true) ∧ s.num = BitVec.ofNat 64 l.length) ∧
    (2 ^ 30 < (firsts l).length → run init l = none) := by
  rcases run_sized l [] init init_logged ⟨0, by omega, rfl⟩ with ⟨h0, s, h1, h2, -⟩ | ⟨h0, h1⟩
  · refine ⟨fun _ => ?_, fun h => ?_⟩
    · rw [List.nil_append] at h2
      have hm : s.entries.map (·.ea) = firsts l := by
        rw [h2.entries, List.map_map]
        exact List.map_id _
      refine ⟨s, h1, by rw [hm]; exact firsts_nodup l, fun a => by rw [hm]; exact mem_firsts l a, fun e he => ?_, h2.num⟩
      rw [h2.entries] at he
      obtain ⟨a, _, rfl⟩ := List.mem_map.1 he
      exact ⟨rfl, rfl, rfl⟩
    · rw [List.nil_append] at h0
      omega
  · rw [List.nil_append] at h0
    exact ⟨fun h => absurd h (by omega), fun _ => h1⟩

/-- **C29**: the counters add up to the number of instructions. -/
theorem C29_sum_partial (l : List (BitVec 64)) (hl : (firsts l).length ≤ 2 ^ 30) (hl' : l.length < 2 ^ 64) : ∃ s, run init l = some s ∧
    (s.entries.map (·.hit.toNat)).sum = l.length ∧ s.num.toNat = l.length := by
  rcases run_sized l [] init init_logged ⟨0, by omega, rfl⟩ with ⟨-, s, h1, h2, -⟩ | ⟨h0, h1⟩
  · rw [List.nil_append] at h2
    refine ⟨s, h1, ?_, by rw [h2.num, BitVec.toNat_ofNat, Nat.mod_eq_of_lt hl']⟩
    rw [h2.entries, List.map_map, ← sum_count l]
    congr 1
    apply List.map_congr_left
    intro a _
    show (BitVec.ofNat 64 (l.count a)).toNat = _
    rw [BitVec.toNat_ofNat, Nat.mod_eq_of_lt (Nat.lt_of_le_of_lt List.count_le_length hl')]
  · rw [List.nil_append] at h0
    omega

/-- Both cases occur: a trace with two addresses, and one with 2^30 + 1. -/
example : (firsts [0x100, 0x104, 0x100, 0x104, 0x100]).length ≤ 2 ^ 30 := by decide

theorem firsts_range (n : Nat) (hn : n ≤ 2 ^ 64) : (firsts ((List.range n).map (BitVec.ofNat 64))).length = n := by
  induction n with
  | zero => rfl
  | succ n ih =>
    rw [List.range_succ, List.map_append, List.map_cons, List.map_nil, firsts_snoc, if_neg]
    · rw [List.length_append, ih (by omega)]; rfl
    · intro h
      obtain ⟨k, hk, he⟩ := List.mem_map.1 ((mem_firsts _ _).1 h)
      have hk := List.mem_range.1 hk
      have := congrArg BitVec.toNat he
      rw [BitVec.toNat_ofNat, BitVec.toNat_ofNat, Nat.mod_eq_of_lt (by omega), Nat.mod_eq_of_lt (by omega)] at this
      omega

theorem C29_limit_refuted : ∃ l : List (BitVec 64), (firsts l).length = 2 ^ 30 + 1 ∧ run init l = none := by
  have h := firsts_range (2 ^ 30 + 1) (by omega)
  exact ⟨_, h, (C29_exact _).2 (by omega)⟩

end Bb
