import Verif.Stats.SpecBb
/-!
C29: how often each address was executed.
-/
namespace Bb
open Spec
open Stats (QSort)

/-! ### The different addresses -/

theorem firsts_snoc (l : List (BitVec 64)) (x : BitVec 64) : firsts (l ++ [x]) = if x ∈ firsts l then firsts l else firsts l ++ [x] := by
  unfold firsts
  rw [List.foldl_append]
  rfl

theorem snoc_ind {α : Type} {P : List α → Prop} (h0 : P []) (h1 : ∀ l x, P l → P (l ++ [x])) (l : List α) : P l := by
  have : ∀ m : List α, P m.reverse := by
    intro m
    induction m with
    | nil => exact h0
    | cons x m ih => rw [List.reverse_cons]; exact h1 _ _ ih
  rw [← List.reverse_reverse l]
  exact this _

theorem mem_firsts (l : List (BitVec 64)) : ∀ a, a ∈ firsts l ↔ a ∈ l := by
  induction l using snoc_ind with
  | h0 => intro a; exact Iff.rfl
  | h1 l x ih =>
    intro a
    rw [firsts_snoc, List.mem_append, List.mem_singleton]
    split
    · rename_i hx
      rw [ih]
      constructor
      · exact Or.inl
      · rintro (h | rfl)
        · exact h
        · exact (ih _).1 hx
    · rw [List.mem_append, List.mem_singleton, ih]

theorem firsts_nodup (l : List (BitVec 64)) : (firsts l).Nodup := by
  induction l using snoc_ind with
  | h0 => exact List.Pairwise.nil
  | h1 l x ih =>
    rw [firsts_snoc]
    split
    · exact ih
    · rename_i hx
      rw [List.nodup_append]
      refine ⟨ih, by simp, fun a ha b hb => ?_⟩
      rw [List.mem_singleton] at hb
      rintro rfl
      exact hx (hb ▸ ha)

/-- The entry for an address after the trace `l`. -/
def entryOf (l : List (BitVec 64)) (a : BitVec 64) : Bbe := { ea := a, size := 1, hit := BitVec.ofNat 64 (l.count a), valid := true }

/-- After the trace `l`. -/
structure Logged (l : List (BitVec 64)) (s : Cache) : Prop where
  next : s.next = (firsts l).length
  room : s.next ≤ s.arr.length
  size : s.arr.length ≤ 1 ∨ s.arr.length ≤ 2 * s.next
  pos : 0 < s.arr.length
  entries : s.entries = (firsts l).map (entryOf l)
  index : ∀ a i, s.index a = some i ↔ (firsts l)[i]? = some a
  num : s.num = BitVec.ofNat 64 l.length

theorem count_snoc (l : List (BitVec 64)) (x a : BitVec 64) : (l ++ [x]).count a = l.count a + if a = x then 1 else 0 := by
  rw [List.count_append, List.count_singleton]
  congr 1
  by_cases h : a = x
  · rw [if_pos h, h, if_pos (beq_self_eq_true _)]
  · rw [if_neg h, if_neg (fun h' => h (beq_iff_eq.1 h').symm)]

theorem num_snoc {l : List (BitVec 64)} {s : Cache} (hs : Logged l s) (x : BitVec 64) : s.num + 1 = BitVec.ofNat 64 (l ++ [x]).length := by
  rw [hs.num, List.length_append, BitVec.ofNat_add]; rfl

theorem hitAt_logged {l : List (BitVec 64)} {s : Cache} (hs : Logged l s) {x : BitVec 64} {i : Nat} (hi : s.index x = some i) :
    ∃ s', hitAt { s with num := s.num + 1 } i = some s' ∧ Logged (l ++ [x]) s' := by
  have hf := (hs.index x i).1 hi
  have hx : x ∈ firsts l := List.mem_of_getElem? hf
  have hlt : i < (firsts l).length := (List.getElem?_eq_some_iff.1 hf).1
  have he : s.entries[i]? = some (entryOf l x) := by rw [hs.entries, List.getElem?_map, hf]; rfl
  have ha : s.arr[i]? = some (entryOf l x) := by
    rw [← he]
    unfold Cache.entries
    rw [List.getElem?_take, if_pos (by rw [hs.next]; exact hlt)]
  unfold hitAt
  dsimp only
  rw [ha]
  refine ⟨_, rfl, ?_⟩
  have hfs : firsts (l ++ [x]) = firsts l := by rw [firsts_snoc, if_pos hx]
  constructor
  · show s.next = _; rw [hfs, hs.next]
  · show s.next ≤ (s.arr.set i _).length; rw [List.length_set]; exact hs.room
  · show (s.arr.set i _).length ≤ 1 ∨ (s.arr.set i _).length ≤ 2 * s.next; rw [List.length_set]; exact hs.size
  · show 0 < (s.arr.set i _).length; rw [List.length_set]; exact hs.pos
  · show (s.arr.set i _).take s.next = _
    rw [List.take_set, hfs]
    show s.entries.set i _ = _
    rw [hs.entries]
    apply List.ext_getElem?
    intro k
    rw [List.getElem?_set]
    by_cases hk : i = k
    · subst hk
      rw [if_pos rfl, List.length_map, if_pos hlt, List.getElem?_map, hf]
      show some _ = some _
      congr 1
      unfold entryOf
      rw [count_snoc, if_pos rfl, BitVec.ofNat_add]
      rfl
    · rw [if_neg hk, List.getElem?_map, List.getElem?_map]
      cases hg : (firsts l)[k]? with
      | none => rfl
      | some a =>
        show some _ = some _
        congr 1
        unfold entryOf
        have hne : a ≠ x := by
          rintro rfl
          apply hk
          exact (List.getElem?_inj hlt (firsts_nodup l)).1 (by rw [hf, hg])
        rw [count_snoc, if_neg hne]
        rfl
  · intro a j
    rw [hfs]; exact hs.index a j
  · exact num_snoc hs x

theorem enter_logged {l : List (BitVec 64)} {s : Cache} (hs : Logged l s) {x : BitVec 64} (hx : s.index x = none) (hr : s.next < s.arr.length) :
    ∃ s', enter { s with num := s.num + 1 } x = some s' ∧ Logged (l ++ [x]) s' := by
  have hx' : x ∉ firsts l := by
    intro h
    obtain ⟨i, hi, he⟩ := List.getElem_of_mem h
    have := (hs.index x i).2 (by rw [← he]; exact List.getElem?_eq_getElem hi)
    rw [hx] at this; cases this
  have hxl : x ∉ l := fun h => hx' ((mem_firsts l x).2 h)
  have hfs : firsts (l ++ [x]) = firsts l ++ [x] := by rw [firsts_snoc, if_neg hx']
  unfold enter
  dsimp only
  rw [List.getElem?_eq_getElem hr]
  refine ⟨_, rfl, ?_⟩
  constructor
  · show s.next + 1 = _; rw [hfs, List.length_append, hs.next]; rfl
  · show s.next + 1 ≤ (s.arr.set s.next _).length; rw [List.length_set]; exact hr
  · show (s.arr.set s.next _).length ≤ 1 ∨ (s.arr.set s.next _).length ≤ 2 * (s.next + 1); rw [List.length_set]; have := hs.size; omega
  · show 0 < (s.arr.set s.next _).length; rw [List.length_set]; exact hs.pos
  · show (s.arr.set s.next _).take (s.next + 1) = _
    rw [hfs, List.map_append, List.take_add_one, List.take_set_of_le (Nat.le_refl _), List.getElem?_set, if_pos rfl, if_pos hr]
    show s.entries ++ _ = _
    rw [hs.entries]
    congr 1
    · apply List.map_congr_left
      intro a ha
      unfold entryOf
      have hne : a ≠ x := fun h => hx' (h ▸ ha)
      rw [count_snoc, if_neg hne]
      rfl
    · show [_] = [_]
      congr 1
      unfold entryOf
      rw [count_snoc, if_pos rfl, List.count_eq_zero_of_not_mem hxl]
      rfl
  · intro a i
    show (if a = x then some s.next else s.index a) = some i ↔ _
    rw [hfs, List.getElem?_append]
    by_cases hax : a = x
    · rw [if_pos hax, hax, Option.some.injEq]
      constructor
      · intro h
        rw [← h, hs.next, if_neg (Nat.lt_irrefl _), Nat.sub_self]; rfl
      · intro h
        split at h
        · exact absurd (List.mem_of_getElem? h) hx'
        · have : i - (firsts l).length < 1 := (List.getElem?_eq_some_iff.1 h).1
          rw [hs.next]; omega
    · rw [if_neg hax, hs.index]
      split
      · exact Iff.rfl
      · rename_i hi
        rw [List.getElem?_eq_none (by omega)]
        constructor
        · intro h; cases h
        · intro h
          have := List.mem_of_getElem? h
          rw [List.mem_singleton] at this
          exact absurd this hax
  · exact num_snoc hs x

theorem grow_logged {l : List (BitVec 64)} {s : Cache} (hs : Logged l s) (hfull : s.arr.length = s.next) (hsize : s.next * 2 < 2 ^ 31) :
    ∃ s', grow s = some s' ∧ Logged l s' ∧ s'.next < s'.arr.length ∧ s'.num = s.num ∧ s'.index = s.index := by
  unfold grow
  rw [if_pos (by rw [hfull]; exact hsize)]
  have hp := hs.pos
  have hlen : (s.arr ++ List.replicate s.arr.length ({} : Bbe)).length = 2 * s.next := by rw [List.length_append, List.length_replicate]; omega
  refine ⟨_, rfl, ⟨hs.next, ?_, ?_, ?_, ?_, hs.index, hs.num⟩, ?_, rfl, rfl⟩
  · show s.next ≤ _; rw [hlen]; omega
  · exact Or.inr (by show _ ≤ 2 * s.next; rw [hlen]; exact Nat.le_refl _)
  · show 0 < _; rw [hlen]; omega
  · show (s.arr ++ _).take s.next = _
    rw [List.take_append_of_le_length hs.room]
    exact hs.entries
  · show s.next < _; rw [hlen]; omega

theorem log_logged {l : List (BitVec 64)} {s : Cache} (hs : Logged l s) (x : BitVec 64) (hsize : (firsts l).length * 2 < 2 ^ 31) :
    ∃ s', log s x = some s' ∧ Logged (l ++ [x]) s' := by
  unfold log
  dsimp only
  cases hx : s.index x with
  | some i => exact hitAt_logged hs hx
  | none =>
    show ∃ s', add { s with num := s.num + 1 } x = some s' ∧ _
    unfold add room
    by_cases hfull : s.arr.length = s.next
    · obtain ⟨s1, h1, h2, h3, h4, h5⟩ := grow_logged hs hfull (by rw [hs.next]; exact hsize)
      have h1' : grow { s with num := s.num + 1 } = some { s1 with num := s1.num + 1 } := by
        unfold grow at h1 ⊢
        dsimp only at h1 ⊢
        split at h1
        · rename_i hc
          rw [if_pos hc]
          cases h1
          rfl
        · cases h1
      rw [if_pos hfull, h1']
      exact enter_logged h2 (by rw [h5]; exact hx) h3
    · rw [if_neg hfull]
      exact enter_logged hs hx (by have := hs.room; omega)

theorem firsts_le (l g : List (BitVec 64)) : (firsts g).length ≤ (firsts (g ++ l)).length := by
  induction l using snoc_ind with
  | h0 => rw [List.append_nil]; exact Nat.le_refl _
  | h1 l x ih =>
    rw [← List.append_assoc, firsts_snoc]
    split
    · exact ih
    · rw [List.length_append]; omega

theorem run_logged : ∀ (l g : List (BitVec 64)) (s : Cache), Logged g s → (firsts (g ++ l)).length * 2 < 2 ^ 31 → ∃ s', run s l = some s' ∧ Logged (g ++ l) s'
  | [], g, s, hs, _ => ⟨s, rfl, by rwa [List.append_nil]⟩
  | x :: l, g, s, hs, hl => by
    have hle := firsts_le (x :: l) g
    obtain ⟨s1, h1, h2⟩ := log_logged hs x (by omega)
    have heq : g ++ [x] ++ l = g ++ x :: l := by rw [List.append_assoc]; rfl
    obtain ⟨s2, h3, h4⟩ := run_logged l (g ++ [x]) s1 h2 (by rw [heq]; exact hl)
    exact ⟨s2, by rw [run, h1]; exact h3, heq ▸ h4⟩

theorem init_logged : Logged [] init :=
  ⟨rfl, Nat.zero_le _, Or.inl (Nat.le_refl _), Nat.zero_lt_one, rfl, fun _ _ => ⟨fun h => (by cases h), fun h => (by cases h)⟩, rfl⟩

theorem sum_count (l : List (BitVec 64)) : ((firsts l).map fun a => l.count a).sum = l.length := by
  induction l using snoc_ind with
  | h0 => rfl
  | h1 l x ih =>
    have key : ∀ f : List (BitVec 64), f.Nodup → (f.map fun a => (l ++ [x]).count a).sum = (f.map fun a => l.count a).sum + if x ∈ f then 1 else 0 := by
      intro f
      induction f with
      | nil => intro _; rfl
      | cons a f ihf =>
        intro hn
        rw [List.nodup_cons] at hn
        rw [List.map_cons, List.sum_cons, List.map_cons, List.sum_cons, ihf hn.2, count_snoc]
        by_cases hax : a = x
        · subst hax
          rw [if_pos rfl, if_neg hn.1, if_pos List.mem_cons_self]; omega
        · have : x ∈ a :: f ↔ x ∈ f := by rw [List.mem_cons]; exact ⟨fun h => h.resolve_left (Ne.symm hax), Or.inr⟩
          rw [if_neg hax]
          simp only [this]
          omega
    rw [firsts_snoc, List.length_append, List.length_singleton]
    split
    · rename_i hx
      rw [key _ (firsts_nodup l), if_pos hx, ih]
    · rename_i hx
      rw [List.map_append, List.sum_append, key _ (firsts_nodup l), if_neg hx, ih]
      have : x ∉ l := fun h => hx ((mem_firsts l x).2 h)
      show _ + (List.count x (l ++ [x]) + 0) = _
      rw [count_snoc, if_pos rfl, List.count_eq_zero_of_not_mem this]

/-- **C29**: after any trace with fewer than 2^30 different addresses, each of them has one entry whose counter is the number of times it was executed
(modulo 2^64), and nothing else is in the table. -/
theorem C29_counts_partial (l : List (BitVec 64)) (hl : (firsts l).length < 2 ^ 30) : ∃ s, run init l = some s ∧
    (s.entries.map (·.ea)).Nodup ∧ (∀ a, a ∈ s.entries.map (·.ea) ↔ a ∈ l) ∧
    (∀ e ∈ s.entries, e.hit = BitVec.ofNat 64 (l.count e.ea) ∧ e.size = 1 ∧ e.valid = true) ∧ s.num = BitVec.ofNat 64 l.length := by
  obtain ⟨s, h1, h2⟩ := run_logged l [] init init_logged (by rw [List.nil_append]; omega)
  rw [List.nil_append] at h2
  have hm : s.entries.map (·.ea) = firsts l := by
    rw [h2.entries, List.map_map]
    exact List.map_id _
  refine ⟨s, h1, by rw [hm]; exact firsts_nodup l, fun a => by rw [hm]; exact mem_firsts l a, fun e he => ?_, h2.num⟩
  rw [h2.entries] at he
  obtain ⟨a, _, rfl⟩ := List.mem_map.1 he
  exact ⟨rfl, rfl, rfl⟩

example : (firsts [0x100, 0x104, 0x100, 0x104, 0x100]) = [0x100, 0x104] ∧
    ((run init [0x100, 0x104, 0x100, 0x104, 0x100]).map fun s => s.entries.map fun e => (e.ea, e.hit)) = some [(0x100, 3), (0x104, 2)] := by decide

/-- The table after `n` different addresses that were logged for the first time: those from 0 on. -/
structure Fresh (n : Nat) (s : Cache) : Prop where
  next : s.next = n
  size : s.arr.length < 2 ^ 31
  index : ∀ k, n ≤ k → k < 2 ^ 64 → s.index (BitVec.ofNat 64 k) = none

theorem fresh_log {n : Nat} {s s' : Cache} (hs : Fresh n s) (hn : n < 2 ^ 64) (h : log s (BitVec.ofNat 64 n) = some s') : n < 2 ^ 31 ∧ Fresh (n + 1) s' := by
  unfold log at h
  dsimp only at h
  rw [hs.index n (Nat.le_refl _) hn] at h
  dsimp only at h
  unfold add at h
  cases hr : room { s with num := s.num + 1 } with
  | none => rw [hr] at h; cases h
  | some t =>
    rw [hr] at h
    dsimp only at h
    have ht : t.next = n ∧ t.arr.length < 2 ^ 31 ∧ t.index = s.index := by
      unfold room at hr
      split at hr
      · unfold grow at hr
        split at hr
        · rename_i hg
          obtain rfl := Option.some.inj hr
          dsimp only at hg ⊢
          refine ⟨hs.next, ?_, rfl⟩
          rw [List.length_append, List.length_replicate]
          omega
        · cases hr
      · obtain rfl := Option.some.inj hr
        exact ⟨hs.next, hs.size, rfl⟩
    obtain ⟨h1, h2, h3⟩ := ht
    unfold enter at h
    cases hg : t.arr[t.next]? with
    | none => rw [hg] at h; cases h
    | some e =>
      rw [hg] at h
      obtain rfl := Option.some.inj h
      obtain ⟨h4, -⟩ := List.getElem?_eq_some_iff.1 hg
      refine ⟨by omega, by dsimp only; omega, by dsimp only; rw [List.length_set]; exact h2, fun k hk hk' => ?_⟩
      dsimp only
      rw [if_neg, h3, hs.index k (by omega) hk']
      intro he
      have := congrArg BitVec.toNat he
      rw [BitVec.toNat_ofNat, BitVec.toNat_ofNat, Nat.mod_eq_of_lt hk', Nat.mod_eq_of_lt hn] at this
      omega

theorem fresh_run : ∀ (m n : Nat) (s : Cache), Fresh n s → n + m < 2 ^ 64 → 0 < m → 2 ^ 31 < n + m → run s ((List.range' n m).map (BitVec.ofNat 64)) = none
  | 0, _, _, _, _, h, _ => absurd h (Nat.lt_irrefl _)
  | m + 1, n, s, hs, hn, _, hm => by
    rw [List.range'_succ, List.map_cons, run]
    cases h : log s (BitVec.ofNat 64 n) with
    | none => rfl
    | some s' =>
      obtain ⟨h1, h2⟩ := fresh_log hs (by omega) h
      exact fresh_run m (n + 1) s' h2 (by omega) (by omega) (by omega)

/-- **C29, the exception**: with more than 2^31 different addresses the size of the table does not fit in an `int` any more. -/
theorem C29_size_refuted : ∃ l : List (BitVec 64), run init l = none :=
  ⟨_, fresh_run (2 ^ 31 + 1) 0 init ⟨rfl, (by decide), fun _ _ _ => rfl⟩ (by decide) (by decide) (by decide)⟩

end Bb
