import Verif.Clist.Joins

/-! # Properties of linked lists: C48 -/

namespace Clist
open ClistSpec

/-- C48: after any history of operations that keeps to the rules — an object is put on one list at a time, only elements are
taken off, nothing on a list is freed — no operation has touched memory it must not, and every list, gone through from either
end, has the elements the history says, in order. -/
theorem C48_history (ops : List Op) (s : State) (h : History State.start ops s) :
    ∃ m, run Mem.empty ops = .ok m ∧ ∀ l xs, s.lists l = some xs → ∀ fuel, xs.length ≤ fuel →
      forEach m l fuel = .ok (some xs) ∧ forEachRev m l fuel = .ok (some xs.reverse) := by
  obtain ⟨m, h1, h2⟩ := run_ok inv_start h
  exact ⟨m, h1, fun l xs e fuel hf => ⟨forEach_eq (h2.ring l xs e) hf, forEachRev_eq (h2.ring l xs e) hf⟩⟩

/-- C48, the other readings of a list: whether it is empty, its first and last element, the popped element, and the check of the
links. -/
theorem C48_readings (ops : List Op) (s : State) (h : History State.start ops s) :
    ∃ m, run Mem.empty ops = .ok m ∧ ∀ l xs, s.lists l = some xs →
      isEmpty m l = .ok xs.isEmpty ∧ top m l = .ok xs.head? ∧ tail m l = .ok xs.getLast? ∧
      (∃ m', pop m l = .ok (xs.head?, m')) ∧ ∀ fuel, xs.length ≤ fuel → check m l fuel = .ok (some true) := by
  obtain ⟨m, h1, h2⟩ := run_ok inv_start h
  refine ⟨m, h1, fun l xs e => ?_⟩
  have r := h2.ring l xs e
  obtain ⟨m', hp, _⟩ := step_pop h2 ⟨xs, e⟩
  rw [at_eq e] at hp
  exact ⟨isEmpty_eq r, top_eq r, tail_eq r, ⟨m', hp⟩, fun fuel hf => check_eq r hf⟩

/-- C48, neighbours: from an element, `list_next` and `list_prev` give the one behind and before it, if any. -/
theorem C48_neighbours (ops : List Op) (s : State) (h : History State.start ops s) :
    ∃ m, run Mem.empty ops = .ok m ∧ ∀ l as x bs, s.lists l = some (as ++ x :: bs) →
      nextEntry m l x = .ok bs.head? ∧ prevEntry m l x = .ok as.getLast? := by
  obtain ⟨m, h1, h2⟩ := run_ok inv_start h
  refine ⟨m, h1, fun l as x bs e => ?_⟩
  have r := h2.ring l _ e
  obtain ⟨s1, s2, _, _, d1, d2, d3, _⟩ := ring_split r
  constructor
  · simp only [nextEntry, getNext_ok (seg_live s2).1, ok_bind, entryOrNull]
    cases bs with
    | nil => rw [s2.2.2.1]; simp [pure, Except.pure]
    | cons b bs =>
      rw [s2.1.2.2.1]
      simp only [List.mem_cons, not_or] at d3
      simp [pure, Except.pure, Ne.symm d3.1]
  · simp only [prevEntry, getPrev_ok (seg_live s2).1, ok_bind, entryOrNull, seg_last s1]
    cases hl : as.getLast? with
    | none => simp [pure, Except.pure]
    | some y =>
      have : y ∈ as := List.mem_of_getLast? hl
      have ne : y ≠ l := by rintro rfl; exact d2 this
      simp [pure, Except.pure, ne]

/-- A history of two lists: three elements, one in the middle taken off and freed, then one list put before the other. -/
def sample : List Op :=
  [.alloc 1 7 9, .alloc 2 0 0, .alloc 10 3 3, .alloc 11 0 0, .alloc 12 5 5, .alloc 13 0 0, .init 1, .init 2,
    .addTail 1 10, .add 1 11, .addAfter 1 11 12, .addTail 2 13, .del 1 12, .free 12, .prepend 1 2]

example : ∃ s, History State.start sample s ∧ s.lists 1 = some [13, 11, 10] ∧ s.lists 2 = some [] := by
  refine ⟨List.foldl after State.start sample, ?_, by decide, by decide⟩
  · have keep : ∀ s : State, (∀ k, k ≠ 1 → k ≠ 2 → s.lists k = none) → ∀ (n : Nat),
        s.live n = true → n ≠ 1 → n ≠ 2 → n ∉ s.at 1 → n ∉ s.at 2 → Unused s n := by
      intro s hs n h1 h2 h3 h4 h5
      refine ⟨h1, hs n h2 h3, fun k xs e => ?_⟩
      by_cases k1 : k = 1
      · subst k1; rw [← at_eq e]; exact h4
      · by_cases k2 : k = 2
        · subst k2; rw [← at_eq e]; exact h5
        · rw [hs k k1 k2] at e; cases e
    have fin : ∀ l : List Op, ∀ k, k ≠ 1 → k ≠ 2 → (∀ o ∈ l, ∀ s : State, (after s o).lists k = s.lists k) →
        (List.foldl after State.start l).lists k = none := by
      intro l k h1 h2
      suffices ∀ s : State, s.lists k = none → (∀ o ∈ l, ∀ s : State, (after s o).lists k = s.lists k) →
          (List.foldl after s l).lists k = none from this _ rfl
      induction l with
      | nil => intro s hs _; exact hs
      | cons o l ih => intro s hs ho; exact ih _ (by rw [ho o (by simp)]; exact hs) fun o' h' => ho o' (by simp [h'])
    have lst : ∀ l : List Op, (∀ o ∈ l, o ∈ sample) → ∀ k, k ≠ 1 → k ≠ 2 → (List.foldl after State.start l).lists k = none := by
      intro l hl k h1 h2
      refine fin l k h1 h2 fun o ho s => ?_
      have hm := hl o ho
      simp only [sample, List.mem_cons, List.not_mem_nil, or_false] at hm
      rcases hm with h | h | h | h | h | h | h | h | h | h | h | h | h | h | h <;> subst h <;>
        simp [after, State.put, h1, h2]
    have step : ∀ (l : List Op) (ops : List Op) (o : Op), (∀ o ∈ l, o ∈ sample) →
        Allowed (List.foldl after State.start l) o →
        History (List.foldl after State.start (l ++ [o])) ops (List.foldl after State.start sample) →
        History (List.foldl after State.start l) (o :: ops) (List.foldl after State.start sample) := by
      intro l ops o _ ha hh
      rw [List.foldl_append] at hh
      exact History.cons _ _ _ _ ha hh
    have un : ∀ l : List Op, (∀ o ∈ l, o ∈ sample) → ∀ n, (List.foldl after State.start l).live n = true → n ≠ 1 → n ≠ 2 →
        n ∉ (List.foldl after State.start l).at 1 → n ∉ (List.foldl after State.start l).at 2 →
        Unused (List.foldl after State.start l) n := fun l hl n => keep _ (lst l hl) n
    have ini : ∀ l : List Op, (∀ o ∈ l, o ∈ sample) → ∀ h, (List.foldl after State.start l).live h = true →
        h ∉ (List.foldl after State.start l).at 1 → h ∉ (List.foldl after State.start l).at 2 →
        Allowed (List.foldl after State.start l) (.init h) := by
      intro l hl h h1 h2 h3
      refine ⟨h1, fun k xs e => ?_⟩
      by_cases k1 : k = 1
      · subst k1; rw [← at_eq e]; exact h2
      · by_cases k2 : k = 2
        · subst k2; rw [← at_eq e]; exact h3
        · rw [lst l hl k k1 k2] at e; cases e
    have sub : ∀ n, ∀ o ∈ sample.take n, o ∈ sample := fun n o ho => List.mem_of_mem_take ho
    show History (List.foldl after State.start (sample.take 0)) sample _
    refine step (sample.take 0) _ _ (sub 0) rfl ?_
    refine step (sample.take 1) _ _ (sub 1) rfl ?_
    refine step (sample.take 2) _ _ (sub 2) rfl ?_
    refine step (sample.take 3) _ _ (sub 3) rfl ?_
    refine step (sample.take 4) _ _ (sub 4) rfl ?_
    refine step (sample.take 5) _ _ (sub 5) rfl ?_
    refine step (sample.take 6) _ _ (sub 6) (ini _ (sub 6) 1 rfl (by decide) (by decide)) ?_
    refine step (sample.take 7) _ _ (sub 7) (ini _ (sub 7) 2 rfl (by decide) (by decide)) ?_
    refine step (sample.take 8) _ _ (sub 8) ⟨⟨_, rfl⟩, un _ (sub 8) 10 rfl (by decide) (by decide) (by decide) (by decide)⟩ ?_
    refine step (sample.take 9) _ _ (sub 9) ⟨⟨_, rfl⟩, un _ (sub 9) 11 rfl (by decide) (by decide) (by decide) (by decide)⟩ ?_
    refine step (sample.take 10) _ _ (sub 10) ⟨⟨[11, 10], rfl, by decide⟩, un _ (sub 10) 12 rfl (by decide) (by decide) (by decide) (by decide)⟩ ?_
    refine step (sample.take 11) _ _ (sub 11) ⟨⟨_, rfl⟩, un _ (sub 11) 13 rfl (by decide) (by decide) (by decide) (by decide)⟩ ?_
    refine step (sample.take 12) _ _ (sub 12) ⟨[11, 12, 10], rfl, by decide⟩ ?_
    refine step (sample.take 13) _ _ (sub 13) (un _ (sub 13) 12 rfl (by decide) (by decide) (by decide) (by decide)) ?_
    refine step (sample.take 14) _ _ (sub 14) ⟨⟨_, rfl⟩, ⟨_, rfl⟩, by decide⟩ ?_
    exact History.nil _

/-- C48, outside the rules: the plain traversal must not take off and free the element it is at — it reads the freed element to
go on. -/
theorem C48_plain_traversal : ∃ m, run Mem.empty [.alloc 1 0 0, .alloc 10 0 0, .init 1, .add 1 10] = .ok m ∧
    (∀ fuel, 1 ≤ fuel → forEach m 1 fuel = .ok (some [10])) ∧
    sweepUnsafe (fun _ => true) 1 5 m 10 = .error .dead ∧
    ∃ m', forEachSafe (fun _ => true) m 1 5 = .ok (some m') ∧ isEmpty m' 1 = .ok true := by
  refine ⟨_, rfl, ?_, rfl, ?_⟩
  · intro fuel hf
    cases fuel with
    | zero => omega
    | succ fuel => cases fuel <;> rfl
  · exact ⟨_, rfl, rfl⟩

end Clist
