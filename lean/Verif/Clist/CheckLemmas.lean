import Verif.Clist.Check
import Verif.Clist.SpecCheck
import Verif.Clist.Rings

namespace Clist
open ClistSpec

/-- The links in memory. -/
def Mem.links (m : Mem) : Links := ⟨m.live, m.next, m.prev⟩

theorem _root_.ClistSpec.Fine.mono {l : Links} {h k j : Nat} (f : Fine l h k) (hj : j ≤ k) : Fine l h j := ⟨f.1, fun i hi => f.2 i (by omega)⟩

theorem _root_.ClistSpec.Fine.succ {l : Links} {h k : Nat} (f : Fine l h k) (h1 : reach l h (k + 1) ≠ h) (h2 : l.live (reach l h (k + 1)) = true)
    (h3 : l.prev (reach l h (k + 1)) = reach l h k) : Fine l h (k + 1) :=
  ⟨f.1, fun j hj => if e : j = k then by subst e; exact ⟨h1, h2, h3⟩ else f.2 j (by omega)⟩

/-- No node is met twice. -/
theorem _root_.ClistSpec.Fine.distinct {l : Links} {h k : Nat} (f : Fine l h k) : ∀ i j, i < j → j ≤ k → reach l h i ≠ reach l h j
  | 0, 0, h1, _ => by omega
  | 0, j + 1, _, h2 => fun e => (f.2 j (by omega)).1 e.symm
  | i + 1, 0, h1, _ => by omega
  | i + 1, j + 1, h1, h2 => fun e => by
    have a := (f.2 i (by omega)).2.2
    have b := (f.2 j (by omega)).2.2
    rw [e, b] at a
    exact f.distinct i j (by omega) (by omega) a.symm

theorem _root_.ClistSpec.Fine.live {l : Links} {h k : Nat} (f : Fine l h k) {j : Nat} (hj : j ≤ k) : l.live (reach l h j) = true := by
  cases j with
  | zero => exact f.1
  | succ j => exact (f.2 j (by omega)).2.1

/-- The nodes met. -/
def met (l : Links) (h k : Nat) : List Nat := (List.range k).map fun j => reach l h (j + 1)

theorem met_length (l : Links) (h k : Nat) : (met l h k).length = k := by simp [met]

theorem _root_.ClistSpec.Fine.nodup {l : Links} {h k : Nat} (f : Fine l h k) : (h :: met l h k).Nodup := by
  have e : h :: met l h k = (List.range (k + 1)).map (reach l h) := by
    rw [List.range_succ_eq_map, List.map_cons, List.map_map]
    rfl
  rw [e, List.Nodup, List.pairwise_map]
  refine List.Pairwise.imp_of_mem ?_ (List.pairwise_lt_range (n := k + 1))
  intro a b _ hb hab
  exact f.distinct a b hab (by have := List.mem_range.1 hb; omega)

/-- There are no more nodes than objects. -/
theorem _root_.ClistSpec.Fine.bound {l : Links} {h k : Nat} (f : Fine l h k) {objs : List Nat} (ho : ∀ a, l.live a = true → a ∈ objs) : k < objs.length := by
  have h1 := f.nodup
  have h2 : ∀ a ∈ h :: met l h k, a ∈ objs := by
    intro a ha
    rcases List.mem_cons.1 ha with rfl | ha
    · exact ho _ f.1
    · obtain ⟨j, hj, rfl⟩ := List.mem_map.1 ha
      exact ho _ (f.live (by have := List.mem_range.1 hj; omega))
  have := h1.length_le_of_subset h2
  rw [List.length_cons, met_length] at this
  omega

/-- What the loop finds from the node number `c + 1` on. -/
theorem checkFrom_spec (m : Mem) (h : Addr) (hb : ∀ k, Fine m.links h k → k < 0x7fffffff) : ∀ (fuel c : Nat), Fine m.links h c →
    ∃ k, c ≤ k ∧ k ≤ c + fuel ∧ Fine m.links h k ∧
    ((checkFrom m h fuel c (reach m.links h c) (reach m.links h (c + 1)) = .ok (some .sound) ∧ Sound m.links h k) ∨
     (checkFrom m h fuel c (reach m.links h c) (reach m.links h (c + 1)) = .ok (some (.corrupt h 0)) ∧ WrongHead m.links h k) ∨
     (checkFrom m h fuel c (reach m.links h c) (reach m.links h (c + 1)) = .ok (some (.corrupt (reach m.links h (k + 1)) (k + 1))) ∧ WrongAt m.links h k) ∨
     (checkFrom m h fuel c (reach m.links h c) (reach m.links h (c + 1)) = .error .dead ∧ Lost m.links h k) ∨
     (checkFrom m h fuel c (reach m.links h c) (reach m.links h (c + 1)) = .ok none ∧ k = c + fuel)) := by
  intro fuel
  induction fuel with
  | zero =>
    intro c f
    refine ⟨c, Nat.le_refl _, Nat.le_refl _, f, ?_⟩
    unfold checkFrom
    by_cases e : reach m.links h (c + 1) = h
    · have hl : m.live h = true := f.1
      rw [if_pos e]
      simp only [getPrev, hl, if_true]
      by_cases hp : m.prev h = reach m.links h c
      · left; exact ⟨by simp [hp, pure, Except.pure, bind, Except.bind], f, e, hp⟩
      · right; left; exact ⟨by simp [hp, pure, Except.pure, bind, Except.bind], f, e, hp⟩
    · rw [if_neg e]
      right; right; right; right; exact ⟨rfl, rfl⟩
  | succ fuel ih =>
    intro c f
    by_cases e : reach m.links h (c + 1) = h
    · refine ⟨c, Nat.le_refl _, by omega, f, ?_⟩
      unfold checkFrom
      have hl : m.live h = true := f.1
      rw [if_pos e]
      simp only [getPrev, hl, if_true]
      by_cases hp : m.prev h = reach m.links h c
      · left; exact ⟨by simp [hp, pure, Except.pure, bind, Except.bind], f, e, hp⟩
      · right; left; exact ⟨by simp [hp, pure, Except.pure, bind, Except.bind], f, e, hp⟩
    · have ho : ¬ c + 1 > 0x7fffffff := by have := hb c f; omega
      cases hl : m.live (reach m.links h (c + 1)) with
      | false =>
        refine ⟨c, Nat.le_refl _, by omega, f, ?_⟩
        unfold checkFrom
        rw [if_neg e]
        dsimp only
        rw [if_neg ho]
        right; right; right; left
        exact ⟨by simp [getPrev, hl, bind, Except.bind], f, e, hl⟩
      | true =>
        by_cases hp : m.prev (reach m.links h (c + 1)) = reach m.links h c
        · obtain ⟨k, h1, h2, h3, h4⟩ := ih (c + 1) (f.succ e hl hp)
          refine ⟨k, by omega, by omega, h3, ?_⟩
          have : checkFrom m h (fuel + 1) c (reach m.links h c) (reach m.links h (c + 1)) =
              checkFrom m h fuel (c + 1) (reach m.links h (c + 1)) (reach m.links h (c + 1 + 1)) := by
            rw [checkFrom, if_neg e, if_neg ho]
            simp only [getPrev, getNext, hl, hp, if_true, bind, Except.bind, ne_eq, not_true_eq_false, if_false]
            rfl
          rw [this]
          rcases h4 with h4 | h4 | h4 | h4 | h4
          · exact Or.inl h4
          · exact Or.inr (Or.inl h4)
          · exact Or.inr (Or.inr (Or.inl h4))
          · exact Or.inr (Or.inr (Or.inr (Or.inl h4)))
          · exact Or.inr (Or.inr (Or.inr (Or.inr ⟨h4.1, by omega⟩)))
        · refine ⟨c, Nat.le_refl _, by omega, f, ?_⟩
          unfold checkFrom
          rw [if_neg e]
          dsimp only
          rw [if_neg ho]
          right; right; left
          exact ⟨by simp [getPrev, hl, hp, bind, Except.bind, pure, Except.pure], f, e, hl, hp⟩

/-- The ring of a sound list. -/
theorem sound_seg {m : Mem} {h k : Nat} (s : Sound m.links h k) : Ring m h (met m.links h k) := by
  refine ⟨s.1.nodup, ?_⟩
  have key : ∀ n c, c + n = k → Seg m (reach m.links h c) ((List.range' (c + 1) n).map (reach m.links h)) h := by
    intro n
    induction n with
    | zero =>
      intro c hc
      have : c = k := by omega
      subst this
      exact ⟨s.1.live (Nat.le_refl _), s.1.1, s.2.1, s.2.2⟩
    | succ n ih =>
      intro c hc
      rw [List.range'_succ, List.map_cons]
      exact ⟨⟨s.1.live (by omega), s.1.live (by omega), rfl, (s.1.2 c (by omega)).2.2⟩, ih (c + 1) (by omega)⟩
  have := key k 0 (by omega)
  have e : met m.links h k = (List.range' (0 + 1) k).map (reach m.links h) := by
    apply List.ext_getElem
    · simp [met]
    · intro i h1 h2
      simp [met, Nat.add_comm]
  rw [e]
  exact this

end Clist
