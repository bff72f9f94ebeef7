import Verif.Clist.CheckLemmas
import Verif.Clist.Joins
import Verif.Clist.Props

/-! C122: `list_check` tells sound lists from corrupt ones. -/

namespace Clist
open ClistSpec

theorem fine_end {l : Links} {h k k' : Nat} (f : Fine l h k) (g : ¬ Fine l h (k + 1)) (f' : Fine l h k') (g' : ¬ Fine l h (k' + 1)) : k = k' := by
  by_cases h1 : k < k'
  · exact absurd (f'.mono (j := k + 1) (by omega)) g
  · by_cases h2 : k' < k
    · exact absurd (f.mono (j := k' + 1) (by omega)) g'
    · omega

theorem sound_end {l : Links} {h k : Nat} (s : Sound l h k) : ¬ Fine l h (k + 1) := fun f => (f.2 k (by omega)).1 s.2.1
theorem head_end {l : Links} {h k : Nat} (s : WrongHead l h k) : ¬ Fine l h (k + 1) := fun f => (f.2 k (by omega)).1 s.2.1
theorem wrong_end {l : Links} {h k : Nat} (s : WrongAt l h k) : ¬ Fine l h (k + 1) := fun f => s.2.2.2 (f.2 k (by omega)).2.2
theorem lost_end {l : Links} {h k : Nat} (s : Lost l h k) : ¬ Fine l h (k + 1) := fun f => by
  have := (f.2 k (by omega)).2.1
  rw [s.2.2] at this
  cases this

theorem sound_head {l : Links} {h k k' : Nat} (s : Sound l h k) (t : WrongHead l h k') : False := by
  cases fine_end s.1 (sound_end s) t.1 (head_end t)
  exact t.2.2 s.2.2
theorem sound_wrong {l : Links} {h k k' : Nat} (s : Sound l h k) (t : WrongAt l h k') : False := by
  cases fine_end s.1 (sound_end s) t.1 (wrong_end t)
  exact t.2.1 s.2.1
theorem sound_lost {l : Links} {h k k' : Nat} (s : Sound l h k) (t : Lost l h k') : False := by
  cases fine_end s.1 (sound_end s) t.1 (lost_end t)
  exact t.2.1 s.2.1
theorem head_wrong {l : Links} {h k k' : Nat} (s : WrongHead l h k) (t : WrongAt l h k') : False := by
  cases fine_end s.1 (head_end s) t.1 (wrong_end t)
  exact t.2.1 s.2.1
theorem head_lost {l : Links} {h k k' : Nat} (s : WrongHead l h k) (t : Lost l h k') : False := by
  cases fine_end s.1 (head_end s) t.1 (lost_end t)
  exact t.2.1 s.2.1
theorem wrong_lost {l : Links} {h k k' : Nat} (s : WrongAt l h k) (t : Lost l h k') : False := by
  cases fine_end s.1 (wrong_end s) t.1 (lost_end t)
  have := s.2.2.1
  rw [t.2.2] at this
  cases this

/-- **C122**: in a memory with fewer than 2^31 objects, whatever their links are, `list_check` ends.  It returns the list exactly if its links are right all around.
Otherwise it reports the first node, going forward, whose link back is wrong, with its number (0 for the head): with a text by a message and `abort`, without one by
returning NULL.  It leaves the objects only if a link forward does so before any wrong link back. -/
theorem C122_check_partial {m : Mem} {h : Addr} {objs : List Addr} (ho : ∀ a, m.live a = true → a ∈ objs) (hs : objs.length < 2 ^ 31) (hl : m.live h = true) {fuel : Nat}
    (hf : objs.length ≤ fuel) (message : Bool) :
    (listCheck m h message fuel = .ok (some .list) ↔ ∃ k, Sound m.links h k) ∧
    (∀ a c, listCheck m h message fuel = .ok (some (.aborted a c)) ↔ message = true ∧
      ((∃ k, WrongHead m.links h k) ∧ a = h ∧ c = 0 ∨ ∃ k, WrongAt m.links h k ∧ a = reach m.links h (k + 1) ∧ c = k + 1)) ∧
    (listCheck m h message fuel = .ok (some .null) ↔ message = false ∧ ((∃ k, WrongHead m.links h k) ∨ ∃ k, WrongAt m.links h k)) ∧
    (listCheck m h message fuel = .error .dead ↔ ∃ k, Lost m.links h k) ∧
    listCheck m h message fuel ≠ .ok none ∧ listCheck m h message fuel ≠ .ok (some .overflow) := by
  have hb : ∀ k, Fine m.links h k → k < objs.length := fun k f => f.bound ho
  obtain ⟨k, -, -, f, hk⟩ := checkFrom_spec m h (fun k f => by have := hb k f; omega) fuel 0 ⟨hl, fun j hj => by omega⟩
  have e : checkNode m h fuel = checkFrom m h fuel 0 (reach m.links h 0) (reach m.links h (0 + 1)) := by
    unfold checkNode getNext
    rw [if_pos hl]
    rfl
  rw [← e] at hk
  unfold listCheck
  rcases hk with ⟨hk, s⟩ | ⟨hk, s⟩ | ⟨hk, s⟩ | ⟨hk, s⟩ | ⟨hk, hk'⟩
  · rw [hk]
    refine ⟨⟨fun _ => ⟨k, s⟩, fun _ => rfl⟩, fun a c => ⟨fun h => (by cases h), ?_⟩, ⟨fun h => (by cases h), ?_⟩, ⟨fun h => (by cases h), ?_⟩, fun h => (by cases h), fun h => (by cases h)⟩
    · rintro ⟨-, ⟨⟨k', t⟩, -⟩ | ⟨k', t, -⟩⟩
      · exact (sound_head s t).elim
      · exact (sound_wrong s t).elim
    · rintro ⟨-, ⟨k', t⟩ | ⟨k', t⟩⟩
      · exact (sound_head s t).elim
      · exact (sound_wrong s t).elim
    · rintro ⟨k', t⟩
      exact (sound_lost s t).elim
  · rw [hk]
    refine ⟨⟨fun h => ?_, ?_⟩, fun a c => ⟨fun h => ?_, ?_⟩, ⟨fun h => ?_, ?_⟩, ⟨fun h => (by cases message <;> cases h), ?_⟩, fun h => (by cases message <;> cases h),
      fun h => (by cases message <;> cases h)⟩
    · cases message <;> cases h
    · rintro ⟨k', t⟩; exact (sound_head t s).elim
    · cases message with
      | false => cases h
      | true => cases h; exact ⟨rfl, Or.inl ⟨⟨k, s⟩, rfl, rfl⟩⟩
    · rintro ⟨rfl, ⟨-, rfl, rfl⟩ | ⟨k', t, -⟩⟩
      · rfl
      · exact (head_wrong s t).elim
    · cases message with
      | false => exact ⟨rfl, Or.inl ⟨k, s⟩⟩
      | true => cases h
    · rintro ⟨rfl, -⟩; rfl
    · rintro ⟨k', t⟩; exact (head_lost s t).elim
  · rw [hk]
    refine ⟨⟨fun h => ?_, ?_⟩, fun a c => ⟨fun h => ?_, ?_⟩, ⟨fun h => ?_, ?_⟩, ⟨fun h => (by cases message <;> cases h), ?_⟩, fun h => (by cases message <;> cases h),
      fun h => (by cases message <;> cases h)⟩
    · cases message <;> cases h
    · rintro ⟨k', t⟩; exact (sound_wrong t s).elim
    · cases message with
      | false => cases h
      | true =>
        injection h with h; injection h with h; injection h with h1 h2
        exact ⟨rfl, Or.inr ⟨k, s, h1.symm, h2.symm⟩⟩
    · rintro ⟨rfl, ⟨⟨k', t⟩, -⟩ | ⟨k', t, rfl, rfl⟩⟩
      · exact (head_wrong t s).elim
      · cases fine_end s.1 (wrong_end s) t.1 (wrong_end t)
        rfl
    · cases message with
      | false => exact ⟨rfl, Or.inr ⟨k, s⟩⟩
      | true => cases h
    · rintro ⟨rfl, -⟩; rfl
    · rintro ⟨k', t⟩; exact (wrong_lost s t).elim
  · rw [hk]
    refine ⟨⟨fun h => (by cases h), ?_⟩, fun a c => ⟨fun h => (by cases h), ?_⟩, ⟨fun h => (by cases h), ?_⟩, ⟨fun _ => ⟨k, s⟩, fun _ => rfl⟩, fun h => (by cases h), fun h => (by cases h)⟩
    · rintro ⟨k', t⟩
      exact (sound_lost t s).elim
    · rintro ⟨-, ⟨⟨k', t⟩, -⟩ | ⟨k', t, -⟩⟩
      · exact (head_lost t s).elim
      · exact (wrong_lost t s).elim
    · rintro ⟨-, ⟨k', t⟩ | ⟨k', t⟩⟩
      · exact (head_lost t s).elim
      · exact (wrong_lost t s).elim
  · exfalso
    have := hb k f
    omega

/-- A list whose links are right is one without repetitions, and both traversals end and give its elements. -/
theorem C122_sound {m : Mem} {h : Addr} {k : Nat} (s : Sound m.links h k) : ∃ xs : List Addr, xs.length = k ∧ (h :: xs).Nodup ∧
    (∀ fuel, k ≤ fuel → forEach m h fuel = .ok (some xs) ∧ forEachRev m h fuel = .ok (some xs.reverse)) := by
  have r := sound_seg s
  exact ⟨_, met_length _ _ _, s.1.nodup, fun fuel hf => ⟨forEach_eq r (by rw [met_length]; exact hf), forEachRev_eq r (by rw [met_length]; exact hf)⟩⟩

/-- Beyond INT_MAX nodes the counter overflows. -/
theorem checkFrom_overflow {m : Mem} {h : Addr} (f : Fine m.links h 0x7fffffff) (hn : reach m.links h (0x7fffffff + 1) ≠ h) : ∀ (d c fuel : Nat), c + d = 0x7fffffff → d < fuel →
    checkFrom m h fuel c (reach m.links h c) (reach m.links h (c + 1)) = .ok (some .overflow) := by
  intro d
  induction d with
  | zero =>
    intro c fuel hc hf
    obtain ⟨fuel, rfl⟩ : ∃ n, fuel = n + 1 := ⟨fuel - 1, by omega⟩
    obtain rfl : c = 0x7fffffff := by omega
    rw [checkFrom, if_neg hn, if_pos (by omega)]
  | succ d ih =>
    intro c fuel hc hf
    obtain ⟨fuel, rfl⟩ : ∃ n, fuel = n + 1 := ⟨fuel - 1, by omega⟩
    obtain ⟨h1, h2, h3⟩ := f.2 c (by omega)
    have hl : m.live (reach m.links h (c + 1)) = true := h2
    have hp : m.prev (reach m.links h (c + 1)) = reach m.links h c := h3
    rw [checkFrom, if_neg h1, if_neg (by omega)]
    simp only [getPrev, getNext, hl, hp, if_true, bind, Except.bind, ne_eq, not_true_eq_false, if_false]
    exact ih (c + 1) fuel (by omega) (by omega)

/-- A list of 2^31 nodes. -/
def longList : Mem := { live := fun a => decide (a ≤ 0x80000000), next := fun a => if a = 0x80000000 then 0 else a + 1, prev := fun a => if a = 0 then 0x80000000 else a - 1 }

theorem longList_reach : ∀ k, k ≤ 0x80000000 → reach longList.links 0 k = k
  | 0, _ => rfl
  | k + 1, h => by
    rw [reach, longList_reach k (by omega)]
    change (if k = 0x80000000 then 0 else k + 1) = _
    rw [if_neg (by omega)]

theorem longList_fine {k : Nat} (h : k ≤ 0x80000000) : Fine longList.links 0 k := by
  refine ⟨rfl, fun j hj => ?_⟩
  rw [longList_reach (j + 1) (by omega), longList_reach j (by omega)]
  refine ⟨by omega, decide_eq_true (show j + 1 ≤ 0x80000000 by omega), ?_⟩
  change (if j + 1 = 0 then 0x80000000 else j + 1 - 1) = _
  rw [if_neg (by omega)]
  omega

/-- **C122 is refuted for long lists**: the links of a list of 2^31 nodes are right, but the counter of `list_check` overflows, which is undefined. -/
theorem C122_long_refuted : Sound longList.links 0 0x80000000 ∧ ∀ message fuel, 0x80000000 ≤ fuel → listCheck longList 0 message fuel = .ok (some .overflow) := by
  refine ⟨⟨longList_fine (Nat.le_refl _), ?_, ?_⟩, fun message fuel hf => ?_⟩
  · rw [reach, longList_reach _ (Nat.le_refl _)]; rfl
  · rw [longList_reach _ (Nat.le_refl _)]; rfl
  · have h1 : reach longList.links 0 (0x7fffffff + 1) ≠ 0 := by rw [longList_reach _ (by omega)]; omega
    have := checkFrom_overflow (longList_fine (k := 0x7fffffff) (by omega)) h1 0x7fffffff 0 fuel (by omega) (by omega)
    have e : checkNode longList 0 fuel = checkFrom longList 0 fuel 0 (reach longList.links 0 0) (reach longList.links 0 (0 + 1)) := rfl
    unfold listCheck
    rw [e, this]
    rfl

/-! ### Examples -/

/-- The list 10, 20, 30 under the head 1; the node 20 points back as told. -/
def threeNodes (back : Addr) : Mem :=
  { live := fun a => a = 1 || a = 10 || a = 20 || a = 30
    next := fun a => if a = 1 then 10 else if a = 10 then 20 else if a = 20 then 30 else 1
    prev := fun a => if a = 1 then 30 else if a = 30 then 20 else if a = 20 then back else 1 }

theorem threeNodes_live (back a : Addr) (h : (threeNodes back).live a = true) : a ∈ [1, 10, 20, 30] := by
  simp only [threeNodes, Bool.or_eq_true, decide_eq_true_eq] at h
  rcases h with ((h | h) | h) | h <;> simp [h]

example : listCheck (threeNodes 10) 1 true 4 = .ok (some .list) ∧ ∃ k, Sound (threeNodes 10).links 1 k := by
  have := C122_check_partial (h := 1) (threeNodes_live 10) (by decide) rfl (fuel := 4) (by decide) true
  exact ⟨rfl, this.1.1 rfl⟩

/-- A wrong link back is reported with the node and its number. -/
example : listCheck (threeNodes 30) 1 true 4 = .ok (some (.aborted 20 2)) ∧ listCheck (threeNodes 30) 1 false 4 = .ok (some .null) ∧ WrongAt (threeNodes 30).links 1 1 := by
  refine ⟨rfl, rfl, ⟨rfl, fun j hj => ?_⟩, by decide, rfl, by decide⟩
  obtain rfl : j = 0 := by omega
  decide

/-- A circle that does not come back to the head: the traversal never ends, the check does. -/
def lasso : Mem :=
  { live := fun a => a = 1 || a = 10 || a = 20
    next := fun a => if a = 1 then 10 else if a = 10 then 20 else 10
    prev := fun a => if a = 1 then 20 else if a = 10 then 1 else 10 }

theorem C122_lasso : (∀ fuel, forEach lasso 1 fuel = .ok none) ∧ ∀ fuel, 3 ≤ fuel → listCheck lasso 1 true fuel = .ok (some (.aborted 10 3)) := by
  constructor
  · have key : ∀ fuel, visit lasso getNext 1 fuel 10 = .ok none ∧ visit lasso getNext 1 fuel 20 = .ok none := by
      intro fuel
      induction fuel with
      | zero => exact ⟨rfl, rfl⟩
      | succ n ih =>
        refine ⟨?_, ?_⟩
        · rw [visit, if_neg (by decide)]
          change (visit lasso getNext 1 n 20 >>= _) = _
          rw [ih.2]; rfl
        · rw [visit, if_neg (by decide)]
          change (visit lasso getNext 1 n 10 >>= _) = _
          rw [ih.1]; rfl
    intro fuel
    exact (key fuel).1
  · intro fuel hf
    obtain ⟨n, rfl⟩ : ∃ n, fuel = n + 3 := ⟨fuel - 3, by omega⟩
    have : WrongAt lasso.links 1 2 := by
      refine ⟨⟨rfl, fun j hj => ?_⟩, by decide, rfl, by decide⟩
      match j, hj with
      | 0, _ => decide
      | 1, _ => decide
    refine ((C122_check_partial (objs := [1, 10, 20]) (m := lasso) ?_ (by decide) rfl hf true).2.1 10 3).2 ⟨rfl, Or.inr ⟨2, this, rfl, rfl⟩⟩
    intro a h
    simp only [lasso, Bool.or_eq_true, decide_eq_true_eq] at h
    rcases h with (h | h) | h <;> simp [h]

end Clist
