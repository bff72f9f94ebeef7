import Verif.Htm.InsnLemmas
/-! The translation cache of tlb.c is not used for POWER10 instructions. -/
namespace Htm
open Htm.Spec

theorem lookups_append (a b : List Ev) : lookups (a ++ b) = lookups a ++ lookups b := List.filterMap_append ..

def isCall9 : Ev → Bool
  | .tlb _ => true
  | _ => false

/-- Programs that do not use the cache. -/
def Still {α : Type} : Prog α → Prop
  | .done _ => True
  | .stop _ => True
  | .fetch k => ∀ v, Still (k v)
  | .back _ k => Still k
  | .tell e k => isCall9 e = false ∧ Still k

theorem still_bind {α β : Type} {f : α → Prog β} (hf : ∀ a, Still (f a)) : ∀ p : Prog α, Still p → Still (p.bind f)
  | .done a, _ => hf a
  | .stop _, _ => trivial
  | .fetch k, h => fun v => still_bind hf (k v) (h v)
  | .back _ k, h => still_bind hf k h
  | .tell _ k, h => ⟨h.1, still_bind hf k h.2⟩

theorem still_tellAll {α : Type} {p : Prog α} (hp : Still p) : ∀ l : List Ev, (∀ e ∈ l, isCall9 e = false) → Still (tellAll l p)
  | [], _ => hp
  | e :: l, h => ⟨h e List.mem_cons_self, still_tellAll hp l fun x hx => h x (List.mem_cons_of_mem _ hx)⟩

theorem still_walks10 : ∀ (k : Nat) (x : Pwc.Xlate) (i : Nat), Still (walks10 x k i)
  | 0, _, _ => trivial
  | k + 1, x, i => by
    unfold walks10
    intro v
    cases v with
    | none => trivial
    | some v =>
      dsimp only
      split
      · trivial
      · exact still_walks10 k _ _

theorem still_ieara10 : Still ieara10 := by
  unfold ieara10
  intro v
  cases v with
  | none => trivial
  | some v =>
    intro w
    cases w <;> trivial

theorem still_head10 : ∀ (k : Nat) (s : Dec) (ix : List Pwc.Xlate) (i : I10) (v : BitVec 64), Still (head10 k s ix i v)
  | 0, _, _, _, _ => trivial
  | k + 1, s, ix, i, v => by
    unfold head10
    split
    · refine still_bind ?_ _ still_ieara10
      intro a
      split
      · trivial
      · split
        · trivial
        · intro v
          cases v with
          | none => trivial
          | some v => exact still_head10 k _ _ _ _
    · split
      · split
        · split
          · refine still_bind ?_ _ (still_walks10 ..)
            intro a
            split
            · trivial
            · intro v
              cases v with
              | none => trivial
              | some v => exact still_head10 k _ _ _ _
          · trivial
        · split
          · refine still_bind ?_ _ (still_walks10 ..)
            intro a
            split
            · trivial
            · intro v
              cases v with
              | none => trivial
              | some v => exact still_head10 k _ _ _ _
          · trivial
      · trivial

theorem still_draStep10 (c : Conf) (i : Nat) (x : I10) : Still (draStep10 c i x) := by
  unfold draStep10
  split
  · intro v
    cases v with
    | none => trivial
    | some v =>
      dsimp only
      repeat' split
      all_goals trivial
  · trivial

theorem still_dataStep10 (c : Conf) (i : Nat) (x : I10) : Still (dataStep10 c i x) := by
  unfold dataStep10
  split
  · intro v
    cases v with
    | none => trivial
    | some v =>
      dsimp only
      repeat' split
      all_goals first | trivial | exact still_draStep10 ..
  · exact still_draStep10 ..

theorem still_data10 (c : Conf) (x : I10) : Still (data10 c x) := by
  unfold data10
  split
  · refine still_bind ?_ _ (still_dataStep10 ..)
    intro a
    split
    · trivial
    · trivial
    · split
      · refine still_bind ?_ _ (still_dataStep10 ..)
        intro a; trivial
      · trivial
  · trivial

theorem pageEvents_still {f : Nat → Counter} (hf : ∀ n, isCall9 (.count (f n)) = false) {n : Nat} : ∀ e ∈ pageEvents f n, isCall9 e = false := by
  intro e he
  unfold pageEvents at he
  split at he
  · cases List.mem_singleton.1 he; exact hf n
  · cases he

theorem iside_still {s s' : Dec} {x : I10} {l : List Ev} (h : iside s x = .ok (s', l)) : ∀ e ∈ l, isCall9 e = false := by
  unfold iside at h
  split at h
  · split at h
    · unfold newLine at h
      dsimp only at h
      split at h
      · split at h
        · cases h
        · obtain ⟨rfl, rfl⟩ := Prod.mk.inj (Except.ok.inj h)
          intro e he
          rcases List.mem_cons.1 he with he | he
          · rw [he]; split <;> rfl
          · exact pageEvents_still (fun _ => rfl) e he
      · split at h
        · cases h
        · obtain ⟨rfl, rfl⟩ := Prod.mk.inj (Except.ok.inj h)
          intro e he
          cases List.mem_singleton.1 he
          split <;> rfl
    · unfold sameLine at h
      repeat' split at h
      all_goals first | (cases h; done) | skip
      all_goals obtain ⟨rfl, rfl⟩ := Prod.mk.inj (Except.ok.inj h)
      all_goals intro e he
      all_goals first | (cases List.mem_singleton.1 he; rfl) | cases he
  · cases h
    intro e he
    cases he

theorem dside0_still {s : Dec} {x : I10} {d : Xl.Res} {l : List Ev} {xl : Xl.St} {x' : I10} (h : dside0 s x = .ok (d, l, xl, x')) :
    ∀ e ∈ l, isCall9 e = false := by
  unfold dside0 at h
  split at h
  · unfold dside at h
    dsimp only at h
    split at h
    · split at h
      · cases h
      · obtain ⟨rfl, h2⟩ := Prod.mk.inj (Except.ok.inj h)
        obtain ⟨rfl, _⟩ := Prod.mk.inj h2
        intro e he
        rcases List.mem_cons.1 he with he | he
        · rw [he]; split <;> rfl
        · exact pageEvents_still (fun _ => rfl) e he
    · split at h
      · cases h
      · obtain ⟨rfl, h2⟩ := Prod.mk.inj (Except.ok.inj h)
        obtain ⟨rfl, _⟩ := Prod.mk.inj h2
        intro e he
        cases List.mem_singleton.1 he
        split <;> rfl
  · cases h
    intro e he
    cases he

theorem still_emit10 (c : Conf) (s : Dec) (x : I10) : Still (emit10 c s x) := by
  unfold emit10
  split
  · trivial
  · rename_i h1
    split
    · trivial
    · rename_i h2
      split
      · trivial
      · split
        · trivial
        · refine still_tellAll (p := Prog.done _) trivial _ ?_
          intro e he
          rcases List.mem_append.1 he with he | he
          · rcases List.mem_append.1 he with he | he
            · rcases List.mem_append.1 he with he | he
              · exact iside_still h1 e he
              · exact dside0_still h2 e he
            · cases List.mem_singleton.1 he; rfl
          · unfold suffix10 at he
            split at he
            · cases List.mem_singleton.1 he; rfl
            · cases he

theorem still_body10 (c : Conf) (s : Dec) (x : I10) : Still (body10 c s x) := by
  unfold body10
  refine still_bind ?_ _ (still_data10 ..)
  intro a
  split
  · trivial
  · unfold finish10
    split
    · trivial
    · refine ⟨rfl, rfl, ?_⟩
      split
      · exact still_emit10 ..
      · trivial

theorem still_insn10 (c : Conf) (k : Nat) (s : Dec) (v : BitVec 64) : Still (insn10 c k s v) := by
  unfold insn10
  refine ⟨rfl, rfl, still_bind ?_ _ (still_head10 ..)⟩
  intro a
  split
  · trivial
  · split
    · trivial
    · refine ⟨rfl, ?_⟩
      intro v
      cases v with
      | none => trivial
      | some v =>
        dsimp only
        unfold prefix10
        split
        · intro v
          cases v with
          | none => trivial
          | some v => exact still_body10 ..
        · exact still_body10 ..


theorem still_eval {α : Type} : ∀ (p : Prog α) (l : List (BitVec 64)), Still p → ∀ {a l' es}, p.eval l = .ok (a, l', es) → lookups es = []
  | .done a, l, _, _, _, _, h => by cases h; rfl
  | .stop _, _, _, _, _, _, h => by cases h
  | .fetch k, [], hp, _, _, _, h => still_eval (k none) [] (hp none) h
  | .fetch k, v :: l, hp, _, _, _, h => still_eval (k (some v)) l (hp (some v)) h
  | .back v k, l, hp, _, _, _, h => still_eval k (v :: l) hp h
  | .tell e k, l, hp, _, _, _, h => by
    rw [eval_tell] at h
    split at h
    · cases h
    · rename_i a l' es he
      cases h
      have := still_eval k l hp.2 he
      cases e with
      | tlb o => cases hp.1
      | _ => exact this

theorem step_still {c : Conf} {s : Dec} {v : BitVec 64} {l : List (BitVec 64)} (hv : fld v 36 55 = 0xABCDF) {a l' es}
    (h : pureStep c s v l = .ok (a, l', es)) : lookups es = [] := by
  unfold pureStep at h
  rw [if_neg (by rw [u32_eq (by omega) (by omega) (by omega), hv]; decide), if_pos ((u32_eq (by omega) (by omega) (by omega) _).2 hv)] at h
  exact still_eval _ _ (still_insn10 ..) h

end Htm
