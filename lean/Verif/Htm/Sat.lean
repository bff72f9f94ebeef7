import Verif.Htm.PropsXlate
import Verif.Htm.PropsSource
import Verif.Qt.Spec
/-!
What holds of every record that the decoder hands to its callback, for every trace.
-/
namespace Htm
open Htm.Pwc

/-- What is said of a record when it is handed to the callback. -/
def EvOk (E : Qt.Record → Prop) : Ev → Prop
  | .insn r => E r
  | _ => True

/-- Every record that the program hands to the callback satisfies `E`, and its result `P`. -/
def Prog.Sat {α : Type} (E : Qt.Record → Prop) (P : α → Prop) : Prog α → Prop
  | .done a => P a
  | .stop _ => True
  | .fetch k => ∀ v, (k v).Sat E P
  | .back _ k => k.Sat E P
  | .tell e k => EvOk E e ∧ k.Sat E P

section
variable {E : Qt.Record → Prop}

theorem sat_bind {α β : Type} {P : α → Prop} {Q : β → Prop} {f : α → Prog β} (hf : ∀ a, P a → (f a).Sat E Q) :
    ∀ p : Prog α, p.Sat E P → (p.bind f).Sat E Q
  | .done a, h => hf a h
  | .stop _, _ => trivial
  | .fetch k, h => fun v => sat_bind hf (k v) (h v)
  | .back _ k, h => sat_bind hf k h
  | .tell _ k, h => ⟨h.1, sat_bind hf k h.2⟩

theorem sat_mono {α : Type} {P Q : α → Prop} (hpq : ∀ a, P a → Q a) : ∀ p : Prog α, p.Sat E P → p.Sat E Q
  | .done a, h => hpq a h
  | .stop _, _ => trivial
  | .fetch k, h => fun v => sat_mono hpq (k v) (h v)
  | .back _ k, h => sat_mono hpq k h
  | .tell _ k, h => ⟨h.1, sat_mono hpq k h.2⟩

theorem sat_tellAll {α : Type} {P : α → Prop} {p : Prog α} (h : p.Sat E P) : ∀ l : List Ev, (∀ e ∈ l, EvOk E e) → (tellAll l p).Sat E P
  | [], _ => h
  | e :: l, hl => ⟨hl e (List.mem_cons_self ..), sat_tellAll h l fun x hx => hl x (List.mem_cons_of_mem _ hx)⟩

/-- Every record in a list of events satisfies `E`. -/
def OutOk (E : Qt.Record → Prop) (l : List Ev) : Prop := ∀ e ∈ l, EvOk E e

theorem outOk_append {a b : List Ev} (ha : OutOk E a) (hb : OutOk E b) : OutOk E (a ++ b) := by
  intro e he
  rcases List.mem_append.1 he with h | h
  · exact ha e h
  · exact hb e h

theorem timeEvents_ok (s : Stamp) : OutOk E (timeEvents s) := by
  intro e he
  unfold timeEvents at he
  split at he
  · rcases List.mem_append.1 he with h | h
    · split at h
      · rcases List.mem_singleton.1 h with rfl; trivial
      · cases h
    · rcases List.mem_cons.1 h with rfl | h
      · trivial
      · rcases List.mem_singleton.1 h with rfl; trivial
  · cases he

theorem stamp_out {c : Conf} {r r' : Rd} {v : BitVec 64} {b : Bool} (h : stamp c r v = .ok (b, r')) (ho : OutOk E r.out) : OutOk E r'.out := by
  unfold stamp at h
  cases hs : stampOf v with
  | error e => rw [hs] at h; cases h
  | ok o =>
    rw [hs] at h
    cases o with
    | none =>
      cases h
      exact outOk_append ho (fun e he => by rcases List.mem_singleton.1 he with rfl; trivial)
    | some s =>
      cases h
      refine outOk_append ho (outOk_append (outOk_append ?_ (timeEvents_ok s)) ?_)
      · intro e he; rcases List.mem_singleton.1 he with rfl; trivial
      · intro e he
        split at he
        · rcases List.mem_singleton.1 he with rfl; trivial
        · cases he

theorem read_out {r r' : Rd} {o : Option (BitVec 64)} (h : read r = (o, r')) : r'.out = r.out := by
  unfold read at h
  repeat' split at h
  all_goals (cases h; rfl)

theorem fetchInternal_out {r r' : Rd} {o : Option (BitVec 64)} (h : fetchInternal r = (o, r')) : r'.out = r.out := by
  unfold fetchInternal at h
  split at h
  · rename_i hr; cases h; exact read_out hr
  · rename_i hr; cases h; have := read_out hr; exact this

theorem fetchLoop_out {c : Conf} : ∀ (n : Nat) {r r' : Rd} {o : Option (BitVec 64)}, fetchLoop c n r = .ok (o, r') → OutOk E r.out → OutOk E r'.out
  | 0, _, _, _, h, _ => by cases h
  | n + 1, r, r', o, h, ho => by
    rw [fetchLoop] at h
    split at h
    · rename_i hf
      cases h
      rw [fetchInternal_out hf]; exact ho
    · rename_i v r1 hf
      have h1 : OutOk E r1.out := by rw [fetchInternal_out hf]; exact ho
      split at h
      · split at h
        · cases h
        · rename_i hs; cases h; exact stamp_out hs h1
        · rename_i hs; exact fetchLoop_out n h (stamp_out hs h1)
      · cases h; exact h1

theorem rewind_out {r r' : Rd} {v : BitVec 64} (h : rewind r v = .ok r') : r'.out = r.out := by
  unfold rewind at h
  split at h
  · cases h
  · cases h; rfl

theorem sat_run {α : Type} {P : α → Prop} {c : Conf} : ∀ (p : Prog α) (r r' : Rd) (a : α), p.Sat E P → p.run c r = .ok (a, r') → OutOk E r.out →
    P a ∧ OutOk E r'.out
  | .done a, r, r', b, h, hr, ho => by cases hr; exact ⟨h, ho⟩
  | .stop _, _, _, _, _, hr, _ => by cases hr
  | .fetch k, r, r', b, h, hr, ho => by
    unfold Prog.run at hr
    cases hf : Htm.fetch c r with
    | error e => rw [hf] at hr; cases hr
    | ok q =>
      rw [hf] at hr
      exact sat_run (k q.1) q.2 r' b (h q.1) hr (fetchLoop_out _ hf ho)
  | .back v k, r, r', b, h, hr, ho => by
    unfold Prog.run at hr
    cases hf : Htm.rewind r v with
    | error e => rw [hf] at hr; cases hr
    | ok q =>
      rw [hf] at hr
      exact sat_run k q r' b h hr (by rw [rewind_out hf]; exact ho)
  | .tell e k, r, r', b, h, hr, ho => by
    unfold Prog.run at hr
    exact sat_run k _ r' b h.2 hr (outOk_append ho fun x hx => by rcases List.mem_singleton.1 hx with rfl; exact h.1)

/-- A property of the state that both kinds of instructions keep holds at the end, and all records are as they are. -/
theorem sat_decodeLoop {c : Conf} {I : Dec → Prop} (h9 : ∀ s v, I s → (insn9 c s v).Sat E (fun p => I p.1))
    (h10 : ∀ n s v, I s → (insn10 c n s v).Sat E (fun p => I p.1)) : ∀ (n e : Nat) (s s' : Dec) (r r' : Rd), I s → OutOk E r.out →
    decodeLoop c n e s r = .ok (s', r') → OutOk E r'.out
  | 0, _, _, _, _, _, _, _, h => by cases h
  | n + 1, e, s, s', r, r', hs, ho, h => by
    rw [decodeLoop] at h
    have key : ∀ q, decodeOne c e s r = .ok q → I q.2.2.1 ∧ OutOk E q.2.2.2.out := by
      intro q hq
      unfold decodeOne at hq
      split at hq
      · rename_i hf; cases hq; exact ⟨hs, by rw [fetchInternal_out hf]; exact ho⟩
      · rename_i v r1 hf
        have h1 : OutOk E r1.out := by rw [fetchInternal_out hf]; exact ho
        split at hq
        · cases hq; exact ⟨hs, h1⟩
        · have hd : ∀ d, dispatch c s r1 v = .ok d → I d.1.1 ∧ OutOk E d.2.out := by
            intro d hd
            unfold dispatch at hd
            split at hd
            · split at hd
              · cases hd
              · rename_i hst; cases hd; exact ⟨hs, stamp_out hst h1⟩
            · split at hd
              · exact sat_run (P := fun p : Dec × Bool => I p.1) _ r1 d.2 d.1 (h9 s v hs) hd h1
              · split at hd
                · exact sat_run (P := fun p : Dec × Bool => I p.1) _ r1 d.2 d.1 (h10 _ s v hs) hd h1
                · cases hd; exact ⟨hs, h1⟩
          split at hq
          · cases hq
          · rename_i hdd; cases hq; exact hd _ hdd
          · rename_i hdd
            split at hq
            · cases hq
            · cases hq; exact hd _ hdd
    split at h
    · cases h
    · rename_i hq; cases h; exact (key _ hq).2
    · rename_i hq
      exact sat_decodeLoop h9 h10 n _ _ s' _ r' (key _ hq).1 (key _ hq).2 h
end

theorem outOk_instructions {E : Qt.Record → Prop} {l : List Ev} (h : OutOk E l) : ∀ r ∈ instructions l, E r := by
  intro r hr
  unfold instructions at hr
  obtain ⟨e, he, hx⟩ := List.mem_filterMap.1 hr
  have := h e he
  cases e with
  | insn q => cases hx; exact this
  | _ => cases hx

end Htm
