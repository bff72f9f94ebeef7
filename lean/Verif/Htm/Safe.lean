import Verif.Htm.SpecHalt
import Verif.Htm.PropsStamps
import Verif.Htm.InsnLemmas
import Verif.Htm.PropsTlb
/-! Decoding functions that stop the program for no record of a kind. -/
namespace Htm
open Htm.Spec

/-- The program does not stop if all records are of the kind `W`; its result satisfies `P`. -/
def Prog.Safe {α : Type} (W : BitVec 64 → Prop) (P : α → Prop) : Prog α → Prop
  | .done a => P a
  | .stop h => h = .fuel
  | .fetch k => (k none).Safe W P ∧ ∀ v, W v → (k (some v)).Safe W P
  | .back _ k => k.Safe W P
  | .tell _ k => k.Safe W P

section
variable {W : BitVec 64 → Prop}

theorem safe_bind {α β : Type} {P : α → Prop} {Q : β → Prop} {f : α → Prog β} (hf : ∀ a, P a → (f a).Safe W Q) :
    ∀ p : Prog α, p.Safe W P → (p.bind f).Safe W Q
  | .done a, h => hf a h
  | .stop _, h => h
  | .fetch k, h => ⟨safe_bind hf (k none) h.1, fun v hv => safe_bind hf (k (some v)) (h.2 v hv)⟩
  | .back _ k, h => safe_bind hf k h
  | .tell _ k, h => safe_bind hf k h

theorem safe_tellAll {α : Type} {P : α → Prop} {p : Prog α} (h : p.Safe W P) : ∀ l : List Ev, (tellAll l p).Safe W P
  | [] => h
  | _ :: l => safe_tellAll h l

/-- All that is left to read is of the kind `W`. -/
structure Fine (W : BitVec 64 → Prop) (r : Rd) : Prop where
  prev : W r.prev
  rest : ∀ v ∈ pending r, W v

theorem fine_fetchInternal {r r' : Rd} {v : BitVec 64} (h : Fine W r) (hf : fetchInternal r = (some v, r')) : W v ∧ Fine W r' := by
  unfold fetchInternal at hf
  cases h1 : read r with
  | mk a b =>
    rw [h1] at hf
    cases a with
    | none => cases hf
    | some w =>
      cases hf
      obtain ⟨hp, hw, ho, hs⟩ := read_some h1
      have hpend : pending ({ b with prev := v, nr := b.nr + 1, scanned := b.scanned + 1, checksum := b.checksum + sumOf v } : Rd) = pending b := by
        unfold pending; dsimp only; rw [hw]; rfl
      have hv : W v := h.rest v (by rw [hp]; exact List.mem_cons_self ..)
      exact ⟨hv, hv, fun x hx => h.rest x (by rw [hp]; rw [hpend] at hx; exact List.mem_cons_of_mem _ hx)⟩

theorem fine_out {r : Rd} (h : Fine W r) (o : List Ev) : Fine W { r with out := o } := ⟨h.prev, h.rest⟩

theorem fine_stamp {c : Conf} (hm : ∀ v, W v → ¬ BadMark v) {r : Rd} {v : BitVec 64} (h : Fine W r) (hv : W v) :
    ∃ b r', stamp c r v = .ok (b, r') ∧ Fine W r' := by
  have hs : ∀ e, stampOf v ≠ .error e := by
    intro e he
    unfold stampOf at he
    dsimp only at he
    repeat' split at he
    all_goals first | cases he; done | skip
    rename_i h3 h4
    refine hm v hv ⟨(u32_eq (by decide) (by decide) (by decide) _).1 h3, fun h0 => h4 ?_⟩
    exact (bits_eq (by decide) (by decide) _).2 h0
  unfold stamp
  cases h1 : stampOf v with
  | error e => exact absurd h1 (hs e)
  | ok o =>
    cases o with
    | none => exact ⟨_, _, rfl, fine_out h _⟩
    | some s => exact ⟨_, _, rfl, fine_out h _⟩

theorem fine_fetchLoop {c : Conf} (hm : ∀ v, W v → ¬ BadMark v) : ∀ (n : Nat) {r : Rd}, Fine W r →
    match fetchLoop c n r with
    | .error h => h = .fuel
    | .ok (o, r') => (∀ v, o = some v → W v) ∧ Fine W r'
  | 0, _, _ => rfl
  | n + 1, r, h => by
    unfold fetchLoop
    cases hf : fetchInternal r with
    | mk o r1 =>
      cases o with
      | none => exact ⟨fun v hv => (by cases hv), by rw [(fetchInternal_none hf).1]; exact h⟩
      | some v =>
        obtain ⟨hv, h1⟩ := fine_fetchInternal h hf
        dsimp only
        by_cases hi : isStamp v = true
        · rw [if_pos hi]
          obtain ⟨b, r2, hs, h2⟩ := fine_stamp (c := c) hm h1 hv
          rw [hs]
          cases b with
          | false => exact ⟨fun v hv => (by cases hv), h2⟩
          | true => exact fine_fetchLoop hm n h2
        · rw [if_neg hi]
          exact ⟨fun w hw => (by cases hw; exact hv), h1⟩

theorem fine_rewind {r r' : Rd} {v : BitVec 64} (h : Fine W r) (hr : rewind r v = .ok r') : Fine W r' := by
  unfold rewind at hr
  split at hr
  · cases hr
  · cases hr
    refine ⟨h.prev, fun x hx => ?_⟩
    unfold pending at hx
    dsimp only at hx
    rw [if_pos rfl] at hx
    rcases List.mem_cons.1 hx with rfl | hx
    · exact h.prev
    · refine h.rest x ?_
      unfold pending
      split
      · exact List.mem_cons_of_mem _ hx
      · exact hx

/-- Running such a function gives a result, if the reader does. -/
theorem safe_run {α : Type} {P : α → Prop} {c : Conf} (hm : ∀ v, W v → ¬ BadMark v) : ∀ (p : Prog α) (r : Rd), p.Safe W P → Fine W r →
    match p.run c r with
    | .error h => h = .fuel ∨ h = .sameLocation
    | .ok (a, r') => P a ∧ Fine W r'
  | .done a, r, h, hr => ⟨h, hr⟩
  | .stop _, _, h, _ => .inl h
  | .tell e k, r, h, hr => by
    unfold Prog.run
    exact safe_run hm k (r.tell e) h (fine_out hr _)
  | .back v k, r, h, hr => by
    unfold Prog.run
    cases hb : Htm.rewind r v with
    | error e =>
      unfold Htm.rewind at hb
      split at hb
      · cases hb; exact .inr rfl
      · cases hb
    | ok q => exact safe_run hm k q h (fine_rewind hr hb)
  | .fetch k, r, h, hr => by
    unfold Prog.run
    have h1 := fine_fetchLoop (c := c) hm (r.left + 1) hr
    unfold Htm.fetch
    cases hf : fetchLoop c (r.left + 1) r with
    | error e => rw [hf] at h1; exact .inl h1
    | ok q =>
      obtain ⟨o, r1⟩ := q
      rw [hf] at h1
      cases o with
      | none => exact safe_run hm (k none) r1 h.1 h1.2
      | some v => exact safe_run hm (k (some v)) r1 (h.2 v (h1.1 v rfl)) h1.2

/-- If neither kind of instruction stops the program, nothing does but too many errors. -/
theorem safe_decodeLoop {c : Conf} {I : Dec → Prop} (hm : ∀ v, W v → ¬ BadMark v)
    (h9 : ∀ s v, I s → W v → (insn9 c s v).Safe W (fun p => I p.1))
    (h10 : ∀ n s v, I s → W v → (insn10 c n s v).Safe W (fun p => I p.1)) : ∀ (n e : Nat) (s : Dec) (r : Rd), I s → Fine W r →
    match decodeLoop c n e s r with
    | .error h => h = .fuel ∨ h = .sameLocation ∨ h = .tooManyErrors
    | .ok (s', _) => I s'
  | 0, _, _, _, _, _ => .inl rfl
  | n + 1, e, s, r, hs, hr => by
    have key : match decodeOne c e s r with
        | .error h => h = .fuel ∨ h = .sameLocation ∨ h = .tooManyErrors
        | .ok (_, _, s', r') => I s' ∧ Fine W r' := by
      unfold decodeOne
      cases hf : fetchInternal r with
      | mk o r1 =>
        cases o with
        | none => exact ⟨hs, by rw [(fetchInternal_none hf).1]; exact hr⟩
        | some v =>
          obtain ⟨hv, h1⟩ := fine_fetchInternal hr hf
          dsimp only
          by_cases h0 : v = 0
          · rw [if_pos h0]; exact ⟨hs, h1⟩
          · rw [if_neg h0]
            have hd : match dispatch c s r1 v with
                | .error h => h = .fuel ∨ h = .sameLocation
                | .ok ((s', _), r') => I s' ∧ Fine W r' := by
              unfold dispatch
              by_cases hi : isStamp v = true
              · rw [if_pos hi]
                obtain ⟨b, r2, h2, h3⟩ := fine_stamp (c := c) hm h1 hv
                rw [h2]
                exact ⟨hs, h3⟩
              · rw [if_neg hi]
                by_cases h9' : u32 v 36 55 = 0xABCDE
                · rw [if_pos h9']
                  have := safe_run (c := c) hm _ r1 (h9 s v hs hv) h1
                  cases hp : (insn9 c s v).run c r1 with
                  | error h => rw [hp] at this; exact this
                  | ok q => rw [hp] at this; exact this
                · rw [if_neg h9']
                  by_cases h10' : u32 v 36 55 = 0xABCDF
                  · rw [if_pos h10']
                    have := safe_run (c := c) hm _ r1 (h10 (r1.left + 1) s v hs hv) h1
                    cases hp : (insn10 c (r1.left + 1) s v).run c r1 with
                    | error h => rw [hp] at this; exact this
                    | ok q => rw [hp] at this; exact this
                  · rw [if_neg h10']; exact ⟨hs, h1⟩
            cases hp : dispatch c s r1 v with
            | error h =>
              rw [hp] at hd
              rcases hd with hd | hd
              · exact .inl hd
              · exact .inr (.inl hd)
            | ok q =>
              obtain ⟨⟨s', b⟩, r'⟩ := q
              rw [hp] at hd
              cases b with
              | true => exact hd
              | false =>
                dsimp only
                by_cases he : e > 100
                · rw [if_pos he]; exact .inr (.inr rfl)
                · rw [if_neg he]; exact hd
    unfold decodeLoop
    cases hd : decodeOne c e s r with
    | error h => rw [hd] at key; exact key
    | ok q =>
      obtain ⟨b, e', s', r'⟩ := q
      rw [hd] at key
      cases b with
      | false => exact key.1
      | true => exact safe_decodeLoop hm h9 h10 n e' s' r' key.1 key.2

theorem safe_decode {c : Conf} {I : Dec → Prop} (hm : ∀ v, W v → ¬ BadMark v) (h0 : W 0) (hI : I {})
    (h9 : ∀ s v, I s → W v → (insn9 c s v).Safe W (fun p => I p.1))
    (h10 : ∀ n s v, I s → W v → (insn10 c n s v).Safe W (fun p => I p.1)) {eof failing : Bool} {bytes : List (BitVec 8)} {fill phantom : BitVec 64}
    (hw : ∀ v ∈ stream bytes failing eof fill phantom, W v) {h : Halt} (hd : decode c eof bytes failing fill phantom = .error h) : h = .tooManyErrors := by
  have h1 := safe_decodeLoop (c := c) hm h9 h10 (({ bytes := bytes, failing := failing, fill := fill, phantom := phantom, eof := eof } : Rd).left + 1) 0 {}
    { bytes := bytes, failing := failing, fill := fill, phantom := phantom, eof := eof } hI ⟨h0, fun v hv => hw v hv⟩
  have h2 := C26_outcomes c eof bytes failing fill phantom hd
  unfold decode at hd
  dsimp only at hd
  rw [hd] at h1
  rcases h1 with rfl | rfl | h1
  · rcases h2 with h | h | h <;> cases h
  · rcases h2 with h | h | h <;> cases h
  · exact h1

end
end Htm
