import Verif.Htm.SatLemmas
import Verif.Htm.Still
import Verif.Htm.PropsTlbDump
import Verif.Htm.Real9Step
/-!
For every trace, the translation cache that the decoder has at the end is that of the calls in its output.
-/
namespace Htm
open Htm.Spec

/-- The calls of the program, made on the cache `t`, are accepted unless the program stops, and the cache after them is in the
relation `Q` with the result. -/
def Prog.Follows {α : Type} (Q : Tlb.Cache → α → Prop) : Prog α → Tlb.Cache → Prop
  | .done a, t => Q t a
  | .stop _, _ => True
  | .fetch k, t => ∀ v, (k v).Follows Q t
  | .back _ k, t => k.Follows Q t
  | .tell (.tlb o) k, t =>
    match Tlb.run t [o] with
    | none => ∃ h, k = .stop h
    | some t => k.Follows Q t
  | .tell _ k, t => k.Follows Q t

theorem follows_tell {α : Type} {Q : Tlb.Cache → α → Prop} {e : Ev} {k : Prog α} {t : Tlb.Cache} (he : isCall9 e = false) (hk : k.Follows Q t) :
    (Prog.tell e k).Follows Q t := by
  cases e with
  | tlb o => cases he
  | _ => exact hk

theorem follows_tellAll {α : Type} {Q : Tlb.Cache → α → Prop} {p : Prog α} {t : Tlb.Cache} (hp : p.Follows Q t) : ∀ l : List Ev, (∀ e ∈ l, isCall9 e = false) →
    (tellAll l p).Follows Q t
  | [], _ => hp
  | e :: l, h => follows_tell (h e List.mem_cons_self) (follows_tellAll hp l fun x hx => h x (List.mem_cons_of_mem _ hx))

/-- Programs that do not use the cache. -/
theorem follows_still {α : Type} {E : Qt.Record → Prop} {P : α → Prop} {t : Tlb.Cache} : ∀ p : Prog α, Still p → p.Sat E P → p.Follows (fun t' a => t' = t ∧ P a) t
  | .done _, _, h => ⟨rfl, h⟩
  | .stop _, _, _ => trivial
  | .fetch k, hs, h => fun v => follows_still (k v) (hs v) (h v)
  | .back _ k, hs, h => follows_still k hs h
  | .tell _ k, hs, h => follows_tell hs.1 (follows_still k hs.2 h.2)

theorem follows_mono {α : Type} {Q Q' : Tlb.Cache → α → Prop} (h : ∀ t a, Q t a → Q' t a) : ∀ (p : Prog α) (t : Tlb.Cache), p.Follows Q t → p.Follows Q' t
  | .done _, _, hp => h _ _ hp
  | .stop _, _, _ => trivial
  | .fetch k, _, hp => fun v => follows_mono h (k v) _ (hp v)
  | .back _ k, _, hp => follows_mono h k _ hp
  | .tell e k, t, hp => by
    cases e with
    | tlb o =>
      unfold Prog.Follows at hp ⊢
      split
      · rename_i hr; rw [hr] at hp; exact hp
      · rename_i hr; rw [hr] at hp; exact follows_mono h k _ hp
    | _ => exact follows_mono h k _ hp

/-! ### POWER9 -/

/-- The cache of the state is the one of the calls. -/
def Has (t : Tlb.Cache) (p : Dec × Bool) : Prop := p.1.tlb = t

theorem jumpEvents_still (s : Dec) : ∀ e ∈ jumpEvents s, isCall9 e = false := by
  intro e he
  unfold jumpEvents at he
  repeat' split at he
  all_goals first | (cases List.mem_singleton.1 he; rfl) | cases he

theorem dataPages9_still (n : Nat) : ∀ e ∈ dataPages9 n, isCall9 e = false := by
  intro e he
  unfold dataPages9 at he
  repeat' split at he
  all_goals first | (cases List.mem_singleton.1 he; rfl) | cases he

theorem follows_finish9 (c : Conf) (s : Dec) (i : I9) : (finish9 c s i).Follows Has s.tlb := by
  unfold finish9
  split
  · exact rfl
  · refine follows_tell rfl ?_
    split
    · refine follows_tellAll (follows_tell rfl ?_) _ (jumpEvents_still s)
      exact rfl
    · exact rfl

theorem follows_draStep9 (c : Conf) (s : Dec) (i : I9) : (draStep9 c s i).Follows Has s.tlb := by
  unfold draStep9
  split
  · intro v
    cases v with
    | none => exact rfl
    | some v =>
      dsimp only
      split
      · exact follows_finish9 ..
      · split
        · split
          · exact follows_finish9 c s _
          · exact follows_tell rfl (follows_tell rfl (follows_finish9 ..))
        · split
          · exact follows_finish9 c s _
          · exact follows_tellAll (follows_tell rfl (follows_finish9 ..)) _ (dataPages9_still _)
  · exact follows_finish9 ..

theorem follows_deaStep9 (c : Conf) (s : Dec) (i : I9) : (deaStep9 c s i).Follows Has s.tlb := by
  unfold deaStep9
  split
  · intro v
    cases v with
    | none => exact rfl
    | some v =>
      dsimp only
      split
      · exact follows_draStep9 ..
      · split
        · exact follows_finish9 c s _
        · split <;> exact follows_draStep9 ..
  · exact follows_draStep9 ..

theorem follows_iraStep9 (c : Conf) (s : Dec) (i : I9) : (iraStep9 c s i).Follows Has s.tlb := by
  unfold iraStep9
  refine follows_tell rfl ?_
  split
  · intro v
    cases v with
    | none => exact rfl
    | some v =>
      dsimp only
      split
      · exact follows_deaStep9 ..
      · split
        · exact follows_finish9 c s _
        · rename_i a n _
          refine follows_tell rfl (follows_tell (by split <;> rfl) ?_)
          unfold Prog.Follows
          cases ht : Tlb.raSet s.tlb s.insnAddr (reloc i.msrir) a (BitVec.twoPow 64 n) with
          | none =>
            rw [show Tlb.run s.tlb [.set s.insnAddr (reloc i.msrir) a (BitVec.twoPow 64 n)] = none by unfold Tlb.run; rw [ht]; rfl]
            exact ⟨_, rfl⟩
          | some t =>
            rw [show Tlb.run s.tlb [.set s.insnAddr (reloc i.msrir) a (BitVec.twoPow 64 n)] = some t by unfold Tlb.run; rw [ht]; rfl]
            exact follows_tell rfl (follows_deaStep9 c { s with tlb := t } _)
  · exact follows_tell rfl (follows_deaStep9 ..)

theorem follows_cached9 (c : Conf) (s : Dec) (i : I9) : (cached9 c s i).Follows Has s.tlb := by
  unfold cached9
  split
  · unfold Prog.Follows
    cases ht : Tlb.raGet s.tlb s.insnAddr (reloc i.msrir) with
    | none =>
      rw [show Tlb.run s.tlb [.get s.insnAddr (reloc i.msrir)] = none by unfold Tlb.run; rw [ht]; rfl]
      exact ⟨_, rfl⟩
    | some x =>
      rw [show Tlb.run s.tlb [.get s.insnAddr (reloc i.msrir)] = some s.tlb by unfold Tlb.run; rw [ht]; rfl]
      cases x <;> exact follows_iraStep9 ..
  · exact follows_iraStep9 ..

theorem follows_insn9 (c : Conf) (s : Dec) (v : BitVec 64) : (insn9 c s v).Follows Has s.tlb := by
  unfold insn9
  refine follows_tell rfl (follows_tell rfl ?_)
  split
  · exact rfl
  · split
    · refine follows_tell rfl ?_
      unfold ieaStep9
      split
      · intro v
        cases v with
        | none => exact rfl
        | some v =>
          dsimp only
          split
          · exact follows_finish9 c { s with insnAddr := s.insnAddr + 4 } _
          · exact follows_cached9 c { s with insnAddr := v &&& 0xfffffffffffffffc } _
      · exact follows_iraStep9 c { s with insnAddr := s.insnAddr + 4 } _
    · exact rfl

/-! ### POWER10 -/

/-- AnyRecord record. -/
def AnyRecord (_ : Qt.Record) : Prop := True

theorem evOk_any (e : Ev) : EvOk AnyRecord e := by cases e <;> trivial

theorem gotIeara_tlb {s s' : Dec} {ix : List Pwc.Xlate} {l l' : I10} {a r : BitVec 64} (h : gotIeara s ix l a r = .ok (s', l')) : s'.tlb = s.tlb := by
  unfold gotIeara at h
  split at h
  · cases h
  · split at h
    · cases h
    · obtain ⟨rfl, _⟩ := Prod.mk.inj (Except.ok.inj h)
      rfl

theorem sat_ieara10 {E : Qt.Record → Prop} : ieara10.Sat E (fun _ => True) := by
  unfold ieara10
  intro v
  cases v with
  | none => trivial
  | some v =>
    intro w
    cases w <;> trivial

theorem tlb_head10 : ∀ (n : Nat) (s : Dec) (ix : List Pwc.Xlate) (l : I10) (v : BitVec 64), (head10 n s ix l v).Sat AnyRecord (fun p => p.1.tlb = s.tlb)
  | 0, _, _, _, _ => trivial
  | k + 1, s, ix, i, v => by
    unfold head10
    split
    · refine sat_bind ?_ _ sat_ieara10
      intro a _
      split
      · exact rfl
      · split
        · trivial
        · rename_i hg
          have e := gotIeara_tlb hg
          intro v
          cases v with
          | none => exact e
          | some v => exact sat_mono (fun p hp => hp.trans e) _ (tlb_head10 k _ _ _ _)
    · split
      · split
        · split
          · refine sat_bind ?_ _ (sat_walks10 ..)
            intro a _
            split
            · exact rfl
            · intro v
              cases v with
              | none => exact rfl
              | some v => exact tlb_head10 k { s with rpt := true } _ _ _
          · trivial
        · split
          · refine sat_bind ?_ _ (sat_walks10 ..)
            intro a _
            split
            · exact rfl
            · intro v
              cases v with
              | none => exact rfl
              | some v => exact tlb_head10 k { s with rpt := true } _ _ _
          · trivial
      · exact rfl

theorem iside_tlb {s s' : Dec} {x : I10} {l : List Ev} (h : iside s x = .ok (s', l)) : s'.tlb = s.tlb := by
  unfold iside at h
  split at h
  · split at h
    · unfold newLine at h
      dsimp only at h
      split at h
      · split at h
        · cases h
        · obtain ⟨rfl, _⟩ := Prod.mk.inj (Except.ok.inj h)
          rfl
      · split at h
        · cases h
        · obtain ⟨rfl, _⟩ := Prod.mk.inj (Except.ok.inj h)
          rfl
    · unfold sameLine at h
      repeat' split at h
      all_goals first | (cases h; done) | skip
      all_goals obtain ⟨rfl, _⟩ := Prod.mk.inj (Except.ok.inj h)
      all_goals rfl
  · cases h
    rfl

theorem place_tlb (s : Dec) (l : I10) : (place s l).tlb = s.tlb := by
  unfold place
  dsimp only
  split <;> rfl

theorem tlb_emit10 (c : Conf) (s : Dec) (l : I10) : (emit10 c s l).Sat AnyRecord (fun p => p.1.tlb = s.tlb) := by
  unfold emit10
  split
  · trivial
  · rename_i h1
    have e := iside_tlb h1
    split
    · trivial
    · split
      · trivial
      · split
        · trivial
        · refine sat_tellAll (p := Prog.done _) ?_ _ fun x _ => evOk_any x
          exact e

theorem tlb_body10 (c : Conf) (s : Dec) (l : I10) : (body10 c s l).Sat AnyRecord (fun p => p.1.tlb = s.tlb) := by
  unfold body10
  refine sat_bind ?_ _ (sat_data10 ..)
  intro a _
  split
  · exact rfl
  · unfold finish10
    split
    · exact place_tlb ..
    · refine ⟨trivial, trivial, ?_⟩
      split
      · exact sat_mono (fun p hp => hp.trans (place_tlb ..)) _ (tlb_emit10 ..)
      · exact place_tlb ..

theorem tlb_insn10 (c : Conf) (n : Nat) (s : Dec) (v : BitVec 64) : (insn10 c n s v).Sat AnyRecord (fun p => p.1.tlb = s.tlb) := by
  unfold insn10
  refine ⟨trivial, trivial, sat_bind ?_ _ (tlb_head10 ..)⟩
  intro a ha
  split
  · exact ha
  · split
    · exact ha
    · refine ⟨trivial, ?_⟩
      intro v
      cases v with
      | none => exact ha
      | some v =>
        dsimp only
        unfold prefix10
        split
        · intro v
          cases v with
          | none => exact ha
          | some v => exact sat_mono (fun p hp => hp.trans ha) _ (tlb_body10 ..)
        · exact sat_mono (fun p hp => hp.trans ha) _ (tlb_body10 ..)

theorem follows_insn10 (c : Conf) (n : Nat) (s : Dec) (v : BitVec 64) : (insn10 c n s v).Follows Has s.tlb :=
  follows_mono (fun _ _ h => h.2.trans h.1.symm) _ _ (follows_still _ (still_insn10 ..) (tlb_insn10 ..))

/-! ### Traces -/

theorem stamp_lookups {c : Conf} {r r' : Rd} {v : BitVec 64} {b : Bool} (h : stamp c r v = .ok (b, r')) : lookups r'.out = lookups r.out := by
  unfold stamp at h
  split at h
  · cases h
  · cases h
    exact (lookups_append ..).trans (List.append_nil _)
  · rename_i s _
    cases h
    dsimp only
    rw [lookups_append]
    have e : lookups ([Ev.count .recordsProcessed] ++ timeEvents s ++ (if c.fn then [.stamp s] else [])) = [] := by
      rw [lookups_append, lookups_append]
      have e1 : lookups (timeEvents s) = [] := by
        unfold timeEvents
        split
        · split <;> rfl
        · rfl
      rw [e1]
      split <;> rfl
    rw [e, List.append_nil]

theorem fetchLoop_lookups {c : Conf} : ∀ (n : Nat) {r r' : Rd} {o : Option (BitVec 64)}, fetchLoop c n r = .ok (o, r') → lookups r'.out = lookups r.out
  | 0, _, _, _, h => by cases h
  | n + 1, r, r', o, h => by
    rw [fetchLoop] at h
    split at h
    · rename_i hf
      cases h
      rw [fetchInternal_out hf]
    · rename_i v r1 hf
      rw [← fetchInternal_out hf]
      split at h
      · split at h
        · cases h
        · rename_i hs; cases h; exact stamp_lookups hs
        · rename_i hs; exact (fetchLoop_lookups n h).trans (stamp_lookups hs)
      · cases h; rfl

theorem follows_run {α : Type} {Q : Tlb.Cache → α → Prop} {c : Conf} : ∀ (p : Prog α) (r r' : Rd) (a : α) (t : Tlb.Cache), p.Follows Q t → p.run c r = .ok (a, r') →
    Tlb.run {} (lookups r.out) = some t → ∃ t', Tlb.run {} (lookups r'.out) = some t' ∧ Q t' a
  | .done a, r, r', b, t, h, hr, ho => by cases hr; exact ⟨t, ho, h⟩
  | .stop _, _, _, _, _, _, hr, _ => by cases hr
  | .fetch k, r, r', b, t, h, hr, ho => by
    unfold Prog.run at hr
    cases hf : Htm.fetch c r with
    | error e => rw [hf] at hr; cases hr
    | ok q =>
      rw [hf] at hr
      exact follows_run (k q.1) q.2 r' b t (h q.1) hr (by rw [fetchLoop_lookups _ hf]; exact ho)
  | .back v k, r, r', b, t, h, hr, ho => by
    unfold Prog.run at hr
    cases hf : Htm.rewind r v with
    | error e => rw [hf] at hr; cases hr
    | ok q =>
      rw [hf] at hr
      exact follows_run k q r' b t h hr (by rw [rewind_out hf]; exact ho)
  | .tell e k, r, r', b, t, h, hr, ho => by
    unfold Prog.run at hr
    have ho' : Tlb.run {} (lookups (r.tell e).out) = Tlb.run t (lookups [e]) := by
      show Tlb.run {} (lookups (r.out ++ [e])) = _
      rw [lookups_append, Tlb.run_append, ho]
      rfl
    cases e with
    | tlb o =>
      unfold Prog.Follows at h
      have ho'' : Tlb.run {} (lookups (r.tell (.tlb o)).out) = Tlb.run t [o] := ho'
      split at h
      · obtain ⟨x, rfl⟩ := h
        cases hr
      · rename_i t' ht
        exact follows_run k _ r' b t' h hr (ho''.trans ht)
    | _ => exact follows_run k _ r' b t h hr ho'

/-- The cache of the state is that of the calls in the output. -/
def KeptTlb (s : Dec) (r : Rd) : Prop := Tlb.run {} (lookups r.out) = some s.tlb

theorem keptTlb_run {c : Conf} {p : Prog (Dec × Bool)} {s : Dec} {r : Rd} {d : (Dec × Bool) × Rd} (hp : p.Follows Has s.tlb) (h : p.run c r = .ok d) (hk : KeptTlb s r) :
    KeptTlb d.1.1 d.2 := by
  obtain ⟨t, h1, h2⟩ := follows_run p r d.2 d.1 s.tlb hp h hk
  unfold KeptTlb
  rw [h1, show d.1.1.tlb = t from h2]

theorem keptTlb_of_lookups {s : Dec} {r r' : Rd} (h : lookups r'.out = lookups r.out) (hk : KeptTlb s r) : KeptTlb s r' := by
  unfold KeptTlb
  rw [h]
  exact hk

theorem keptTlb_dispatch {c : Conf} {s : Dec} {r : Rd} {v : BitVec 64} {d : (Dec × Bool) × Rd} (h : dispatch c s r v = .ok d) (hk : KeptTlb s r) : KeptTlb d.1.1 d.2 := by
  unfold dispatch at h
  split at h
  · split at h
    · cases h
    · rename_i hst; cases h; exact keptTlb_of_lookups (stamp_lookups hst) hk
  · split at h
    · exact keptTlb_run (follows_insn9 ..) h hk
    · split at h
      · exact keptTlb_run (follows_insn10 ..) h hk
      · cases h; exact hk

theorem keptTlb_decodeOne {c : Conf} {e : Nat} {s : Dec} {r : Rd} {q : Bool × Nat × Dec × Rd} (h : decodeOne c e s r = .ok q) (hk : KeptTlb s r) : KeptTlb q.2.2.1 q.2.2.2 := by
  unfold decodeOne at h
  split at h
  · rename_i hf; cases h; exact keptTlb_of_lookups (by rw [fetchInternal_out hf]) hk
  · rename_i v r1 hf
    have h1 : KeptTlb s r1 := keptTlb_of_lookups (by rw [fetchInternal_out hf]) hk
    split at h
    · cases h; exact h1
    · split at h
      · cases h
      · rename_i hd; cases h; exact keptTlb_dispatch hd h1
      · rename_i hd
        split at h
        · cases h
        · cases h; exact keptTlb_dispatch hd h1

theorem keptTlb_decodeLoop {c : Conf} : ∀ (n e : Nat) (s s' : Dec) (r r' : Rd), KeptTlb s r → decodeLoop c n e s r = .ok (s', r') → KeptTlb s' r'
  | 0, _, _, _, _, _, _, h => by cases h
  | n + 1, e, s, s', r, r', hk, h => by
    rw [decodeLoop] at h
    split at h
    · cases h
    · rename_i hq; cases h; exact keptTlb_decodeOne hq hk
    · rename_i hq; exact keptTlb_decodeLoop n _ _ s' _ r' (keptTlb_decodeOne hq hk) h

theorem keptTlb_decode {c : Conf} {eof : Bool} {bytes : List (BitVec 8)} {failing : Bool} {fill phantom : BitVec 64} {s : Dec} {r : Rd}
    (h : decode c eof bytes failing fill phantom = .ok (s, r)) : Tlb.run {} (lookups r.out) = some s.tlb :=
  keptTlb_decodeLoop _ 0 {} s { bytes := bytes, failing := failing, fill := fill, phantom := phantom, eof := eof } r (show Tlb.run {} [] = some {} from rfl) h

end Htm
