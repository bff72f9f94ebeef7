import Verif.Htable.MoreLemmas
import Verif.Htable.PropsHtable
/-!
C103: the remaining calls of the hash table — clearing, copying, deleting by key and while walking, walking back, the
promise of `init_sized`, and what happens when memory runs out.  The specification is in SpecMore.lean.
-/
namespace Htable

theorem faithful_of_inv {hash : Word → Word} {U : Word → Prop} {ht : Ht} {S : List Word} {s : List Slot}
    (i : Inv hash U ht S s) : Faithful hash ht S := by
  refine ⟨?_, ?_, ?_⟩
  · obtain ⟨h1, s1, e1, -, -, n1⟩ := i.sweep fun _ => false
    rw [n1 fun _ => rfl] at e1
    exact ⟨_, e1, by rw [places_snd]; exact i.perm⟩
  · intro x
    obtain ⟨l, h1, -, ⟨t, h2, h3⟩, -⟩ := matches_spec i.view i.chain i.notFull x
    refine ⟨l.map (·.2), h1, ?_, t, ?_⟩
    · have := (i.perm.symm.trans h2).filter fun p => hash p == x
      rw [List.filter_append, h3, List.nil_append] at this
      exact this.symm
    · exact (i.perm.symm.trans h2).trans List.perm_append_comm
  · intro x eq heq
    obtain ⟨l, -, hs, ⟨t, h2, h3⟩, -⟩ := matches_spec i.view i.chain i.notFull x
    unfold Ht.get
    rw [hs]
    refine ⟨(l.find? fun c => eq c.2).map (·.2), rfl, ?_, ?_⟩
    · intro p hp
      obtain ⟨c, hc, rfl⟩ := Option.map_eq_some_iff.1 hp
      have hmem := List.mem_of_find?_eq_some hc
      refine ⟨?_, List.find?_some (p := fun (c : Nat × Word) => eq c.2) hc⟩
      rw [← i.perm.mem_iff, h2.mem_iff]
      exact List.mem_append_right _ (List.mem_map.2 ⟨c, hmem, rfl⟩)
    · intro hnone p hp
      have hnone : (l.find? fun c => eq c.2) = none := by
        cases hf : l.find? fun c => eq c.2 with
        | none => rfl
        | some c => rw [hf] at hnone; cases hnone
      cases hq : eq p with
      | false => rfl
      | true =>
        exfalso
        have hh := heq p hp hq
        rw [← i.perm.mem_iff, h2.mem_iff, List.mem_append] at hp
        rcases hp with hp | hp
        · have : p ∈ t.filter fun q => hash q == x := by simp [hp, hh]
          rw [h3] at this
          simp at this
        · obtain ⟨c, hc, rfl⟩ := List.mem_map.1 hp
          exact List.find?_eq_none.1 hnone c hc hq

/-- The table holds at most 3·2^28 elements. -/
theorem Inv.small {hash : Word → Word} {U : Word → Prop} {ht : Ht} {S : List Word} {s : List Slot} (i : Inv hash U ht S s) :
    S.length ≤ 3 * 2 ^ 28 := by
  have h1 := i.room
  have h2 := i.max
  have h3 : 2 ^ ht.bits ≤ 2 ^ 30 := Nat.pow_le_pow_right (by omega) i.bits
  rw [← i.elems]
  omega

/-- With that many, the next addition computes `1 << 31`. -/
theorem Inv.limit {hash : Word → Word} {U : Word → Prop} {ht : Ht} {S : List Word} {s : List Slot} (i : Inv hash U ht S s)
    (hn : S.length = 3 * 2 ^ 28) (p : Word) (mem : Bool) : ht.call hash (.add p mem) = none := by
  have h1 := i.room
  have h2 := i.max
  have h3 := i.elems
  have hb : ht.bits = 30 := by
    apply Nat.le_antisymm i.bits
    apply Nat.le_of_not_lt
    intro hlt
    have h4 : 2 ^ ht.bits ≤ 2 ^ 29 := Nat.pow_le_pow_right (by omega) (by omega)
    omega
  rw [hb] at h2
  show Option.map _ (ht.addM hash mem p) = none
  have : ht.addM hash mem p = none := by
    unfold Ht.addM
    rw [if_neg (by omega)]
    unfold Ht.add Ht.grow
    rw [if_pos (by omega)]
    unfold Ht.double
    rw [if_pos (by omega)]
    rfl
  rw [this]
  rfl

/-- One call: it ends, and does what the specification says; the size of the table does not change if there is room. -/
theorem call_inv {hash : Word → Word} {U : Word → Prop} (hU : Spaced U) {ht : Ht} {S : List Word} {s : List Slot}
    (i : Inv hash U ht S s) (c : Call) (hc : c.Ok hash U) (hn : S.length = 3 * 2 ^ 28 → ∀ p mem, c ≠ .add p mem) :
    ∃ a ht' S' s', ht.call hash c = some (a, ht') ∧ Step true S c a S' ∧ Inv hash U ht' S' s' ∧
      (S.length + additions [c] ≤ ht.max → c ≠ .clear → Step false S c a S' ∧ ht'.bits = ht.bits) := by
  have hel := i.elems
  cases c with
  | add p mem =>
    have hn : S.length < 3 * 2 ^ 28 := by
      apply Nat.lt_of_le_of_ne i.small
      intro h
      exact hn h p mem rfl
    show ∃ a ht' S' s', Option.map _ (ht.addM hash mem p) = some (a, ht') ∧ _
    simp only [additions]
    by_cases hroom : ht.elems + 1 ≤ ht.max
    · obtain ⟨h1, s1, e1, i1, b1⟩ := add_bits i hU hc hroom
      refine ⟨.bool true, h1, p :: S, s1, ?_, .added .., i1, fun _ _ => ⟨.added .., b1⟩⟩
      unfold Ht.addM
      rw [if_neg (by omega), e1]
      rfl
    · cases mem with
      | false =>
        refine ⟨.bool false, ht, S, s, ?_, .refused _ _ rfl, i, fun h => absurd h (by omega)⟩
        have hb : ht.bits + 1 < 31 := by
          have h1 := i.max
          have h2 := i.bits
          rcases Nat.lt_or_ge ht.bits 30 with h4 | h4
          · omega
          · rw [show ht.bits = 30 by omega] at h1
            omega
        unfold Ht.addM
        rw [if_pos ⟨by omega, hb, rfl⟩]
        rfl
      | true =>
        obtain ⟨h1, s1, e1, i1⟩ := i.add hU hc (by omega)
        refine ⟨.bool true, h1, p :: S, s1, ?_, .added .., i1, fun h => absurd h (by omega)⟩
        unfold Ht.addM
        rw [if_neg (by simp), e1]
        rfl
  | del p =>
    obtain ⟨h1, s1, e1, i1⟩ := i.del p
    have hb := del_bits e1
    refine ⟨.bool (decide (p ∈ S)), h1, S.erase p, s1, ?_, ?_, i1, fun _ _ => ⟨?_, hb⟩⟩
    · show Option.map _ (ht.del hash p) = _
      rw [e1]; rfl
    all_goals
      by_cases hm : p ∈ S
      · rw [decide_eq_true hm]; exact .deleted _ _ hm
      · rw [decide_eq_false hm, List.erase_of_not_mem hm]; exact .missing _ _ hm
  | delkey x eq =>
    show ∃ a ht' S' s', Option.map _ (ht.delkey hash x eq) = some (a, ht') ∧ _
    unfold Ht.delkey
    obtain ⟨o, e1, h1, h2⟩ := (faithful_of_inv i).get x eq fun p _ hp => hc p hp
    rw [e1]
    cases o with
    | none => exact ⟨.bool false, ht, S, s, rfl, .keyMissing _ _ _ (h2 rfl), i, fun _ _ => ⟨.keyMissing _ _ _ (h2 rfl), rfl⟩⟩
    | some p =>
      obtain ⟨hm, hp⟩ := h1 p rfl
      obtain ⟨h3, s3, e3, i3⟩ := i.del p
      rw [decide_eq_true hm] at e3
      refine ⟨.bool true, h3, S.erase p, s3, ?_, .keyDeleted _ _ _ _ hm hp, i3,
        fun _ _ => ⟨.keyDeleted _ _ _ _ hm hp, del_bits e3⟩⟩
      simp only
      rw [e3]
      rfl
  | clear => exact ⟨.nothing, init, [], _, rfl, .cleared _, Inv.init, fun _ h => absurd rfl h⟩
  | copy mem =>
    have hlen : ht.table.length = ht.size := by rw [i.view.words, List.length_map, i.view.len]
    have : ht.call hash (.copy mem) = some (.bool mem, ht) := by
      show Option.map _ (ht.copy mem) = _
      unfold Ht.copy
      cases mem with
      | false => rfl
      | true =>
        rw [if_neg (by simp), if_neg (by omega), List.take_of_length_le (by omega)]
        rfl
    exact ⟨.bool mem, ht, S, s, this, .copied .., i, fun _ _ => ⟨.copied .., rfl⟩⟩
  | sweep q =>
    obtain ⟨h1, s1, e1, i1, b1, -⟩ := i.sweep q
    have hp : ((places 0 s).map (·.2)).Perm S := by rw [places_snd]; exact i.perm
    refine ⟨.list ((places 0 s).map (·.2)), h1, _, s1, ?_, .swept _ _ _ hp, i1, fun _ _ => ⟨.swept _ _ _ hp, b1⟩⟩
    show Option.map _ (ht.sweep q) = _
    rw [e1]
    rfl

theorem calls_inv {hash : Word → Word} {U : Word → Prop} (hU : Spaced U) : ∀ (l : List Call) (ht : Ht) (S : List Word) (s : List Slot),
    Inv hash U ht S s → (∀ c ∈ l, c.Ok hash U) →
    (∃ as ht' S' s', ht.calls hash l = some (as, ht') ∧ Agrees true S l as S' ∧ Inv hash U ht' S' s') ∨
    (∃ pre p mem post as ht' S' s', l = pre ++ .add p mem :: post ∧ ht.calls hash pre = some (as, ht') ∧
      Agrees true S pre as S' ∧ Inv hash U ht' S' s' ∧ S'.length = 3 * 2 ^ 28 ∧ ht.calls hash l = none) := by
  intro l
  induction l with
  | nil => intro ht S s i _; exact .inl ⟨[], ht, S, s, rfl, .nil S, i⟩
  | cons c l ih =>
    intro ht S s i hok
    by_cases hn : S.length = 3 * 2 ^ 28 → ∀ p mem, c ≠ .add p mem
    · obtain ⟨a, h1, S1, s1, e1, st, i1, -⟩ := call_inv hU i c (hok c (by simp)) hn
      rcases ih h1 S1 s1 i1 (fun c hc => hok c (List.mem_cons_of_mem _ hc)) with
        ⟨as, h2, S2, s2, e2, ag, i2⟩ | ⟨pre, p, mem, post, as, h2, S2, s2, rfl, e2, ag, i2, hn2, e3⟩
      · refine .inl ⟨a :: as, h2, S2, s2, ?_, .cons st ag, i2⟩
        unfold Ht.calls
        rw [e1, Option.bind_some, e2]
        rfl
      · refine .inr ⟨c :: pre, p, mem, post, a :: as, h2, S2, s2, rfl, ?_, .cons st ag, i2, hn2, ?_⟩
        · unfold Ht.calls
          rw [e1, Option.bind_some, e2]
          rfl
        · unfold Ht.calls
          rw [e1, Option.bind_some, e3]
          rfl
    · have hlen : S.length = 3 * 2 ^ 28 := Classical.byContradiction fun h => hn fun h' => absurd h' h
      obtain ⟨p, mem, rfl⟩ : ∃ p mem, c = .add p mem :=
        Classical.byContradiction fun h => hn fun _ p mem h' => h ⟨p, mem, h'⟩
      refine .inr ⟨[], p, mem, l, [], ht, S, s, rfl, rfl, .nil S, i, hlen, ?_⟩
      unfold Ht.calls
      rw [i.limit hlen]
      rfl

/-! ### The property -/

/-- Every history of calls, with memory running out or not at each of them, runs to its end and answers as the bag does,
and afterwards the table answers questions as the bag does; or it meets an addition to a table of 3·2^28 elements and the
behaviour is undefined.  Missing: that case, pointers that are not `Spaced` (C44_lost_refuted), a table whose `init_sized`
failed (refuted below). -/
theorem C103_history_partial {hash : Word → Word} {U : Word → Prop} (hU : Spaced U) (e : Option Nat) (l : List Call)
    (hok : ∀ c ∈ l, c.Ok hash U) :
    (∃ as ht S, (start e).calls hash l = some (as, ht) ∧ Agrees true [] l as S ∧ Faithful hash ht S) ∨
    (∃ pre p mem post as ht S, l = pre ++ .add p mem :: post ∧ (start e).calls hash pre = some (as, ht) ∧
      Agrees true [] pre as S ∧ Faithful hash ht S ∧ S.length = 3 * 2 ^ 28 ∧ (start e).calls hash l = none) := by
  obtain ⟨s0, i0⟩ := start_inv (hash := hash) (U := U) e
  rcases calls_inv hU l _ _ _ i0 hok with ⟨as, ht, S, s, h1, h2, h3⟩ | ⟨pre, p, mem, post, as, ht, S, s, h0, h1, h2, h3, h4, h5⟩
  · exact .inl ⟨as, ht, S, h1, h2, faithful_of_inv h3⟩
  · exact .inr ⟨pre, p, mem, post, as, ht, S, h0, h1, h2, faithful_of_inv h3, h4, h5⟩

theorem step_additions {may : Bool} {S S' : List Word} {c : Call} {a : Ans} (st : Step may S c a S') (l : List Call) :
    S'.length + additions l ≤ S.length + additions (c :: l) := by
  have he : ∀ p, (S.erase p).length ≤ S.length := fun p => List.length_erase_le ..
  cases st with
  | added p mem => simp only [additions]; rw [List.length_cons]; omega
  | refused p h => simp only [additions]; omega
  | deleted p h => have := he p; simp only [additions]; omega
  | missing p h => simp only [additions]; omega
  | keyDeleted x eq p h h' => have := he p; simp only [additions]; omega
  | keyMissing x eq h => simp only [additions]; omega
  | cleared => simp only [additions]; rw [List.length_nil]; omega
  | copied mem => simp only [additions]; omega
  | swept q l' h => have := List.length_filter_le (fun p => !q p) S; simp only [additions]; omega

theorem additions_cons (c : Call) (l : List Call) : additions (c :: l) = additions [c] + additions l := by
  cases c <;> simp only [additions] <;> omega

theorem reserved_inv {hash : Word → Word} {U : Word → Prop} (hU : Spaced U) : ∀ (l : List Call) (ht : Ht) (S : List Word)
    (s : List Slot), Inv hash U ht S s → (∀ c ∈ l, c.Ok hash U) → Call.clear ∉ l → S.length + additions l ≤ ht.max →
    ∃ as ht' S' s', ht.calls hash l = some (as, ht') ∧ Agrees false S l as S' ∧ Inv hash U ht' S' s' := by
  intro l
  induction l with
  | nil => intro ht S s i _ _ _; exact ⟨[], ht, S, s, rfl, .nil S, i⟩
  | cons c l ih =>
    intro ht S s i hok hcl hn
    have hne : c ≠ .clear := fun h => hcl (by simp [h])
    have hcl' : Call.clear ∉ l := fun h => hcl (List.mem_cons_of_mem _ h)
    have hok' : ∀ c ∈ l, c.Ok hash U := fun c hc => hok c (List.mem_cons_of_mem _ hc)
    have hadd := additions_cons c l
    have hbig : ht.max ≤ 3 * 2 ^ 28 := by
      have h2 := i.max
      have h3 : 2 ^ ht.bits ≤ 2 ^ 30 := Nat.pow_le_pow_right (by omega) i.bits
      omega
    obtain ⟨a, h1, S1, s1, e1, -, i1, k⟩ := call_inv hU i c (hok c (by simp)) (fun hS p mem hc => by
      subst hc
      simp only [additions] at hn
      omega)
    obtain ⟨st, b1⟩ := k (by omega) hne
    have hm1 : h1.max = ht.max := by rw [i1.max, i.max, b1]
    have hst := step_additions st l
    obtain ⟨as, h2, S2, s2, e2, ag, i2⟩ := ih h1 S1 s1 i1 hok' hcl' (by omega)
    refine ⟨a :: as, h2, S2, s2, ?_, .cons st ag, i2⟩
    unfold Ht.calls
    rw [e1, Option.bind_some, e2]
    rfl

/-- The promise of `init_sized`: if it answers true, then the number of additions asked for needs no more memory — none is
refused, whatever else is called in between (except `clear`, which gives the memory back).  Missing: more than 3·2^28
elements. -/
theorem C103_reserved_partial {hash : Word → Word} {U : Word → Prop} (hU : Spaced U) (e : Nat) (he : e ≤ 3 * 2 ^ 28) (l : List Call)
    (hok : ∀ c ∈ l, c.Ok hash U) (hcl : Call.clear ∉ l) (hn : additions l ≤ e) :
    ∃ as ht S, (initSizedM e true).2.calls hash l = some (as, ht) ∧ Agrees false [] l as S ∧ Faithful hash ht S := by
  have hmax : e ≤ (initSized e).max := by
    show e ≤ 3 * 2 ^ sizeBits e 30 1 / 4
    rcases sizeBits_enough e 30 1 (by omega) (by omega) with h | h
    · rw [h]; omega
    · exact h
  obtain ⟨as, ht, S, s, h1, h2, h3⟩ :=
    reserved_inv hU l (initSized e) [] _ (Inv.initSized e) hok hcl (by rw [List.length_nil]; omega)
  exact ⟨as, ht, S, h1, h2, faithful_of_inv h3⟩

/-- Walking back after any history: from the end of a walk `prev` gives the elements in the opposite order, and from any
element those before it. -/
theorem C103_back_partial {hash : Word → Word} {U : Word → Prop} (hU : Spaced U) {e : Option Nat} {l : List Call}
    (hok : ∀ c ∈ l, c.Ok hash U) {as : List Ans} {ht : Ht} (h : (start e).calls hash l = some (as, ht)) :
    ∃ L off, ht.sweep (fun _ => false) = some (L, off, ht) ∧ ht.back off = some L.reverse ∧
      ∀ A c B, L = A ++ c :: B → ht.back c.1 = some A.reverse := by
  obtain ⟨S, s, i⟩ : ∃ S s, Inv hash U ht S s := by
    obtain ⟨s0, i0⟩ := start_inv (hash := hash) (U := U) e
    rcases calls_inv hU l _ _ _ i0 hok with ⟨as', ht', S, s, h1, -, h3⟩ | ⟨_, _, _, _, _, _, _, _, -, -, -, -, -, h5⟩
    · rw [h] at h1
      cases h1
      exact ⟨S, s, h3⟩
    · rw [h] at h5
      cases h5
  obtain ⟨h1, s1, e1, -, -, n1⟩ := i.sweep fun _ => false
  rw [n1 fun _ => rfl] at e1
  refine ⟨_, _, e1, ?_, ?_⟩
  · rw [back_spec i (by rw [i.view.len]; exact Nat.le_refl _), ← i.view.len, List.take_length]
  · intro A c B hL
    obtain ⟨-, h2, h3⟩ := places_split 0 s A B c hL
    rw [Nat.sub_zero] at h2 h3
    rw [back_spec i h2, h3]

/-! ### What is not so -/

/-- A table for which `init_sized` found no memory is said to be usable still (htable.h:62), but a lookup in it reads
outside the one word it has. -/
theorem C103_no_memory_refuted : (initSizedM 10 false).1 = false ∧ (initSizedM 10 false).2.get 1 (fun _ => true) = none ∧
    (initSizedM 10 false).2.first = none ∧ (initSizedM 10 false).2.copy true = none := by decide +kernel

/-- `init_sized` answers true for any number, but with room for 3·2^28 elements only: after so many additions the next one
is undefined behaviour. -/
theorem C103_limit_refuted : ∃ l : List Call, additions l = 3 * 2 ^ 28 + 1 ∧ (∀ c ∈ l, c.Ok (fun _ => 0) (· = 0x5010)) ∧
    (initSizedM (3 * 2 ^ 28 + 1) true).1 = true ∧
    (initSizedM (3 * 2 ^ 28 + 1) true).2.calls (fun _ => 0) l = none := by
  have hadds : ∀ n, additions (List.replicate n (Call.add 0x5010 true)) = n := by
    intro n
    induction n with
    | zero => rfl
    | succ n ih => rw [List.replicate_succ, additions, ih]
  have hok : ∀ n, ∀ c ∈ List.replicate n (Call.add 0x5010 true), c.Ok (fun _ => 0) (· = 0x5010) := by
    intro n c hc
    rw [List.eq_of_mem_replicate hc]
    rfl
  have hU : Spaced (· = (0x5010 : Word)) := spaced_of_same_top (t := 14) (by omega) fun p hp => by
    subst hp
    exact sample_top _ (by decide) (by decide)
  generalize hN : 3 * 2 ^ 28 = N at *
  refine ⟨List.replicate (N + 1) (.add 0x5010 true), hadds _, hok _, rfl, ?_⟩
  show (initSized (N + 1)).calls (fun _ => 0) _ = none
  rcases calls_inv hU _ _ _ _ (Inv.initSized (N + 1)) (hok (N + 1)) with ⟨as, ht, S, s, h1, h2, h3⟩ |
    ⟨_, _, _, _, _, _, _, _, -, -, -, -, -, h5⟩
  · exfalso
    have hlen : ∀ n S as S', Agrees true S (List.replicate n (.add 0x5010 true)) as S' → S'.length = S.length + n := by
      intro n
      induction n with
      | zero => intro S as S' h; cases h; rfl
      | succ n ih =>
        intro S as S' h
        rw [List.replicate_succ] at h
        cases h with
        | cons st ag =>
          cases st with
          | added => rw [ih _ _ _ ag, List.length_cons]; omega
    have h4 := hlen _ _ _ _ h2
    have h5 := h3.small
    rw [hN] at h5
    rw [List.length_nil] at h4
    omega
  · exact h5

/-- After a walk has ended, another `next` moves the iterator past the end, and `prev` then reads outside the table. -/
theorem C103_past_end_refuted : ∃ ht off, init.calls (fun _ => 0) [.add 0x5010 true, .add 0x5040 true] = some ([.bool true, .bool true], ht) ∧
    ht.sweep (fun _ => false) = some ([(0, 0x5010), (1, 0x5040)], off, ht) ∧ ht.next off = some (off + 1, none) ∧
    ht.prev (off + 1) = none := by
  refine ⟨((init.calls (fun _ => 0) [.add 0x5010 true, .add 0x5040 true]).getD ([], init)).2, 4, ?_, ?_, ?_, ?_⟩ <;> decide +kernel

/-! ### The hypotheses are met -/

/-- Two additions, a refused one, a sweep that deletes, a copy, a key deleted, a clear. -/
def sampleCalls : List Call :=
  [.add 0x5010 true, .add 0x5040 true, .add 0x6080 true, .add 0x50c0 false, .copy false, .copy true,
    .sweep (fun p => p == 0x5040), .delkey 0 (· == 0x6080), .add 0x7ff0 true, .clear, .add 0x5100 false, .add 0x5100 true]

example : ∀ c ∈ sampleCalls, c.Ok (fun _ => 0) fun p => p.getLsbD 14 = true ∧ ∀ i, 14 < i → p.getLsbD i = false := by
  intro c hc
  simp only [sampleCalls, List.mem_cons, List.not_mem_nil, or_false] at hc
  rcases hc with rfl | rfl | rfl | rfl | rfl | rfl | rfl | rfl | rfl | rfl | rfl | rfl <;>
    first
      | exact sample_top _ (by decide) (by decide)
      | trivial
      | (intro p _; rfl)

example : (init.calls (fun _ => 0) sampleCalls).map (·.1) =
    some [.bool true, .bool true, .bool true, .bool false, .bool false, .bool true, .list [0x5010, 0x5040, 0x6080], .bool true,
      .bool true, .nothing, .bool false, .bool true] := by decide +kernel

/-- Three additions to a table made for three, without memory for more. -/
example : ((initSizedM 3 true).2.calls (fun _ => 0) [.add 0x5010 false, .add 0x5040 false, .add 0x6080 false, .add 0x5100 false]).map (·.1) =
    some [.bool true, .bool true, .bool true, .bool false] := by decide +kernel

end Htable
