import Verif.Htable.State
/-!
C44: the hash table behind the translation caches and the basic block tables holds what was added and not deleted.

The specification is a bag of pointers: adding puts a pointer in, deleting takes one occurrence out and tells whether
there was one.  `Spaced` is the condition on the pointers that the table silently relies on (`C44_lost_refuted` shows an
element vanishing without it); pointers of the same magnitude meet it (`spaced_of_same_top`).
-/
namespace Htable

/-- The bag after a history of calls, and the answers of the deletions. -/
def bag : List Word → List Op → List Bool × List Word
  | S, [] => ([], S)
  | S, .add p :: l => bag (p :: S) l
  | S, .del p :: l => (decide (p ∈ S) :: (bag (S.erase p) l).1, (bag (S.erase p) l).2)

/-- Number of additions. -/
def adds : List Op → Nat
  | [] => 0
  | .add _ :: l => adds l + 1
  | .del _ :: l => adds l

/-- The pointers added are in `U`. -/
def Within (U : Word → Prop) (ops : List Op) : Prop := ∀ p, Op.add p ∈ ops → U p

/-- A table as `htable_init` or `htable_init_sized` leaves it. -/
def start : Option Nat → Ht
  | none => init
  | some e => initSized e

theorem run_inv {hash : Word → Word} {U : Word → Prop} (hU : Spaced U) : ∀ (ops : List Op) (ht : Ht) (S : List Word) (s : List Slot),
    Inv hash U ht S s → Within U ops → S.length + adds ops ≤ 3 * 2 ^ 28 →
    ∃ ht' s', run hash ht ops = some ((bag S ops).1, ht') ∧ Inv hash U ht' (bag S ops).2 s' := by
  intro ops
  induction ops with
  | nil => intro ht S s h _ _; exact ⟨ht, s, rfl, h⟩
  | cons o ops ih =>
    intro ht S s h hw hn
    have hw' : Within U ops := fun p hp => hw p (List.mem_cons_of_mem _ hp)
    cases o with
    | add p =>
      simp only [adds] at hn
      obtain ⟨h1, s1, e1, i1⟩ := h.add hU (hw p (by simp)) (by omega)
      obtain ⟨h2, s2, e2, i2⟩ := ih h1 (p :: S) s1 i1 hw' (by rw [List.length_cons]; omega)
      refine ⟨h2, s2, ?_, i2⟩
      unfold run
      rw [e1, Option.bind_some, e2]
      rfl
    | del p =>
      simp only [adds] at hn
      obtain ⟨h1, s1, e1, i1⟩ := h.del p
      obtain ⟨h2, s2, e2, i2⟩ := ih h1 (S.erase p) s1 i1 hw' (by
        have := List.length_erase_le (a := p) (l := S); omega)
      refine ⟨h2, s2, ?_, i2⟩
      unfold run
      rw [e1, Option.bind_some, e2]
      rfl

theorem start_inv {hash : Word → Word} {U : Word → Prop} (e : Option Nat) : ∃ s, Inv hash U (start e) [] s := by
  cases e with
  | none => exact ⟨_, Inv.init⟩
  | some e => exact ⟨_, Inv.initSized e⟩

theorem run_start {hash : Word → Word} {U : Word → Prop} (hU : Spaced U) {e : Option Nat} {ops : List Op} (hw : Within U ops)
    (hn : adds ops ≤ 3 * 2 ^ 28) {r : List Bool} {ht : Ht} (h : run hash (start e) ops = some (r, ht)) :
    ∃ s, Inv hash U ht (bag [] ops).2 s := by
  obtain ⟨s0, i0⟩ := start_inv (hash := hash) (U := U) e
  obtain ⟨ht', s', e1, i1⟩ := run_inv hU ops _ _ _ i0 hw (by simpa using hn)
  rw [e1] at h
  cases h
  exact ⟨s', i1⟩

/-! ### The property -/

/-- Every history runs to its end — no undefined shift, no access outside the table, no endless probe, no failed
assertion — and every deletion answers whether the pointer was there. -/
theorem C44_history_partial {hash : Word → Word} {U : Word → Prop} (hU : Spaced U) (e : Option Nat) (ops : List Op)
    (hw : Within U ops) (hn : adds ops ≤ 3 * 2 ^ 28) : ∃ ht, run hash (start e) ops = some ((bag [] ops).1, ht) := by
  obtain ⟨s0, i0⟩ := start_inv (hash := hash) (U := U) e
  obtain ⟨ht', s', e1, -⟩ := run_inv hU ops _ _ _ i0 hw (by simpa using hn)
  exact ⟨ht', e1⟩

/-- Walking the matches of a hash ends, visits every present element with that hash exactly as often as it is present,
and visits nothing that is not present. -/
theorem C44_visits_partial {hash : Word → Word} {U : Word → Prop} (hU : Spaced U) {e : Option Nat} {ops : List Op}
    (hw : Within U ops) (hn : adds ops ≤ 3 * 2 ^ 28) {r : List Bool} {ht : Ht}
    (h : run hash (start e) ops = some (r, ht)) (x : Word) :
    ∃ l, ht.matches x = some l ∧
      (l.filter fun p => hash p == x).Perm ((bag [] ops).2.filter fun p => hash p == x) ∧
      ∃ rest, (bag [] ops).2.Perm (l ++ rest) := by
  obtain ⟨s, i⟩ := run_start hU hw hn h
  obtain ⟨l, h1, -, ⟨t, h2, h3⟩, -⟩ := matches_spec i.view i.chain i.notFull x
  refine ⟨l.map (·.2), h1, ?_, t, ?_⟩
  · have := (i.perm.symm.trans h2).filter fun p => hash p == x
    rw [List.filter_append, h3, List.nil_append] at this
    exact this.symm
  · exact (i.perm.symm.trans h2).trans List.perm_append_comm

/-- Looking up a key finds an element exactly if one with that key is present, and what it finds is present and has the
key.  `eq` tells which elements have the key and `x` is the hash of the key. -/
theorem C44_get_partial {hash : Word → Word} {U : Word → Prop} (hU : Spaced U) {e : Option Nat} {ops : List Op}
    (hw : Within U ops) (hn : adds ops ≤ 3 * 2 ^ 28) {r : List Bool} {ht : Ht}
    (h : run hash (start e) ops = some (r, ht)) (x : Word) (eq : Word → Bool)
    (heq : ∀ p ∈ (bag [] ops).2, eq p = true → hash p = x) :
    ∃ o, ht.get x eq = some o ∧ (∀ p, o = some p → p ∈ (bag [] ops).2 ∧ eq p = true) ∧
      (o = none → ∀ p ∈ (bag [] ops).2, eq p = false) := by
  obtain ⟨s, i⟩ := run_start hU hw hn h
  obtain ⟨l, -, hs, ⟨t, h2, h3⟩, -⟩ := matches_spec i.view i.chain i.notFull x
  unfold Ht.get
  rw [hs]
  refine ⟨(l.find? fun c => eq c.2).map (·.2), rfl, ?_, ?_⟩
  · intro p hp
    obtain ⟨c, hc, rfl⟩ := Option.map_eq_some_iff.1 hp
    have hmem := List.mem_of_find?_eq_some hc
    refine ⟨?_, List.find?_some (p := fun (c : Nat × Word) => eq c.2) hc⟩
    rw [← i.perm.mem_iff, h2.mem_iff]
    exact List.mem_append_right _ (List.mem_map.2 ⟨c, hmem, rfl⟩)
  · intro hnone p hp
    have hnone : (l.find? fun c => eq c.2) = none := by
      cases hf : l.find? fun c => eq c.2 with
      | none => rfl
      | some c => rw [hf] at hnone; cases hnone
    cases hq : eq p with
    | false => rfl
    | true =>
      exfalso
      have hh := heq p hp hq
      rw [← i.perm.mem_iff, h2.mem_iff, List.mem_append] at hp
      rcases hp with hp | hp
      · have : p ∈ t.filter fun q => hash q == x := by simp [hp, hh]
        rw [h3] at this
        simp at this
      · obtain ⟨c, hc, rfl⟩ := List.mem_map.1 hp
        have := List.find?_eq_none.1 hnone c hc
        exact this hq

/-- Iterating visits every present element exactly as often as it is present, and nothing else. -/
theorem C44_iterate_partial {hash : Word → Word} {U : Word → Prop} (hU : Spaced U) {e : Option Nat} {ops : List Op}
    (hw : Within U ops) (hn : adds ops ≤ 3 * 2 ^ 28) {r : List Bool} {ht : Ht}
    (h : run hash (start e) ops = some (r, ht)) : ht.iterate.Perm (bag [] ops).2 := by
  obtain ⟨s, i⟩ := run_start hU hw hn h
  rw [iterate_spec i]
  exact i.perm

/-- Pointers with the same highest bit (above bit 0) can share a table. -/
theorem spaced_of_same_top {U : Word → Prop} {t : Nat} (ht : 1 ≤ t)
    (h : ∀ p, U p → p.getLsbD t = true ∧ ∀ i, t < i → p.getLsbD i = false) : Spaced U := by
  intro p q hp hq
  exact ⟨t, ht, (h q hq).1, fun _ => (h p hp).2⟩

/-- Without a condition on the pointers the claim is false: adding `0x18` and then `0x08`, two non-null aligned pointers
with hash 0, loses the second one: its table word is 0, that of an empty slot. -/
theorem C44_lost_refuted : ∃ ht, run (fun _ => 0) init [.add 0x18, .add 0x08] = some ([], ht) ∧
    ht.elems = 2 ∧ ht.iterate = [0x18] ∧ ht.get 0 (· == 0x08) = some none := by
  refine ⟨((run (fun _ => 0) init [.add 0x18, .add 0x08]).getD ([], init)).2, ?_, ?_, ?_, ?_⟩ <;> decide +kernel

/-! ### The hypotheses are met -/

/-- A history with growth, a deletion, a missing deletion and a collision, on pointers of a heap. -/
def sampleOps : List Op :=
  [.add 0x5010, .add 0x5040, .add 0x6080, .add 0x50c0, .del 0x5040, .del 0x7777, .add 0x5100, .add 0x7ff0]

example : Spaced (fun p => p.getLsbD 14 = true ∧ ∀ i, 14 < i → p.getLsbD i = false) := spaced_of_same_top (by omega) fun _ h => h

theorem sample_top (p : Word) (h : 0x4000 ≤ p.toNat) (h' : p.toNat < 0x8000) :
    p.getLsbD 14 = true ∧ ∀ i, 14 < i → p.getLsbD i = false := by
  constructor
  · rw [← BitVec.testBit_toNat, Nat.testBit_eq_decide_div_mod_eq]
    simp only [decide_eq_true_eq]
    omega
  · intro i hi
    rw [← BitVec.testBit_toNat]
    apply Nat.testBit_lt_two_pow
    have hpow : 2 ^ 15 ≤ 2 ^ i := Nat.pow_le_pow_right (by omega) (by omega)
    exact Nat.lt_of_lt_of_le h' hpow

example : Within (fun p => p.getLsbD 14 = true ∧ ∀ i, 14 < i → p.getLsbD i = false) sampleOps := by
  intro p hp
  simp only [sampleOps, List.mem_cons, List.not_mem_nil, or_false, Op.add.injEq, reduceCtorEq, false_or] at hp
  rcases hp with rfl | rfl | rfl | rfl | rfl | rfl <;> exact sample_top _ (by decide) (by decide)

example : adds sampleOps ≤ 3 * 2 ^ 28 := by decide

example : bag [] sampleOps = ([true, false], [0x7ff0, 0x5100, 0x50c0, 0x6080, 0x5010]) := by decide

example : (run (fun p => p &&& 7) init sampleOps).map (·.1) = some [true, false] := by decide +kernel

end Htable
