import Verif.Htable.PropsHtable
/-!
The way the programs use the hash table: as a map from keys to values.  An object with a key and a value is allocated, the
table is searched for the key, and either the value of the object found is changed or the new object is added
(htm/erat.c:185-225, htm/pwc.c:182-222 and 274-330, qtlib/bb.c:130-155, qtlib/ppcstats.c:280-300).  `Map.refines` shows
that this is a map: the models of those files use association lists for it.
-/
namespace Htable.Map

variable {K V : Type} [DecidableEq K]

/-- `htable_*_get` with a comparison of keys (htable_type.h:90-104); the result is a pointer. -/
def get (H : K → Word) (keyOf : Word → K) (ht : Ht) (k : K) : Option (Option Word) := ht.get (H k) fun p => keyOf p == k

/-- The table and the values of the objects. -/
structure St (V : Type) where
  ht : Ht
  heap : Word → V

def setHeap (heap : Word → V) (p : Word) (v : V) : Word → V := fun q => if q = p then v else heap q

/-- Change the value of the object with key `k`, or add the object at `p` if there is none. -/
def put (H : K → Word) (keyOf : Word → K) (st : St V) (p : Word) (k : K) (upd : Option V → V) : Option (St V) :=
  match get H keyOf st.ht k with
  | none => none
  | some (some q) => some { st with heap := setHeap st.heap q (upd (some (st.heap q))) }
  | some none => (st.ht.add (fun p => H (keyOf p)) p).map fun ht => { ht := ht, heap := setHeap st.heap p (upd none) }

/-- The value found for a key. -/
def lookup (H : K → Word) (keyOf : Word → K) (st : St V) (k : K) : Option (Option V) :=
  (get H keyOf st.ht k).map (·.map st.heap)

/-- A use of the map: the address of the new object, its key and the change of the value. -/
structure Put (K V : Type) where
  p : Word
  k : K
  upd : Option V → V

def runMap (H : K → Word) (keyOf : Word → K) : St V → List (Put K V) → Option (St V)
  | st, [] => some st
  | st, o :: l => (put H keyOf st o.p o.k o.upd).bind fun st => runMap H keyOf st l

/-- The map as a function. -/
def spec (f : K → Option V) : List (Put K V) → K → Option V
  | [] => f
  | o :: l => spec (fun k => if k = o.k then some (o.upd (f k)) else f k) l

/-- The table holds one object for every key of the map. -/
structure Ref (H : K → Word) (keyOf : Word → K) (U : Word → Prop) (st : St V) (f : K → Option V) (S : List Word) : Prop where
  inv : ∃ s, Inv (fun p => H (keyOf p)) U st.ht S s
  one : (S.map keyOf).Nodup
  sound : ∀ p ∈ S, f (keyOf p) = some (st.heap p)
  complete : ∀ k, f k ≠ none → ∃ p ∈ S, keyOf p = k

variable {H : K → Word} {keyOf : Word → K} {U : Word → Prop} {st : St V} {f : K → Option V} {S : List Word}

theorem Ref.get (r : Ref H keyOf U st f S) (k : K) :
    (∃ p, Map.get H keyOf st.ht k = some (some p) ∧ p ∈ S ∧ keyOf p = k) ∨
    (Map.get H keyOf st.ht k = some none ∧ ∀ p ∈ S, keyOf p ≠ k) := by
  obtain ⟨s, i⟩ := r.inv
  obtain ⟨l, -, hs, ⟨t, h2, h3⟩, -⟩ := matches_spec i.view i.chain i.notFull (H k)
  unfold Map.get Ht.get
  rw [hs]
  cases hf : l.find? fun c => keyOf c.2 == k with
  | some c =>
    left
    have hmem := List.mem_of_find?_eq_some hf
    have hq := List.find?_some (p := fun (c : Nat × Word) => keyOf c.2 == k) hf
    refine ⟨c.2, rfl, ?_, by simpa using hq⟩
    rw [← i.perm.mem_iff, h2.mem_iff]
    exact List.mem_append_right _ (List.mem_map.2 ⟨c, hmem, rfl⟩)
  | none =>
    right
    refine ⟨rfl, ?_⟩
    rintro p hp rfl
    rw [← i.perm.mem_iff, h2.mem_iff, List.mem_append] at hp
    rcases hp with hp | hp
    · have : p ∈ t.filter fun q => H (keyOf q) == H (keyOf p) := by simp [hp]
      rw [h3] at this
      simp at this
    · obtain ⟨c, hc, rfl⟩ := List.mem_map.1 hp
      have := List.find?_eq_none.1 hf c hc
      simp at this

theorem eq_of_nodup_map {α β : Type} {g : α → β} : ∀ {l : List α}, (l.map g).Nodup → ∀ {a b}, a ∈ l → b ∈ l → g a = g b → a = b := by
  intro l
  induction l with
  | nil => intro _ a b ha; simp at ha
  | cons x l ih =>
    intro h a b ha hb hg
    rw [List.map_cons, List.nodup_cons] at h
    rcases List.mem_cons.1 ha with h1 | ha' <;> rcases List.mem_cons.1 hb with h2 | hb'
    · rw [h1, h2]
    · rw [h1] at hg; exact absurd (List.mem_map.2 ⟨b, hb', hg.symm⟩) h.1
    · rw [h2] at hg; exact absurd (List.mem_map.2 ⟨a, ha', hg⟩) h.1
    · exact ih h.2 ha' hb' hg

theorem Ref.put (hU : Spaced U) (r : Ref H keyOf U st f S) (o : Put K V) (hp : U o.p) (hk : keyOf o.p = o.k)
    (hsmall : S.length + 1 ≤ 3 * 2 ^ 28) :
    ∃ st' S', Map.put H keyOf st o.p o.k o.upd = some st' ∧ S'.length ≤ S.length + 1 ∧
      Ref H keyOf U st' (fun k => if k = o.k then some (o.upd (f k)) else f k) S' := by
  unfold Map.put
  rcases r.get o.k with ⟨q, h1, h2, h3⟩ | ⟨h1, h2⟩
  · rw [h1]
    refine ⟨_, S, rfl, by omega, r.inv, r.one, ?_, ?_⟩
    · intro p hpS
      simp only [setHeap]
      by_cases hpq : p = q
      · subst hpq
        rw [if_pos h3, if_pos rfl, r.sound p hpS]
      · rw [if_neg hpq, if_neg, r.sound p hpS]
        intro e
        exact hpq (eq_of_nodup_map r.one hpS h2 (by rw [e, h3]))
    · intro k hkn
      by_cases hko : k = o.k
      · exact ⟨q, h2, by rw [h3, hko]⟩
      · simp only [if_neg hko] at hkn
        exact r.complete k hkn
  · rw [h1]
    obtain ⟨s, i⟩ := r.inv
    obtain ⟨ht', s', e, i'⟩ := i.add hU hp hsmall
    simp only
    rw [e]
    refine ⟨_, o.p :: S, rfl, by simp, ⟨s', i'⟩, ?_, ?_, ?_⟩
    · rw [List.map_cons, List.nodup_cons]
      refine ⟨?_, r.one⟩
      intro hm
      obtain ⟨p, hpS, hpe⟩ := List.mem_map.1 hm
      exact h2 p hpS (by rw [hpe, hk])
    · intro p hpS
      simp only [setHeap]
      rcases List.mem_cons.1 hpS with rfl | hpS
      · rw [if_pos hk, if_pos rfl]
        have : f (keyOf o.p) = none := by
          cases hf : f (keyOf o.p) with
          | none => rfl
          | some v =>
            obtain ⟨p, hpS, hpe⟩ := r.complete (keyOf o.p) (by rw [hf]; simp)
            exact absurd (hpe.trans hk) (h2 p hpS)
        rw [this]
      · have hne := h2 p hpS
        rw [if_neg hne, if_neg, r.sound p hpS]
        rintro rfl
        exact hne hk
    · intro k hkn
      by_cases hko : k = o.k
      · exact ⟨o.p, by simp, by rw [hk, hko]⟩
      · simp only [if_neg hko] at hkn
        obtain ⟨p, hpS, hpe⟩ := r.complete k hkn
        exact ⟨p, List.mem_cons_of_mem _ hpS, hpe⟩

theorem Ref.lookup (r : Ref H keyOf U st f S) (k : K) : Map.lookup H keyOf st k = some (f k) := by
  unfold Map.lookup
  rcases r.get k with ⟨q, h1, h2, h3⟩ | ⟨h1, h2⟩
  · rw [h1, ← h3, r.sound q h2]; rfl
  · rw [h1]
    cases hf : f k with
    | none => rfl
    | some v =>
      obtain ⟨p, hpS, hpe⟩ := r.complete k (by rw [hf]; simp)
      exact absurd hpe (h2 p hpS)

theorem Ref.run (hU : Spaced U) : ∀ (l : List (Put K V)) (st : St V) (f : K → Option V) (S : List Word),
    Ref H keyOf U st f S → (∀ o ∈ l, U o.p ∧ keyOf o.p = o.k) → S.length + l.length ≤ 3 * 2 ^ 28 →
    ∃ st' S', runMap H keyOf st l = some st' ∧ Ref H keyOf U st' (spec f l) S' := by
  intro l
  induction l with
  | nil => intro st f S r _ _; exact ⟨st, S, rfl, r⟩
  | cons o l ih =>
    intro st f S r ho hn
    rw [List.length_cons] at hn
    obtain ⟨h1, h2⟩ := ho o (by simp)
    obtain ⟨st1, S1, e1, hl, r1⟩ := r.put hU o h1 h2 (by omega)
    obtain ⟨st2, S2, e2, r2⟩ := ih st1 _ S1 r1 (fun o ho' => ho o (List.mem_cons_of_mem _ ho')) (by omega)
    refine ⟨st2, S2, ?_, r2⟩
    unfold runMap
    rw [e1, Option.bind_some, e2]

/-- Using the hash table in this way is using a map: after any history of changes the lookups end and give what the map
gives.  `keyOf` tells the key of the object at an address; `o.p` matters only if the object is added. -/
theorem refines (H : K → Word) (keyOf : Word → K) (hU : Spaced U) (e : Option Nat) (heap : Word → V) (l : List (Put K V))
    (hl : ∀ o ∈ l, U o.p ∧ keyOf o.p = o.k) (hn : l.length ≤ 3 * 2 ^ 28) :
    ∃ st, runMap H keyOf { ht := start e, heap := heap } l = some st ∧
      ∀ k, lookup H keyOf st k = some (spec (fun _ => none) l k) := by
  have r0 : Ref H keyOf U { ht := start e, heap := heap } (fun _ => none) [] :=
    ⟨start_inv e, by simp, by simp, by simp⟩
  obtain ⟨st, S, h1, h2⟩ := Ref.run hU l _ _ _ r0 hl (by simpa using hn)
  exact ⟨st, h1, h2.lookup⟩

/-- A concrete case: counting with three keys, one of them twice. -/
example : ((runMap (K := Nat) (V := Nat) (fun k => BitVec.ofNat 64 k) (fun p => p.toNat / 16)
    { ht := start none, heap := fun _ => 0 }
    [⟨0x50, 5, fun v => v.getD 0 + 1⟩, ⟨0x60, 6, fun v => v.getD 0 + 1⟩, ⟨0x5f, 5, fun v => v.getD 0 + 1⟩,
     ⟨0x70, 7, fun v => v.getD 0 + 1⟩]).bind fun st => lookup (fun k => BitVec.ofNat 64 k) (fun p => p.toNat / 16) st 5) =
    some (some 2) := by decide +kernel

end Htable.Map
