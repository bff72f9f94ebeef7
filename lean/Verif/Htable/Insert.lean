import Verif.Htable.Loops
/-! Doubling, rehashing and the change of the masks. -/
namespace Htable

/-- The table with the words of the slots. -/
def Ht.put (ht : Ht) (hash : Word → Word) (s : List Slot) : Ht := { ht with table := s.map (ht.enc hash) }

/-- Facts about a list of slots that make it a view of `ht.put`. -/
structure Good (ht : Ht) (s : List Slot) : Prop where
  len : s.length = ht.size
  masks : Masks ht
  fits : ∀ p ∈ elements s, Fits ht p

theorem Good.view {hash : Word → Word} {ht : Ht} {s : List Slot} (g : Good ht s) : View hash (ht.put hash s) s where
  len := g.len
  words := rfl
  masks := ⟨g.masks.perf, g.masks.cb⟩
  fits := fun p hp => ⟨(g.fits p hp).common, (g.fits p hp).shown⟩

theorem View.good {hash : Word → Word} {ht : Ht} {s : List Slot} (v : View hash ht s) : Good ht s :=
  ⟨v.len, v.masks, v.fits⟩

theorem View.put_eq {hash : Word → Word} {ht : Ht} {s : List Slot} (v : View hash ht s) : ht.put hash s = ht := by
  unfold Ht.put; rw [← v.words]

theorem valid_enc' {hash : Word → Word} {ht : Ht} {x : Slot} (h : ∀ p ∈ x.ptr?, Fits ht p) : valid (ht.enc hash x) = x.isElem := by
  cases x with
  | empty => rfl
  | deleted => rfl
  | elem p f => exact (h p rfl).valid_mk _

theorem not_deleted_count {s : List Slot} (h : ∀ x ∈ s, x ≠ .deleted) : nonEmpty s = (elements s).length := by
  unfold nonEmpty
  induction s with
  | nil => rfl
  | cons x s ih =>
    rw [elements_cons, List.countP_cons, ih fun y hy => h y (List.mem_cons_of_mem _ hy)]
    have := h x (by simp)
    cases x with
    | empty => simp [Slot.ptr?, Slot.used]
    | deleted => exact absurd rfl this
    | elem p f => simp [Slot.ptr?, Slot.used]

theorem set_not_deleted {s : List Slot} (h : ∀ x ∈ s, x ≠ .deleted) (i : Nat) (p : Word) (f : Bool) :
    ∀ x ∈ s.set i (.elem p f), x ≠ .deleted := by
  intro x hx
  rcases List.mem_or_eq_of_mem_set hx with h1 | rfl
  · exact h x h1
  · simp

/-! ### Doubling -/

theorem addAll_spec {hash : Word → Word} {old new : Ht} (hm : new.mask = old.mask) (hcb : new.cbits = old.cbits)
    (ho : Masks old) :
    ∀ (l t : List Slot), (∀ p ∈ elements l, Fits old p) → Good new t → Chain (fun p => new.bucket (hash p)) new.size t →
      (∀ x ∈ t, x ≠ .deleted) → (elements l).length + (elements t).length < new.size →
      ∃ t', (new.put hash t).addAll hash (l.map (old.enc hash)) = some (new.put hash t') ∧ Good new t' ∧
        Chain (fun p => new.bucket (hash p)) new.size t' ∧ (∀ x ∈ t', x ≠ .deleted) ∧
        (elements t').Perm (elements l ++ elements t) := by
  intro l
  induction l with
  | nil =>
    intro t _ g hc hd _
    exact ⟨t, rfl, g, hc, hd, .rfl⟩
  | cons x l ih =>
    intro t hf g hc hd hroom
    rw [List.map_cons]
    unfold Ht.addAll
    rw [elements_cons] at hf hroom ⊢
    have hfl : ∀ p ∈ elements l, Fits old p := fun p hp => hf p (List.mem_append_right _ hp)
    cases x with
    | empty =>
      rw [if_neg (by simp [Ht.enc, valid])]
      exact ih t hfl g hc hd (by simpa [Slot.ptr?] using hroom)
    | deleted =>
      rw [if_neg (by simp [Ht.enc, valid])]
      exact ih t hfl g hc hd (by simpa [Slot.ptr?] using hroom)
    | elem p f =>
      have hfp : Fits old p := hf p (by simp [Slot.ptr?])
      simp only [Slot.ptr?, Option.toList, List.singleton_append, List.length_cons] at hroom
      rw [if_pos (by rw [valid_enc' (by simpa [Slot.ptr?] using hfp)]; rfl)]
      have hraw : (new.put hash t).raw (old.enc hash (.elem p f)) = p := by
        have : (new.put hash t).raw (old.enc hash (.elem p f)) = old.raw (old.enc hash (.elem p f)) := by
          unfold Ht.raw
          show _ &&& ~~~ new.mask ||| new.cbits = _
          rw [hm, hcb]
        rw [this]
        exact hfp.raw_mk (ho.hashBits_sub _ _)
      rw [hraw]
      obtain ⟨k, y, hk, hy, he, -, e1, e2, e3⟩ := (g.view (hash := hash)).htAdd hc (p := p) (by
        show _ < new.size
        omega)
      rw [e1]
      simp only [Option.bind_some]
      have hfn : Fits new p := by
        obtain ⟨h1, h2⟩ := hfp
        exact ⟨by rw [hm, hcb]; exact h1, by rw [hm]; exact h2⟩
      have g' : Good new (t.set (((new.put hash t).bucket (hash p) + k) % (new.put hash t).size) (.elem p (decide (k = 0)))) := by
        refine ⟨by rw [List.length_set]; exact g.len, g.masks, ?_⟩
        intro q hq
        rcases List.mem_cons.1 (e3.mem_iff.1 hq) with rfl | hq
        · exact hfn
        · exact g.fits q hq
      obtain ⟨t', a1, a2, a3, a4, a5⟩ := ih _ hfl g' e2 (set_not_deleted hd _ _ _) (by
        rw [e3.length_eq, List.length_cons]; omega)
      refine ⟨t', a1, a2, a3, a4, a5.trans ?_⟩
      exact (e3.append_left _).trans (by
        simp only [Slot.ptr?, Option.toList, List.cons_append]
        exact List.perm_middle)

theorem lowestBit_sub (mask : Word) : ∀ fuel i, lowestBit mask fuel i &&& ~~~ mask = 0 := by
  intro fuel
  induction fuel with
  | zero => intro i; simp [lowestBit]
  | succ fuel ih =>
    intro i
    unfold lowestBit
    split
    · rename_i h
      apply BitVec.eq_of_getLsbD_eq
      intro j hj
      rw [BitVec.getLsbD_and, BitVec.getLsbD_twoPow, BitVec.getLsbD_not]
      by_cases hij : i = j
      · subst hij; simp [h]
      · simp [hij]
    · exact ih (i + 1)

theorem chain_replicate (home : Word → Nat) (n m : Nat) : Chain home n (List.replicate m .empty) := by
  intro k _ p f h
  have := List.eq_of_mem_replicate (List.mem_of_getElem? h)
  cases this

theorem elements_replicate (m : Nat) : elements (List.replicate m .empty) = [] := by
  induction m with
  | zero => rfl
  | succ m ih => rw [List.replicate_succ, elements_cons, ih]; rfl

/-- The table that `double_table` fills. -/
def Ht.fresh (ht : Ht) : Ht :=
  { ht with
    bits := ht.bits + 1
    perfect := if ht.perfect = 0 ∧ ht.mask ≠ 0 then lowestBit ht.mask 64 0 else ht.perfect
    max := 3 * 2 ^ (ht.bits + 1) / 4
    maxDel := 9 * 2 ^ (ht.bits + 1) / 10 }

theorem double_spec {hash : Word → Word} {ht : Ht} {s : List Slot} (v : View hash ht s) (hb : ht.bits < 30)
    (hroom : (elements s).length < 2 ^ (ht.bits + 1)) :
    ∃ t', ht.double hash = some { ht.fresh.put hash t' with deleted := 0 } ∧ Good ht.fresh t' ∧
      Chain (fun p => ht.fresh.bucket (hash p)) ht.fresh.size t' ∧ (∀ x ∈ t', x ≠ .deleted) ∧
      (elements t').Perm (elements s) := by
  have hmasks : Masks ht.fresh := by
    refine ⟨?_, v.masks.cb⟩
    unfold Ht.fresh
    simp only
    split
    · exact lowestBit_sub _ _ _
    · exact v.masks.perf
  have g0 : Good ht.fresh (List.replicate ht.fresh.size .empty) := by
    refine ⟨List.length_replicate .., hmasks, ?_⟩
    intro p hp
    rw [elements_replicate] at hp
    simp at hp
  obtain ⟨t', a1, a2, a3, a4, a5⟩ := addAll_spec (hash := hash) (old := ht) (new := ht.fresh) rfl rfl v.masks s
    (List.replicate ht.fresh.size .empty) v.fits g0 (chain_replicate _ _ _)
    (fun x hx => by rw [List.eq_of_mem_replicate hx]; simp) (by
      rw [elements_replicate]
      exact hroom)
  rw [elements_replicate, List.append_nil] at a5
  refine ⟨t', ?_, a2, a3, a4, a5⟩
  have hput : ht.fresh.put hash (List.replicate ht.fresh.size .empty) =
      { ht.fresh with table := List.replicate (2 ^ (ht.bits + 1)) 0 } := by
    unfold Ht.put
    rw [List.map_replicate]
    rfl
  unfold Ht.double
  rw [if_neg (by omega)]
  simp only
  rw [hput, ← v.words] at a1
  have : (({ ht with bits := ht.bits + 1,
                     perfect := if ht.perfect = 0 ∧ ht.mask ≠ 0 then lowestBit ht.mask 64 0 else ht.perfect,
                     table := List.replicate (2 ^ (ht.bits + 1)) 0 } : Ht).adjust) =
      { ht.fresh with table := List.replicate (2 ^ (ht.bits + 1)) 0 } := rfl
  rw [this, a1]
  rfl

/-! ### Rehashing -/

/-- Distance of the bucket of a hash from the start of the rehashing. -/
def rel (n σ h : Nat) : Nat := (h + n - σ) % n

theorem rel_lt {n σ h : Nat} (hn : 0 < n) : rel n σ h < n := Nat.mod_lt _ hn

theorem rel_add {n σ h : Nat} (hσ : σ < n) (k : Nat) : (h + k) % n = (σ + (rel n σ h + k)) % n := by
  unfold rel
  rw [show σ + ((h + n - σ) % n + k) = (h + n - σ) % n + (σ + k) by omega, Nat.mod_add_mod,
    show h + n - σ + (σ + k) = (h + k) + n by omega, Nat.add_mod_right]

/-- State of the rehashing before turn `i`: the slots before `i` hold no deleted entry and their elements can be reached;
those from `i` on are reachable when one ignores what is before `i`. -/
structure Lin (home : Word → Nat) (n σ i : Nat) (s : List Slot) : Prop where
  nodel : ∀ r < i, s[(σ + r) % n]? ≠ some .deleted
  ok : ∀ r < n, ∀ p f, s[(σ + r) % n]? = some (.elem p f) → rel n σ (home p) ≤ r ∧ (f = true ↔ r = rel n σ (home p)) ∧
    ∀ r', rel n σ (home p) ≤ r' → r' < r → (r < i ∨ i ≤ r') → s[(σ + r') % n]? ≠ some .empty

theorem Lin.ofChain {home : Word → Nat} {n σ : Nat} {s : List Slot} (hσ : σ < n) (hh : ∀ p, home p < n)
    (hc : Chain home n s) (he : s[σ]? = some .empty) : Lin home n σ 0 s := by
  refine ⟨fun r hr => by omega, ?_⟩
  intro r hr p f h
  have hn : 0 < n := by omega
  have hrel := rel_lt (σ := σ) (h := home p) hn
  -- distance from the bucket
  have hk : ∃ k < n, (σ + r) % n = (home p + k) % n ∧ (rel n σ (home p) ≤ r → k = r - rel n σ (home p)) ∧
      (r < rel n σ (home p) → k = r + n - rel n σ (home p)) := by
    by_cases hle : rel n σ (home p) ≤ r
    · refine ⟨r - rel n σ (home p), by omega, ?_, fun _ => rfl, fun h => by omega⟩
      rw [rel_add (h := home p) hσ]
      congr 2; omega
    · refine ⟨r + n - rel n σ (home p), by omega, ?_, fun h => by omega, fun _ => rfl⟩
      rw [rel_add (h := home p) hσ, show σ + (rel n σ (home p) + (r + n - rel n σ (home p))) = σ + r + n by omega,
        Nat.add_mod_right]
  obtain ⟨k, hkn, hpos, hk1, hk2⟩ := hk
  rw [hpos] at h
  obtain ⟨c1, c2⟩ := hc k hkn p f h
  by_cases hle : rel n σ (home p) ≤ r
  · have hk := hk1 hle
    refine ⟨hle, ?_, ?_⟩
    · rw [c1]; omega
    · intro r' h1 h2 _
      have := c2 (r' - rel n σ (home p)) (by omega)
      rw [rel_add (h := home p) hσ] at this
      rwa [show rel n σ (home p) + (r' - rel n σ (home p)) = r' by omega] at this
  · exfalso
    have hk := hk2 (by omega)
    by_cases hr0 : r = 0
    · subst hr0
      rw [← hpos, Nat.add_zero, Nat.mod_eq_of_lt hσ, he] at h
      cases h
    · have := c2 (n - rel n σ (home p)) (by omega)
      rw [rel_add (h := home p) hσ, show σ + (rel n σ (home p) + (n - rel n σ (home p))) = σ + n by omega,
        Nat.add_mod_right, Nat.mod_eq_of_lt hσ] at this
      exact this he

theorem Lin.toChain {home : Word → Nat} {n σ : Nat} {s : List Slot} (hσ : σ < n) (hh : ∀ p, home p < n)
    (hl : Lin home n σ n s) : Chain home n s := by
  intro k hk p f h
  have hn : 0 < n := by omega
  have hrel := rel_lt (σ := σ) (h := home p) hn
  have hex : ∃ r < n, (home p + k) % n = (σ + r) % n ∧
      (r = rel n σ (home p) + k ∨ r + n = rel n σ (home p) + k) := by
    by_cases hlt : rel n σ (home p) + k < n
    · exact ⟨rel n σ (home p) + k, hlt, rel_add hσ k, .inl rfl⟩
    · refine ⟨rel n σ (home p) + k - n, by omega, ?_, .inr (by omega)⟩
      rw [rel_add (h := home p) hσ k, show σ + (rel n σ (home p) + k) = σ + (rel n σ (home p) + k - n) + n by omega, Nat.add_mod_right]
  obtain ⟨r, hr, hpos, hrk⟩ := hex
  rw [hpos] at h
  obtain ⟨h1, h2, h3⟩ := hl.ok r hr p f h
  have hrk : r = rel n σ (home p) + k := by omega
  refine ⟨by rw [h2]; omega, ?_⟩
  intro k' hk'
  rw [rel_add (h := home p) hσ k']
  exact h3 _ (by omega) (by omega) (.inl hr)

theorem Lin.nodel_all {home : Word → Nat} {n σ : Nat} {s : List Slot} (hσ : σ < n) (hlen : s.length = n)
    (hl : Lin home n σ n s) : ∀ x ∈ s, x ≠ .deleted := by
  rintro x hx rfl
  obtain ⟨i, hi⟩ := List.getElem?_of_mem hx
  have hlt := (List.getElem?_eq_some_iff.1 hi).1
  by_cases hle : σ ≤ i
  · apply hl.nodel (i - σ) (by omega)
    rw [show σ + (i - σ) = i by omega, Nat.mod_eq_of_lt (by omega)]
    exact hi
  · apply hl.nodel (i + n - σ) (by omega)
    rw [show σ + (i + n - σ) = i + n by omega, Nat.add_mod_right, Nat.mod_eq_of_lt (by omega)]
    exact hi

theorem get_set_at {s : List Slot} {n σ r i : Nat} (hlen : s.length = n) (hσ : σ < n) (hr : r < n) (hi : i < n) (x : Slot) :
    (s.set ((σ + i) % n) x)[(σ + r) % n]? = if r = i then some x else s[(σ + r) % n]? := by
  by_cases h : r = i
  · subst h
    rw [if_pos rfl, List.getElem?_set, if_pos rfl, if_pos (by rw [hlen]; exact Nat.mod_lt _ (by omega))]
  · rw [if_neg h, List.getElem?_set_ne]
    intro e
    exact h (mod_inj hσ hi hr e).symm

theorem Lin.skip {home : Word → Nat} {n σ i : Nat} {s : List Slot} (hl : Lin home n σ i s)
    (hnd : s[(σ + i) % n]? ≠ some .deleted)
    (hhome : ∀ p f, s[(σ + i) % n]? = some (.elem p f) → f = true) : Lin home n σ (i + 1) s := by
  refine ⟨?_, ?_⟩
  · intro r hr
    by_cases h : r = i
    · subst h; exact hnd
    · exact hl.nodel r (by omega)
  · intro r hr p f h
    obtain ⟨h1, h2, h3⟩ := hl.ok r hr p f h
    refine ⟨h1, h2, ?_⟩
    intro r' a b c
    by_cases hri : r = i
    · subst hri
      have := h2.1 (hhome p f h)
      omega
    · exact h3 r' a b (by omega)

theorem Lin.clear {home : Word → Nat} {n σ i : Nat} {s : List Slot} (hlen : s.length = n) (hσ : σ < n) (hi : i < n)
    (hl : Lin home n σ i s) : Lin home n σ (i + 1) (s.set ((σ + i) % n) .empty) := by
  refine ⟨?_, ?_⟩
  · intro r hr
    rw [get_set_at hlen hσ (by omega) hi]
    split
    · simp
    · exact hl.nodel r (by omega)
  · intro r hr p f h
    rw [get_set_at hlen hσ hr hi] at h
    split at h
    · cases h
    · obtain ⟨h1, h2, h3⟩ := hl.ok r hr p f h
      refine ⟨h1, h2, ?_⟩
      intro r' a b c
      rw [get_set_at hlen hσ (by omega) hi, if_neg (by omega)]
      exact h3 r' a b (by omega)

theorem Lin.fill {home : Word → Nat} {n σ i r0 : Nat} {s : List Slot} {p : Word} (hlen : s.length = n) (hσ : σ < n)
    (hi : i < n) (hl : Lin home n σ (i + 1) s) (h0 : rel n σ (home p) ≤ r0) (hr0 : r0 ≤ i)
    (hmin : ∀ r, rel n σ (home p) ≤ r → r < r0 → s[(σ + r) % n]? ≠ some .empty) :
    Lin home n σ (i + 1) (s.set ((σ + r0) % n) (.elem p (decide (r0 = rel n σ (home p))))) := by
  have keep : ∀ r < n, s[(σ + r) % n]? ≠ some .empty →
      (s.set ((σ + r0) % n) (.elem p (decide (r0 = rel n σ (home p)))))[(σ + r) % n]? ≠ some .empty := by
    intro r hr h
    rw [get_set_at hlen hσ hr (by omega)]
    split
    · simp
    · exact h
  refine ⟨?_, ?_⟩
  · intro r hr
    rw [get_set_at hlen hσ (by omega) (by omega)]
    split
    · simp
    · exact hl.nodel r hr
  · intro r hr q f h
    rw [get_set_at hlen hσ hr (by omega)] at h
    split at h
    · rename_i hr'
      subst hr'
      simp only [Option.some.injEq, Slot.elem.injEq] at h
      obtain ⟨rfl, rfl⟩ := h
      refine ⟨h0, by simp, ?_⟩
      intro r' a b _
      exact keep r' (by omega) (hmin r' a b)
    · obtain ⟨h1, h2, h3⟩ := hl.ok r hr q f h
      exact ⟨h1, h2, fun r' a b c => keep r' (by omega) (h3 r' a b c)⟩

theorem enc_perfect {hash : Word → Word} {ht : Ht} (hm : Masks ht) (p : Word) (f : Bool) :
    (ht.enc hash (.elem p f)) &&& ht.perfect = if f then ht.perfect else 0 := by
  have h1 := hashBits_perfect (ht := ht) (hash p)
  have h2 : (p &&& ~~~ ht.mask) &&& ht.perfect = 0 := by
    ext i hi
    have := bit_of hm.perf i
    simp at this ⊢
    cases hm : ht.mask[i] <;> simp_all
  unfold Ht.enc Ht.mkHval
  cases f
  · simp only [Bool.false_eq_true, if_false]
    rw [show ht.hashBits (hash p) ||| 0 = ht.hashBits (hash p) from BitVec.or_zero]
    ext i hi
    have h1 := bit_of h1 i
    have h2 := bit_of h2 i
    simp only [hi, BitVec.getLsbD_eq_getElem] at h1 h2
    simp at h1 h2 ⊢
    rintro (⟨a, b⟩ | a)
    · exact h2 a b
    · exact h1 a
  · simp only [if_true]
    ext i hi
    simp
    cases ht.perfect[i] <;> simp

theorem rehashLoop_spec {hash : Word → Word} {ht : Ht} {σ : Nat} (hσ : σ < ht.size) : ∀ m i s, i + m = ht.size →
    Good ht s → Lin (fun p => ht.bucket (hash p)) ht.size σ i s → (elements s).length ≤ ht.size →
    ∃ s', (ht.put hash s).rehashLoop hash σ m i = some (ht.put hash s') ∧ Good ht s' ∧
      Lin (fun p => ht.bucket (hash p)) ht.size σ ht.size s' ∧ (elements s').Perm (elements s) := by
  intro m
  induction m with
  | zero =>
    intro i s hi g hl _
    have : i = ht.size := by omega
    subst this
    exact ⟨s, rfl, g, hl, .rfl⟩
  | succ m ih =>
    intro i s hi g hl hroom
    have hin : i < ht.size := by omega
    have v := g.view (hash := hash)
    unfold Ht.rehashLoop
    simp only
    rw [show (i + σ) % (ht.put hash s).size = (σ + i) % ht.size by rw [Nat.add_comm]; rfl]
    have hlt : (σ + i) % ht.size < s.length := by rw [g.len]; exact Nat.mod_lt _ (by omega)
    have hy := List.getElem?_eq_getElem hlt
    generalize s[(σ + i) % ht.size] = x at hy
    rw [v.get hy]
    simp only
    have hcleargood : x.isElem = false ∨ True → Good ht (s.set ((σ + i) % ht.size) .empty) := by
      intro _
      refine ⟨by rw [List.length_set]; exact g.len, g.masks, ?_⟩
      intro q hq
      refine g.fits q ?_
      have := elements_set (new := .empty) hy
      exact (this.mem_iff.1 (List.mem_append_right _ hq))
    have hclearput : ({ ht.put hash s with table := (ht.put hash s).table.set ((σ + i) % ht.size) 0 } : Ht) =
        ht.put hash (s.set ((σ + i) % ht.size) .empty) := by
      unfold Ht.put
      rw [List.map_set]
      rfl
    dsimp only at hclearput
    cases x with
    | empty =>
      rw [if_pos (show (ht.put hash s).enc hash .empty = 0 from rfl)]
      exact ih (i + 1) s (by omega) g (hl.skip (by rw [hy]; simp) (by intro p f h; rw [hy] at h; cases h)) hroom
    | deleted =>
      rw [if_neg (by simp [Ht.enc]), if_pos (show (ht.put hash s).enc hash .deleted = 1 from rfl), hclearput]
      have hp := elements_set (new := .empty) hy
      simp only [Slot.ptr?, Option.toList, List.nil_append] at hp
      obtain ⟨s', a1, a2, a3, a4⟩ := ih (i + 1) _ (by omega) (hcleargood (.inr trivial))
        (hl.clear g.len hσ hin) (by rw [hp.length_eq]; exact hroom)
      exact ⟨s', a1, a2, a3, a4.trans hp⟩
    | elem p f =>
      have hvalid := v.valid_enc hy
      simp only [Slot.isElem, valid_iff] at hvalid
      rw [if_neg hvalid.1, if_neg hvalid.2]
      have hper : (ht.put hash s).enc hash (.elem p f) &&& (ht.put hash s).perfect = if f then ht.perfect else 0 :=
        enc_perfect (ht := ht.put hash s) v.masks p f
      by_cases hz : (ht.put hash s).enc hash (.elem p f) &&& (ht.put hash s).perfect = 0
      · rw [if_pos hz, hclearput, v.raw_enc hy]
        have hp := elements_set (new := .empty) hy
        simp only [Slot.ptr?, Option.toList, List.nil_append, List.singleton_append] at hp
        have g1 := hcleargood (.inr trivial)
        have v1 := g1.view (hash := hash)
        have hl1 := hl.clear g.len hσ hin
        obtain ⟨k, y, hk, hx, he, hmin, e1, e2⟩ := v1.htAdd_eq (p := p) (by
          have := hp.length_eq
          rw [List.length_cons] at this
          show _ < ht.size
          omega)
        rw [e1]
        simp only [Option.bind_some]
        have hbk : ht.bucket (hash p) < ht.size := Nat.mod_lt _ (by omega)
        obtain ⟨ok1, -, -⟩ := hl.ok i hin p f hy
        have hki : k ≤ i - rel ht.size σ (ht.bucket (hash p)) := by
          apply Nat.le_of_not_lt
          intro hlt
          refine hmin (i - rel ht.size σ (ht.bucket (hash p))) hlt .empty ?_ rfl
          show (s.set ((σ + i) % ht.size) .empty)[(ht.bucket (hash p) + (i - rel ht.size σ (ht.bucket (hash p)))) % ht.size]? = _
          rw [rel_add (h := ht.bucket (hash p)) hσ, get_set_at g.len hσ (by omega) hin, if_pos (by omega)]
        have hposeq : ∀ k, ((ht.put hash (s.set ((σ + i) % ht.size) .empty)).bucket (hash p) + k) %
            (ht.put hash (s.set ((σ + i) % ht.size) .empty)).size =
            (σ + (rel ht.size σ (ht.bucket (hash p)) + k)) % ht.size := fun k => rel_add hσ k
        rw [hposeq] at e2 ⊢
        have hdec : decide (k = 0) = decide (rel ht.size σ (ht.bucket (hash p)) + k = rel ht.size σ (ht.bucket (hash p))) := by
          apply decide_eq_decide.2; omega
        rw [hdec] at e2 ⊢
        have hl2 := hl1.fill (p := p) (r0 := rel ht.size σ (ht.bucket (hash p)) + k) g1.len hσ hin (Nat.le_add_right ..)
          (by omega) (by
            intro r h1 h2 hcontra
            refine hmin (r - rel ht.size σ (ht.bucket (hash p))) (by omega) .empty ?_ rfl
            rw [hposeq, show rel ht.size σ (ht.bucket (hash p)) + (r - rel ht.size σ (ht.bucket (hash p))) = r by omega]
            exact hcontra)
        have hperm := e2.trans hp
        have g2 : Good ht ((s.set ((σ + i) % ht.size) .empty).set
            ((σ + (rel ht.size σ (ht.bucket (hash p)) + k)) % ht.size)
            (.elem p (decide (rel ht.size σ (ht.bucket (hash p)) + k = rel ht.size σ (ht.bucket (hash p)))))) :=
          ⟨by rw [List.length_set, List.length_set]; exact g.len, g.masks, fun q hq => g.fits q (hperm.mem_iff.1 hq)⟩
        obtain ⟨s', a1, a2, a3, a4⟩ := ih (i + 1) _ (by omega) g2 hl2 (by rw [hperm.length_eq]; exact hroom)
        exact ⟨s', a1, a2, a3, a4.trans hperm⟩
      · rw [if_neg hz]
        have hf : f = true := by
          cases f with
          | true => rfl
          | false => rw [hper] at hz; simp at hz
        exact ih (i + 1) s (by omega) g (hl.skip (by rw [hy]; simp) (by
          intro p' f' h
          rw [hy] at h
          cases h
          exact hf)) hroom

theorem firstEmpty_spec : ∀ {l : List Word}, (∃ i : Nat, l[i]? = some 0) → ∃ i : Nat, firstEmpty l = some i ∧ l[i]? = some 0 := by
  intro l
  induction l with
  | nil => rintro ⟨i, h⟩; simp at h
  | cons e l ih =>
    rintro ⟨i, h⟩
    unfold firstEmpty
    by_cases he : e = 0
    · rw [if_pos he]
      exact ⟨0, rfl, by rw [he]; rfl⟩
    · rw [if_neg he]
      cases i with
      | zero => simp at h; exact absurd h he
      | succ i =>
        rw [List.getElem?_cons_succ] at h
        obtain ⟨j, h1, h2⟩ := ih ⟨i, h⟩
        exact ⟨j + 1, by rw [h1]; rfl, by rw [List.getElem?_cons_succ]; exact h2⟩

theorem rehash_spec {hash : Word → Word} {ht : Ht} {s : List Slot} (v : View hash ht s)
    (hc : Chain (fun p => ht.bucket (hash p)) ht.size s) (hroom : nonEmpty s < ht.size) :
    ∃ s', ht.rehash hash = some { ht.put hash s' with deleted := 0 } ∧ Good ht s' ∧
      Chain (fun p => ht.bucket (hash p)) ht.size s' ∧ (∀ x ∈ s', x ≠ .deleted) ∧ (elements s').Perm (elements s) := by
  obtain ⟨i, x, hi, hx⟩ := exists_empty (s := s) (by rw [v.len]; exact hroom)
  have hx : x = .empty := by cases x <;> simp_all [Slot.used]
  subst hx
  obtain ⟨σ, h1, h2⟩ := firstEmpty_spec ⟨i, v.get hi⟩
  have hσ : σ < s.length := by
    have := (List.getElem?_eq_some_iff.1 h2).1
    rwa [v.words, List.length_map] at this
  have hσe : s[σ]? = some .empty := by
    have hy := List.getElem?_eq_getElem hσ
    generalize s[σ] = y at hy
    rw [v.get hy] at h2
    rw [hy, (enc_ne_zero v hy).1 (Option.some.inj h2)]
  rw [v.len] at hσ
  have hl := Lin.ofChain (home := fun p => ht.bucket (hash p)) hσ (fun p => Nat.mod_lt _ (View.size_pos ht)) hc hσe
  obtain ⟨s', a1, a2, a3, a4⟩ := rehashLoop_spec (hash := hash) hσ ht.size 0 s (by omega) v.good hl (by
    have := elements_le s; omega)
  rw [v.put_eq] at a1
  refine ⟨s', ?_, a2, a3.toChain hσ (fun p => Nat.mod_lt _ (View.size_pos ht)), a3.nodel_all hσ a2.len, a4⟩
  unfold Ht.rehash
  rw [h1]
  simp only [Option.bind_some, a1, Option.map_some]

end Htable
