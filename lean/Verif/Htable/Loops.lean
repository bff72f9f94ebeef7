import Verif.Htable.Ghost
/-! What the probing loops of the hash table do, in terms of slots. -/
namespace Htable

/-- The ghost view of a table. -/
structure View (hash : Word → Word) (ht : Ht) (s : List Slot) : Prop where
  len : s.length = ht.size
  words : ht.table = s.map (ht.enc hash)
  masks : Masks ht
  fits : ∀ p ∈ elements s, Fits ht p

/-- Every element is reachable from the bucket of its hash, and marked correctly if it is in that bucket. -/
def Chain (home : Word → Nat) (n : Nat) (s : List Slot) : Prop :=
  ∀ k, k < n → ∀ p f, s[(home p + k) % n]? = some (.elem p f) →
    (f = true ↔ k = 0) ∧ ∀ k' < k, s[(home p + k') % n]? ≠ some .empty

theorem mem_elements {s : List Slot} {p : Word} : p ∈ elements s ↔ ∃ f, Slot.elem p f ∈ s := by
  unfold elements
  rw [List.mem_filterMap]
  constructor
  · rintro ⟨x, hx, h⟩
    cases x with
    | elem q f => simp [Slot.ptr?] at h; subst h; exact ⟨f, hx⟩
    | empty => simp [Slot.ptr?] at h
    | deleted => simp [Slot.ptr?] at h
  · rintro ⟨f, h⟩
    exact ⟨_, h, rfl⟩

section
variable {hash : Word → Word} {ht : Ht} {s : List Slot}

theorem View.get (v : View hash ht s) {i : Nat} {x : Slot} (h : s[i]? = some x) : ht.table[i]? = some (ht.enc hash x) := by
  rw [v.words, List.getElem?_map, h]; rfl

theorem View.fitsAt (v : View hash ht s) {i : Nat} {p : Word} {f : Bool} (h : s[i]? = some (.elem p f)) : Fits ht p :=
  v.fits p (mem_elements.2 ⟨f, List.mem_of_getElem? h⟩)

theorem View.size_pos (ht : Ht) : 0 < ht.size := Nat.two_pow_pos _

theorem View.bucket_lt (v : View hash ht s) (h : Word) : ht.bucket h < s.length := by
  rw [v.len]; exact Nat.mod_lt _ (View.size_pos ht)

theorem View.valid_enc (v : View hash ht s) {i : Nat} {x : Slot} (h : s[i]? = some x) :
    valid (ht.enc hash x) = x.isElem := by
  cases x with
  | empty => rfl
  | deleted => rfl
  | elem p f => exact (v.fitsAt h).valid_mk _

theorem View.raw_enc (v : View hash ht s) {i : Nat} {p : Word} {f : Bool} (h : s[i]? = some (.elem p f)) :
    ht.raw (ht.enc hash (.elem p f)) = p := (v.fitsAt h).raw_mk (v.masks.hashBits_sub _ _)

theorem View.extra_enc (v : View hash ht s) (p : Word) (f : Bool) :
    ht.extra (ht.enc hash (.elem p f)) = ht.hashBits (hash p) ||| if f then ht.perfect else 0 :=
  Masks.extra_mk (v.masks.hashBits_sub _ _)

/-- Where `ht_add` puts an element: the first slot from its bucket that holds no element. -/
theorem View.addLoop (v : View hash ht s) (h : Word) {k : Nat} {x : Slot} (hk : k < ht.size)
    (hx : s[(ht.bucket h + k) % ht.size]? = some x) (he : x.isElem = false)
    (hmin : ∀ k' < k, ∀ y, s[(ht.bucket h + k') % ht.size]? = some y → ¬ y.isElem = false) :
    addLoop ht.table ht.size ht.size (ht.bucket h) ht.perfect =
      some ((ht.bucket h + k) % ht.size, if k = 0 then ht.perfect else 0) := by
  have hb := v.bucket_lt h
  have gen : ∀ j fuel perf, j ≤ k → k - j < fuel → (perf = if j = 0 then ht.perfect else 0) →
      Htable.addLoop ht.table ht.size fuel ((ht.bucket h + j) % ht.size) perf =
        some ((ht.bucket h + k) % ht.size, if k = 0 then ht.perfect else 0) := by
    intro j fuel
    induction fuel generalizing j with
    | zero => intro perf _ h2; omega
    | succ fuel ih =>
      intro perf h1 h2 h3
      unfold Htable.addLoop
      by_cases hjk : j = k
      · subst hjk
        rw [v.get hx]
        simp only
        rw [v.valid_enc hx, he]
        simp [h3]
      · have hlt : (ht.bucket h + j) % ht.size < s.length := by rw [v.len]; exact Nat.mod_lt _ (View.size_pos ht)
        have hy := List.getElem?_eq_getElem hlt
        rw [v.get hy]
        simp only
        rw [v.valid_enc hy]
        have hne := hmin j (by omega) _ hy
        rw [if_pos (by simpa using hne)]
        have := ih (j + 1) 0 (by omega) (by omega) (by simp)
        rw [← this]
        congr 1
        rw [Nat.mod_add_mod]
        rfl
  have := gen 0 ht.size ht.perfect (by omega) (by omega) rfl
  rw [Nat.add_zero, Nat.mod_eq_of_lt (by rw [← v.len]; exact hb)] at this
  exact this

/-- What `ht_add` does to the slots. -/
theorem View.htAdd_eq (v : View hash ht s) {p : Word} (hroom : (elements s).length < ht.size) :
    ∃ (k : Nat) (x : Slot), k < ht.size ∧ s[(ht.bucket (hash p) + k) % ht.size]? = some x ∧ x.isElem = false ∧
      (∀ k' < k, ∀ y, s[(ht.bucket (hash p) + k') % ht.size]? = some y → ¬ y.isElem = false) ∧
      ht.htAdd p (hash p) = some { ht with table :=
        (s.set ((ht.bucket (hash p) + k) % ht.size) (.elem p (decide (k = 0)))).map (ht.enc hash) } ∧
      (elements (s.set ((ht.bucket (hash p) + k) % ht.size) (.elem p (decide (k = 0))))).Perm (p :: elements s) := by
  have hb := v.bucket_lt (hash p)
  have hex := exists_notElem (s := s) (by rw [v.len]; exact hroom)
  obtain ⟨k, x, hk, hx, he, hmin⟩ := first_from hb hex
  rw [v.len] at hk hx hmin
  refine ⟨k, x, hk, hx, he, hmin, ?_, ?_⟩
  · unfold Ht.htAdd
    rw [v.addLoop (hash p) hk hx he hmin]
    simp only [Option.map_some, Option.some.injEq]
    rw [v.words, List.map_set]
    congr 2
    simp only [Ht.enc, decide_eq_true_eq]
  · have := elements_set (new := .elem p (decide (k = 0))) hx
    cases x with
    | elem q f => simp [Slot.isElem] at he
    | empty => simpa [Slot.ptr?] using this
    | deleted => simpa [Slot.ptr?] using this

/-- `ht_add` keeps the reachability. -/
theorem View.htAdd (v : View hash ht s) (hc : Chain (fun p => ht.bucket (hash p)) ht.size s) {p : Word}
    (hroom : (elements s).length < ht.size) :
    ∃ (k : Nat) (x : Slot), k < ht.size ∧ s[(ht.bucket (hash p) + k) % ht.size]? = some x ∧ x.isElem = false ∧
      (∀ k' < k, ∀ y, s[(ht.bucket (hash p) + k') % ht.size]? = some y → ¬ y.isElem = false) ∧
      ht.htAdd p (hash p) = some { ht with table :=
        (s.set ((ht.bucket (hash p) + k) % ht.size) (.elem p (decide (k = 0)))).map (ht.enc hash) } ∧
      Chain (fun p => ht.bucket (hash p)) ht.size
        (s.set ((ht.bucket (hash p) + k) % ht.size) (.elem p (decide (k = 0)))) ∧
      (elements (s.set ((ht.bucket (hash p) + k) % ht.size) (.elem p (decide (k = 0))))).Perm (p :: elements s) := by
  have hb := v.bucket_lt (hash p)
  obtain ⟨k, x, hk, hx, he, hmin, e1, e2⟩ := v.htAdd_eq (p := p) hroom
  refine ⟨k, x, hk, hx, he, hmin, e1, ?_, e2⟩
  · intro j hj q f hq
    have hlen : (ht.bucket (hash p) + k) % ht.size < s.length := by rw [v.len]; exact Nat.mod_lt _ (View.size_pos ht)
    have keep : ∀ i : Nat, s[i]? ≠ some .empty →
        (s.set ((ht.bucket (hash p) + k) % ht.size) (.elem p (decide (k = 0))))[i]? ≠ some .empty := by
      intro i hi
      rw [List.getElem?_set]
      split
      · simp
      · exact hi
    rw [List.getElem?_set] at hq
    split at hq
    · rename_i heq
      simp only [Option.some.injEq, Slot.elem.injEq] at hq
      obtain ⟨rfl, rfl⟩ := hq
      have hjk : k = j := mod_inj (by rw [← v.len]; exact hb) hk hj heq
      subst hjk
      refine ⟨by simp, ?_⟩
      intro k' hk'
      refine keep _ ?_
      intro hcontra
      exact hmin k' hk' _ hcontra rfl
    · obtain ⟨h1, h2⟩ := hc j hj q f hq
      exact ⟨h1, fun k' hk' => keep _ (h2 k' hk')⟩

/-! ### Probing -/

/-- The slot `k` places after the bucket matches: it holds an element with the tag looked for. -/
def Tag (ht : Ht) (hash : Word → Word) (h : Word) (k : Nat) : Slot → Option Word
  | .elem p f => if ht.extra (ht.enc hash (.elem p f)) = ht.hashBits h ||| (if k = 0 then ht.perfect else 0) then some p else none
  | _ => none

/-- The matches among the `c` slots from place `k` on. -/
def cands (ht : Ht) (hash : Word → Word) (s : List Slot) (h : Word) : (c k : Nat) → List (Nat × Word)
  | 0, _ => []
  | c + 1, k =>
    match (s[(ht.bucket h + k) % ht.size]?).bind (Tag ht hash h k) with
    | some p => ((ht.bucket h + k) % ht.size, p) :: cands ht hash s h c (k + 1)
    | none => cands ht hash s h c (k + 1)

theorem enc_ne_zero (v : View hash ht s) {i : Nat} {x : Slot} (h : s[i]? = some x) : ht.enc hash x = 0 ↔ x = .empty := by
  constructor
  · intro e
    cases x with
    | empty => rfl
    | deleted => simp [Ht.enc] at e
    | elem p f =>
      have := v.valid_enc h
      rw [e] at this
      simp [Slot.isElem, valid] at this
  · rintro rfl; rfl

/-- The inner loop finds the next match. -/
theorem valLoop_eq (v : View hash ht s) (h : Word) {m : Nat} (hm : m < ht.size)
    (hempty : s[(ht.bucket h + m) % ht.size]? = some .empty)
    (hused : ∀ k < m, s[(ht.bucket h + k) % ht.size]? ≠ some .empty) (perf : Word)
    (hperf : perf = ht.perfect ∨ perf = 0) :
    ∀ fuel k h2, k ≤ m → m - k < fuel → (h2 = ht.hashBits h ||| (if k = 0 then ht.perfect else 0)) →
      (k = 0 → perf = ht.perfect) →
      ht.valLoop fuel ((ht.bucket h + k) % ht.size) h2 perf = some (cands ht hash s h (m - k) k).head? := by
  intro fuel
  induction fuel with
  | zero => intro k h2 _ h; omega
  | succ fuel ih =>
    intro k h2 hk hfuel hh2 hpk
    unfold Ht.valLoop
    by_cases hkm : k = m
    · subst hkm
      rw [v.get hempty, Nat.sub_self]
      rfl
    · have hlt : (ht.bucket h + k) % ht.size < s.length := by rw [v.len]; exact Nat.mod_lt _ (View.size_pos ht)
      have hy := List.getElem?_eq_getElem hlt
      generalize hs : s[(ht.bucket h + k) % ht.size] = x at hy
      have hne : x ≠ .empty := by
        rintro rfl
        exact hused k (by omega) hy
      rw [v.get hy]
      simp only
      rw [if_neg (by rw [enc_ne_zero v hy]; exact hne)]
      have hmk : m - k = (m - (k + 1)) + 1 := by omega
      have hnext : ht.valLoop fuel (((ht.bucket h + k) % ht.size + 1) % ht.size) (h2 &&& ~~~ perf) perf =
          some (cands ht hash s h (m - (k + 1)) (k + 1)).head? := by
        rw [Nat.mod_add_mod, Nat.add_assoc]
        refine ih (k + 1) _ (by omega) (by omega) ?_ (by omega)
        rw [hh2]
        by_cases h0 : k = 0
        · rw [if_pos h0, if_neg (by omega), hpk h0, hashBits_clear]; exact (BitVec.or_zero).symm
        · rw [if_neg h0, if_neg (by omega), show ht.hashBits h ||| 0 = ht.hashBits h from BitVec.or_zero]
          rcases hperf with rfl | rfl
          · exact hashBits_clear' h
          · exact hashBits_zero h
      rw [hmk, cands, hy]
      cases x with
      | empty => exact absurd rfl hne
      | deleted =>
        rw [if_neg (by simp [Ht.enc])]
        rw [hnext]
        rfl
      | elem p f =>
        have hv := v.valid_enc hy
        simp only [Slot.isElem, valid_iff] at hv
        by_cases ht' : ht.extra (ht.enc hash (.elem p f)) = h2
        · rw [if_pos ⟨hv.2, ht'⟩, v.raw_enc hy]
          simp only [Option.bind_some, Tag]
          rw [if_pos (by rw [ht', hh2])]
          rfl
        · rw [if_neg (by rintro ⟨-, h⟩; exact ht' h), hnext]
          simp only [Option.bind_some, Tag]
          rw [if_neg (by rw [← hh2]; exact ht')]

/-- The structure of the list of matches. -/
theorem cands_split (ht : Ht) (hash : Word → Word) (s : List Slot) (h : Word) : ∀ c k,
    cands ht hash s h c k = [] ∨ ∃ k' p, k ≤ k' ∧ k' < k + c ∧
      cands ht hash s h c k = ((ht.bucket h + k') % ht.size, p) :: cands ht hash s h (k + c - (k' + 1)) (k' + 1) := by
  intro c
  induction c with
  | zero => intro k; exact .inl rfl
  | succ c ih =>
    intro k
    rw [cands]
    cases hb : (s[(ht.bucket h + k) % ht.size]?).bind (Tag ht hash h k) with
    | some p =>
      simp only
      refine .inr ⟨k, p, by omega, by omega, ?_⟩
      rw [show k + (c + 1) - (k + 1) = c by omega]
    | none =>
      simp only
      rcases ih (k + 1) with h0 | ⟨k', p, h1, h2, h3⟩
      · exact .inl h0
      · refine .inr ⟨k', p, by omega, by omega, ?_⟩
        rw [h3, show k + 1 + c - (k' + 1) = k + (c + 1) - (k' + 1) by omega]

theorem firstval_eq (v : View hash ht s) (h : Word) {m : Nat} (hm : m < ht.size)
    (hempty : s[(ht.bucket h + m) % ht.size]? = some .empty)
    (hused : ∀ k < m, s[(ht.bucket h + k) % ht.size]? ≠ some .empty) :
    ht.firstval h = some (cands ht hash s h m 0).head? := by
  have := valLoop_eq v h hm hempty hused ht.perfect (.inl rfl) (ht.size + 1) 0 (ht.hashBits h ||| ht.perfect)
    (by omega) (by omega) (by simp) (by simp)
  rw [Nat.add_zero, Nat.mod_eq_of_lt (by have := v.bucket_lt h; rw [v.len] at this; exact this), Nat.sub_zero] at this
  exact this

theorem nextval_eq (v : View hash ht s) (h : Word) {m : Nat} (hm : m < ht.size)
    (hempty : s[(ht.bucket h + m) % ht.size]? = some .empty)
    (hused : ∀ k < m, s[(ht.bucket h + k) % ht.size]? ≠ some .empty) {k : Nat} (hk : k < m) :
    ht.nextval ((ht.bucket h + k) % ht.size) h = some (cands ht hash s h (m - (k + 1)) (k + 1)).head? := by
  have := valLoop_eq v h hm hempty hused 0 (.inr rfl) (ht.size + 1) (k + 1) (ht.hashBits h ||| 0)
    (by omega) (by omega) (by simp) (by simp)
  unfold Ht.nextval Ht.val
  rw [Nat.mod_add_mod, Nat.add_assoc]
  exact this

theorem cands_length (ht : Ht) (hash : Word → Word) (s : List Slot) (h : Word) : ∀ c k, (cands ht hash s h c k).length ≤ c := by
  intro c
  induction c with
  | zero => intro k; exact Nat.le_refl _
  | succ c ih =>
    intro k
    unfold cands
    have := ih (k + 1)
    split
    · rw [List.length_cons]; omega
    · omega

/-- The searching loop is a search in the list of matches. -/
theorem search_eq (v : View hash ht s) (h : Word) {m : Nat} (hm : m < ht.size)
    (hempty : s[(ht.bucket h + m) % ht.size]? = some .empty)
    (hused : ∀ k < m, s[(ht.bucket h + k) % ht.size]? ≠ some .empty) (q : Word → Bool) :
    ht.search h q = some ((cands ht hash s h m 0).find? fun c => q c.2) := by
  have gen : ∀ fuel k, k ≤ m → (cands ht hash s h (m - k) k).length < fuel →
      ht.searchLoop h q fuel (some (cands ht hash s h (m - k) k).head?) =
        some ((cands ht hash s h (m - k) k).find? fun c => q c.2) := by
    intro fuel
    induction fuel with
    | zero => intro k _ h; omega
    | succ fuel ih =>
      intro k hk hlen
      rcases cands_split ht hash s h (m - k) k with h0 | ⟨k', p, h1, h2, h3⟩
      · rw [h0]; rfl
      · rw [h3] at hlen ⊢
        simp only [List.length_cons] at hlen
        rw [show k + (m - k) - (k' + 1) = m - (k' + 1) by omega] at hlen ⊢
        simp only [List.head?_cons, Ht.searchLoop, List.find?_cons]
        cases hq : q p with
        | true => rfl
        | false =>
          simp only [Bool.false_eq_true, if_false]
          rw [nextval_eq v h hm hempty hused (by omega)]
          exact ih (k' + 1) (by omega) (by omega)
  unfold Ht.search
  rw [firstval_eq v h hm hempty hused]
  have h1 := cands_length ht hash s h m 0
  exact gen (ht.size + 1) 0 (by omega) (by simp only [Nat.sub_zero]; omega)

theorem matches_eq (v : View hash ht s) (h : Word) {m : Nat} (hm : m < ht.size)
    (hempty : s[(ht.bucket h + m) % ht.size]? = some .empty)
    (hused : ∀ k < m, s[(ht.bucket h + k) % ht.size]? ≠ some .empty) :
    ht.matches h = some ((cands ht hash s h m 0).map (·.2)) := by
  have gen : ∀ fuel k, k ≤ m → (cands ht hash s h (m - k) k).length < fuel →
      ht.matchesLoop h fuel (some (cands ht hash s h (m - k) k).head?) =
        some ((cands ht hash s h (m - k) k).map (·.2)) := by
    intro fuel
    induction fuel with
    | zero => intro k _ h; omega
    | succ fuel ih =>
      intro k hk hlen
      rcases cands_split ht hash s h (m - k) k with h0 | ⟨k', p, h1, h2, h3⟩
      · rw [h0]; rfl
      · rw [h3] at hlen ⊢
        simp only [List.length_cons] at hlen
        rw [show k + (m - k) - (k' + 1) = m - (k' + 1) by omega] at hlen ⊢
        simp only [List.head?_cons, Ht.matchesLoop, List.map_cons]
        rw [nextval_eq v h hm hempty hused (by omega), ih (k' + 1) (by omega) (by omega)]
        rfl
  unfold Ht.matches
  rw [firstval_eq v h hm hempty hused]
  have h1 := cands_length ht hash s h m 0
  exact gen (ht.size + 1) 0 (by omega) (by simp only [Nat.sub_zero]; omega)

/-! ### The matches and the elements -/

theorem take_succ_get {α : Type} {l : List α} {k : Nat} {x : α} (h : l[k]? = some x) : l.drop k = x :: l.drop (k + 1) := by
  obtain ⟨hk, rfl⟩ := List.getElem?_eq_some_iff.1 h
  exact List.drop_eq_getElem_cons hk

/-- The pointers matched are among the elements of the slots probed, in order, and include those with the hash. -/
theorem cands_elements (v : View hash ht s) (hc : Chain (fun p => ht.bucket (hash p)) ht.size s) (h : Word) :
    ∀ c k, k + c ≤ ht.size →
      ((cands ht hash s h c k).map (·.2)).Sublist (elements (((rot s (ht.bucket h)).drop k).take c)) ∧
      ((cands ht hash s h c k).map (·.2)).filter (fun p => hash p == h) =
        (elements (((rot s (ht.bucket h)).drop k).take c)).filter (fun p => hash p == h) := by
  intro c
  induction c with
  | zero => intro k _; simp [cands, elements]
  | succ c ih =>
    intro k hk
    have hb := v.bucket_lt h
    have hlt : (ht.bucket h + k) % ht.size < s.length := by rw [v.len]; exact Nat.mod_lt _ (View.size_pos ht)
    have hy := List.getElem?_eq_getElem hlt
    generalize hs : s[(ht.bucket h + k) % ht.size] = x at hy
    have hr : (rot s (ht.bucket h))[k]? = some x := by
      rw [rot_get hb (by rw [v.len]; omega), v.len]; exact hy
    rw [take_succ_get hr, List.take_succ_cons, elements_cons]
    obtain ⟨i1, i2⟩ := ih (k + 1) (by omega)
    unfold cands
    rw [hy]
    simp only [Option.bind_some]
    cases x with
    | empty => exact ⟨i1, i2⟩
    | deleted => exact ⟨i1, i2⟩
    | elem p f =>
      simp only [Tag, Slot.ptr?, Option.toList]
      by_cases ht' : ht.extra (ht.enc hash (.elem p f)) = ht.hashBits h ||| (if k = 0 then ht.perfect else 0)
      · rw [if_pos ht']
        simp only [List.map_cons]
        refine ⟨i1.cons_cons _, ?_⟩
        rw [List.filter_cons, i2, List.singleton_append, List.filter_cons]
      · rw [if_neg ht']
        simp only
        refine ⟨i1.cons _, ?_⟩
        rw [i2]
        have : hash p ≠ h := by
          rintro rfl
          apply ht'
          obtain ⟨h1, -⟩ := hc k (by omega) p f hy
          rw [v.extra_enc]
          congr 1
          by_cases hk0 : k = 0
          · rw [if_pos (h1.2 hk0), if_pos hk0]
          · rw [if_neg (fun e => hk0 (h1.1 e)), if_neg hk0]
        simp [this]

/-- Elements with the hash are found before the first empty slot. -/
theorem chain_before (v : View hash ht s) (hc : Chain (fun p => ht.bucket (hash p)) ht.size s) (h : Word) {m : Nat}
    (hempty : s[(ht.bucket h + m) % ht.size]? = some .empty) :
    (elements ((rot s (ht.bucket h)).drop m)).filter (fun p => hash p == h) = [] := by
  rw [List.filter_eq_nil_iff]
  intro p hp hh
  have hh : hash p = h := by simpa using hh
  subst hh
  obtain ⟨f, hmem⟩ := mem_elements.1 hp
  obtain ⟨k, hk⟩ := List.getElem?_of_mem hmem
  rw [List.getElem?_drop] at hk
  have hlt : m + k < s.length := by
    have := (List.getElem?_eq_some_iff.1 hk).1
    rwa [rot_length] at this
  have hb := v.bucket_lt (hash p)
  rw [rot_get hb hlt, v.len] at hk
  rw [v.len] at hlt
  obtain ⟨-, h2⟩ := hc (m + k) hlt p f hk
  by_cases h0 : k = 0
  · subst h0
    rw [Nat.add_zero, hempty] at hk
    cases hk
  · exact h2 m (by omega) hempty

/-- All together: the matches. -/
theorem matches_spec (v : View hash ht s) (hc : Chain (fun p => ht.bucket (hash p)) ht.size s)
    (hroom : nonEmpty s < ht.size) (h : Word) :
    ∃ l : List (Nat × Word), ht.matches h = some (l.map (·.2)) ∧
      (∀ q, ht.search h q = some (l.find? fun c => q c.2)) ∧
      (∃ t, (elements s).Perm (t ++ l.map (·.2)) ∧ t.filter (fun p => hash p == h) = []) ∧
      (∀ c ∈ l, ∃ f, s[c.1]? = some (.elem c.2 f)) := by
  have hb := v.bucket_lt h
  obtain ⟨m, x, hm, hx, hu, hmin⟩ := first_from hb (q := fun x => x.used = false) (exists_empty (by rw [v.len]; exact hroom))
  rw [v.len] at hm hx hmin
  have hempty : s[(ht.bucket h + m) % ht.size]? = some .empty := by
    cases x with
    | empty => exact hx
    | deleted => simp [Slot.used] at hu
    | elem p f => simp [Slot.used] at hu
  have hused : ∀ k < m, s[(ht.bucket h + k) % ht.size]? ≠ some .empty := fun k hk he => hmin k hk _ he rfl
  refine ⟨cands ht hash s h m 0, matches_eq v h hm hempty hused, search_eq v h hm hempty hused, ?_, ?_⟩
  · obtain ⟨c1, c2⟩ := cands_elements v hc h m 0 (by omega)
    rw [List.drop_zero] at c1 c2
    obtain ⟨t, ht'⟩ := c1.exists_perm_append
    have hall : (elements s).Perm (elements ((rot s (ht.bucket h)).take m) ++ elements ((rot s (ht.bucket h)).drop m)) := by
      unfold elements
      rw [← List.filterMap_append, List.take_append_drop]
      exact (rot_perm s _).symm.filterMap _
    refine ⟨t ++ elements ((rot s (ht.bucket h)).drop m), ?_, ?_⟩
    · refine hall.trans ?_
      refine (ht'.append_right _).trans ?_
      rw [List.append_assoc]
      exact List.perm_append_comm
    · rw [List.filter_append, chain_before v hc h hempty, List.append_nil]
      have hlen := congrArg List.length c2
      have := (ht'.filter fun p => hash p == h).length_eq
      rw [List.filter_append, List.length_append] at this
      exact List.eq_nil_of_length_eq_zero (by omega)
  · -- positions
    have pos : ∀ c k, ∀ y ∈ cands ht hash s h c k, ∃ f, s[y.1]? = some (.elem y.2 f) := by
      intro c
      induction c with
      | zero => intro k y hy; simp [cands] at hy
      | succ c ih =>
        intro k y hy
        unfold cands at hy
        cases hs : s[(ht.bucket h + k) % ht.size]? with
        | none => rw [hs] at hy; exact ih _ _ hy
        | some x =>
          rw [hs] at hy
          cases x with
          | empty => exact ih _ _ hy
          | deleted => exact ih _ _ hy
          | elem p f =>
            simp only [Option.bind_some, Tag] at hy
            by_cases ht' : ht.extra (ht.enc hash (.elem p f)) = ht.hashBits h ||| (if k = 0 then ht.perfect else 0)
            · rw [if_pos ht'] at hy
              rcases List.mem_cons.1 hy with rfl | hy
              · exact ⟨f, hs⟩
              · exact ih _ _ hy
            · rw [if_neg ht'] at hy
              exact ih _ _ hy
    exact pos m 0

end
end Htable
