import Verif.Htm.Pwc
/-!
C20: the page-walk caches answer for the context they were filled for, and only for it.

The specification: a history is the list of the insertions into the three caches in order.  A lookup depends on the last
insertion into the same cache for the same context and page (or page directory).  Pages are pages of the 52-bit address
space; `C20_quadrant_refuted` shows that the upper twelve bits of the effective address are dropped.
-/
namespace Htm.Pwc
open Htm

inductive Op where
  | walk (l : Lvl) (a : Addr) (real : BitVec 64) (leaf : Bool)
  | tlb (s : Nat) (a : Addr) (real : BitVec 64)
  | rev (s : Nat) (a : Addr) (real : BitVec 64)
deriving DecidableEq, Repr

def step (c : Caches) : Op → Option Caches
  | .walk l a r leaf => insert c l a r leaf
  | .tlb s a r => tlbInsert c s a r
  | .rev s a r => revInsert c s a r

def run : Caches → List Op → Option Caches
  | c, [] => some c
  | c, o :: l => (step c o).bind fun c => run c l

/-! ### Specification -/

/-- Page sizes that exist. -/
def PageSize (s : Nat) : Prop := s = 12 ∨ s = 16 ∨ s = 21 ∨ s = 30
instance (s : Nat) : Decidable (PageSize s) := inferInstanceAs (Decidable (_ ∨ _))

/-- The same partition, process and hypervisor bit. -/
def SameContext (a b : Addr) : Prop := a.msr = b.msr ∧ a.lpid = b.lpid ∧ a.pid = b.pid
instance (a b : Addr) : Decidable (SameContext a b) := inferInstanceAs (Decidable (_ ∧ _))

/-- The number of an address' block of `2^s` bytes in the 52-bit address space. -/
def page (s : Nat) (a : Addr) : Nat := a.address.toNat % 2 ^ 52 / 2 ^ s

/-- The number of address bits below a directory entry of the level, and the number of bits that select the entry. -/
def geometry : Lvl → Nat × Nat
  | .pgd => (39, 13)
  | .pud => (30, 9)
  | .pmd => (21, 9)
  | .pte4k => (12, 9)
  | .pte64k => (16, 5)
  | .pte => (0, 0)

/-- The directory that translates an address at a level, as a number. -/
def directory (l : Lvl) (a : Addr) : Nat := a.address.toNat % 2 ^ 52 / 2 ^ ((geometry l).1 + (geometry l).2)

/-- The entry of the directory that translates the address. -/
def slot (l : Lvl) (a : Addr) : Nat := a.address.toNat / 2 ^ (geometry l).1 % 2 ^ (geometry l).2

/-- The insertion was into the translation cache for this page. -/
def isTlb (s : Nat) (a : Addr) : Op → Option (BitVec 64)
  | .tlb s' b r => if s' = s ∧ SameContext b a ∧ page s b = page s a then some r else none
  | _ => none

/-- The insertion was into the reverse cache for this page. -/
def isRev (s : Nat) (a : Addr) : Op → Option (BitVec 64)
  | .rev s' b r => if s' = s ∧ SameContext b a ∧ page s b = page s a then some r else none
  | _ => none

/-- The insertion was into the walk cache for an entry of this directory: the entry, its address and kind. -/
def isWalk (l : Lvl) (a : Addr) : Op → Option (Nat × BitVec 64 × Bool)
  | .walk l' b r leaf => if l' = l ∧ SameContext b a ∧ directory l b = directory l a then some (slot l b, r, leaf) else none
  | _ => none

/-- The operation is one the code accepts. -/
def Accepted : Op → Prop
  | .walk l _ _ _ => l ≠ .pte
  | .tlb s _ _ => PageSize s
  | .rev s _ _ => PageSize s

instance (o : Op) : Decidable (Accepted o) := by cases o <;> simp only [Accepted] <;> infer_instance

/-! ### Proofs -/

theorem mem_sizes (s : Nat) : s ∈ sizes ↔ PageSize s := by simp [sizes, PageSize]

theorem PageSize.lt {s : Nat} (h : PageSize s) : s < 52 := by unfold PageSize at h; omega

theorem dirAddress_isSome (l : Lvl) (a : BitVec 64) : (dirAddress l a).isSome ↔ l ≠ .pte := by
  cases l <;> simp [dirAddress]

theorem step_isSome (c : Caches) (o : Op) : (step c o).isSome ↔ Accepted o := by
  cases o with
  | walk l a r leaf =>
    rw [step, insert, Accepted, ← dirAddress_isSome l a.address]
    cases dirAddress l a.address <;> simp
  | tlb s a r =>
    rw [step, tlbInsert, pageInsert, Accepted, ← mem_sizes]
    by_cases h : s ∈ sizes <;> simp [h]
  | rev s a r =>
    rw [step, revInsert, pageInsert, Accepted, ← mem_sizes]
    by_cases h : s ∈ sizes <;> simp [h]

theorem run_isSome (h : List Op) : ∀ (c : Caches), (run c h).isSome ↔ ∀ o ∈ h, Accepted o := by
  induction h with
  | nil => intro c; simp [run]
  | cons o h ih =>
    intro c
    have hs := step_isSome c o
    rw [run]
    cases hc : step c o with
    | none => rw [hc] at hs; simp at hs; simp [hs]
    | some c' =>
      rw [hc] at hs
      rw [Option.bind_some, ih c']
      simp at hs
      simp [hs]

theorem addr_eq_iff (a b : Addr) (x y : BitVec 64) :
    ({ a with address := x } : Addr) = { b with address := y } ↔ SameContext a b ∧ x = y := by
  unfold SameContext
  rw [Addr.mk.injEq]
  exact ⟨fun ⟨h1, h2, h3, h4⟩ => ⟨⟨h1, h2, h3⟩, h4⟩, fun ⟨⟨h1, h2, h3⟩, h4⟩ => ⟨h1, h2, h3, h4⟩⟩

theorem key_page_iff {s s' : Nat} (hs : PageSize s) (a b : Addr) :
    (⟨s, a.page s⟩ : Key Nat) = ⟨s', b.page s'⟩ ↔ s' = s ∧ SameContext b a ∧ page s b = page s a := by
  rw [Key.mk.injEq]
  constructor
  · rintro ⟨rfl, h⟩
    obtain ⟨⟨h1, h2, h3⟩, h4⟩ := (addr_eq_iff a b _ _).1 h
    exact ⟨rfl, ⟨h1.symm, h2.symm, h3.symm⟩, ((pteAddress_eq_iff (by have := hs.lt; omega) _ _).1 h4).symm⟩
  · rintro ⟨rfl, ⟨h1, h2, h3⟩, h4⟩
    refine ⟨rfl, (addr_eq_iff a b _ _).2 ⟨⟨h1.symm, h2.symm, h3.symm⟩, ?_⟩⟩
    exact (pteAddress_eq_iff (by have := hs.lt; omega) _ _).2 h4.symm

/-- The last defined value of a partial function over a list. -/
def last? {α β : Type} (f : α → Option β) (l : List α) : Option β := (l.filterMap f).getLast?

theorem last?_snoc {α β : Type} (f : α → Option β) (l : List α) (a : α) : last? f (l ++ [a]) = (f a).or (last? f l) := by
  unfold last?
  rw [List.filterMap_append]
  cases h : f a with
  | none => simp [h]
  | some b => simp [h]

/-- Induction from the end of a list. -/
theorem snocRec {α : Type} {P : List α → Prop} (h0 : P []) (h1 : ∀ l a, P l → P (l ++ [a])) (l : List α) : P l := by
  have : ∀ l : List α, P l.reverse := by
    intro l
    induction l with
    | nil => exact h0
    | cons a l ih => rw [List.reverse_cons]; exact h1 _ _ ih
  have h := this l.reverse
  rwa [List.reverse_reverse] at h

theorem run_snoc (h : List Op) (o : Op) : ∀ c, run c (h ++ [o]) = (run c h).bind fun c => step c o := by
  induction h with
  | nil => intro c; rw [List.nil_append, run, run, Option.bind_some]; cases step c o <;> rfl
  | cons p h ih =>
    intro c
    rw [List.cons_append, run, run]
    cases step c p with
    | none => rfl
    | some c' => rw [Option.bind_some, Option.bind_some, ih]

theorem pageInsert_get {c c' : Cache (Key Nat) (BitVec 64)} {s' : Nat} {b : Addr} {r : BitVec 64}
    (h : pageInsert c s' b r = some c') {s : Nat} (hs : PageSize s) (a : Addr) :
    c' ⟨s, a.page s⟩ = (if s' = s ∧ SameContext b a ∧ page s b = page s a then some (pteAddress s r) else none).or (c ⟨s, a.page s⟩) := by
  unfold pageInsert at h
  split at h
  · injection h with h
    subst h
    unfold Cache.put
    by_cases hk : (⟨s, a.page s⟩ : Key Nat) = ⟨s', b.page s'⟩
    · rw [if_pos hk, if_pos ((key_page_iff hs a b).1 hk), ((key_page_iff hs a b).1 hk).1]; rfl
    · rw [if_neg hk, if_neg (fun e => hk ((key_page_iff hs a b).2 e))]; rfl
  · simp at h

theorem tlb_run (h : List Op) {s : Nat} (hs : PageSize s) (a : Addr) : ∀ c, run {} h = some c →
    c.tlb ⟨s, a.page s⟩ = (last? (isTlb s a) h).map (pteAddress s) := by
  induction h using snocRec with
  | h0 => intro c hc; rw [run] at hc; injection hc with hc; subst hc; rfl
  | h1 h o ih =>
    intro c hc
    rw [run_snoc] at hc
    cases h1 : run {} h with
    | none => rw [h1] at hc; simp at hc
    | some c1 =>
      rw [h1, Option.bind_some] at hc
      rw [last?_snoc]
      have ih := ih c1 h1
      cases o with
      | walk l b r leaf =>
        rw [step, insert] at hc
        cases hd : dirAddress l b.address with
        | none => rw [hd] at hc; simp at hc
        | some d =>
          rw [hd] at hc
          simp only [Option.some.injEq] at hc
          subst hc
          exact ih
      | rev s' b r =>
        rw [step, revInsert] at hc
        obtain ⟨t, ht, rfl⟩ := Option.map_eq_some_iff.1 hc
        exact ih
      | tlb s' b r =>
        rw [step, tlbInsert] at hc
        obtain ⟨t, ht, rfl⟩ := Option.map_eq_some_iff.1 hc
        show t _ = _
        rw [pageInsert_get ht hs a, ih, isTlb]
        split <;> rfl

theorem rev_run (h : List Op) {s : Nat} (hs : PageSize s) (a : Addr) : ∀ c, run {} h = some c →
    c.rev ⟨s, a.page s⟩ = (last? (isRev s a) h).map (pteAddress s) := by
  induction h using snocRec with
  | h0 => intro c hc; rw [run] at hc; injection hc with hc; subst hc; rfl
  | h1 h o ih =>
    intro c hc
    rw [run_snoc] at hc
    cases h1 : run {} h with
    | none => rw [h1] at hc; simp at hc
    | some c1 =>
      rw [h1, Option.bind_some] at hc
      rw [last?_snoc]
      have ih := ih c1 h1
      cases o with
      | walk l b r leaf =>
        rw [step, insert] at hc
        cases hd : dirAddress l b.address with
        | none => rw [hd] at hc; simp at hc
        | some d =>
          rw [hd] at hc
          simp only [Option.some.injEq] at hc
          subst hc
          exact ih
      | tlb s' b r =>
        rw [step, tlbInsert] at hc
        obtain ⟨t, ht, rfl⟩ := Option.map_eq_some_iff.1 hc
        exact ih
      | rev s' b r =>
        rw [step, revInsert] at hc
        obtain ⟨t, ht, rfl⟩ := Option.map_eq_some_iff.1 hc
        show t _ = _
        rw [pageInsert_get ht hs a, ih, isRev]
        split <;> rfl

/-- What a translation that was inserted with real address `r` gives for an address `a` of the page: the page of `r` and
the offset of `a`. -/
theorem page_plus_offset {s : Nat} (hs : PageSize s) (r a : BitVec 64) :
    (pteAddress s r + pageOffset s a).toNat = r.toNat % 2 ^ 52 / 2 ^ s * 2 ^ s + a.toNat % 2 ^ s := by
  have h1 := hs.lt
  rw [BitVec.toNat_add, pteAddress_toNat (by omega), pageOffset_toNat (by omega), Nat.mul_comm, Nat.mod_eq_of_lt]
  have h2 : r.toNat % 2 ^ 52 / 2 ^ s * 2 ^ s ≤ r.toNat % 2 ^ 52 := Nat.div_mul_le_self _ _
  have h3 : r.toNat % 2 ^ 52 < 2 ^ 52 := Nat.mod_lt _ (by omega)
  have h4 : a.toNat % 2 ^ s < 2 ^ s := Nat.mod_lt _ (Nat.two_pow_pos _)
  have h5 : 2 ^ s ≤ 2 ^ 52 := Nat.pow_le_pow_right (by omega) (by omega)
  omega

/-- The caches accept exactly the insertions of existing page sizes and levels, and lookups of those end. -/
theorem C20_total (h : List Op) :
    ((run {} h).isSome ↔ ∀ o ∈ h, Accepted o) ∧
    ∀ (c : Caches) (a : Addr), (∀ s, (tlbGet c s a).isSome ↔ PageSize s) ∧ (∀ s, (revGet c s a).isSome ↔ PageSize s) ∧
      ∀ l, (get c l a).isSome ↔ l ≠ .pte := by
  refine ⟨run_isSome h {}, ?_⟩
  intro c a
  refine ⟨?_, ?_, ?_⟩
  · intro s; rw [tlbGet, pageGet, ← mem_sizes]; by_cases h : s ∈ sizes <;> simp [h]
  · intro s; rw [revGet, pageGet, ← mem_sizes]; by_cases h : s ∈ sizes <;> simp [h]
  · intro l; rw [get, ← dirAddress_isSome l a.address]; cases dirAddress l a.address <;> simp

/-- Translations: after any history a lookup gives the page that was inserted last for this page and this context, with the
offset of the address looked up, and nothing if there was no such insertion. -/
theorem C20_translation_partial {h : List Op} {c : Caches} (hr : run {} h = some c) {s : Nat} (hs : PageSize s) (a : Addr) :
    (tlbGet c s a).map (·.map BitVec.toNat) =
      some ((last? (isTlb s a) h).map fun r => r.toNat % 2 ^ 52 / 2 ^ s * 2 ^ s + a.address.toNat % 2 ^ s) := by
  rw [tlbGet, pageGet, if_pos ((mem_sizes s).2 hs), tlb_run h hs a c hr]
  cases last? (isTlb s a) h with
  | none => rfl
  | some r => simp only [Option.map_some]; rw [page_plus_offset hs]

/-- The same for the reverse cache from host real to guest real pages. -/
theorem C20_reverse_partial {h : List Op} {c : Caches} (hr : run {} h = some c) {s : Nat} (hs : PageSize s) (a : Addr) :
    (revGet c s a).map (·.map BitVec.toNat) =
      some ((last? (isRev s a) h).map fun r => r.toNat % 2 ^ 52 / 2 ^ s * 2 ^ s + a.address.toNat % 2 ^ s) := by
  rw [revGet, pageGet, if_pos ((mem_sizes s).2 hs), rev_run h hs a c hr]
  cases last? (isRev s a) h with
  | none => rfl
  | some r => simp only [Option.map_some]; rw [page_plus_offset hs]

/-! The walk cache. -/

theorem dirAddress_eq_iff {l : Lvl} (a b : Addr) {x y : BitVec 64} (hx : dirAddress l a.address = some x)
    (hy : dirAddress l b.address = some y) : x = y ↔ directory l a = directory l b := by
  have hpgd : ∀ n : Nat, n % 2 ^ 52 / 2 ^ (39 + 13) = 0 := by
    intro n
    exact Nat.div_eq_of_lt (Nat.mod_lt _ (by decide))
  unfold directory
  cases l <;> simp only [dirAddress, Option.some.injEq, reduceCtorEq] at hx hy <;> subst hx <;> subst hy <;> simp only [geometry]
  · rw [hpgd, hpgd]; simp
  all_goals exact pteAddress_eq_iff (by decide) _ _

theorem dirOffset_toNat {l : Lvl} (hl : l ≠ .pte) (a : BitVec 64) :
    (dirOffset l a).toNat = a.toNat / 2 ^ (geometry l).1 % 2 ^ (geometry l).2 * 8 := by
  cases l <;> simp only [dirOffset, geometry, ne_eq, not_true_eq_false] at hl ⊢ <;> exact tableIndex_toNat (by decide) a

theorem dirOffset_eq {l : Lvl} (hl : l ≠ .pte) (a : Addr) : dirOffset l a.address = BitVec.ofNat 64 (slot l a * 8) := by
  apply BitVec.eq_of_toNat_eq
  have h := dirOffset_toNat hl a.address
  rw [BitVec.toNat_ofNat, slot, ← h, Nat.mod_eq_of_lt (dirOffset l a.address).isLt]

theorem dirOffset_inj {l : Lvl} (hl : l ≠ .pte) (a b : Addr) :
    dirOffset l a.address = dirOffset l b.address ↔ slot l a = slot l b := by
  rw [← BitVec.toNat_inj, dirOffset_toNat hl, dirOffset_toNat hl, slot, slot]
  omega

/-- The state of a directory after the insertions into it. -/
def dirState (l : Lvl) (a : Addr) (h : List Op) : Option (BitVec 64) × (Nat → Option Bool) :=
  ((last? (isWalk l a) h).map fun (k, r, _) => r - BitVec.ofNat 64 (k * 8),
   fun n => last? (fun o => (isWalk l a o).bind fun (k, _, leaf) => if k = n then some leaf else none) h)

theorem walk_run (h : List Op) {l : Lvl} (hl : l ≠ .pte) (a : Addr) {d : BitVec 64} (hd : dirAddress l a.address = some d) :
    ∀ c, run {} h = some c →
    ((c.walk ⟨l, { a with address := d }⟩).map (·.real) = (dirState l a h).1) ∧
    (∀ b : Addr, ((c.walk ⟨l, { a with address := d }⟩).bind fun v => v.leaves (dirOffset l b.address)) =
      (dirState l a h).2 (slot l b)) := by
  induction h using snocRec with
  | h0 => intro c hc; rw [run] at hc; injection hc with hc; subst hc; exact ⟨rfl, fun _ => rfl⟩
  | h1 h o ih =>
    intro c hc
    rw [run_snoc] at hc
    cases h1 : run {} h with
    | none => rw [h1] at hc; simp at hc
    | some c1 =>
      rw [h1, Option.bind_some] at hc
      have ih := ih c1 h1
      unfold dirState at ih ⊢
      simp only [last?_snoc] at ih ⊢
      cases o with
      | tlb s' b r =>
        rw [step, tlbInsert] at hc
        obtain ⟨t, ht, rfl⟩ := Option.map_eq_some_iff.1 hc
        exact ih
      | rev s' b r =>
        rw [step, revInsert] at hc
        obtain ⟨t, ht, rfl⟩ := Option.map_eq_some_iff.1 hc
        exact ih
      | walk l' b r leaf =>
        rw [step, insert] at hc
        cases hd' : dirAddress l' b.address with
        | none => rw [hd'] at hc; simp at hc
        | some d' =>
          rw [hd'] at hc
          simp only [Option.some.injEq] at hc
          subst hc
          rw [show isWalk l a (.walk l' b r leaf) = (if l' = l ∧ SameContext b a ∧ directory l b = directory l a then
            some (slot l b, r, leaf) else none) from rfl]
          by_cases hk : (⟨l, { a with address := d }⟩ : Key Lvl) = ⟨l', { b with address := d' }⟩
          · have hk' := hk
            rw [Key.mk.injEq, addr_eq_iff] at hk
            obtain ⟨rfl, ⟨hc1, hc2, hc3⟩, he⟩ := hk
            have hdir := ((dirAddress_eq_iff a b hd hd').1 he).symm
            have hcond : l = l ∧ SameContext b a ∧ directory l b = directory l a := ⟨rfl, ⟨hc1.symm, hc2.symm, hc3.symm⟩, hdir⟩
            rw [if_pos hcond]
            simp only
            have hput : Cache.put c1.walk ⟨l, { b with address := d' }⟩
                (dirUpdate (r - dirOffset l b.address) (dirOffset l b.address) leaf) ⟨l, { a with address := d }⟩ =
                some (dirUpdate (r - dirOffset l b.address) (dirOffset l b.address) leaf (c1.walk ⟨l, { a with address := d }⟩)) := by
              unfold Cache.put; rw [if_pos hk']
            rw [hput]
            rw [Option.map_some, Option.some_or, Option.map_some]
            constructor
            · cases c1.walk ⟨l, { a with address := d }⟩ <;> simp only [dirUpdate] <;> rw [dirOffset_eq hl]
            · intro x
              have hx := ih.2 x
              rw [Option.bind_some, Option.bind_some]
              cases hw : c1.walk ⟨l, { a with address := d }⟩ with
              | none =>
                rw [hw] at hx
                simp only [dirUpdate, Cache.put, Cache.empty]
                by_cases hs : dirOffset l x.address = dirOffset l b.address
                · rw [if_pos hs, if_pos ((dirOffset_inj hl x b).1 hs).symm]; rfl
                · rw [if_neg hs, if_neg (fun e => hs ((dirOffset_inj hl x b).2 e.symm)), Option.none_or, ← hx]; rfl
              | some v =>
                rw [hw] at hx
                simp only [dirUpdate, Cache.put]
                by_cases hs : dirOffset l x.address = dirOffset l b.address
                · rw [if_pos hs, if_pos ((dirOffset_inj hl x b).1 hs).symm]; rfl
                · rw [if_neg hs, if_neg (fun e => hs ((dirOffset_inj hl x b).2 e.symm)), Option.none_or, ← hx]; rfl
          · have hcond : ¬ (l' = l ∧ SameContext b a ∧ directory l b = directory l a) := by
              rintro ⟨rfl, ⟨hc1, hc2, hc3⟩, he⟩
              apply hk
              rw [Key.mk.injEq, addr_eq_iff]
              exact ⟨rfl, ⟨hc1.symm, hc2.symm, hc3.symm⟩, (dirAddress_eq_iff a b hd hd').2 he.symm⟩
            rw [if_neg hcond]
            show ((Cache.put c1.walk _ _ _).map _ = _) ∧ ∀ x : Addr, ((Cache.put c1.walk _ _ _).bind _) = _
            rw [Cache.put_ne _ _ hk]
            exact ih

/-- Walk steps: after any history a lookup fails exactly if no entry of the directory was inserted in this context;
otherwise it gives the address of the entry in the directory as inserted last, and tells whether the entry is a leaf
if this very entry was inserted. -/
theorem C20_walk_partial {h : List Op} {c : Caches} (hr : run {} h = some c) {l : Lvl} (hl : l ≠ .pte) (a : Addr) :
    get c l a = some ((last? (isWalk l a) h).map fun (k, r, _) =>
      (r - BitVec.ofNat 64 (k * 8) + BitVec.ofNat 64 (slot l a * 8),
       last? (fun o => (isWalk l a o).bind fun (k, _, leaf) => if k = slot l a then some leaf else none) h)) := by
  rw [get]
  cases hd : dirAddress l a.address with
  | none => have := (dirAddress_isSome l a.address).2 hl; rw [hd] at this; simp at this
  | some d =>
    obtain ⟨h1, h2⟩ := walk_run h hl a hd c hr
    have h2 := h2 a
    unfold dirState at h1 h2
    simp only at h1 h2 ⊢
    cases hw : c.walk ⟨l, { a with address := d }⟩ with
    | none =>
      rw [hw] at h1
      cases hl : last? (isWalk l a) h with
      | none => rfl
      | some x => rw [hl] at h1; simp at h1
    | some v =>
      rw [hw] at h1 h2
      cases hl' : last? (isWalk l a) h with
      | none => rw [hl'] at h1; simp at h1
      | some x =>
        rw [hl'] at h1
        rw [Option.map_some, Option.map_some, Option.some.injEq] at h1
        rw [Option.bind_some] at h2
        rw [Option.map_some, Option.map_some, h1, h2, dirOffset_eq hl]

/-- No other context: insertions for other contexts do not change any answer. -/
theorem C20_other_context {h : List Op} {c : Caches} (a : Addr) {o : Op} (hr : run {} h = some c) {c' : Caches}
    (hr' : run {} (h ++ [o]) = some c')
    (ho : match o with | .walk _ b _ _ => ¬ SameContext b a | .tlb _ b _ => ¬ SameContext b a | .rev _ b _ => ¬ SameContext b a) :
    (∀ l, l ≠ .pte → get c' l a = get c l a) ∧ (∀ s, PageSize s → tlbGet c' s a = tlbGet c s a) ∧
    (∀ s, PageSize s → revGet c' s a = revGet c s a) := by
  have hw : ∀ l, isWalk l a o = none := by
    intro l; cases o with
    | walk l' b r leaf => simp only [isWalk]; rw [if_neg]; exact fun e => ho e.2.1
    | tlb => rfl
    | rev => rfl
  have ht : ∀ s, isTlb s a o = none := by
    intro l; cases o with
    | tlb l' b r => simp only [isTlb]; rw [if_neg]; exact fun e => ho e.2.1
    | walk => rfl
    | rev => rfl
  have hv : ∀ s, isRev s a o = none := by
    intro l; cases o with
    | rev l' b r => simp only [isRev]; rw [if_neg]; exact fun e => ho e.2.1
    | walk => rfl
    | tlb => rfl
  refine ⟨?_, ?_, ?_⟩
  · intro l hl
    rw [C20_walk_partial hr hl, C20_walk_partial hr' hl]
    simp only [last?_snoc, hw, Option.none_or, Option.bind_none]
  · intro s hs
    unfold tlbGet pageGet
    rw [tlb_run h hs a c hr, tlb_run _ hs a c' hr', last?_snoc, ht, Option.none_or]
  · intro s hs
    unfold revGet pageGet
    rw [rev_run h hs a c hr, rev_run _ hs a c' hr', last?_snoc, hv, Option.none_or]

/-- Cases for the theorems: two contexts, a re-inserted page, a directory with two entries. -/
def exOps : List Op :=
  [.tlb 16 ⟨0, 1, 5, 0x10008⟩ 0x7f0008, .tlb 16 ⟨0, 1, 6, 0x10008⟩ 0x8f0008, .rev 21 ⟨0, 1, 0, 0x400000⟩ 0xa00000,
   .walk .pmd ⟨0, 1, 5, 0x212345⟩ 0x9008 false, .walk .pmd ⟨0, 1, 5, 0x412345⟩ 0x9010 true, .tlb 16 ⟨0, 1, 5, 0x1fff0⟩ 0x6ffff0]

example : (run {} exOps).isSome ∧ (∀ o ∈ exOps, Accepted o) ∧
    last? (isTlb 16 ⟨0, 1, 5, 0x10abc⟩) exOps = some 0x6ffff0 ∧
    ((run {} exOps).bind fun c => tlbGet c 16 ⟨0, 1, 5, 0x10abc⟩) = some (some 0x6f0abc) ∧
    ((run {} exOps).bind fun c => tlbGet c 16 ⟨0, 1, 6, 0x10abc⟩) = some (some 0x8f0abc) ∧
    ((run {} exOps).bind fun c => tlbGet c 16 ⟨0, 2, 5, 0x10abc⟩) = some none ∧
    ((run {} exOps).bind fun c => get c .pmd ⟨0, 1, 5, 0x2fffff⟩) = some (some (0x9008, some false)) ∧
    ((run {} exOps).bind fun c => get c .pmd ⟨0, 1, 5, 0x6fffff⟩) = some (some (0x9018, none)) := by decide +kernel

/-- The upper bits of the effective address do not take part: with full 64-bit pages the property fails.  A translation
cached for an address of quadrant 0 is returned for the address of quadrant 3 with the same lower bits. -/
theorem C20_quadrant_refuted :
    ¬ ∀ (h : List Op) (c : Caches) (s : Nat) (a : Addr), run {} h = some c → PageSize s →
      (∀ b r, Op.tlb s b r ∈ h → b.address.toNat / 2 ^ s ≠ a.address.toNat / 2 ^ s) → tlbGet c s a = some none := by
  intro H
  have h1 : ((run {} [.tlb 12 ⟨0, 1, 5, 0x1000⟩ 0x2000]).bind fun c => tlbGet c 12 ⟨0, 1, 5, 0xc000000000001000⟩) =
    some (some 0x2000) := by decide +kernel
  cases hr : run {} [.tlb 12 ⟨0, 1, 5, 0x1000⟩ 0x2000] with
  | none => rw [hr] at h1; simp at h1
  | some c =>
    rw [hr, Option.bind_some] at h1
    have := H _ c 12 ⟨0, 1, 5, 0xc000000000001000⟩ hr (by decide) (by
      intro b r hm
      simp only [List.mem_singleton, Op.tlb.injEq, true_and] at hm
      rw [hm.1]; decide)
    rw [h1] at this
    simp at this

end Htm.Pwc
