import Verif.Htm.WalkTables
/-!
Lemmas about page-walk caches that agree with page tables.
-/
namespace Htm.Mmu
open Htm Htm.Pwc Htm.Xl

/-- The caches after an insertion into the walk cache. -/
def ins (c : Caches) (l : Lvl) (a : Addr) (real : BitVec 64) (leaf : Bool) : Caches :=
  { c with walk := c.walk.put ⟨l, { a with address := (dirAddress l a.address).getD 0 }⟩
                     (dirUpdate (real - dirOffset l a.address) (dirOffset l a.address) leaf) }

theorem insert_eq {l : Lvl} (hl : l ≠ .pte) (c : Caches) (a : Addr) (real : BitVec 64) (leaf : Bool) :
    Pwc.insert c l a real leaf = some (ins c l a real leaf) := by
  unfold Pwc.insert ins
  have := (dirAddress_isSome l a.address).2 hl
  cases h : dirAddress l a.address with
  | none => rw [h] at this; simp at this
  | some d => simp

/-- The caches after an insertion into the translation cache. -/
def tlbPut (c : Caches) (s : Nat) (a : Addr) (real : BitVec 64) : Caches :=
  { c with tlb := c.tlb.put ⟨s, a.page s⟩ fun _ => pteAddress s real }

theorem tlbInsert_eq {s : Nat} (hs : PageSize s) (c : Caches) (a : Addr) (real : BitVec 64) :
    tlbInsert c s a real = some (tlbPut c s a real) := by
  unfold tlbInsert pageInsert tlbPut
  rw [if_pos ((mem_sizes s).2 hs)]; rfl

/-- The caches after an insertion into the reverse cache. -/
def revPut (c : Caches) (s : Nat) (a : Addr) (real : BitVec 64) : Caches :=
  { c with rev := c.rev.put ⟨s, a.page s⟩ fun _ => pteAddress s real }

theorem revInsert_eq {s : Nat} (hs : PageSize s) (c : Caches) (a : Addr) (real : BitVec 64) :
    revInsert c s a real = some (revPut c s a real) := by
  unfold revInsert pageInsert revPut
  rw [if_pos ((mem_sizes s).2 hs)]; rfl

theorem get_ins {l : Lvl} (hl : l ≠ .pte) (c : Caches) (a : Addr) (real : BitVec 64) (leaf : Bool) :
    Pwc.get (ins c l a real leaf) l a = some (some (real, some leaf)) := by
  unfold Pwc.get ins
  have := (dirAddress_isSome l a.address).2 hl
  cases h : dirAddress l a.address with
  | none => rw [h] at this; simp at this
  | some d =>
    simp only [Option.getD_some, Cache.put_self, Option.map_some, Option.some.injEq]
    cases c.walk ⟨l, { a with address := d }⟩ <;>
      simp [dirUpdate, Cache.put_self, BitVec.sub_add_cancel]

/-- The context of a table: the key of the caches without the address. -/
inductive InTab (S : Tables) : Table → Addr → Prop where
  | host (lpid : BitVec 32) : InTab S (S.host lpid) ⟨MSR_HV, lpid, 0, 0⟩
  | guest (lpid pid : BitVec 32) : InTab S (S.guest lpid pid) ⟨0, lpid, pid, 0⟩

theorem InTab.unique {S : Tables} {T T' : Table} {x x' : Addr} (h : InTab S T x) (h' : InTab S T' x')
    (hx : SameContext x x') : T = T' ∧ x = x' := by
  obtain ⟨h1, h2, h3⟩ := hx
  cases h <;> cases h' <;> simp_all [MSR_HV]

theorem InTab.small {S : Tables} (hS : S.Ok) {T : Table} {x : Addr} (h : InTab S T x) : T.SmallOk := by
  cases h with
  | host l => exact (hS.1 l).1
  | guest l p => exact (hS.2 l p).1

/-- An address of a context. -/
def at_ (x : Addr) (g : BitVec 64) : Addr := { x with address := g }

/-- The level of the size of small pages that a table does not use. -/
def Table.other (T : Table) : Lvl := if T.small = 12 then .pte64k else .pte4k

/-- The caches agree with the table. -/
structure AgreeAt (c : Caches) (T : Table) (x : Addr) : Prop where
  dir : ∀ i < 4, ∀ g v, c.walk ⟨T.lvl i, at_ x (T.dirOf i g)⟩ = some v →
    v.real = T.base i g ∧ ∀ b, v.leaves (dirOffset (T.lvl i) g) = some b → b = T.leafAt i g
  other : ∀ d, c.walk ⟨T.other, at_ x d⟩ = none

structure Agree (S : Tables) (c : Caches) : Prop where
  walk : ∀ T x, InTab S T x → AgreeAt c T x
  tlb : ∀ lpid g s v, PageSize s → c.tlb ⟨s, (processRealAddr lpid g).page s⟩ = some v →
    s = (S.host lpid).size g ∧ v.toNat = (S.host lpid).frame g * 2 ^ s

/-- What decoding does to the caches if all it learns agrees with the tables. -/
inductive Step (S : Tables) : Caches → Caches → Prop where
  | walk (c : Caches) {T : Table} {x : Addr} (hx : InTab S T x) {i : Nat} (hi : i < 4) (g : BitVec 64) :
      Step S c (ins c (T.lvl i) (at_ x g) (T.entry i g) (T.leafAt i g))
  | tlb (c : Caches) (lpid : BitVec 32) (g r : BitVec 64) (hr : r.toNat / 2 ^ (S.host lpid).size g = (S.host lpid).frame g) :
      Step S c (tlbPut c ((S.host lpid).size g) (processRealAddr lpid g) r)
  | tlbGuest (c : Caches) (s : Nat) (a : Addr) (r : BitVec 64) (ha : a.msr = 0) : Step S c (tlbPut c s a r)
  | rev (c : Caches) (s : Nat) (a : Addr) (r : BitVec 64) : Step S c (revPut c s a r)

inductive Steps (S : Tables) : Caches → Caches → Prop where
  | refl (c : Caches) : Steps S c c
  | tail {c c' c'' : Caches} : Steps S c c' → Step S c' c'' → Steps S c c''

theorem Steps.trans {S : Tables} {a b c : Caches} (h1 : Steps S a b) (h2 : Steps S b c) : Steps S a c := by
  induction h2 with
  | refl => exact h1
  | tail _ hs ih => exact ih.tail hs

theorem Steps.one {S : Tables} {a b : Caches} (h : Step S a b) : Steps S a b := (Steps.refl a).tail h

theorem key_walk_iff {l l' : Lvl} {x x' : Addr} {d d' : BitVec 64} :
    (⟨l, at_ x d⟩ : Key Lvl) = ⟨l', at_ x' d'⟩ ↔ l = l' ∧ SameContext x x' ∧ d = d' := by
  rw [Key.mk.injEq]
  exact and_congr_right fun _ => addr_eq_iff x x' d d'

theorem at_at (x : Addr) (a b : BitVec 64) : at_ (at_ x a) b = at_ x b := rfl

theorem ins_walk {T : Table} {i : Nat} (hi : i < 4) (c : Caches) (x : Addr) (g real : BitVec 64) (leaf : Bool) :
    (ins c (T.lvl i) (at_ x g) real leaf).walk = c.walk.put ⟨T.lvl i, at_ x (T.dirOf i g)⟩
      (dirUpdate (real - dirOffset (T.lvl i) g) (dirOffset (T.lvl i) g) leaf) := by
  unfold ins
  show c.walk.put ⟨T.lvl i, at_ (at_ x g) ((dirAddress (T.lvl i) g).getD 0)⟩ _ = _
  rw [Table.dirAddress_lvl hi]
  rfl

theorem lvl_ne_other (T : Table) (i : Nat) : T.other ≠ T.lvl i := by
  unfold Table.other Table.lvl
  by_cases h : T.small = 12 <;> simp only [h, if_true, if_false] <;> split <;> simp

theorem agree_ins {S : Tables} (hS : S.Ok) {c : Caches} (h : Agree S c) {T : Table} {x : Addr} (hx : InTab S T x) {i : Nat}
    (hi : i < 4) (g : BitVec 64) : Agree S (ins c (T.lvl i) (at_ x g) (T.entry i g) (T.leafAt i g)) := by
  refine ⟨?_, h.tlb⟩
  intro T' x' hx'
  have hA := h.walk T' x' hx'
  have hs := hx'.small hS
  constructor
  · intro i' hi' g' v hv
    rw [ins_walk hi] at hv
    by_cases hk : (⟨T'.lvl i', at_ x' (T'.dirOf i' g')⟩ : Key Lvl) = ⟨T.lvl i, at_ x (T.dirOf i g)⟩
    · rw [hk, Cache.put_self] at hv
      obtain ⟨hl, hc, hd⟩ := key_walk_iff.1 hk
      obtain ⟨rfl, rfl⟩ := hx'.unique hx hc
      have hii := Table.lvl_inj hi' hi hl
      subst hii
      have hst := (Table.dirOf_eq_iff hs).1 hd
      have hb := Table.base_of_sameTable hs hi hst
      rw [Table.entry_base hs hi] at hv
      injection hv with hv
      have hvr : v.real = T'.base i' g' := by
        rw [← hv, hb]; cases c.walk ⟨T'.lvl i', at_ x' (T'.dirOf i' g)⟩ <;> rfl
      refine ⟨hvr, ?_⟩
      intro b hvb
      by_cases ho : dirOffset (T'.lvl i') g' = dirOffset (T'.lvl i') g
      · have hsame := (Table.same_iff hs hi).2 ⟨hst, (Table.dirOffset_inj hs hi).1 ho⟩
        rw [Table.leafAt_of_same hs hi (Nat.le_refl _) hsame]
        rw [← hv] at hvb
        cases hw : c.walk ⟨T'.lvl i', at_ x' (T'.dirOf i' g)⟩ with
        | none => rw [hw, ho] at hvb; simp only [dirUpdate, Cache.put_self] at hvb; injection hvb with hvb; exact hvb.symm
        | some w => rw [hw, ho] at hvb; simp only [dirUpdate, Cache.put_self] at hvb; injection hvb with hvb; exact hvb.symm
      · cases hw : c.walk ⟨T'.lvl i', at_ x' (T'.dirOf i' g)⟩ with
        | none =>
          rw [hw] at hv
          rw [← hv] at hvb
          simp only [dirUpdate] at hvb
          rw [Cache.put_ne _ _ ho] at hvb
          simp [Cache.empty] at hvb
        | some w =>
          rw [hw] at hv
          rw [← hv] at hvb
          simp only [dirUpdate] at hvb
          rw [Cache.put_ne _ _ ho] at hvb
          rw [← hd] at hw
          exact (hA.dir i' hi g' w hw).2 b hvb
    · rw [Cache.put_ne _ _ hk] at hv
      exact hA.dir i' hi' g' v hv
  · intro d
    rw [ins_walk hi]
    by_cases hk : (⟨T'.other, at_ x' d⟩ : Key Lvl) = ⟨T.lvl i, at_ x (T.dirOf i g)⟩
    · obtain ⟨hl, hc, _⟩ := key_walk_iff.1 hk
      obtain ⟨rfl, rfl⟩ := hx'.unique hx hc
      exact absurd hl (lvl_ne_other _ _)
    · rw [Cache.put_ne _ _ hk]
      exact hA.other d

theorem agree_tlbGuest {S : Tables} {c : Caches} (h : Agree S c) (s : Nat) (a : Addr) (r : BitVec 64) (ha : a.msr = 0) :
    Agree S (tlbPut c s a r) := by
  refine ⟨fun T x hx => ⟨(h.walk T x hx).dir, (h.walk T x hx).other⟩, ?_⟩
  intro lpid g s' v hs hv
  apply h.tlb lpid g s' v hs
  rw [tlbPut] at hv
  simp only at hv
  rw [Cache.put_ne] at hv
  · exact hv
  · intro hk
    obtain ⟨_, ⟨hm, _⟩, _⟩ := (key_page_iff hs _ _).1 hk
    rw [ha] at hm
    simp [processRealAddr, MSR_HV] at hm

theorem pow_mul_div {s x p : Nat} (h : x / 2 ^ s = p) (hx : p * 2 ^ s < 2 ^ 52) (hs : s ≤ 52) : x % 2 ^ 52 / 2 ^ s = p := by
  have he : 2 ^ 52 = 2 ^ s * 2 ^ (52 - s) := by rw [← Nat.pow_add]; congr 1; omega
  have hp : 0 < 2 ^ s := Nat.two_pow_pos _
  rw [he, Nat.mod_mul_right_div_self, h]
  apply Nat.mod_eq_of_lt
  rw [he, Nat.mul_comm] at hx
  exact Nat.lt_of_mul_lt_mul_left hx

theorem samePage_of {T : Table} {lpid : BitVec 32} {g g' : BitVec 64}
    (h : Pwc.page (T.size g) (processRealAddr lpid g') = Pwc.page (T.size g) (processRealAddr lpid g)) : T.SamePage g g' := by
  unfold Table.SamePage Table.Same
  exact h.symm

theorem agree_tlb {S : Tables} (hS : S.Ok) {c : Caches} (h : Agree S c) (lpid : BitVec 32) (g r : BitVec 64)
    (hr : r.toNat / 2 ^ (S.host lpid).size g = (S.host lpid).frame g) :
    Agree S (tlbPut c ((S.host lpid).size g) (processRealAddr lpid g) r) := by
  refine ⟨fun T x hx => ⟨(h.walk T x hx).dir, (h.walk T x hx).other⟩, ?_⟩
  intro lpid' g' s' v hs' hv
  rw [tlbPut] at hv
  simp only at hv
  by_cases hk : (⟨s', (processRealAddr lpid' g').page s'⟩ : Key Nat) =
      ⟨(S.host lpid).size g, (processRealAddr lpid g).page ((S.host lpid).size g)⟩
  · rw [hk, Cache.put_self] at hv
    obtain ⟨hss, ⟨_, hl, _⟩, hp⟩ := (key_page_iff hs' _ _).1 hk
    have hl' : lpid = lpid' := hl
    subst hl' hss
    have hsm := (hS.1 lpid).1
    have hsame := samePage_of hp.symm
    have hd := Table.depth_of_same hsm hsame
    have h2 := (S.host lpid).depth_le g
    have he : (S.host lpid).entry ((S.host lpid).depth g - 1) g = (S.host lpid).entry ((S.host lpid).depth g - 1) g' :=
      Table.entry_of_same hsm (by omega) (Nat.le_refl _) hsame
    have hsz : (S.host lpid).size g = (S.host lpid).size g' := by unfold Table.size; rw [hd]
    have hfr : (S.host lpid).frame g = (S.host lpid).frame g' := by unfold Table.frame; rw [he, hd]
    refine ⟨hsz, ?_⟩
    injection hv with hv
    rw [← hv, ← hfr]
    have hlt := (Table.pageSize_size hsm g).lt
    rw [pteAddress_toNat (by omega), pow_mul_div hr ((hS.1 lpid).2 g) (by omega), Nat.mul_comm]
  · rw [Cache.put_ne _ _ hk] at hv
    exact h.tlb lpid' g' s' v hs' hv

theorem Agree.step {S : Tables} (hS : S.Ok) {c c' : Caches} (h : Agree S c) (hs : Step S c c') : Agree S c' := by
  cases hs with
  | walk hx hi g => exact agree_ins hS h hx hi g
  | tlb lpid g r hr => exact agree_tlb hS h lpid g r hr
  | tlbGuest s a r ha => exact agree_tlbGuest h s a r ha
  | rev s a r => exact ⟨fun T x hx => ⟨(h.walk T x hx).dir, (h.walk T x hx).other⟩, h.tlb⟩

theorem Agree.steps {S : Tables} (hS : S.Ok) {c c' : Caches} (h : Agree S c) (hs : Steps S c c') : Agree S c' := by
  induction hs with
  | refl => exact h
  | tail _ h1 ih => exact ih.step hS h1

theorem agree_init (S : Tables) : Agree S {} :=
  ⟨fun _ _ _ => ⟨fun _ _ _ _ h => by simp [Cache.empty] at h, fun _ => rfl⟩, fun _ _ _ _ _ h => by simp [Cache.empty] at h⟩

/-- The kind of the entry is in the cache. -/
def Present (c : Caches) (T : Table) (x : Addr) (i : Nat) (g : BitVec 64) : Prop :=
  ∃ v b, c.walk ⟨T.lvl i, at_ x (T.dirOf i g)⟩ = some v ∧ v.leaves (dirOffset (T.lvl i) g) = some b

/-- The translation of the page is in the cache. -/
def PresentTlb (S : Tables) (c : Caches) (lpid : BitVec 32) (g : BitVec 64) : Prop :=
  ∃ v, c.tlb ⟨(S.host lpid).size g, (processRealAddr lpid g).page ((S.host lpid).size g)⟩ = some v

theorem present_put {c : Caches} {T : Table} {x : Addr} {i : Nat} {g : BitVec 64} (h : Present c T x i g) (l : Lvl) (a : Addr)
    (real : BitVec 64) (leaf : Bool) : Present (ins c l a real leaf) T x i g := by
  obtain ⟨v, b, h1, h2⟩ := h
  unfold Present ins
  simp only
  generalize hk' : (⟨l, { a with address := (dirAddress l a.address).getD 0 }⟩ : Key Lvl) = k
  by_cases hk : (⟨T.lvl i, at_ x (T.dirOf i g)⟩ : Key Lvl) = k
  · rw [← hk, Cache.put_self, h1]
    by_cases ho : dirOffset (T.lvl i) g = dirOffset l a.address
    · exact ⟨_, leaf, rfl, by simp only [dirUpdate]; rw [ho, Cache.put_self]⟩
    · exact ⟨_, b, rfl, by simp only [dirUpdate]; rw [Cache.put_ne _ _ ho]; exact h2⟩
  · exact ⟨v, b, by rw [Cache.put_ne _ _ hk]; exact h1, h2⟩

theorem Present.step {S : Tables} {c c' : Caches} {T : Table} {x : Addr} {i : Nat} {g : BitVec 64} (h : Present c T x i g)
    (hs : Step S c c') : Present c' T x i g := by
  cases hs with
  | walk hx hi g => exact present_put h _ _ _ _
  | tlb lpid g r hr => exact h
  | tlbGuest s a r ha => exact h
  | rev s a r => exact h

theorem Present.steps {S : Tables} {c c' : Caches} {T : Table} {x : Addr} {i : Nat} {g : BitVec 64} (h : Present c T x i g)
    (hs : Steps S c c') : Present c' T x i g := by
  induction hs with
  | refl => exact h
  | tail _ h1 ih => exact ih.step h1

theorem tlb_put_some {c : Caches} {k : Key Nat} (h : ∃ v, c.tlb k = some v) (s : Nat) (a : Addr) (r : BitVec 64) :
    ∃ v, (tlbPut c s a r).tlb k = some v := by
  unfold tlbPut
  simp only
  by_cases hk : k = ⟨s, a.page s⟩
  · rw [hk, Cache.put_self]; exact ⟨_, rfl⟩
  · rw [Cache.put_ne _ _ hk]; exact h

theorem PresentTlb.step {S : Tables} {c c' : Caches} {lpid : BitVec 32} {g : BitVec 64} (h : PresentTlb S c lpid g)
    (hs : Step S c c') : PresentTlb S c' lpid g := by
  cases hs with
  | walk hx hi g => exact h
  | tlb lpid g r hr => exact tlb_put_some h _ _ _
  | tlbGuest s a r ha => exact tlb_put_some h _ _ _
  | rev s a r => exact h

theorem PresentTlb.steps {S : Tables} {c c' : Caches} {lpid : BitVec 32} {g : BitVec 64} (h : PresentTlb S c lpid g)
    (hs : Steps S c c') : PresentTlb S c' lpid g := by
  induction hs with
  | refl => exact h
  | tail _ h1 ih => exact ih.step h1

theorem present_ins {c : Caches} {T : Table} {x : Addr} {i : Nat} (hi : i < 4) (g : BitVec 64) (real : BitVec 64) (leaf : Bool) :
    Present (ins c (T.lvl i) (at_ x g) real leaf) T x i g := by
  unfold Present
  rw [ins_walk hi]
  refine ⟨_, leaf, Cache.put_self _ _ _, ?_⟩
  cases c.walk ⟨T.lvl i, at_ x (T.dirOf i g)⟩ <;> simp [dirUpdate, Cache.put_self]

theorem get_lvl {c : Caches} {T : Table} {x : Addr} {i : Nat} (hi : i < 4) (g : BitVec 64) :
    Pwc.get c (T.lvl i) (at_ x g) = some ((c.walk ⟨T.lvl i, at_ x (T.dirOf i g)⟩).map fun v =>
      (v.real + dirOffset (T.lvl i) g, v.leaves (dirOffset (T.lvl i) g))) := by
  unfold Pwc.get
  show (match dirAddress (T.lvl i) g with | none => none | some d => _) = _
  rw [Table.dirAddress_lvl hi]
  rfl

/-- The cache knows the address of the entry and its kind. -/
def Knows (c : Caches) (T : Table) (x : Addr) (i : Nat) (g : BitVec 64) : Prop :=
  Pwc.get c (T.lvl i) (at_ x g) = some (some (T.entry i g, some (T.leafAt i g)))

theorem present_of_knows {c : Caches} {T : Table} {x : Addr} {i : Nat} (hi : i < 4) {g : BitVec 64} (h : Knows c T x i g) :
    Present c T x i g := by
  unfold Knows at h
  rw [get_lvl hi] at h
  cases hv : c.walk ⟨T.lvl i, at_ x (T.dirOf i g)⟩ with
  | none => rw [hv] at h; simp at h
  | some v =>
    rw [hv] at h
    simp only [Option.map_some, Option.some.injEq, Prod.mk.injEq] at h
    exact ⟨v, _, hv, h.2⟩

theorem Agree.dirKnown {S : Tables} (hS : S.Ok) {c : Caches} (h : Agree S c) {T : Table} {x : Addr} (hx : InTab S T x) {i : Nat}
    (hi : i < 4) {g : BitVec 64} {v : Dir} (hv : c.walk ⟨T.lvl i, at_ x (T.dirOf i g)⟩ = some v) :
    Pwc.get c (T.lvl i) (at_ x g) = some (some (T.entry i g, none)) ∨ Knows c T x i g := by
  unfold Knows
  rw [get_lvl hi, hv]
  obtain ⟨h1, h2⟩ := (h.walk T x hx).dir i hi g v hv
  simp only [Option.map_some]
  rw [h1, Table.base_entry (hx.small hS) hi]
  cases hb : v.leaves (dirOffset (T.lvl i) g) with
  | none => exact Or.inl rfl
  | some b => rw [h2 b hb]; exact Or.inr rfl

theorem Agree.knows {S : Tables} (hS : S.Ok) {c : Caches} (h : Agree S c) {T : Table} {x : Addr} (hx : InTab S T x) {i : Nat}
    (hi : i < 4) {g g' : BitVec 64} (hp : Present c T x i g') (hs : T.Same i g g') : Knows c T x i g := by
  obtain ⟨v, b, hv, hb⟩ := hp
  obtain ⟨hst, hidx⟩ := (Table.same_iff (hx.small hS) hi).1 hs
  rw [← (Table.dirOf_eq_iff (hx.small hS)).2 hst] at hv
  rw [← (Table.dirOffset_inj (hx.small hS) hi).2 hidx] at hb
  obtain ⟨h1, h2⟩ := (h.walk T x hx).dir i hi g v hv
  unfold Knows
  rw [get_lvl hi, hv]
  simp only [Option.map_some]
  rw [h1, Table.base_entry (hx.small hS) hi, hb, h2 b hb]

theorem Agree.dirOther {S : Tables} (hS : S.Ok) {c : Caches} (h : Agree S c) {T : Table} {x : Addr} (hx : InTab S T x) {i : Nat}
    (hi : i < 4) {g g' : BitVec 64} (hp : Present c T x i g') (hs : T.SameTable i g g') :
    Pwc.get c (T.lvl i) (at_ x g) = some (some (T.entry i g, none)) ∨ Knows c T x i g := by
  obtain ⟨v, b, hv, hb⟩ := hp
  rw [← (Table.dirOf_eq_iff (hx.small hS)).2 hs] at hv
  exact h.dirKnown hS hx hi hv

/-- Nothing is known of the level of small pages that the table does not use. -/
def NoOther (c : Caches) (T : Table) (x : Addr) : Prop := ∀ g, Pwc.get c T.other (at_ x g) = some none

theorem Agree.noOther {S : Tables} {c : Caches} (h : Agree S c) {T : Table} {x : Addr} (hx : InTab S T x) : NoOther c T x := by
  intro g
  have h1 := (h.walk T x hx).other
  unfold Pwc.get
  by_cases hs : T.small = 12
  · rw [Table.other, if_pos hs] at h1 ⊢
    show some (Option.map _ (c.walk ⟨.pte64k, at_ x _⟩)) = _
    rw [h1]; rfl
  · rw [Table.other, if_neg hs] at h1 ⊢
    show some (Option.map _ (c.walk ⟨.pte4k, at_ x _⟩)) = _
    rw [h1]; rfl

theorem Agree.tlbKnown {S : Tables} (hS : S.Ok) {c : Caches} (h : Agree S c) {lpid : BitVec 32} {g g' : BitVec 64}
    (hp : PresentTlb S c lpid g') (hs : (S.host lpid).SamePage g g') :
    tlbGet c ((S.host lpid).size g) (processRealAddr lpid g) = some (some ((S.host lpid).real g)) := by
  have hsm := (hS.1 lpid).1
  have hd := Table.depth_of_same hsm hs
  have hsz : (S.host lpid).size g = (S.host lpid).size g' := by unfold Table.size; rw [hd]
  obtain ⟨v, hv⟩ := hp
  have hps := Table.pageSize_size hsm g
  have hk : (⟨(S.host lpid).size g, (processRealAddr lpid g).page ((S.host lpid).size g)⟩ : Key Nat) =
      ⟨(S.host lpid).size g', (processRealAddr lpid g').page ((S.host lpid).size g')⟩ :=
    (key_page_iff hps _ _).2 ⟨hsz.symm, ⟨rfl, rfl, rfl⟩, by
      unfold Table.SamePage Table.Same at hs
      exact hs.symm⟩
  rw [← hk] at hv
  obtain ⟨_, h2⟩ := h.tlb lpid g _ v hps hv
  unfold tlbGet pageGet
  rw [if_pos ((mem_sizes _).2 hps), hv]
  simp only [Option.map_some, Option.some.injEq]
  apply BitVec.eq_of_toNat_eq
  have hlt := hps.lt
  unfold Table.real
  rw [BitVec.toNat_add, BitVec.toNat_ofNat, pageOffset_toNat (by omega), h2]
  rfl

theorem presentTlb_put {S : Tables} (c : Caches) (lpid : BitVec 32) (g r : BitVec 64) :
    PresentTlb S (tlbPut c ((S.host lpid).size g) (processRealAddr lpid g) r) lpid g :=
  ⟨pteAddress ((S.host lpid).size g) r, by unfold tlbPut; simp only; rw [Cache.put_self]⟩

/-- Everything about the host's translation of an address is in the caches. -/
def HostPresent (S : Tables) (c : Caches) (lpid : BitVec 32) (g : BitVec 64) : Prop :=
  (∀ i < (S.host lpid).depth g, Present c (S.host lpid) ⟨MSR_HV, lpid, 0, 0⟩ i g) ∧ PresentTlb S c lpid g

/-- The same for the guest's translation. -/
def GuestPresent (S : Tables) (c : Caches) (lpid pid : BitVec 32) (a : BitVec 64) : Prop :=
  ∀ i < (S.guest lpid pid).depth a, Present c (S.guest lpid pid) ⟨0, lpid, pid, 0⟩ i a

/-- The caches agree with the tables and know all that was translated. -/
structure Inv (S : Tables) (seen : Seen) (c : Caches) : Prop where
  agree : Agree S c
  host : ∀ lpid g, (lpid, g) ∈ seen.host → HostPresent S c lpid g
  guest : ∀ lpid pid a, (lpid, pid, a) ∈ seen.guest → GuestPresent S c lpid pid a

theorem HostPresent.steps {S : Tables} {c c' : Caches} {lpid : BitVec 32} {g : BitVec 64} (h : HostPresent S c lpid g)
    (hs : Steps S c c') : HostPresent S c' lpid g := ⟨fun i hi => (h.1 i hi).steps hs, h.2.steps hs⟩

theorem GuestPresent.steps {S : Tables} {c c' : Caches} {lpid pid : BitVec 32} {g : BitVec 64} (h : GuestPresent S c lpid pid g)
    (hs : Steps S c c') : GuestPresent S c' lpid pid g := fun i hi => (h i hi).steps hs

theorem Inv.steps {S : Tables} (hS : S.Ok) {seen : Seen} {c c' : Caches} (h : Inv S seen c) (hs : Steps S c c') : Inv S seen c' :=
  ⟨h.agree.steps hS hs, fun l g hm => (h.host l g hm).steps hs, fun l p a hm => (h.guest l p a hm).steps hs⟩

theorem inv_init (S : Tables) : Inv S {} {} := ⟨agree_init S, by simp, by simp⟩

theorem Inv.addHost {S : Tables} {seen : Seen} {c : Caches} (h : Inv S seen c) {lpid : BitVec 32} {g : BitVec 64}
    (hg : HostPresent S c lpid g) : Inv S (seen.addHost lpid g) c := by
  refine ⟨h.agree, ?_, h.guest⟩
  intro l g' hm
  unfold Seen.addHost at hm
  rcases List.mem_cons.1 hm with hm | hm
  · obtain ⟨rfl, rfl⟩ := Prod.mk.inj hm; exact hg
  · exact h.host l g' hm

end Htm.Mmu
