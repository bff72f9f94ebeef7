import Verif.Htm.Xlate
import Verif.Htm.PropsPwc
/-!
The functions of the decoder never fail an assertion of the caches, and what they return is in range.
-/
namespace Htm.Xl
open Htm Htm.Pwc

/-- From every state: no bad outcome, and on success the result satisfies `P`. -/
def Post {α : Type} (P : α → Prop) (m : X α) : Prop := ∀ s, ∃ r s', m s = .ok (r, s') ∧ ∀ a, r = some a → P a

variable {α β : Type}

theorem Post.pure {P : α → Prop} {a : α} (h : P a) : Post P (Pure.pure a : X α) := fun s =>
  ⟨some a, s, rfl, fun b e => by injection e with e; subst e; exact h⟩

theorem Post.fail {P : α → Prop} : Post P (Xl.fail : X α) := fun s => ⟨none, s, rfl, by simp⟩

theorem Post.bind {P : α → Prop} {Q : β → Prop} {m : X α} {f : α → X β} (h : Post P m) (hf : ∀ a, P a → Post Q (f a)) :
    Post Q (m >>= f) := by
  intro s
  obtain ⟨r, s', e, hr⟩ := h s
  cases r with
  | none => exact ⟨none, s', by show X.bind m f s = _; rw [X.bind, e], by simp⟩
  | some a =>
    obtain ⟨r', s'', e', h'⟩ := hf a (hr a rfl) s'
    exact ⟨r', s'', by show X.bind m f s = _; rw [X.bind, e]; exact e', h'⟩

theorem Post.mono {P Q : α → Prop} {m : X α} (h : Post P m) (hpq : ∀ a, P a → Q a) : Post Q m := by
  intro s
  obtain ⟨r, s', e, hr⟩ := h s
  exact ⟨r, s', e, fun a ha => hpq a (hr a ha)⟩

theorem Post.ignore {P : α → Prop} {m : X α} (h : Post P m) : Post (fun _ => True) (Xl.ignore m) := by
  intro s
  obtain ⟨r, s', e, hr⟩ := h s
  exact ⟨some (), s', by rw [Xl.ignore, e], by simp⟩

theorem Post.cached {f : Caches → Option (α × Caches)} (h : ∀ c, (f c).isSome) : Post (fun _ => True) (Xl.cached f) := by
  intro s
  have h := h s.caches
  unfold Xl.cached
  cases hf : f s.caches with
  | none => rw [hf] at h; simp at h
  | some p => exact ⟨_, _, rfl, by simp⟩

theorem post_take (flags : BitVec 32) : Post (fun _ => True) (take flags) := by
  intro s
  unfold take
  cases s.rest with
  | nil => exact ⟨_, _, rfl, by simp⟩
  | cons w r =>
    by_cases h : check w flags = true
    · exact ⟨_, _, by simp only; rw [if_pos h], by simp⟩
    · exact ⟨_, _, by simp only; rw [if_neg h], by simp⟩

theorem post_peek (flags : BitVec 32) : Post (fun _ => True) (peek flags) := by
  intro s
  unfold peek
  cases s.rest with
  | nil => exact ⟨_, _, rfl, by simp⟩
  | cons w r => exact ⟨_, _, rfl, by simp⟩

theorem post_scan (flags : BitVec 32) : Post (fun _ => True) (scan flags) := fun s => ⟨_, _, rfl, by simp⟩

theorem get_isSome {l : Lvl} (hl : l ≠ .pte) (c : Caches) (a : Addr) : (Pwc.get c l a).isSome :=
  (((C20_total []).2 c a).2.2 l).2 hl

theorem insert_isSome {l : Lvl} (hl : l ≠ .pte) (c : Caches) (a : Addr) (r : BitVec 64) (leaf : Bool) :
    (Pwc.insert c l a r leaf).isSome := by
  unfold Pwc.insert
  have := (dirAddress_isSome l a.address).2 hl
  cases h : dirAddress l a.address with
  | none => rw [h] at this; simp at this
  | some d => rfl

theorem post_xInsert {l : Lvl} (hl : l ≠ .pte) (a : Addr) (r : BitVec 64) (leaf : Bool) :
    Post (fun _ => True) (xInsert l a r leaf) :=
  Post.cached fun c => by rw [Option.isSome_map]; exact insert_isSome hl c a r leaf

theorem post_xGet {l : Lvl} (hl : l ≠ .pte) (a : Addr) : Post (fun _ => True) (xGet l a) :=
  Post.cached fun c => by rw [Option.isSome_map]; exact get_isSome hl c a

theorem post_xTlbInsert {s : Nat} (hs : PageSize s) (a : Addr) (r : BitVec 64) : Post (fun _ => True) (xTlbInsert s a r) :=
  Post.cached fun c => by
    rw [Option.isSome_map, tlbInsert, Option.isSome_map, pageInsert, if_pos ((mem_sizes s).2 hs)]; rfl

theorem post_xRevInsert {s : Nat} (hs : PageSize s) (a : Addr) (r : BitVec 64) : Post (fun _ => True) (xRevInsert s a r) :=
  Post.cached fun c => by
    rw [Option.isSome_map, revInsert, Option.isSome_map, pageInsert, if_pos ((mem_sizes s).2 hs)]; rfl

theorem post_xTlbGet {s : Nat} (hs : PageSize s) (a : Addr) : Post (fun _ => True) (xTlbGet s a) :=
  Post.cached fun c => by rw [Option.isSome_map, tlbGet, pageGet, if_pos ((mem_sizes s).2 hs)]; rfl

theorem post_xRevGet {s : Nat} (hs : PageSize s) (a : Addr) : Post (fun _ => True) (xRevGet s a) :=
  Post.cached fun c => by rw [Option.isSome_map, revGet, pageGet, if_pos ((mem_sizes s).2 hs)]; rfl

theorem post_leafBelow (l b : BitVec 32) : Post (fun _ => True) (leafBelow l b) := by
  unfold leafBelow
  by_cases h : l < b
  · rw [if_pos h]; exact Post.pure trivial
  · rw [if_neg h]; exact Post.fail

theorem post_partitionIsLeaf (l : BitVec 32) : Post (fun _ => True) (partitionIsLeaf l) := by
  unfold partitionIsLeaf
  refine (post_peek _).bind fun o _ => ?_
  cases o with
  | some w => exact post_leafBelow _ _
  | none =>
    refine (post_peek _).bind fun o _ => ?_
    cases o with
    | some w => exact post_leafBelow _ _
    | none => exact Post.pure trivial

theorem post_processIsLeafFrom (l : BitVec 32) : ∀ ls, Post (fun _ => True) (processIsLeafFrom l ls) := by
  intro ls
  induction ls with
  | nil => exact post_leafBelow _ _
  | cons v ls ih =>
    unfold processIsLeafFrom
    by_cases h : v = l
    · rw [if_pos h]; exact post_leafBelow _ _
    · rw [if_neg h]
      refine (post_scan _).bind fun o _ => ?_
      cases o with
      | some w => exact Post.pure trivial
      | none => exact ih

theorem post_processIsLeaf (l : BitVec 32) : Post (fun _ => True) (processIsLeaf l) := post_processIsLeafFrom l _

theorem post_pteSubtype (f : BitVec 32) : Post (fun l => l ∈ subtypes .pte) (pteSubtype f) := by
  unfold pteSubtype
  refine (post_scan _).bind fun o _ => ?_
  cases o with
  | some w => exact Post.pure (by simp [subtypes])
  | none =>
    refine (post_scan _).bind fun o _ => ?_
    cases o with
    | some w => exact Post.pure (by simp [subtypes])
    | none => exact Post.fail

theorem mem_subtypes_self {t : Lvl} (h : t ≠ .pte) : t ∈ subtypes t := by
  cases t <;> simp [subtypes] at h ⊢

theorem ne_pte {l t : Lvl} (h : l ∈ subtypes t) : l ≠ .pte := by
  revert h; cases t <;> cases l <;> decide

theorem last_mem (t : Lvl) : (subtypes t).getLast?.getD t ∈ subtypes t := by cases t <;> simp [subtypes]

theorem post_partitionSubtype (t : Lvl) : Post (fun l => l ∈ subtypes t) (partitionSubtype t) := by
  unfold partitionSubtype
  by_cases h : t = .pte
  · rw [if_pos h, h]; exact post_pteSubtype _
  · rw [if_neg h]; exact Post.pure (mem_subtypes_self h)

theorem post_processSubtype (t : Lvl) : Post (fun l => l ∈ subtypes t) (processSubtype t) := by
  unfold processSubtype
  by_cases h : t = .pte
  · rw [if_pos h, h]; exact post_pteSubtype _
  · rw [if_neg h]; exact Post.pure (mem_subtypes_self h)

theorem post_finishPte {l : Lvl} (hl : l ≠ .pte) (a : Addr) : Post (fun p => p.pageSize = pageSizes l) (finishPte l a) := by
  unfold finishPte
  refine (post_xGet hl a).bind fun o _ => ?_
  cases o with
  | none => exact Post.fail
  | some p => exact Post.pure rfl

theorem post_processTaken (t : Lvl) (a : Addr) (w : Walk) : Post (fun l => l ∈ subtypes t) (processTaken t a w) := by
  unfold processTaken
  exact (post_processIsLeaf _).bind fun leaf _ => (post_processSubtype t).bind fun l hl =>
    (post_xInsert (ne_pte hl) a _ _).bind fun _ _ => Post.pure hl

theorem post_processReversed (t : Lvl) (a : Addr) (r : BitVec 64) : Post (fun l => l ∈ subtypes t) (processReversed t a r) := by
  unfold processReversed
  exact (post_processIsLeaf _).bind fun leaf _ => (post_processSubtype t).bind fun l hl =>
    (post_xInsert (ne_pte hl) a _ _).bind fun _ _ => Post.pure hl

theorem post_processCached (lv : BitVec 32) (t : Lvl) (a : Addr) : ∀ ls, (∀ l ∈ ls, l ∈ subtypes t) →
    Post (fun o => ∀ l, o = some l → l ∈ subtypes t) (processCached lv a ls) := by
  intro ls
  induction ls with
  | nil => intro _; exact Post.pure (by simp)
  | cons l ls ih =>
    intro h
    have hl := h l (by simp)
    have ih := ih fun x hx => h x (List.mem_cons_of_mem _ hx)
    unfold processCached
    refine (post_xGet (ne_pte hl) a).bind fun o _ => ?_
    cases o with
    | none => exact ih
    | some p =>
      obtain ⟨r, f⟩ := p
      cases f with
      | some f => exact Post.pure (by intro x hx; injection hx with hx; rw [← hx]; exact hl)
      | none =>
        refine (post_peek _).bind fun o _ => ?_
        cases o with
        | none => exact ih
        | some w =>
          refine Post.bind (P := fun _ => True) ?_ fun _ _ => Post.pure (by intro x hx; injection hx with hx; rw [← hx]; exact hl)
          exact (post_processIsLeaf _).bind fun leaf _ => post_xInsert (ne_pte hl) a _ _

theorem post_processReverse (t : Lvl) (a : Addr) (w : Walk) {last : Lvl} (hlast : last ∈ subtypes t) : ∀ ss,
    (∀ s ∈ ss, PageSize s) → Post (fun l => l ∈ subtypes t) (processReverse t a w last ss) := by
  intro ss
  induction ss with
  | nil => intro _; exact Post.pure hlast
  | cons s ss ih =>
    intro h
    unfold processReverse
    refine (post_xRevGet (h s (by simp)) _).bind fun o _ => ?_
    cases o with
    | some r => exact post_processReversed t a r
    | none => exact ih fun x hx => h x (List.mem_cons_of_mem _ hx)

theorem hostPageSizes_ok : ∀ s ∈ hostPageSizes, PageSize s := by decide

theorem post_processMissing (t : Lvl) (a : Addr) : Post (fun l => l ∈ subtypes t) (processMissing t a) := by
  unfold processMissing
  refine (post_processCached _ t a _ fun l hl => hl).bind fun o ho => ?_
  cases o with
  | some l => exact Post.pure (ho l rfl)
  | none =>
    refine (post_peek _).bind fun o _ => ?_
    cases o with
    | none => exact Post.pure (last_mem t)
    | some w => exact post_processReverse t a w (last_mem t) _ hostPageSizes_ok

theorem post_processPte (t : Lvl) (a : Addr) : Post (fun p => ∃ l ∈ subtypes t, p.pageSize = pageSizes l) (processPte t a) := by
  unfold processPte
  refine (post_take _).bind fun o _ => ?_
  cases o with
  | some w =>
    exact (post_processTaken t a w).bind fun l hl => (post_finishPte (ne_pte hl) a).mono fun p hp => ⟨l, hl, hp⟩
  | none =>
    exact (post_processMissing t a).bind fun l hl => (post_finishPte (ne_pte hl) a).mono fun p hp => ⟨l, hl, hp⟩

theorem post_partitionTaken (t : Lvl) (a : Addr) (w : Walk) : Post (fun l => l ∈ subtypes t) (partitionTaken t a w) := by
  unfold partitionTaken
  exact (post_partitionIsLeaf _).bind fun leaf _ => (post_partitionSubtype t).bind fun l hl =>
    (post_xInsert (ne_pte hl) a _ _).bind fun _ _ => Post.pure hl

theorem post_partitionCached (lv : BitVec 32) (t : Lvl) (a : Addr) : ∀ ls, (∀ l ∈ ls, l ∈ subtypes t) →
    Post (fun l => l ∈ subtypes t) (partitionCached lv a ls) := by
  intro ls
  induction ls with
  | nil => intro _; exact Post.fail
  | cons l ls ih =>
    intro h
    have hl := h l (by simp)
    have ih := ih fun x hx => h x (List.mem_cons_of_mem _ hx)
    unfold partitionCached
    refine (post_xGet (ne_pte hl) a).bind fun o _ => ?_
    cases o with
    | none => exact ih
    | some p =>
      obtain ⟨r, f⟩ := p
      cases f with
      | some f => exact Post.pure hl
      | none =>
        unfold partitionGuess
        exact (post_partitionIsLeaf _).bind fun leaf _ => (post_xInsert (ne_pte hl) a _ _).bind fun _ _ => Post.pure hl

theorem post_partitionPte (t : Lvl) (a : Addr) : Post (fun p => ∃ l ∈ subtypes t, p.pageSize = pageSizes l) (partitionPte t a) := by
  unfold partitionPte
  refine (post_take _).bind fun o _ => ?_
  cases o with
  | some w =>
    exact (post_partitionTaken t a w).bind fun l hl => (post_finishPte (ne_pte hl) a).mono fun p hp => ⟨l, hl, hp⟩
  | none =>
    exact (post_partitionCached _ t a _ fun l hl => hl).bind fun l hl =>
      (post_finishPte (ne_pte hl) a).mono fun p hp => ⟨l, hl, hp⟩

/-- Page sizes of entries below the top level exist. -/
theorem pageSize_of {t l : Lvl} (ht : t ≠ .pgd) (hl : l ∈ subtypes t) : PageSize (pageSizes l) := by
  revert ht hl; cases t <;> cases l <;> decide

theorem post_partitionRealAddr (f : BitVec 32) (a : Addr) {s : Nat} (hs : PageSize s) :
    Post (fun _ => True) (partitionRealAddr f a s) := by
  unfold partitionRealAddr
  refine (post_take _).bind fun o _ => ?_
  cases o with
  | some w => exact (post_xTlbInsert hs a _).bind fun _ _ => Post.pure trivial
  | none =>
    refine (post_xTlbGet hs a).bind fun o _ => ?_
    cases o with
    | some r => exact Post.pure trivial
    | none => exact Post.fail

/-- What a partition-scoped translation returns. -/
def HostOk (h : Host) : Prop := PageSize h.pageSize ∧ 2 ≤ h.ptes.length ∧ h.ptes.length ≤ 4

theorem post_partitionFinal (f : BitVec 32) (a : Addr) {ptes : List (BitVec 64)} (h2 : 2 ≤ ptes.length) (h4 : ptes.length ≤ 4)
    {s : Nat} (hs : PageSize s) : Post HostOk (partitionFinal f a ptes s) := by
  unfold partitionFinal
  exact (post_partitionRealAddr f a hs).bind fun r _ => (post_xRevInsert hs _ _).bind fun _ _ => Post.pure ⟨hs, h2, h4⟩

theorem post_partitionTranslate (f : BitVec 32) (a : Addr) : Post HostOk (partitionTranslate f a) := by
  unfold partitionTranslate
  refine (post_partitionPte .pgd a).bind fun pgd _ => ?_
  refine (post_partitionPte .pud a).bind fun pud hpud => ?_
  obtain ⟨l, hl, e⟩ := hpud
  by_cases h : pud.leaf = true
  · rw [if_pos h]
    exact post_partitionFinal f a (by simp) (by simp) (by rw [e]; exact pageSize_of (by simp) hl)
  · rw [if_neg h]
    unfold partitionLower
    refine (post_partitionPte .pmd a).bind fun pmd hpmd => ?_
    obtain ⟨l, hl, e⟩ := hpmd
    by_cases h : pmd.leaf = true
    · rw [if_pos h]
      exact post_partitionFinal f a (by simp) (by simp) (by rw [e]; exact pageSize_of (by simp) hl)
    · rw [if_neg h]
      refine (post_partitionPte .pte a).bind fun pte hpte => ?_
      obtain ⟨l, hl, e⟩ := hpte
      exact post_partitionFinal f a (by simp) (by simp) (by rw [e]; exact pageSize_of (by simp) hl)

theorem post_processTable (lpid : BitVec 32) : Post (fun _ => True) (processTable lpid) := by
  unfold processTable
  refine (post_take _).bind fun _ _ => (post_take _).bind fun o _ => ?_
  cases o with
  | none => exact Post.pure trivial
  | some w => exact (post_partitionTranslate _ _).ignore

theorem post_guestLevel (t : Lvl) (a : Addr) :
    Post (fun p => (∃ l ∈ subtypes t, p.1.pageSize = pageSizes l) ∧ HostOk p.2.host) (guestLevel t a) := by
  unfold guestLevel
  exact (post_processPte t a).bind fun p hp => (post_partitionTranslate _ _).bind fun h hh => Post.pure ⟨hp, hh⟩

theorem post_finalLevel (a : Addr) {s : Nat} (hs : PageSize s) : Post (fun r => HostOk r.host) (finalLevel a s) := by
  unfold finalLevel
  refine Post.bind (P := fun _ => True) ?_ fun g _ => (post_partitionTranslate _ _).bind fun h hh => Post.pure hh
  unfold processRealAddr'
  refine (post_take _).bind fun o _ => ?_
  cases o with
  | none => exact Post.fail
  | some w => exact (post_xTlbInsert hs a _).bind fun _ _ => Post.pure trivial

/-- What a nested walk returns. -/
structure NestedOk (n : Nested) : Prop where
  rows : n.rows.length = 3 ∨ n.rows.length = 4
  all : ∀ r ∈ n.rows, HostOk r.host
  final : HostOk n.final.host
  guest : PageSize n.guestPageSize

theorem post_nestedRadix (a : Addr) : Post NestedOk (nestedRadix a) := by
  unfold nestedRadix
  refine (post_processTable _).bind fun _ _ => ?_
  refine (post_guestLevel .pgd a).bind fun p0 h0 => ?_
  obtain ⟨q0, r0⟩ := p0
  refine (post_guestLevel .pud a).bind fun p1 h1 => ?_
  obtain ⟨q1, r1⟩ := p1
  refine (post_guestLevel .pmd a).bind fun p2 h2 => ?_
  obtain ⟨pmd, r2⟩ := p2
  obtain ⟨⟨l, hl, e⟩, h2⟩ := h2
  have hps : PageSize pmd.pageSize := by
    rw [show pmd.pageSize = pageSizes l from e]; exact pageSize_of (by simp) hl
  show Post NestedOk (nestedLower a [r0, r1, r2] pmd)
  unfold nestedLower
  by_cases h : pmd.leaf = true
  · rw [if_pos h]
    refine (post_finalLevel a hps).bind fun f hf => Post.pure ⟨Or.inl rfl, ?_, hf, hps⟩
    intro r hr
    simp only [List.mem_cons, List.not_mem_nil, or_false] at hr
    rcases hr with rfl | rfl | rfl
    · exact h0.2
    · exact h1.2
    · exact h2
  · rw [if_neg h]
    refine (post_guestLevel .pte a).bind fun p3 h3 => ?_
    obtain ⟨pte, r3⟩ := p3
    obtain ⟨⟨l, hl, e⟩, h3⟩ := h3
    have hps : PageSize pte.pageSize := by
      rw [show pte.pageSize = pageSizes l from e]; exact pageSize_of (by simp) hl
    refine (post_finalLevel a hps).bind fun f hf => Post.pure ⟨Or.inr rfl, ?_, hf, hps⟩
    intro r hr
    simp only [List.cons_append, List.nil_append, List.mem_cons, List.not_mem_nil, or_false] at hr
    rcases hr with rfl | rfl | rfl | rfl
    · exact h0.2
    · exact h1.2
    · exact h2
    · exact h3

end Htm.Xl
