import Verif.Clist.Rings

/-! # Every operation keeps memory and lists in step -/

namespace Clist
open ClistSpec

/-- Memory holds the lists. -/
structure Inv (s : State) (m : Mem) : Prop where
  live : m.live = s.live
  ring : ∀ h xs, s.lists h = some xs → Ring m h xs
  disj : ∀ h k xs ys, h ≠ k → s.lists h = some xs → s.lists k = some ys → ∀ a ∈ h :: xs, a ∉ k :: ys

/-- list.h: one operation of a program, by the functions above. -/
def stepOp (m : Mem) : Op → Except Fault Mem
  | .alloc a x y => .ok (alloc m a x y)
  | .free a => .ok (free m a)
  | .init h => headInit m h
  | .add h n => add m h n
  | .addTail h n => addTail m h n
  | .addAfter _ p n => addAfter m p n
  | .addBefore _ p n => addBefore m p n
  | .del _ n => del m n
  | .delInit _ n => delInit m n
  | .delFrom h n => delFrom m h n
  | .swap _ o n => swap m o n
  | .pop h => match pop m h with
    | .ok r => .ok r.2
    | .error e => .error e
  | .append to frm => appendList m to frm
  | .prepend to frm => prependList m to frm
  | .sweep h rm fuel => match forEachSafe rm m h fuel with
    | .ok (some m) => .ok m
    | .ok none => .ok m
    | .error e => .error e

/-- A program. -/
def run (m : Mem) : List Op → Except Fault Mem
  | [] => .ok m
  | o :: ops => match stepOp m o with
    | .ok m => run m ops
    | .error e => .error e

theorem seg_congr {m m' : Mem} : ∀ {xs : List Addr} {p q : Addr}, Seg m p xs q →
    (∀ a, a = p ∨ a ∈ xs ∨ a = q → m'.live a = m.live a ∧ m'.next a = m.next a ∧ m'.prev a = m.prev a) → Seg m' p xs q
  | [], p, q, h, e => by
    have h1 := e p (Or.inl rfl)
    have h2 := e q (Or.inr (Or.inr rfl))
    exact ⟨h1.1.trans h.1, h2.1.trans h.2.1, h1.2.1.trans h.2.2.1, h2.2.2.trans h.2.2.2⟩
  | x :: xs, p, q, h, e => by
    have h1 := e p (Or.inl rfl)
    have h2 := e x (Or.inr (Or.inl (by simp)))
    refine ⟨⟨h1.1.trans h.1.1, h2.1.trans h.1.2.1, h1.2.1.trans h.1.2.2.1, h2.2.2.trans h.1.2.2.2⟩,
      seg_congr h.2 fun a ha => e a ?_⟩
    rcases ha with rfl | ha | rfl
    · exact Or.inr (Or.inl (by simp))
    · exact Or.inr (Or.inl (by simp [ha]))
    · exact Or.inr (Or.inr rfl)

theorem ring_congr {m m' : Mem} {h : Addr} {xs : List Addr} (r : Ring m h xs)
    (e : ∀ a ∈ h :: xs, m'.live a = m.live a ∧ m'.next a = m.next a ∧ m'.prev a = m.prev a) : Ring m' h xs := by
  refine ⟨r.1, seg_congr r.2 fun a ha => e a ?_⟩
  rcases ha with rfl | ha | rfl <;> simp_all

theorem at_eq {s : State} {h : Addr} {xs : List Addr} (e : s.lists h = some xs) : s.at h = xs := by
  simp [State.at, e]

/-- A node that is on no list is outside of every ring. -/
theorem unused_outside {s : State} {n k : Addr} {ys : List Addr} (u : Unused s n) (e : s.lists k = some ys) : n ∉ k :: ys := by
  rw [List.mem_cons]
  rintro (rfl | h)
  · rw [u.2.1] at e; cases e
  · exact u.2.2 _ _ e h

/-- One list changed. -/
theorem inv_put {s : State} {m m' : Mem} {h : Addr} {xs' : List Addr} (i : Inv s m) (hl : m'.live = m.live)
    (r : Ring m' h xs') (hf : ∀ k ys, k ≠ h → s.lists k = some ys → Seg m' k ys k)
    (ho : ∀ k ys, k ≠ h → s.lists k = some ys → ∀ a ∈ h :: xs', a ∉ k :: ys) : Inv (s.put h xs') m' := by
  constructor
  · rw [hl]; exact i.live
  · intro k ys e
    simp only [State.put] at e
    by_cases hk : k = h
    · rw [if_pos hk] at e; cases e; subst hk; exact r
    · rw [if_neg hk] at e
      exact ⟨(i.ring k ys e).1, hf k ys hk e⟩
  · intro k l ys zs hkl e1 e2 a ha
    simp only [State.put] at e1 e2
    by_cases hk : k = h
    · subst hk
      rw [if_pos rfl] at e1; cases e1
      rw [if_neg (Ne.symm hkl)] at e2
      exact ho l zs (Ne.symm hkl) e2 a ha
    · rw [if_neg hk] at e1
      by_cases hl' : l = h
      · subst hl'
        rw [if_pos rfl] at e2; cases e2
        exact fun hb => ho k ys hk e1 a hb ha
      · rw [if_neg hl'] at e2
        exact i.disj k l ys zs hkl e1 e2 a ha

/-- A node put on a list, by two links among the ring and the node. -/
theorem inv_insert {s : State} {m : Mem} {h n a b c d : Addr} {xs xs' : List Addr} (i : Inv s m) (e : s.lists h = some xs)
    (u : Unused s n) (ha : a ∈ n :: h :: xs) (hb : b ∈ n :: h :: xs) (hc : c ∈ n :: h :: xs) (hd : d ∈ n :: h :: xs)
    (r : Ring ((m.link a b).link c d) h xs') (hx : ∀ x ∈ xs', x ∈ n :: h :: xs) :
    Inv (s.put h xs') ((m.link a b).link c d) := by
  have out : ∀ k ys, k ≠ h → s.lists k = some ys → ∀ x ∈ n :: h :: xs, x ∉ k :: ys := by
    intro k ys hk e' x hx
    rcases List.mem_cons.mp hx with rfl | hx
    · exact unused_outside u e'
    · exact i.disj h k xs ys (Ne.symm hk) e e' x hx
  refine inv_put i rfl r (fun k ys hk e' => ?_) (fun k ys hk e' x hx' => out k ys hk e' x ?_)
  · exact seg_outside (seg_outside (i.ring k ys e').2 (out k ys hk e' a ha) (out k ys hk e' b hb)) (out k ys hk e' c hc)
      (out k ys hk e' d hd)
  · rcases List.mem_cons.mp hx' with rfl | hx'
    · simp
    · exact hx x hx'

/-- A node taken off a list. -/
theorem inv_remove {s : State} {m : Mem} {h a b : Addr} {xs xs' : List Addr} (i : Inv s m) (e : s.lists h = some xs)
    (ha : a ∈ h :: xs) (hb : b ∈ h :: xs) (r : Ring (m.link a b) h xs') (hx : ∀ x ∈ xs', x ∈ xs) :
    Inv (s.put h xs') (m.link a b) := by
  have out : ∀ k ys, k ≠ h → s.lists k = some ys → ∀ x ∈ h :: xs, x ∉ k :: ys :=
    fun k ys hk e' x hx => i.disj h k xs ys (Ne.symm hk) e e' x hx
  refine inv_put i rfl r (fun k ys hk e' => ?_) (fun k ys hk e' x hx' => out k ys hk e' x ?_)
  · exact seg_outside (i.ring k ys e').2 (out k ys hk e' a ha) (out k ys hk e' b hb)
  · rcases List.mem_cons.mp hx' with rfl | hx'
    · simp
    · exact List.mem_cons_of_mem _ (hx x hx')

theorem behind_split (p n : Nat) : ∀ (as bs : List Nat), p ∉ as → behind p n (as ++ p :: bs) = as ++ p :: n :: bs
  | [], bs, _ => by simp [behind]
  | a :: as, bs, h => by
    simp only [List.mem_cons, not_or] at h
    simp [behind, Ne.symm h.1, behind_split p n as bs h.2]

theorem before_split (p n : Nat) : ∀ (as bs : List Nat), p ∉ as → before p n (as ++ p :: bs) = as ++ n :: p :: bs
  | [], bs, _ => by simp [before]
  | a :: as, bs, h => by
    simp only [List.mem_cons, not_or] at h
    simp [before, Ne.symm h.1, before_split p n as bs h.2]

theorem swap_split (o n : Nat) (as bs : List Nat) (h1 : o ∉ as) (h2 : o ∉ bs) :
    (as ++ o :: bs).map (fun x => if x = o then n else x) = as ++ n :: bs := by
  have h : ∀ l : List Nat, o ∉ l → l.map (fun x => if x = o then n else x) = l := by
    intro l hl
    conv => rhs; rw [← List.map_id l]
    apply List.map_congr_left
    intro x hx
    rw [if_neg (by rintro rfl; exact hl hx)]; rfl
  simp [h as h1, h bs h2]

theorem erase_split (n : Nat) (as bs : List Nat) (h : n ∉ as) : (as ++ n :: bs).erase n = as ++ bs := by
  rw [List.erase_append_right _ h]; simp

/-! ## The operations -/

theorem on_split {s : State} {h n : Nat} (o : On s h n) : ∃ as bs, s.lists h = some (as ++ n :: bs) := by
  obtain ⟨xs, e, hx⟩ := o
  obtain ⟨as, bs, rfl⟩ := List.append_of_mem hx
  exact ⟨as, bs, e⟩

theorem step_del {s : State} {m : Mem} (i : Inv s m) {h n : Addr} (o : On s h n) :
    ∃ m', del m n = .ok m' ∧ Inv (s.put h ((s.at h).erase n)) m' := by
  obtain ⟨as, bs, e⟩ := on_split o
  have r := i.ring _ _ e
  obtain ⟨l1, l2, l3, l4, l5, l6⟩ := ring_live_split r
  obtain ⟨_, _, hp, hn, _, _, _, d4, _⟩ := ring_split r
  refine ⟨_, del_link l2 l3 l4 l6, ?_⟩
  rw [at_eq e, erase_split _ _ _ d4]
  refine inv_remove i e ?_ ?_ (ring_del r) ?_
  · simp only [List.mem_cons, List.mem_append] at hp ⊢
    rcases hp with h | h
    · exact Or.inl h
    · exact Or.inr (Or.inl h)
  · simp only [List.mem_cons, List.mem_append, List.not_mem_nil, or_false] at hn ⊢
    rcases hn with h | h
    · exact Or.inr (Or.inr (Or.inr h))
    · exact Or.inl h
  · intro x hx
    simp only [List.mem_cons, List.mem_append] at hx ⊢
    rcases hx with h | h
    · exact Or.inl h
    · exact Or.inr (Or.inr h)

theorem unused_live {s : State} {m : Mem} (i : Inv s m) {n : Addr} (u : Unused s n) : m.live n = true := by
  rw [i.live]; exact u.1

theorem step_add {s : State} {m : Mem} (i : Inv s m) {h n : Addr} (o : Head s h) (u : Unused s n) :
    ∃ m', add m h n = .ok m' ∧ Inv (s.put h (n :: s.at h)) m' := by
  obtain ⟨xs, e⟩ := o
  have r := i.ring _ _ e
  have hn := unused_live i u
  have out := unused_outside u e
  have nx := ring_next r
  refine ⟨_, addAfter_link (ring_live r h (by simp)) hn (ring_live r _ nx) (fun h' => out (by simp [h'])) (fun h' => out (h' ▸ nx)), ?_⟩
  rw [at_eq e]
  refine inv_insert i e u (by simp) (List.mem_cons_of_mem _ nx) (by simp) (by simp) (ring_add r hn out) ?_
  intro x hx
  simp only [List.mem_cons] at hx ⊢
  rcases hx with h | h
  · exact Or.inl h
  · exact Or.inr (Or.inr h)

theorem step_addTail {s : State} {m : Mem} (i : Inv s m) {h n : Addr} (o : Head s h) (u : Unused s n) :
    ∃ m', addTail m h n = .ok m' ∧ Inv (s.put h (s.at h ++ [n])) m' := by
  obtain ⟨xs, e⟩ := o
  have r := i.ring _ _ e
  have hn := unused_live i u
  have out := unused_outside u e
  have pv := ring_prev r
  refine ⟨_, addBefore_link (ring_live r h (by simp)) hn (ring_live r _ pv) (fun h' => out (by simp [h'])) (fun h' => out (h' ▸ pv)), ?_⟩
  rw [at_eq e]
  refine inv_insert i e u (by simp) (by simp) (List.mem_cons_of_mem _ pv) (by simp) (ring_addTail r hn out) ?_
  intro x hx
  simp only [List.mem_cons, List.mem_append, List.not_mem_nil, or_false] at hx ⊢
  rcases hx with h | h
  · exact Or.inr (Or.inr h)
  · exact Or.inl h

theorem mem_prev {h p x : Addr} {as bs : List Addr} (hp : x ∈ h :: as) : x ∈ h :: (as ++ p :: bs) := by
  simp only [List.mem_cons, List.mem_append] at hp ⊢
  rcases hp with h | h
  · exact Or.inl h
  · exact Or.inr (Or.inl h)

theorem mem_next {h p x : Addr} {as bs : List Addr} (hp : x ∈ bs ++ [h]) : x ∈ h :: (as ++ p :: bs) := by
  simp only [List.mem_cons, List.mem_append, List.not_mem_nil, or_false] at hp ⊢
  rcases hp with h | h
  · exact Or.inr (Or.inr (Or.inr h))
  · exact Or.inl h

theorem step_addAfter {s : State} {m : Mem} (i : Inv s m) {h p n : Addr} (o : On s h p) (u : Unused s n) :
    ∃ m', addAfter m p n = .ok m' ∧ Inv (s.put h (behind p n (s.at h))) m' := by
  obtain ⟨as, bs, e⟩ := on_split o
  have r := i.ring _ _ e
  have hn := unused_live i u
  have out := unused_outside u e
  obtain ⟨l1, l2, l3, l4, l5, l6⟩ := ring_live_split r
  obtain ⟨_, _, hp, hx, _, _, _, d4, _⟩ := ring_split r
  have nx : m.next p ∈ h :: (as ++ p :: bs) := mem_next hx
  refine ⟨_, addAfter_link l2 hn l4 (fun h' => out (by simp [h'])) (fun h' => out (h' ▸ nx)), ?_⟩
  rw [at_eq e, behind_split _ _ _ _ d4]
  refine inv_insert i e u (by simp) (List.mem_cons_of_mem _ nx) (by simp) (by simp) (ring_addAfter r hn out) ?_
  intro x hx
  simp only [List.mem_cons, List.mem_append] at hx ⊢
  rcases hx with h | h | h | h <;> simp [h]

theorem step_addBefore {s : State} {m : Mem} (i : Inv s m) {h p n : Addr} (o : On s h p) (u : Unused s n) :
    ∃ m', addBefore m p n = .ok m' ∧ Inv (s.put h (before p n (s.at h))) m' := by
  obtain ⟨as, bs, e⟩ := on_split o
  have r := i.ring _ _ e
  have hn := unused_live i u
  have out := unused_outside u e
  obtain ⟨l1, l2, l3, l4, l5, l6⟩ := ring_live_split r
  obtain ⟨_, _, hp, hx, _, _, _, d4, _⟩ := ring_split r
  have pv : m.prev p ∈ h :: (as ++ p :: bs) := mem_prev hp
  refine ⟨_, addBefore_link l2 hn l3 (fun h' => out (by simp [h'])) (fun h' => out (h' ▸ pv)), ?_⟩
  rw [at_eq e, before_split _ _ _ _ d4]
  refine inv_insert i e u (by simp) (by simp) (List.mem_cons_of_mem _ pv) (by simp) (ring_addBefore r hn out) ?_
  intro x hx
  simp only [List.mem_cons, List.mem_append] at hx ⊢
  rcases hx with h | h | h | h <;> simp [h]

theorem step_swap {s : State} {m : Mem} (i : Inv s m) {h p n : Addr} (o : On s h p) (u : Unused s n) :
    ∃ m', swap m p n = .ok m' ∧ Inv (s.put h ((s.at h).map fun x => if x = p then n else x)) m' := by
  obtain ⟨as, bs, e⟩ := on_split o
  have r := i.ring _ _ e
  have hn := unused_live i u
  have out := unused_outside u e
  obtain ⟨l1, l2, l3, l4, l5, l6⟩ := ring_live_split r
  obtain ⟨_, _, hp, hx, _, _, _, d4, d5, _⟩ := ring_split r
  have pv : m.prev p ∈ h :: (as ++ p :: bs) := mem_prev hp
  have nx : m.next p ∈ h :: (as ++ p :: bs) := mem_next hx
  refine ⟨_, swap_link hn l2 l3 l4 (fun h' => out (h' ▸ nx)) (fun h' => out (h' ▸ pv)), ?_⟩
  rw [at_eq e, swap_split _ _ _ _ d4 d5]
  refine inv_insert i e u (by simp) (List.mem_cons_of_mem _ nx) (List.mem_cons_of_mem _ pv) (by simp) (ring_swap r hn out) ?_
  intro x hx
  simp only [List.mem_cons, List.mem_append] at hx ⊢
  rcases hx with h | h | h <;> simp [h]

theorem isEmpty_eq {m : Mem} {h : Addr} {xs : List Addr} (r : Ring m h xs) : isEmpty m h = .ok (xs.isEmpty) := by
  have hl := ring_live r h (by simp)
  simp only [isEmpty, getNext, hl, if_true, ok_bind]
  cases xs with
  | nil => rw [r.2.2.2.1]; simp [pure, Except.pure]
  | cons x xs =>
    have hd := r.1
    rw [r.2.1.2.2.1]
    simp only [List.nodup_cons, List.mem_cons, not_or] at hd
    simp [pure, Except.pure, Ne.symm hd.1.1]

theorem step_pop {s : State} {m : Mem} (i : Inv s m) {h : Addr} (o : Head s h) :
    ∃ m', pop m h = .ok ((s.at h).head?, m') ∧ Inv (s.put h (s.at h).tail) m' := by
  obtain ⟨xs, e⟩ := o
  have r := i.ring _ _ e
  rw [at_eq e]
  cases xs with
  | nil =>
    refine ⟨m, ?_, inv_put i rfl r (fun k ys _ e' => (i.ring k ys e').2) (fun k ys hk e' => i.disj h k [] ys (Ne.symm hk) e e')⟩
    simp [pop, isEmpty_eq r, ok_bind, pure, Except.pure]
  | cons x xs =>
    obtain ⟨m', hd, hi⟩ := step_del i (h := h) (n := x) ⟨_, e, by simp⟩
    rw [at_eq e] at hi
    refine ⟨m', ?_, by simpa using hi⟩
    have hn : m.next h = x := r.2.1.2.2.1
    simp [pop, isEmpty_eq r, ok_bind, pure, Except.pure, getNext, ring_live r h (by simp), hn, hd]

theorem step_delFrom {s : State} {m : Mem} (i : Inv s m) {h n : Addr} (o : On s h n) :
    ∃ m', delFrom m h n = .ok m' ∧ Inv (s.put h ((s.at h).erase n)) m' := by
  obtain ⟨m', hd, hi⟩ := step_del i o
  refine ⟨m', ?_, hi⟩
  obtain ⟨as, bs, e⟩ := on_split o
  have r := i.ring _ _ e
  simp [delFrom, isEmpty_eq r, ok_bind, hd]

/-- A link of an unused node to itself. -/
theorem inv_self {s : State} {m : Mem} (i : Inv s m) {n : Addr} (h : ∀ k ys, s.lists k = some ys → n ∉ k :: ys) :
    Inv s (m.link n n) :=
  ⟨i.live, fun k ys e => ⟨(i.ring k ys e).1, seg_outside (i.ring k ys e).2 (h k ys e) (h k ys e)⟩, i.disj⟩

theorem put_lists (s : State) (h k : Nat) (xs : List Nat) : (s.put h xs).lists k = if k = h then some xs else s.lists k := rfl

theorem step_delInit {s : State} {m : Mem} (i : Inv s m) {h n : Addr} (o : On s h n) :
    ∃ m', delInit m n = .ok m' ∧ Inv (s.put h ((s.at h).erase n)) m' := by
  obtain ⟨m', hd, hi⟩ := step_del i o
  obtain ⟨as, bs, e⟩ := on_split o
  have r := i.ring _ _ e
  obtain ⟨_, _, _, _, d1, d2, d3, d4, d5, _⟩ := ring_split r
  have hl : m'.live n = true := by
    rw [hi.live]; show s.live n = true; rw [← i.live]; exact (ring_live_split r).2.1
  refine ⟨m'.link n n, by simp [delInit, nodeInit, hd, ok_bind, headInit_link hl], inv_self hi fun k ys e' => ?_⟩
  rw [put_lists] at e'
  by_cases hk : k = h
  · rw [if_pos hk] at e'
    rw [at_eq e, erase_split _ _ _ d4] at e'
    cases e'
    subst hk
    simp only [List.mem_cons, List.mem_append, not_or]
    exact ⟨Ne.symm d1, d4, d5⟩
  · rw [if_neg hk] at e'
    exact i.disj h k _ ys (Ne.symm hk) e e' n (by simp)

theorem step_init {s : State} {m : Mem} (i : Inv s m) {h : Addr} (hl : s.live h = true)
    (ho : ∀ k xs, s.lists k = some xs → h ∉ xs) : ∃ m', headInit m h = .ok m' ∧ Inv (s.put h []) m' := by
  have hl' : m.live h = true := by rw [i.live]; exact hl
  have out : ∀ k ys, k ≠ h → s.lists k = some ys → h ∉ k :: ys := by
    intro k ys hk e
    simp only [List.mem_cons, not_or]
    exact ⟨Ne.symm hk, ho k ys e⟩
  refine ⟨_, headInit_link hl', inv_put i rfl (ring_init hl') (fun k ys hk e => ?_) (fun k ys hk e a ha => ?_)⟩
  · exact seg_outside (i.ring k ys e).2 (out k ys hk e) (out k ys hk e)
  · rw [List.mem_singleton] at ha; subst ha; exact out k ys hk e

theorem step_alloc {s : State} {m : Mem} (i : Inv s m) {a x y : Addr} (hl : s.live a = false) :
    Inv { s with live := fun b => if b = a then true else s.live b } (alloc m a x y) := by
  refine ⟨by simp [alloc, i.live], fun h xs e => ?_, i.disj⟩
  have r := i.ring h xs e
  refine ring_congr r fun b hb => ?_
  have hba : b ≠ a := by
    rintro rfl
    have := ring_live r b hb
    rw [i.live, hl] at this; cases this
  simp [alloc, upd, hba]

theorem step_free {s : State} {m : Mem} (i : Inv s m) {a : Addr} (u : Unused s a) :
    Inv { s with live := fun b => if b = a then false else s.live b } (free m a) := by
  refine ⟨by simp [free, i.live], fun h xs e => ?_, i.disj⟩
  have r := i.ring h xs e
  refine ring_congr r fun b hb => ?_
  have hba : b ≠ a := by
    rintro rfl
    exact unused_outside u e hb
  simp [free, hba]

end Clist
