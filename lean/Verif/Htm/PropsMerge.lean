import Verif.Htm.Pwc
/-!
C21: combining interrupted walks.

A walk is a list of steps (`steps`); the program keeps it in an array of 38.  Merging keeps the steps of the old walk up to
the first step that the new walk starts with, or up to a step that raised an exception, and continues with the new walk; it
goes out of bounds exactly if that does not fit.
-/
namespace Htm.Pwc

/-- The steps of a walk. -/
def steps (x : Xlate) : List Walk := x.walks.take x.nwalks

/-- A walk as the decoder produces it: the number of steps fits the array. -/
structure Fits (x : Xlate) : Prop where
  size : x.walks.length = 38
  count : x.nwalks ≤ 38

instance (x : Xlate) : Decidable (Fits x) :=
  decidable_of_iff (x.walks.length = 38 ∧ x.nwalks ≤ 38) ⟨fun h => ⟨h.1, h.2⟩, fun h => ⟨h.size, h.count⟩⟩

/-- The address of the first step of a walk; of the array element, should there be no steps. -/
def start (x : Xlate) : Option (BitVec 64) := x.walks[0]?.map (·.ra)

/-- Same partition and process, and the new walk starts at a step of the old one. -/
def Continues (old new : Xlate) : Prop :=
  old.lpid = new.lpid ∧ old.pid = new.pid ∧ ∃ w ∈ steps old, some w.ra = start new

/-- The part of the old walk that is kept. -/
def kept (old new : Xlate) : List Walk := (steps old).takeWhile fun w => some w.ra != start new && !w.exception

theorem length_steps {x : Xlate} (h : Fits x) : (steps x).length = x.nwalks := by
  unfold steps; rw [List.length_take, h.size]; have := h.count; omega

theorem xmatch_iff (a b : Xlate) : xmatch a b = true ↔ Continues a b := by
  unfold xmatch Continues steps start
  simp only [Bool.and_eq_true, beq_iff_eq, List.any_eq_true, and_assoc]

theorem take_succ_set {α : Type} (t : List α) {i : Nat} (w : α) (h : i < t.length) : (t.set i w).take (i + 1) = t.take i ++ [w] := by
  rw [List.take_add_one, List.take_set_of_le (Nat.le_refl i), List.getElem?_set_self h]
  rfl

theorem mergeOld_spec (old : Xlate) (ra : BitVec 64) (hf : Fits old) : ∀ (fuel i : Nat) (t : List Walk), t.length = 38 →
    i + fuel = old.nwalks →
    ∃ t' k, mergeOld old ra fuel i t = .ok (t', i + k) ∧ t'.length = 38 ∧
      ((steps old).drop i).takeWhile (fun w => w.ra != ra && !w.exception) = ((steps old).drop i).take k ∧
      t'.take (i + k) = t.take i ++ ((steps old).drop i).take k ∧ k ≤ fuel := by
  intro fuel
  induction fuel with
  | zero =>
    intro i t ht hi
    refine ⟨t, 0, rfl, ht, ?_, by simp, by omega⟩
    have : (steps old).drop i = [] := by
      rw [List.drop_eq_nil_iff, length_steps hf]; omega
    rw [this]; rfl
  | succ fuel ih =>
    intro i t ht hi
    have hc := hf.count
    have hl := length_steps hf
    have hi' : i < (steps old).length := by omega
    have hget : old.walks[i]? = some ((steps old)[i]) := by
      have : (steps old)[i]? = old.walks[i]? := by
        unfold steps; rw [List.getElem?_take_of_lt (by omega)]
      rw [← this, List.getElem?_eq_getElem hi']
    have hdrop : (steps old).drop i = (steps old)[i] :: (steps old).drop (i + 1) := List.drop_eq_getElem_cons hi'
    rw [mergeOld, hget]
    generalize (steps old)[i] = w at *
    simp only
    by_cases h1 : w.ra = ra
    · rw [if_pos h1]
      refine ⟨t, 0, rfl, ht, ?_, by simp, by omega⟩
      rw [hdrop, List.takeWhile_cons]; simp [h1]
    · rw [if_neg h1]
      by_cases h2 : w.exception = true
      · rw [if_pos h2]
        refine ⟨t, 0, rfl, ht, ?_, by simp, by omega⟩
        rw [hdrop, List.takeWhile_cons]; simp [h2]
      · rw [if_neg h2]
        unfold setWalk
        rw [if_pos (by omega)]
        obtain ⟨t', k, e1, e2, e3, e4, e5⟩ := ih (i + 1) (t.set i w) (by rw [List.length_set, ht]) (by omega)
        refine ⟨t', k + 1, ?_, e2, ?_, ?_, by omega⟩
        · simp only; rw [e1, show i + 1 + k = i + (k + 1) by omega]
        · rw [hdrop, List.takeWhile_cons, List.take_succ_cons, ← e3]
          simp [h1, h2]
        · rw [show i + (k + 1) = i + 1 + k by omega, e4, hdrop, List.take_succ_cons, take_succ_set _ _ (by omega)]
          simp

theorem mergeNew_spec (new : Xlate) (hf : Fits new) : ∀ (fuel i j : Nat) (t : List Walk), t.length = 38 → j + fuel = new.nwalks →
    (i + fuel ≤ 38 → ∃ t', mergeNew new fuel i j t = .ok (t', i + fuel) ∧ t'.length = 38 ∧
      t'.take (i + fuel) = t.take i ++ (steps new).drop j) ∧
    (i ≤ 38 → 38 < i + fuel → mergeNew new fuel i j t = .error .overflow) := by
  intro fuel
  induction fuel with
  | zero =>
    intro i j t ht hj
    refine ⟨fun _ => ⟨t, rfl, ht, ?_⟩, by omega⟩
    have : (steps new).drop j = [] := by rw [List.drop_eq_nil_iff, length_steps hf]; omega
    rw [this]; simp
  | succ fuel ih =>
    intro i j t ht hj
    have hc := hf.count
    have hl := length_steps hf
    have hj' : j < (steps new).length := by omega
    have hget : new.walks[j]? = some ((steps new)[j]) := by
      have : (steps new)[j]? = new.walks[j]? := by
        unfold steps; rw [List.getElem?_take_of_lt (by omega)]
      rw [← this, List.getElem?_eq_getElem hj']
    have hdrop : (steps new).drop j = (steps new)[j] :: (steps new).drop (j + 1) := List.drop_eq_getElem_cons hj'
    rw [mergeNew, hget]
    generalize (steps new)[j] = w at *
    simp only
    unfold setWalk
    by_cases hi : i < 38
    · rw [if_pos (by omega)]
      simp only
      obtain ⟨h1, h2⟩ := ih (i + 1) (j + 1) (t.set i w) (by rw [List.length_set, ht]) (by omega)
      constructor
      · intro hle
        obtain ⟨t', e1, e2, e3⟩ := h1 (by omega)
        refine ⟨t', by rw [e1, show i + 1 + fuel = i + (fuel + 1) by omega], e2, ?_⟩
        rw [show i + (fuel + 1) = i + 1 + fuel by omega, e3, hdrop, take_succ_set _ _ (by omega)]
        simp
      · intro _ hgt; exact h2 (by omega) (by omega)
    · rw [if_neg (by omega)]
      exact ⟨by omega, fun _ _ => rfl⟩

theorem start_eq {x : Xlate} (h : Fits x) : ∃ ra, firstRa x = .ok ra ∧ start x = some ra := by
  unfold firstRa start
  have : 0 < x.walks.length := by rw [h.size]; omega
  rw [List.getElem?_eq_getElem this]
  exact ⟨_, rfl, rfl⟩

theorem takeWhile_length_lt {α : Type} (p : α → Bool) {l : List α} {w : α} (hw : w ∈ l) (hp : p w = false) :
    (l.takeWhile p).length < l.length := by
  induction l with
  | nil => simp at hw
  | cons x l ih =>
    rw [List.takeWhile_cons]
    by_cases hx : p x = true
    · rw [if_pos hx]
      rcases List.mem_cons.1 hw with rfl | hw
      · rw [hp] at hx; simp at hx
      · simpa using ih hw
    · rw [if_neg hx]; simp

/-- Merging a walk with one that continues it: the kept part of the old walk followed by the new walk if these are at most
38 steps; otherwise the merge writes outside the array.  No assertion fails. -/
theorem C21_merge {old new : Xlate} (ho : Fits old) (hn : Fits new) (hc : Continues old new) :
    ((kept old new).length + (steps new).length ≤ 38 →
      ∃ m, merge old new = .ok m ∧ Fits m ∧ steps m = kept old new ++ steps new ∧
        m.dSide = old.dSide ∧ m.lpid = old.lpid ∧ m.pid = old.pid) ∧
    (38 < (kept old new).length + (steps new).length → merge old new = .error .overflow) := by
  obtain ⟨h1, h2, w, hw, hwra⟩ := hc
  obtain ⟨ra, e1, e2⟩ := start_eq hn
  unfold merge
  rw [if_neg (by simp [h1, h2]), e1]
  simp only
  obtain ⟨t, k, f1, f2, f3, f4, f5⟩ := mergeOld_spec old ra ho old.nwalks 0 (List.replicate MAXW {}) (by simp [MAXW]) (by omega)
  have hkept : kept old new = (steps old).take k := by
    unfold kept
    rw [e2]
    simp only [List.drop_zero] at f3
    rw [← f3]
    congr 1
  have hk : k < old.nwalks := by
    have h := takeWhile_length_lt (fun w => some w.ra != start new && !w.exception) hw (by simp [hwra])
    change (kept old new).length < _ at h
    rw [hkept, List.length_take, length_steps ho] at h
    omega
  have hkl : (kept old new).length = k := by rw [hkept, List.length_take, length_steps ho]; omega
  rw [f1]
  simp only [Nat.zero_add, List.take_zero, List.nil_append, List.drop_zero] at f4 ⊢
  rw [if_neg (by omega), hkl, length_steps hn]
  obtain ⟨g1, g2⟩ := mergeNew_spec new hn new.nwalks k 0 t f2 (by omega)
  constructor
  · intro hle
    obtain ⟨t', i1, i2, i3⟩ := g1 hle
    rw [i1]
    refine ⟨_, rfl, ⟨i2, hle⟩, ?_, rfl, rfl, rfl⟩
    show t'.take (k + new.nwalks) = _
    rw [i3, f4, hkept, List.drop_zero]
  · intro hgt
    have := ho.count
    rw [g2 (by omega) hgt]

/-- If no step of the old walk raised an exception, what is kept are the steps before the first one at the address where
the new walk starts. -/
theorem C21_kept {old new : Xlate} (hx : ∀ w ∈ steps old, w.exception = false) :
    kept old new = (steps old).takeWhile fun w => some w.ra != start new := by
  unfold kept
  generalize steps old = l at hx
  induction l with
  | nil => rfl
  | cons w l ih =>
    rw [List.takeWhile_cons, List.takeWhile_cons, hx w (by simp), ih (fun w hw => hx w (List.mem_cons_of_mem _ hw))]
    simp

/-! ### The store of interrupted walks -/

/-- The calls that change the store. -/
inductive POp where
  | insert (x : Xlate)
  | lookup (x : Xlate)
  | address (a r : BitVec 64)
deriving DecidableEq, Repr

/-- One call: the walk returned, if any, and the new store. -/
def pstep (l : List Xlate) : POp → Except Bad (Option Xlate × List Xlate)
  | .insert x => (partialInsert l x).map fun l => (none, l)
  | .lookup x => partialLookup l x
  | .address a r => .ok (addressLookup l a r)

/-- A history of calls: the walks returned and the store. -/
def prun : List Xlate → List POp → Except Bad (List Xlate × List Xlate)
  | l, [] => .ok ([], l)
  | l, o :: os =>
    match pstep l o with
    | .error e => .error e
    | .ok (r, l) =>
      match prun l os with
      | .error e => .error e
      | .ok (rs, l) => .ok (r.toList ++ rs, l)

/-- The walk passed to a call. -/
def POp.arg : POp → Option Xlate
  | .insert x => some x
  | .lookup x => some x
  | .address _ _ => none

/-- Every step of the walk is a step of a walk of `src` of the same partition and process. -/
def From (src : List Xlate) (x : Xlate) : Prop :=
  ∀ w ∈ steps x, ∃ y ∈ src, w ∈ steps y ∧ y.lpid = x.lpid ∧ y.pid = x.pid

theorem merge_from {src : List Xlate} {old new m : Xlate} (ho : Fits old) (hn : Fits new) (hc : Continues old new)
    (h1 : From src old) (h2 : From src new) (h : merge old new = .ok m) : Fits m ∧ From src m := by
  obtain ⟨g1, g2⟩ := C21_merge ho hn hc
  by_cases hle : (kept old new).length + (steps new).length ≤ 38
  · obtain ⟨m', e, hf, hs, -, hlp, hpi⟩ := g1 hle
    rw [e] at h
    injection h with h
    subst h
    refine ⟨hf, ?_⟩
    intro w hw
    rw [hs, List.mem_append] at hw
    rw [hlp, hpi]
    rcases hw with hw | hw
    · exact h1 w ((List.takeWhile_sublist _).subset hw)
    · obtain ⟨y, hy, hyw, e1, e2⟩ := h2 w hw
      exact ⟨y, hy, hyw, by rw [e1, hc.1], by rw [e2, hc.2.1]⟩
  · rw [g2 (by omega)] at h; simp at h

theorem merge_error {old new : Xlate} (ho : Fits old) (hn : Fits new) (hc : Continues old new) {e : Bad}
    (h : merge old new = .error e) : e = .overflow := by
  obtain ⟨g1, g2⟩ := C21_merge ho hn hc
  by_cases hle : (kept old new).length + (steps new).length ≤ 38
  · obtain ⟨m', e', -⟩ := g1 hle
    rw [e'] at h; simp at h
  · rw [g2 (by omega)] at h; injection h with h; exact h.symm

theorem partialInsert_ok {src : List Xlate} {x : Xlate} (hx : Fits x ∧ From src x) : ∀ (l : List Xlate),
    (∀ n ∈ l, Fits n ∧ From src n) →
    (∀ l', partialInsert l x = .ok l' → ∀ n ∈ l', Fits n ∧ From src n) ∧
    (∀ e, partialInsert l x = .error e → e = .overflow) := by
  intro l
  induction l with
  | nil =>
    intro _
    constructor
    · intro l' h n hn
      rw [partialInsert] at h
      injection h with h
      subst h
      rw [List.mem_singleton] at hn
      subst hn; exact hx
    · intro e h; rw [partialInsert] at h; simp at h
  | cons n l ih =>
    intro hl
    have ih := ih fun y hy => hl y (List.mem_cons_of_mem _ hy)
    have hn := hl n (by simp)
    rw [partialInsert]
    by_cases hm : xmatch n x = true
    · rw [if_pos hm]
      have hc := (xmatch_iff n x).1 hm
      cases he : merge n x with
      | error e =>
        refine ⟨by simp, ?_⟩
        intro e' h'; simp at h'; rw [← h']; exact merge_error hn.1 hx.1 hc he
      | ok m =>
        refine ⟨?_, by simp⟩
        intro l' h
        simp only [Except.ok.injEq] at h
        subst h
        intro y hy
        rcases List.mem_cons.1 hy with rfl | hy
        · exact merge_from hn.1 hx.1 hc hn.2 hx.2 he
        · exact hl y (List.mem_cons_of_mem _ hy)
    · rw [if_neg hm]
      cases he : partialInsert l x with
      | error e =>
        refine ⟨by simp, ?_⟩
        intro e' h'; simp at h'; rw [← h']; exact ih.2 e he
      | ok l2 =>
        refine ⟨?_, by simp⟩
        intro l' h
        simp only [Except.ok.injEq] at h
        subst h
        intro y hy
        rcases List.mem_cons.1 hy with rfl | hy
        · exact hn
        · exact ih.1 l2 he y hy

theorem partialLookup_ok {src : List Xlate} {x : Xlate} (hx : Fits x ∧ From src x) : ∀ (l : List Xlate),
    (∀ n ∈ l, Fits n ∧ From src n) →
    (∀ m l', partialLookup l x = .ok (m, l') → (∀ n ∈ l', n ∈ l) ∧ ∀ n, m = some n → Fits n ∧ From src n) ∧
    (∀ e, partialLookup l x = .error e → e = .overflow) := by
  intro l
  induction l with
  | nil =>
    intro _
    constructor
    · intro m l' h
      rw [partialLookup] at h
      simp only [Except.ok.injEq, Prod.mk.injEq] at h
      obtain ⟨rfl, rfl⟩ := h
      simp
    · intro e h; rw [partialLookup] at h; simp at h
  | cons n l ih =>
    intro hl
    have ih := ih fun y hy => hl y (List.mem_cons_of_mem _ hy)
    have hn := hl n (by simp)
    rw [partialLookup]
    by_cases hm : xmatch n x = true
    · rw [if_pos hm]
      have hc := (xmatch_iff n x).1 hm
      cases he : merge n x with
      | error e =>
        refine ⟨by simp, ?_⟩
        intro e' h'; simp at h'; rw [← h']; exact merge_error hn.1 hx.1 hc he
      | ok m =>
        refine ⟨?_, by simp⟩
        intro m' l' h
        simp only [Except.ok.injEq, Prod.mk.injEq] at h
        obtain ⟨rfl, rfl⟩ := h
        refine ⟨fun y hy => List.mem_cons_of_mem _ hy, ?_⟩
        intro y hy
        injection hy with hy
        subst hy
        exact merge_from hn.1 hx.1 hc hn.2 hx.2 he
    · rw [if_neg hm]
      cases he : partialLookup l x with
      | error e =>
        refine ⟨by simp, ?_⟩
        intro e' h'; simp at h'; rw [← h']; exact ih.2 e he
      | ok p =>
        obtain ⟨m2, l2⟩ := p
        refine ⟨?_, by simp⟩
        intro m' l' h
        simp only [Except.ok.injEq, Prod.mk.injEq] at h
        obtain ⟨rfl, rfl⟩ := h
        obtain ⟨i1, i2⟩ := ih.1 _ l2 he
        refine ⟨?_, i2⟩
        intro y hy
        rcases List.mem_cons.1 hy with rfl | hy
        · simp
        · exact List.mem_cons_of_mem _ (i1 y hy)

theorem addressLookup_mem (a r : BitVec 64) : ∀ (l : List Xlate),
    (∀ n ∈ (addressLookup l a r).2, n ∈ l) ∧ ∀ n, (addressLookup l a r).1 = some n → n ∈ l := by
  intro l
  induction l with
  | nil => simp [addressLookup]
  | cons n l ih =>
    rw [addressLookup]
    by_cases h : matchAddress n a r = true
    · rw [if_pos h]; simp +contextual
    · rw [if_neg h]
      refine ⟨?_, ?_⟩
      · intro y hy
        rcases List.mem_cons.1 hy with rfl | hy
        · simp
        · exact List.mem_cons_of_mem _ (ih.1 y hy)
      · intro y hy; exact List.mem_cons_of_mem _ (ih.2 y hy)

theorem prun_ok {src : List Xlate} : ∀ (os : List POp) (l : List Xlate), (∀ n ∈ l, Fits n ∧ From src n) →
    (∀ o ∈ os, ∀ x, o.arg = some x → Fits x ∧ x ∈ src) →
    (∀ rs l', prun l os = .ok (rs, l') → ∀ n, n ∈ rs ∨ n ∈ l' → Fits n ∧ From src n) ∧
    (∀ e, prun l os = .error e → e = .overflow) := by
  intro os
  induction os with
  | nil =>
    intro l hl _
    constructor
    · intro rs l' h
      rw [prun] at h
      simp only [Except.ok.injEq, Prod.mk.injEq] at h
      obtain ⟨rfl, rfl⟩ := h
      intro n hn; simp at hn; exact hl n hn
    · intro e h; rw [prun] at h; simp at h
  | cons o os ih =>
    intro l hl ho
    have hrest : ∀ o ∈ os, ∀ x, o.arg = some x → Fits x ∧ x ∈ src := fun o' h => ho o' (List.mem_cons_of_mem _ h)
    have hx : ∀ x, o.arg = some x → Fits x ∧ From src x := by
      intro x hx
      obtain ⟨h1, h2⟩ := ho o (by simp) x hx
      exact ⟨h1, fun w hw => ⟨x, h2, hw, rfl, rfl⟩⟩
    have hstep : (∀ r l', pstep l o = .ok (r, l') → (∀ n ∈ l', Fits n ∧ From src n) ∧ ∀ n, r = some n → Fits n ∧ From src n) ∧
        ∀ e, pstep l o = .error e → e = .overflow := by
      cases o with
      | insert x =>
        obtain ⟨h1, h2⟩ := partialInsert_ok (hx x rfl) l hl
        rw [pstep]
        cases he : partialInsert l x with
        | error e => exact ⟨by simp [Except.map], fun e' h => by simp [Except.map] at h; rw [← h]; exact h2 e he⟩
        | ok l2 =>
          refine ⟨?_, by simp [Except.map]⟩
          intro r l' h
          simp only [Except.map, Except.ok.injEq, Prod.mk.injEq] at h
          obtain ⟨rfl, rfl⟩ := h
          exact ⟨h1 l2 he, by simp⟩
      | lookup x =>
        obtain ⟨h1, h2⟩ := partialLookup_ok (hx x rfl) l hl
        rw [pstep]
        refine ⟨?_, h2⟩
        intro r l' h
        exact ⟨fun n hn => hl n ((h1 r l' h).1 n hn), (h1 r l' h).2⟩
      | address a r =>
        rw [pstep]
        refine ⟨?_, by simp⟩
        intro r' l' h
        obtain ⟨h1, h2⟩ := addressLookup_mem a r l
        simp only [Except.ok.injEq] at h
        rw [h] at h1 h2
        exact ⟨fun n hn => hl n (h1 n hn), fun n hn => hl n (h2 n hn)⟩
    rw [prun]
    cases hs : pstep l o with
    | error e => exact ⟨by simp, fun e' h => by simp at h; rw [← h]; exact hstep.2 e hs⟩
    | ok p =>
      obtain ⟨r, l2⟩ := p
      obtain ⟨h1, h2⟩ := hstep.1 r l2 hs
      obtain ⟨i1, i2⟩ := ih l2 h1 hrest
      simp only
      cases hp : prun l2 os with
      | error e => exact ⟨by simp, fun e' h => by simp at h; rw [← h]; exact i2 e hp⟩
      | ok p =>
        obtain ⟨rs, l3⟩ := p
        refine ⟨?_, by simp⟩
        intro rs' l' h
        simp only [Except.ok.injEq, Prod.mk.injEq] at h
        obtain ⟨rfl, rfl⟩ := h
        intro n hn
        rw [List.mem_append, or_assoc] at hn
        rcases hn with hn | hn
        · exact h2 n (by simpa using hn)
        · exact i1 rs l3 hp n hn

/-- Every history of calls on an empty store with walks that fit ends with a store of walks that fit, or in an overflow of
the array; no assertion fails.  All steps of a stored or returned walk come from walks of the history, of the same partition
and process. -/
theorem C21_history_partial (os : List POp) (h : ∀ o ∈ os, ∀ x, o.arg = some x → Fits x) :
    (∃ rs l, prun [] os = .ok (rs, l) ∧ ∀ n, n ∈ rs ∨ n ∈ l → Fits n ∧ From (os.filterMap POp.arg) n) ∨
    prun [] os = .error .overflow := by
  obtain ⟨h1, h2⟩ := prun_ok (src := os.filterMap POp.arg) os [] (by simp)
    (fun o ho x hx => ⟨h o ho x hx, List.mem_filterMap.2 ⟨o, ho, hx⟩⟩)
  cases hp : prun [] os with
  | error e => right; rw [h2 e hp]
  | ok p => left; exact ⟨p.1, p.2, rfl, h1 p.1 p.2 hp⟩

/-- A walk with the given addresses, for the examples. -/
def mkX (ras : List (BitVec 64)) : Xlate :=
  { lpid := 1, pid := 5, nwalks := ras.length,
    walks := ras.map (fun r => { ra := r }) ++ List.replicate (38 - ras.length) {} }

example : Fits (mkX [0x10, 0x20, 0x30]) ∧ Fits (mkX [0x30, 0x40]) ∧ xmatch (mkX [0x10, 0x20, 0x30]) (mkX [0x30, 0x40]) = true ∧
    (merge (mkX [0x10, 0x20, 0x30]) (mkX [0x30, 0x40])).toOption.map (fun m => (steps m).map (·.ra)) =
      some [0x10, 0x20, 0x30, 0x40] ∧
    (prun [] [.insert (mkX [0x10, 0x20, 0x30]), .insert (mkX [0x70]), .insert (mkX [0x30, 0x40]), .lookup (mkX [0x40, 0x50])]).toOption.map
      (fun p => (p.1.map (fun m => (steps m).map (·.ra)), p.2.map (fun m => (steps m).map (·.ra)))) =
      some ([[0x10, 0x20, 0x30, 0x40, 0x50]], [[0x70]]) := by decide +kernel

/-- The capacity is not checked: two interrupted walks of 37 steps, the second starting where the first ends, are merged
into 73 steps in an array of 38. -/
theorem C21_overflow_refuted :
    ¬ ∀ os : List POp, (∀ o ∈ os, ∀ x, o.arg = some x → Fits x) → ∃ r, prun [] os = .ok r := by
  intro H
  let a := mkX ((List.range 37).map (BitVec.ofNat 64))
  let b := mkX ((List.range 37).map fun i => BitVec.ofNat 64 (i + 36))
  have ha : Fits a := by decide +kernel
  have hb : Fits b := by decide +kernel
  have hr : (prun [] [.insert a, .insert b]).toOption = none := by decide +kernel
  obtain ⟨r, e⟩ := H [.insert a, .insert b] (by
    intro o ho x hx
    simp only [List.mem_cons, List.not_mem_nil, or_false] at ho
    rcases ho with rfl | rfl <;> (simp only [POp.arg, Option.some.injEq] at hx; subst hx; assumption))
  rw [e] at hr
  simp [Except.toOption] at hr

/-- A step that raised an exception before the common step cuts the old walk short: the steps between it and the common step
are lost. -/
theorem C21_exception_refuted :
    ¬ ∀ old new m : Xlate, Fits old → Fits new → Continues old new → merge old new = .ok m →
      steps m = ((steps old).takeWhile fun w => some w.ra != start new) ++ steps new := by
  intro H
  let old : Xlate := { nwalks := 3, walks := [{ ra := 0x10, exception := true }, { ra := 0x20 }, { ra := 0x30 }] ++ List.replicate 35 {} }
  let new : Xlate := { nwalks := 1, walks := { ra := 0x30 } :: List.replicate 37 {} }
  have h1 : (merge old new).toOption.map steps = some [{ ra := 0x30 }] := by decide +kernel
  have h2 : ((steps old).takeWhile fun w => some w.ra != start new) ++ steps new =
    [{ ra := 0x10, exception := true }, { ra := 0x20 }, { ra := 0x30 }] := by decide +kernel
  cases hm : merge old new with
  | error e => rw [hm] at h1; simp [Except.toOption] at h1
  | ok m =>
    rw [hm] at h1
    simp only [Except.toOption, Option.map_some, Option.some.injEq] at h1
    have := H old new m (by decide +kernel) (by decide +kernel) ((xmatch_iff _ _).1 (by decide +kernel)) hm
    rw [h1, h2] at this
    simp at this

end Htm.Pwc
