import Verif.Branch.LinkStack
/-! Properties C15 and C16: the link stack simulator. -/
namespace LinkStack
open Qt

/-! ### Specification -/

/-- A bounded LIFO of return addresses, most recent first, that forgets the oldest beyond `depth`. -/
def lifo (depth : Nat) : List (BitVec 64) → List Op → List (BitVec 64)
  | s, [] => s
  | s, .call a :: l => lifo depth (((a + 4) :: s).take depth) l
  | s, .ret _ :: l => lifo depth s.tail l

/-- Returns match calls, starting with the return addresses `s` outstanding, and never more than `depth` are. -/
def Nested (depth : Nat) : List (BitVec 64) → List Op → Prop
  | _, [] => True
  | s, .call a :: l => s.length < depth ∧ Nested depth ((a + 4) :: s) l
  | a :: s, .ret t :: l => t = a ∧ Nested depth s l
  | [], .ret _ :: _ => False

def isRet : Op → Bool
  | .ret _ => true
  | .call _ => false

/-! ### Invariant -/

/-- The entry `k` below the top of the circular stack. -/
def slot (p : Stack) (k : Nat) : Nat := (p.offset + p.depth - k) % p.depth

structure Inv (p : Stack) (s : List (BitVec 64)) : Prop where
  pos : 0 < p.depth
  small : p.depth < 2 ^ 64
  len : p.entries.length = p.depth
  off : p.offset < p.depth
  fits : s.length ≤ p.depth
  top : ∀ (k : Nat) (a : BitVec 64), s[k]? = some a → p.entries[slot p k]? = some a

theorem depth_sub {d : Nat} (h : 0 < d) (h2 : d < 2 ^ 64) : (d + 2 ^ 64 - 1) % 2 ^ 64 = d - 1 := by omega

theorem Inv.init {d : Nat} (h : 0 < d) (h2 : d < 2 ^ 64) : Inv (init d) [] := by
  refine ⟨h, h2, by simp [LinkStack.init], ?_, by simp, by simp⟩
  simp only [LinkStack.init, depth_sub h h2]; omega

theorem mod_sub {d x k : Nat} (h1 : x < d) (h2 : k < d) : (x + d - k) % d = if k ≤ x then x - k else x + d - k := by
  split
  · rw [show x + d - k = (x - k) + d by omega, Nat.add_mod_right, Nat.mod_eq_of_lt (by omega)]
  · exact Nat.mod_eq_of_lt (by omega)

theorem Inv.push {p s} (h : Inv p s) (a : BitVec 64) :
    ∃ p', push p a = some p' ∧ Inv p' (((a + 4) :: s).take p.depth) ∧ p'.depth = p.depth ∧
      p'.predictions = p.predictions ∧ p'.mispredictions = p.mispredictions := by
  obtain ⟨pos, small, len, off, fits, top⟩ := h
  have ho : (if p.offset = p.depth - 1 then 0 else p.offset + 1) < p.depth := by split <;> omega
  have e : LinkStack.push p a = some { p with
      offset := if p.offset = p.depth - 1 then 0 else p.offset + 1
      entries := p.entries.set (if p.offset = p.depth - 1 then 0 else p.offset + 1) (a + 4) } := by
    unfold LinkStack.push; rw [depth_sub pos small, len]; exact if_pos ho
  refine ⟨_, e, ⟨pos, small, by simp [len], ho, ?_, ?_⟩, rfl, rfl, rfl⟩
  · rw [List.length_take]; exact Nat.min_le_left ..
  · intro k b hk
    rw [List.getElem?_take] at hk
    split at hk
    · rename_i hkd
      unfold slot at top ⊢
      simp only
      generalize hoff : (if p.offset = p.depth - 1 then 0 else p.offset + 1) = o at *
      rw [mod_sub (by omega) hkd]
      cases k with
      | zero =>
        simp only [Nat.zero_le, if_true, Nat.sub_zero]
        rw [List.getElem?_set, if_pos rfl, if_pos (by rw [len]; exact ho)]
        simpa using hk
      | succ k =>
        rw [List.getElem?_cons_succ] at hk
        have := top k b hk
        rw [mod_sub off (by omega)] at this
        rw [List.getElem?_set, if_neg (by split <;> omega)]
        rw [← this]
        congr 1
        split at hoff <;> (repeat' split) <;> omega
    · cases hk

theorem Inv.pop {p s} (h : Inv p s) (a : BitVec 64) :
    ∃ x p', pop p a = some (x == a, p') ∧ Inv p' s.tail ∧ p'.depth = p.depth ∧ (∀ b t, s = b :: t → x = b) ∧
      p'.predictions = p.predictions + 1 ∧
      p'.mispredictions = if x = a then p.mispredictions else p.mispredictions + 1 := by
  obtain ⟨pos, small, len, off, fits, top⟩ := h
  have hx : ∃ x, p.entries[p.offset]? = some x := ⟨p.entries[p.offset]'(by omega), List.getElem?_eq_getElem (by omega)⟩
  obtain ⟨x, hx⟩ := hx
  have e : LinkStack.pop p a = some (x == a, { p with
      offset := if p.offset = 0 then p.depth - 1 else p.offset - 1
      predictions := p.predictions + 1
      mispredictions := if x ≠ a then p.mispredictions + 1 else p.mispredictions }) := by
    unfold LinkStack.pop; rw [hx, depth_sub pos small]
  refine ⟨x, _, e, ⟨pos, small, len, ?_, ?_, ?_⟩, rfl, ?_, rfl, ?_⟩
  · simp only; split <;> omega
  · simp only [List.length_tail]; omega
  · intro k b hk
    rw [List.getElem?_tail] at hk
    have := top (k + 1) b hk
    have hlt : k + 1 < p.depth := by
      have := (List.getElem?_eq_some_iff.1 hk).1
      omega
    unfold slot at this ⊢
    simp only
    rw [mod_sub off hlt] at this
    rw [mod_sub (by split <;> omega) (by omega), ← this]
    congr 1
    (repeat' split) <;> omega
  · intro b t hs
    have := top 0 b (by rw [hs]; rfl)
    unfold slot at this
    rw [mod_sub off pos] at this
    simp only [Nat.zero_le, if_true, Nat.sub_zero] at this
    rw [hx] at this; simpa using this
  · simp only [ite_not]

/-! ### C16 -/

theorem Inv.run {p s} (h : Inv p s) : ∀ l : List Op, ∃ r p', run p l = some (r, p') ∧ Inv p' (lifo p.depth s l) ∧
    p'.depth = p.depth := by
  intro l
  induction l generalizing p s with
  | nil => exact ⟨[], p, rfl, h, rfl⟩
  | cons o l ih =>
    cases o with
    | call a =>
      obtain ⟨p1, e1, i1, d1, -⟩ := h.push a
      obtain ⟨r, p', e2, i2, d2⟩ := ih i1
      exact ⟨[] ++ r, p', by simp [LinkStack.run, step, e1, e2], by rw [d1] at i2; exact i2, d2.trans d1⟩
    | ret a =>
      obtain ⟨x, p1, e1, i1, d1, -⟩ := h.pop a
      obtain ⟨r, p', e2, i2, d2⟩ := ih i1
      exact ⟨[x == a] ++ r, p', by simp [LinkStack.run, step, e1, e2], by rw [d1] at i2; exact i2, d2.trans d1⟩

/-- C16. No history of calls and returns makes the simulator leave its allocation. -/
theorem C16_inside (depth : Nat) (h1 : 0 < depth) (h2 : depth < 2 ^ 64) (history : List Op) :
    run (init depth) history ≠ none := by
  obtain ⟨r, p', e, -⟩ := (Inv.init h1 h2).run history
  rw [e]; simp

theorem pops {p s} (h : Inv p s) : ∀ l : List (BitVec 64), l.length ≤ s.length →
    ∃ p', run p (l.map .ret) = some (List.zipWith (fun a b => b == a) l s, p') := by
  intro l
  induction l generalizing p s with
  | nil => intro _; exact ⟨p, rfl⟩
  | cons a l ih =>
    intro hl
    cases s with
    | nil => simp at hl
    | cons b t =>
      obtain ⟨x, p1, e1, i1, d1, hx, -⟩ := h.pop a
      obtain ⟨p', e2⟩ := ih i1 (by simpa using hl)
      have := hx b t rfl
      subst this
      exact ⟨p', by simp [LinkStack.run, step, e1, e2]⟩

/-- C16. After any history the next returns are compared with the return addresses of the bounded LIFO, most recent
first: a return is predicted exactly when it goes there. -/
theorem C16_bounded_lifo_partial (depth : Nat) (h1 : 0 < depth) (h2 : depth < 2 ^ 64) (history : List Op)
    (returns : List (BitVec 64)) (hl : returns.length ≤ (lifo depth [] history).length) :
    ∃ before p' p'', run (init depth) history = some (before, p') ∧
      run p' (returns.map .ret) = some (List.zipWith (fun a b => b == a) returns (lifo depth [] history), p'') := by
  obtain ⟨r, p', e, i, -⟩ := (Inv.init h1 h2).run history
  obtain ⟨p'', e2⟩ := pops i returns hl
  exact ⟨r, p', p'', e, e2⟩

/-- Depth 2, four calls and a return: the LIFO holds one address (the oldest two are forgotten). -/
example : lifo 2 [] [.call 0x100, .call 0x200, .call 0x300, .ret 0x304, .call 0x400] = [0x404, 0x204] ∧
    (run (init 2) [.call 0x100, .call 0x200, .call 0x300, .ret 0x304, .call 0x400, .ret 0x404, .ret 0x204, .ret 0x104]).map
      (·.1) = some [true, true, true, false] := by decide +kernel

/-- C16 fails for depth 0: the first call writes outside the allocation. -/
theorem C16_depth_zero_refuted (a : BitVec 64) : run (init 0) [.call a] = none ∧ run (init 0) [.ret a] = none :=
  ⟨by simp [run, step, push, init], by simp [run, step, pop, init]⟩

/-! ### C15 -/

theorem nested_run {p s} (h : Inv p s) : ∀ l : List Op, Nested p.depth s l → ∃ p',
    run p l = some (List.replicate (l.countP isRet) true, p') ∧ p'.mispredictions = p.mispredictions ∧
    p'.predictions = p.predictions + l.countP isRet := by
  intro l
  induction l generalizing p s with
  | nil => intro _; exact ⟨p, rfl, rfl, rfl⟩
  | cons o l ih =>
    intro hn
    cases o with
    | call a =>
      obtain ⟨hlt, hn⟩ : s.length < p.depth ∧ Nested p.depth ((a + 4) :: s) l := by
        cases s <;> exact hn
      obtain ⟨p1, e1, i1, d1, q1, m1⟩ := h.push a
      rw [List.take_of_length_le (by rw [List.length_cons]; omega)] at i1
      obtain ⟨p', e2, m2, q2⟩ := ih i1 (by rw [d1]; exact hn)
      refine ⟨p', ?_, m2.trans m1, ?_⟩
      · simp [LinkStack.run, step, e1, e2, isRet]
      · rw [q2, q1]; simp [isRet]
    | ret t =>
      cases s with
      | nil => exact hn.elim
      | cons b s =>
        obtain ⟨rfl, hn⟩ := hn
        obtain ⟨x, p1, e1, i1, d1, hx, q1, m1⟩ := h.pop t
        have := hx t s rfl
        subst this
        obtain ⟨p', e2, m2, q2⟩ := ih i1 (by rw [d1]; exact hn)
        refine ⟨p', ?_, ?_, ?_⟩
        · simp [LinkStack.run, step, e1, e2, List.countP_cons, isRet, List.replicate_succ]
        · rw [m2, m1, if_pos rfl]
        · rw [q2, q1]; simp only [List.countP_cons, isRet, if_true]; omega

/-! C15 over the records of a trace.  These two definitions do not go through the model's `toOp`. -/

/-- The taken returns of a trace match its taken calls, starting with the return addresses `s` outstanding (the address
after each call instruction), and never more than `depth` are outstanding. -/
def NestedTrace (depth : Nat) : List (BitVec 64) → List Record → Prop
  | _, [] => True
  | s, r :: l =>
    (r.branchTaken = true → r.branchType = .call → s.length < depth ∧ NestedTrace depth ((r.insnAddr + 4) :: s) l) ∧
    (r.branchTaken = true → r.branchType = .ret → s.head? = some r.nextInsnAddr ∧ NestedTrace depth s.tail l) ∧
    (¬ (r.branchTaken = true ∧ (r.branchType = .call ∨ r.branchType = .ret)) → NestedTrace depth s l)

/-- The number of taken returns of a trace. -/
def returns (records : List Record) : Nat :=
  (records.filter fun r => r.branchTaken && (r.branchType == .ret)).length

theorem NestedTrace.ops {depth : Nat} : ∀ {records : List Record} {s : List (BitVec 64)},
    NestedTrace depth s records → Nested depth s (records.filterMap toOp) ∧
      (records.filterMap toOp).countP isRet = returns records := by
  intro records
  induction records with
  | nil => intro s _; exact ⟨by cases s <;> exact trivial, rfl⟩
  | cons r l ih =>
    intro s ⟨hc, hr, hn⟩
    by_cases h0 : ¬ (r.branchTaken = true ∧ (r.branchType = .call ∨ r.branchType = .ret))
    · have e : toOp r = none := by
        unfold toOp
        cases ht : r.branchTaken <;> simp_all
      have e2 : (r.branchTaken && (r.branchType == .ret)) = false := by
        cases ht : r.branchTaken <;> simp_all
      rw [List.filterMap_cons, e]
      unfold returns
      rw [List.filter_cons, e2]
      exact ih (hn h0)
    · have ⟨ht, h1⟩ := Decidable.not_not.1 h0
      rcases h1 with h1 | h1
      · have e : toOp r = some (.call r.insnAddr) := by simp [toOp, ht, h1]
        have e2 : (r.branchTaken && (r.branchType == .ret)) = false := by simp [h1]
        have h := hc ht h1
        have h2 := ih h.2
        rw [List.filterMap_cons, e]
        unfold returns
        rw [List.filter_cons, e2]
        refine ⟨by cases s <;> exact ⟨h.1, h2.1⟩, ?_⟩
        rw [List.countP_cons]; exact h2.2
      · have e : toOp r = some (.ret r.nextInsnAddr) := by simp [toOp, ht, h1]
        have e2 : (r.branchTaken && (r.branchType == .ret)) = true := by simp [h1, ht]
        have h := hr ht h1
        have h2 := ih h.2
        rw [List.filterMap_cons, e]
        unfold returns
        rw [List.filter_cons, e2]
        cases s with
        | nil => simp at h
        | cons x s =>
          have hx : x = r.nextInsnAddr := by simpa using h.1
          refine ⟨⟨hx.symm, h2.1⟩, ?_⟩
          rw [List.countP_cons]
          simp only [isRet, if_true, List.length_cons]
          rw [h2.2]; rfl

/-- C15. A trace whose taken calls and returns are properly nested within the depth has no misprediction, and every
return is counted as a prediction. -/
theorem C15_nested_returns (depth : Nat) (h1 : 0 < depth) (h2 : depth < 2 ^ 64) (records : List Record)
    (hn : NestedTrace depth [] records) :
    ∃ p, simulate depth records = some (List.replicate (returns records) true, p) ∧
      p.mispredictions = 0 ∧ p.predictions = returns records := by
  obtain ⟨ho, hr⟩ := hn.ops
  obtain ⟨p, e, m, q⟩ := nested_run (Inv.init h1 h2) _ ho
  rw [hr] at e q
  exact ⟨p, e, m, by rw [q]; simp [init]⟩

/-- Such a trace: a call, a conditional branch, a call not taken, and the return to after the first call. -/
example : NestedTrace 1 []
    [{ insnAddr := 0x100, branchTaken := true, branchType := .call, nextInsnAddr := 0x500 },
     { insnAddr := 0x500, branchTaken := true, branchType := .branch, nextInsnAddr := 0x600 },
     { insnAddr := 0x600, branchTaken := false, branchType := .call, nextInsnAddr := 0x604 },
     { insnAddr := 0x604, branchTaken := true, branchType := .ret, nextInsnAddr := 0x104 }] := by
  simp [NestedTrace]

/-- A nested trace, two deep, that wraps around a stack of depth two. -/
example : Nested 2 [] [.call 0x100, .call 0x200, .ret 0x204, .call 0x300, .ret 0x304, .ret 0x104, .call 0x500, .ret 0x504] := by
  simp [Nested]

/-- C15: one level deeper and the outermost return is mispredicted. -/
theorem C15_depth_needed : ∃ l : List Op, Nested 3 [] l ∧
    (run (init 2) l).map (·.2.mispredictions) = some 1 :=
  ⟨[.call 0x100, .call 0x200, .call 0x300, .ret 0x304, .ret 0x204, .ret 0x104], by simp [Nested], by decide +kernel⟩

end LinkStack
