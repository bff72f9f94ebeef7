import Verif.Branch.PropsTrace
/-!
Properties C16 and C90: exactly what the link stack answers, also for returns that find it empty.
-/
namespace LinkStack
open Qt CallSpec

/-- Specification.  The answers of a ring `r` of return addresses, the one to be used next in front: a call puts the address
after it in front and the last one falls out; a return is judged by the front, which then becomes the last. -/
def ring : List (BitVec 64) → List Op → List Bool
  | _, [] => []
  | r, .call a :: l => ring ((a + 4) :: r.dropLast) l
  | r, .ret t :: l => (r.head? == some t) :: ring (r.tail ++ r.take 1) l

/-- The circular entries are the ring `r`. -/
structure Turned (p : Stack) (r : List (BitVec 64)) : Prop where
  pos : 0 < p.depth
  small : p.depth < 2 ^ 64
  len : p.entries.length = p.depth
  off : p.offset < p.depth
  full : r.length = p.depth
  same : ∀ k < p.depth, r[k]? = p.entries[slot p k]?

theorem Turned.init {d : Nat} (h : 0 < d) (h2 : d < 2 ^ 64) : Turned (init d) (List.replicate d 0) := by
  have hs : ∀ k, slot (LinkStack.init d) k < d := fun k => Nat.mod_lt _ h
  refine ⟨h, h2, by simp [LinkStack.init], ?_, by simp [LinkStack.init], fun k hk => ?_⟩
  · simp only [LinkStack.init, depth_sub h h2]; omega
  · have hk : k < d := hk
    have e1 : (List.replicate d (0 : BitVec 64))[k]? = some 0 := by simp [hk]
    have e2 : (LinkStack.init d).entries[slot (LinkStack.init d) k]? = some 0 := by
      show (List.replicate d (0 : BitVec 64))[slot (LinkStack.init d) k]? = some 0
      simp [hs k]
    rw [e1, e2]

theorem Turned.push {p r} (h : Turned p r) (a : BitVec 64) :
    ∃ p', push p a = some p' ∧ Turned p' ((a + 4) :: r.dropLast) ∧
      p'.predictions = p.predictions ∧ p'.mispredictions = p.mispredictions := by
  obtain ⟨pos, small, len, off, full, same⟩ := h
  have ho : (if p.offset = p.depth - 1 then 0 else p.offset + 1) < p.depth := by split <;> omega
  have e : LinkStack.push p a = some { p with
      offset := if p.offset = p.depth - 1 then 0 else p.offset + 1
      entries := p.entries.set (if p.offset = p.depth - 1 then 0 else p.offset + 1) (a + 4) } := by
    unfold LinkStack.push; rw [depth_sub pos small, len]; exact if_pos ho
  refine ⟨_, e, ⟨pos, small, by simp [len], ho, ?_, ?_⟩, rfl, rfl⟩
  · rw [List.length_cons, List.length_dropLast, full]
    show p.depth - 1 + 1 = p.depth
    omega
  · intro k hkd
    have hkd : k < p.depth := hkd
    unfold slot at same
    show _ = (p.entries.set (if p.offset = p.depth - 1 then 0 else p.offset + 1) (a + 4))[
      ((if p.offset = p.depth - 1 then 0 else p.offset + 1) + p.depth - k) % p.depth]?
    clear e
    generalize hoff : (if p.offset = p.depth - 1 then 0 else p.offset + 1) = o at ho ⊢
    rw [mod_sub (by omega) hkd]
    cases k with
    | zero =>
      simp only [Nat.zero_le, if_true, Nat.sub_zero]
      rw [List.getElem?_set, if_pos rfl, if_pos (by rw [len]; exact ho)]
      rfl
    | succ k =>
      rw [List.getElem?_set_ne (by split <;> omega), List.getElem?_cons_succ, List.getElem?_dropLast, if_pos (by omega),
        same k (by omega), mod_sub off (by omega)]
      congr 1
      split at hoff <;> (repeat' split) <;> omega

theorem Turned.pop {p r} (h : Turned p r) (a : BitVec 64) :
    ∃ p', pop p a = some (r.head? == some a, p') ∧ Turned p' (r.tail ++ r.take 1) ∧
      p'.predictions = p.predictions + 1 ∧
      p'.mispredictions = p.mispredictions + if r.head? = some a then 0 else 1 := by
  obtain ⟨pos, small, len, off, full, same⟩ := h
  obtain ⟨x, hx⟩ : ∃ x, p.entries[p.offset]? = some x :=
    ⟨p.entries[p.offset]'(by omega), List.getElem?_eq_getElem (by omega)⟩
  have e : LinkStack.pop p a = some (x == a, { p with
      offset := if p.offset = 0 then p.depth - 1 else p.offset - 1
      predictions := p.predictions + 1
      mispredictions := if x ≠ a then p.mispredictions + 1 else p.mispredictions }) := by
    unfold LinkStack.pop; rw [hx, depth_sub pos small]
  have h0 : r.head? = some x := by
    have := same 0 pos
    unfold slot at this
    rw [mod_sub off pos] at this
    simp only [Nat.zero_le, if_true, Nat.sub_zero] at this
    rw [List.head?_eq_getElem?, this, hx]
  have hb : (r.head? == some a) = (x == a) := by rw [h0]; rfl
  rw [← hb] at e
  refine ⟨_, e, ⟨pos, small, len, ?_, ?_, ?_⟩, rfl, ?_⟩
  · simp only; split <;> omega
  · rw [List.length_append, List.length_tail, List.length_take, full]
    show p.depth - 1 + min 1 p.depth = p.depth
    omega
  · intro k hk
    have hk : k < p.depth := hk
    unfold slot at same
    show _ = p.entries[((if p.offset = 0 then p.depth - 1 else p.offset - 1) + p.depth - k) % p.depth]?
    rw [mod_sub (by split <;> omega) hk]
    by_cases hl : k + 1 < p.depth
    · rw [List.getElem?_append_left (by rw [List.length_tail]; omega), List.getElem?_tail, same (k + 1) hl,
        mod_sub off hl]
      congr 1
      (repeat' split) <;> omega
    · rw [List.getElem?_append_right (by rw [List.length_tail]; omega), List.length_tail, full,
        show k - (p.depth - 1) = 0 by omega, List.getElem?_take, if_pos (by omega), ← List.head?_eq_getElem?, h0, ← hx]
      congr 1
      (repeat' split) <;> omega
  · show (if x ≠ a then p.mispredictions + 1 else p.mispredictions) = _
    rw [h0]
    by_cases hxa : x = a <;> simp [hxa]

theorem Turned.run {p r} (h : Turned p r) : ∀ l : List Op, ∃ p', LinkStack.run p l = some (ring r l, p') ∧
    p'.predictions = p.predictions + (ring r l).length ∧
    p'.mispredictions = p.mispredictions + (ring r l).count false := by
  intro l
  induction l generalizing p r with
  | nil => exact ⟨p, rfl, rfl, rfl⟩
  | cons o l ih =>
    cases o with
    | call a =>
      obtain ⟨p1, e1, i1, q1, m1⟩ := h.push a
      obtain ⟨p', e2, q2, m2⟩ := ih i1
      exact ⟨p', by simp [LinkStack.run, step, e1, e2, ring], by rw [q2, q1]; rfl, by rw [m2, m1]; rfl⟩
    | ret t =>
      obtain ⟨p1, e1, i1, q1, m1⟩ := h.pop t
      obtain ⟨p', e2, q2, m2⟩ := ih i1
      refine ⟨p', by simp [LinkStack.run, step, e1, e2, ring], ?_, ?_⟩
      · rw [q2, q1, ring, List.length_cons]; omega
      · rw [m2, m1, ring, List.count_cons]
        by_cases hh : r.head? = some t <;> simp [hh] <;> omega

/-- C16. The answers after every history of calls and returns, also for returns that find nothing on the stack: they are
those of a ring of `depth` addresses that begins with zeros; and the two counts are those of the answers. -/
theorem C16_exact (depth : Nat) (h1 : 0 < depth) (h2 : depth < 2 ^ 64) (history : List Op) :
    ∃ p, run (init depth) history = some (ring (List.replicate depth 0) history, p) ∧
      p.predictions = (ring (List.replicate depth 0) history).length ∧
      p.mispredictions = (ring (List.replicate depth 0) history).count false := by
  obtain ⟨p, e, q, m⟩ := (Turned.init h1 h2).run history
  exact ⟨p, e, by simpa [init] using q, by simpa [init] using m⟩

/-- Two levels: after both calls are returned from, the next return is judged by the inner call again; a return before any
call is judged by zero. -/
example : ring (List.replicate 2 0) [.ret 0, .call 0x100, .call 0x200, .ret 0x204, .ret 0x104, .ret 0x204, .ret 0x200] =
    [true, true, true, true, false] := by decide +kernel

theorem ring_answers : ∀ (l : List Step) (r : List (BitVec 64)), ring r (ops l) = ringAnswers r l
  | [], _ => rfl
  | x :: l, r => by
    unfold ops ringAnswers opOf
    by_cases hc : Calls x l
    · rw [if_pos hc, if_pos hc]; exact ring_answers l _
    · rw [if_neg hc, if_neg hc]
      by_cases hr : Returns x l
      · rw [if_pos hr, if_pos hr]
        show (_ :: _) = _
        rw [show ops l = ops l from rfl]
        exact congrArg _ (ring_answers l _)
      · rw [if_neg hr, if_neg hr]; exact ring_answers l _

theorem tool_ring (depth : Nat) (h1 : 0 < depth) (h2 : depth < 2 ^ 64) {m : Mem} {l : List Step} (hne : l ≠ [])
    (hf : (readTrace m false false).final = .fail) (ht : TellAll (readTrace m false false).records l)
    (hb : ∀ x ∈ l, ¬ AlwaysBc x.word.toNat) :
    ∃ p, tool depth m = .done (ringAnswers (List.replicate depth 0) l) p ∧
      p.predictions = returnsMade l ∧ p.mispredictions = (ringAnswers (List.replicate depth 0) l).count false := by
  obtain ⟨outs, p, e, -, -, q, mm⟩ := tool_told depth h1 h2 hne hf ht hb
  have ho : outs = ringAnswers (List.replicate depth 0) l := by
    have hrec : (readTrace m true false).records.filterMap toOp = ops l := by
      have hna : ∀ o ∈ (readTrace m false false).records, ¬ Qt.Spec.Asserts o := by
        intro o ho
        obtain ⟨x, hx, n, hn⟩ := ht.mem o ho
        exact told_not_asserts ho hn (hb x hx)
      rw [C12_annotation_partial, takeWhile_all (fun o ho => decide_eq_true (hna o ho)), toOps_told ht]
    unfold tool at e
    split at e
    · cases e
    · cases e
    · simp only at e
      split at e
      · obtain ⟨p2, e2, -⟩ := C16_exact depth h1 h2 (ops l)
        unfold simulate at e
        rw [hrec, e2] at e
        simp only at e
        injection e with e3 e4
        rw [← e3, ring_answers]
      · cases e
  subst ho
  exact ⟨p, e, q, mm⟩

/-- C90 (partial). The answers in full: for every expressible trace whose conditional branches are marked and which has no
B-form branch that is always taken, they are those of the ring of `depth` addresses, also where a return finds the stack
empty. -/
theorem C90_exact_partial (depth : Nat) (h1 : 0 < depth) (h2 : depth < 2 ^ 64) (magic : BitVec 32) (rs : List Record)
    (hne : rs ≠ []) (hx : Qt.Spec.Expressible rs)
    (hc : ∀ r ∈ rs, Qt.Spec.conditional r.insn.toNat → r.branch = true ∧ r.conditionalBranch = true)
    (hb : ∀ r ∈ rs, ¬ AlwaysBc r.insn.toNat) :
    ∃ file, writeTrace magic rs = .ok file ∧ ∀ beyond, ∃ p,
      tool depth { bytes := file, beyond := beyond } = .done (ringAnswers (List.replicate depth 0) (rs.map stepOf)) p ∧
      p.predictions = returnsMade (rs.map stepOf) ∧
      p.mispredictions = (ringAnswers (List.replicate depth 0) (rs.map stepOf)).count false := by
  obtain ⟨file, e, H⟩ := told_of_written hx hc magic
  refine ⟨file, e, fun beyond => tool_ring depth h1 h2 (by simpa using hne) (H beyond).1 (H beyond).2 ?_⟩
  intro x hx
  obtain ⟨r, hr, rfl⟩ := List.mem_map.1 hx
  exact hb r hr

/-- C90 (partial). The same for a program traced live. -/
theorem C90_live_exact_partial (depth : Nat) (h1 : 0 < depth) (h2 : depth < 2 ^ 64) (xlate : Bool) (extra : Nat) (xs : List Ptr.Seen)
    (hne : xs ≠ []) (ht : LiveSpec.Traceable xs) (ha : xlate = true → LiveSpec.Answers xs)
    (hb : ∀ x ∈ xs, ¬ AlwaysBc x.insn.toNat) :
    ∃ file, Ptr.liveFile xlate true extra xs = .ok file ∧ ∀ beyond, ∃ p,
      tool depth { bytes := file, beyond := beyond } = .done (ringAnswers (List.replicate depth 0) (xs.map stepSeen)) p ∧
      p.predictions = returnsMade (xs.map stepSeen) ∧
      p.mispredictions = (ringAnswers (List.replicate depth 0) (xs.map stepSeen)).count false := by
  obtain ⟨file, e, H⟩ := told_of_seen xlate extra xs ht ha
  refine ⟨file, e, fun beyond => tool_ring depth h1 h2 (by simpa using hne) (H beyond).1 (H beyond).2 ?_⟩
  intro x hx
  obtain ⟨y, hy, rfl⟩ := List.mem_map.1 hx
  exact hb y hy

/-- `nestedTrace` meets the hypotheses (see `C90_answers_partial`); here is what a stack of two answers for it. -/
example : ringAnswers (List.replicate 2 0) (nestedTrace.map stepOf) = [true, true] ∧
    ringAnswers (List.replicate 1 0) (nestedTrace.map stepOf) = [true, false] := by decide +kernel

end LinkStack
