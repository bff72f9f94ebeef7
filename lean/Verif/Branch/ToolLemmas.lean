import Verif.Branch.Tool
import Verif.Branch.SpecTrace
import Verif.Branch.PropsLinkStack
import Verif.Qt.PropsBranch
/-! Helper lemmas: the link stack program on a trace file (C90). -/
namespace LinkStack
open Qt CallSpec

/-- The record tells of the step what the simulator needs. -/
structure Tells (o : Record) (x : Step) (after : BitVec 64) : Prop where
  addr : o.insnAddr = x.addr
  word : o.insn = x.word
  next : o.nextInsnAddr = after
  taken : o.branchTaken = true ↔ after ≠ x.addr + 4
  branch : after ≠ x.addr + 4 → o.branch = true
  cond : o.branch = true → Qt.Spec.conditional x.word.toNat → o.conditionalBranch = true

/-- The records tell of the steps. -/
inductive TellAll : List Record → List Step → Prop
  | nil : TellAll [] []
  | cons {o x os l} : Tells o x (goes x l) → TellAll os l → TellAll (o :: os) (x :: l)

/-- The call or return of a step. -/
def opOf (x : Step) (l : List Step) : Option Op :=
  if Calls x l then some (.call x.addr) else if Returns x l then some (.ret (goes x l)) else none

def ops : List Step → List Op
  | [] => []
  | x :: l => (opOf x l).toList ++ ops l

theorem branchType_call (w : Nat) : Qt.Spec.branchType w = .call ↔ IsCall w := by
  unfold Qt.Spec.branchType IsCall
  by_cases ha : Qt.Spec.addressing w
  · simp [ha]
  · cases hk : Qt.Spec.kind w <;> simp [ha]
    by_cases h0 : Qt.Spec.bh w = 0 <;> simp [h0]

theorem addressing_kind {w : Nat} (h : Qt.Spec.addressing w) : Qt.Spec.kind w = .bc := h.1

theorem branchType_ret (w : Nat) : Qt.Spec.branchType w = .ret ↔ IsReturn w := by
  unfold Qt.Spec.branchType IsReturn
  by_cases ha : Qt.Spec.addressing w
  · simp [ha, addressing_kind ha]
  · cases hk : Qt.Spec.kind w <;> simp [ha] <;> (try (split <;> simp))
    all_goals (by_cases h0 : Qt.Spec.bh w = 0 <;> simp [h0])
    all_goals (split <;> simp)

theorem call_not_return {w : Nat} (h : IsCall w) : ¬ IsReturn w := by
  intro hr
  have h1 := (branchType_call w).2 h
  have h2 := (branchType_ret w).2 hr
  rw [h1] at h2; cases h2

theorem toOp_told {o : Record} {x : Step} {l : List Step} (h : Tells o x (goes x l)) :
    toOp (Qt.Spec.annotated o) = opOf x l := by
  unfold toOp opOf Calls Returns Jumps Qt.Spec.annotated
  by_cases hj : goes x l = x.addr + 4
  · have ht : o.branchTaken = false := by
      cases hb : o.branchTaken
      · rfl
      · exact absurd hj (h.taken.1 hb)
    by_cases hb : o.branch = true <;> simp [hb, ht, hj]
  · have ht : o.branchTaken = true := h.taken.2 hj
    have hb := h.branch hj
    simp only [hb, if_true, ht, Bool.true_eq_false, if_false, hj, not_false_eq_true, true_and, ne_eq, h.word, h.addr, h.next,
      branchType_call, branchType_ret]

theorem toOps_told {os : List Record} {l : List Step} (h : TellAll os l) :
    (os.map Qt.Spec.annotated).filterMap toOp = ops l := by
  induction h with
  | nil => rfl
  | cons h1 _ ih =>
    rw [List.map_cons, List.filterMap_cons, toOp_told h1, ops, ih]
    cases opOf _ _ <;> rfl

theorem lifo_answers {depth : Nat} : ∀ {l : List Step} {p : Stack} {s : List (BitVec 64)}, Inv p s → p.depth = depth →
    ∃ outs p', run p (ops l) = some (outs, p') ∧ Answers depth s l outs ∧
      p'.predictions = p.predictions + returnsMade l ∧ outs.length = returnsMade l ∧
      p'.mispredictions = p.mispredictions + outs.count false := by
  intro l
  induction l with
  | nil => intro p s _ _; exact ⟨[], p, rfl, rfl, rfl, rfl, rfl⟩
  | cons x l ih =>
    intro p s hi hd
    by_cases hc : Calls x l
    · have hr : ¬ Returns x l := fun h => call_not_return hc.2 h.2
      obtain ⟨p1, e1, i1, d1, q1, m1⟩ := hi.push x.addr
      obtain ⟨outs, p', e2, a2, q2, n2, m2⟩ := ih i1 (d1.trans hd)
      refine ⟨outs, p', ?_, ?_, ?_, ?_, ?_⟩
      · simp [ops, opOf, hc, run, step, e1, e2]
      · rw [hd] at a2; simp only [Answers, hc, if_true]; exact a2
      · simp [returnsMade, hr, q2, q1]
      · simp [returnsMade, hr, n2]
      · rw [m2, m1]
    · by_cases hr : Returns x l
      · obtain ⟨b, p1, e1, i1, d1, hb, q1, m1⟩ := hi.pop (goes x l)
        obtain ⟨outs, p', e2, a2, q2, n2, m2⟩ := ih i1 (d1.trans hd)
        refine ⟨(b == goes x l) :: outs, p', ?_, ?_, ?_, ?_, ?_⟩
        · simp [ops, opOf, hc, hr, run, step, e1, e2]
        · simp only [Answers, hc, if_false, hr, if_true]
          refine ⟨_, outs, rfl, ?_, a2⟩
          intro a ha
          cases s with
          | nil => simp at ha
          | cons c t =>
            have : c = a := by simpa using ha
            subst this
            rw [hb c t rfl]
            rw [beq_iff_eq]; exact eq_comm
        · simp [returnsMade, hr, q2, q1]; omega
        · simp [returnsMade, hr, n2]; omega
        · rw [m2, m1, List.count_cons]
          by_cases h : b = goes x l
          · simp [h]
          · simp [h]; omega
      · obtain ⟨outs, p', e2, a2, q2, n2, m2⟩ := ih hi hd
        refine ⟨outs, p', ?_, ?_, ?_, ?_, m2⟩
        · simp [ops, opOf, hc, hr, e2]
        · simp only [Answers, hc, if_false, hr]; exact a2
        · simp [returnsMade, hr, q2]
        · simp [returnsMade, hr, n2]

theorem nested_answers {depth : Nat} : ∀ {l : List Step} {s : List (BitVec 64)} {outs : List Bool}, s.length ≤ depth →
    NestedCalls depth s l → Answers depth s l outs → outs = List.replicate (returnsMade l) true := by
  intro l
  induction l with
  | nil => intro s outs _ _ ha; exact ha
  | cons x l ih =>
    intro s outs hs hn ha
    by_cases hc : Calls x l
    · have hr : ¬ Returns x l := fun h => call_not_return hc.2 h.2
      simp only [NestedCalls, Answers, hc, if_true] at hn ha
      rw [List.take_of_length_le (by rw [List.length_cons]; omega)] at ha
      have := ih (by rw [List.length_cons]; omega) hn.2 ha
      simpa [returnsMade, hr] using this
    · by_cases hr : Returns x l
      · simp only [NestedCalls, Answers, hc, if_false, hr, if_true] at hn ha
        obtain ⟨b, outs', rfl, h1, h2⟩ := ha
        have := ih (by rw [List.length_tail]; omega) hn.2 h2
        have hb : b = true := (h1 _ hn.1).2 rfl
        rw [hb, this]
        simp only [returnsMade, hr, if_true, Nat.add_comm 1, List.replicate_succ]
      · simp only [NestedCalls, Answers, hc, if_false, hr] at hn ha
        have := ih hs hn ha
        simpa [returnsMade, hr] using this

theorem told_not_asserts {m : Mem} {o : Record} (ho : o ∈ (readTrace m false false).records) {x : Step} {next}
    (h : Tells o x next) (ha : ¬ AlwaysBc x.word.toNat) : ¬ Qt.Spec.Asserts o := by
  rintro ⟨hb, h1 | ⟨hc, ht⟩⟩
  · rw [h.word] at h1; exact ha h1
  · rw [h.word] at hc
    have h2 := h.cond hb hc
    have := ((C12_branch_fields m false o ho).2).1 h2
    unfold Qt.Spec.condRecord at this
    rw [h.word] at this
    rcases this with ⟨_, h3⟩ | ⟨h3, _⟩
    · exact h3 ht
    · have h4 := hc.1
      unfold Qt.Spec.hasBO at h4
      rcases h3 with h3 | h3 <;> rw [h3] at h4 <;> simp at h4

theorem TellAll.mem {os : List Record} {l : List Step} (h : TellAll os l) : ∀ o ∈ os, ∃ x ∈ l, ∃ next, Tells o x next := by
  induction h with
  | nil => intro o ho; simp at ho
  | cons h1 _ ih =>
    intro o ho
    rcases List.mem_cons.1 ho with rfl | ho
    · exact ⟨_, List.mem_cons_self .., _, h1⟩
    · obtain ⟨x, hx, n, hn⟩ := ih o ho
      exact ⟨x, List.mem_cons_of_mem _ hx, n, hn⟩

theorem takeWhile_all {α} {p : α → Bool} : ∀ {l : List α}, (∀ a ∈ l, p a = true) → l.takeWhile p = l
  | [], _ => rfl
  | a :: l, h => by
    rw [List.takeWhile_cons, h a (List.mem_cons_self ..), if_pos rfl,
      takeWhile_all (fun b hb => h b (List.mem_cons_of_mem _ hb))]

/-- The program on a file whose records tell of the steps. -/
theorem tool_told (depth : Nat) (h1 : 0 < depth) (h2 : depth < 2 ^ 64) {m : Mem} {l : List Step} (hne : l ≠ [])
    (hf : (readTrace m false false).final = .fail) (ht : TellAll (readTrace m false false).records l)
    (hb : ∀ x ∈ l, ¬ AlwaysBc x.word.toNat) :
    ∃ outs p, tool depth m = .done outs p ∧ Answers depth [] l outs ∧ outs.length = returnsMade l ∧
      p.predictions = returnsMade l ∧ p.mispredictions = outs.count false := by
  have hna : ∀ o ∈ (readTrace m false false).records, ¬ Qt.Spec.Asserts o := by
    intro o ho
    obtain ⟨x, hx, n, hn⟩ := ht.mem o ho
    exact told_not_asserts ho hn (hb x hx)
  have hrec : (readTrace m true false).records = (readTrace m false false).records.map Qt.Spec.annotated := by
    rw [C12_annotation_partial, takeWhile_all]
    intro o ho
    exact decide_eq_true (hna o ho)
  have hfin : (readTrace m true false).final = .fail := by
    rw [C12_abort_partial, if_neg, hf]
    rintro ⟨o, ho, h⟩
    exact hna o ho h
  have hinit : ∃ a c, readerInit m = .ok a c := by
    cases he : readerInit m with
    | ok a c => exact ⟨a, c, rfl⟩
    | err e c =>
      have : (readTrace m false false).records = [] := by unfold readTrace; rw [he]
      rw [this] at ht
      cases ht
      exact absurd rfl hne
  obtain ⟨a, c, hi⟩ := hinit
  obtain ⟨outs, p, e, ha, q, n, mm⟩ := lifo_answers (l := l) (Inv.init h1 h2) rfl
  refine ⟨outs, p, ?_, ha, n, by simpa [init] using q, by simpa [init] using mm⟩
  unfold tool
  rw [hi]
  simp only [hfin, hrec, simulate, toOps_told ht, e]

theorem tellAll_of_index : ∀ {os : List Record} {l : List Step}, os.length = l.length →
    (∀ (i : Nat) (x : Step), l[i]? = some x → ∃ o, os[i]? = some o ∧ Tells o x (goes x (l.drop (i + 1)))) → TellAll os l
  | [], [], _, _ => .nil
  | o :: os, x :: l, hl, h => by
    refine .cons ?_ (tellAll_of_index (by simpa using hl) fun i y hy => ?_)
    · obtain ⟨o', h1, h2⟩ := h 0 x rfl
      have : o = o' := by simpa using h1
      rw [this]; exact h2
    · obtain ⟨o', h1, h2⟩ := h (i + 1) y (by simpa using hy)
      exact ⟨o', by simpa using h1, by simpa using h2⟩

theorem goes_drop (x : Step) (l : List Step) (i : Nat) :
    goes x (l.drop i) = match l[i]? with | some y => y.addr | none => x.addr + 4 := by
  cases h : l[i]? with
  | none => rw [List.drop_eq_nil_of_le (List.getElem?_eq_none_iff.1 h)]; rfl
  | some y =>
    obtain ⟨hi, e⟩ := List.getElem?_eq_some_iff.1 h
    rw [List.drop_eq_getElem_cons hi, e]; rfl

end LinkStack
