import Verif.Tap.Steps
/-! Helper lemmas: the state after any calls. -/
namespace Tap
open Spec

/-- The tests and the plans among entries. -/
def testsOf (es : List Entry) : List (Nat × Test) := es.filterMap fun | .test n x => some (n, x) | .plan _ => none

def plansOf (es : List Entry) : List Nat := es.filterMap fun | .plan n => some n | .test .. => none

/-- The plans that calls print. -/
def saidPlans : List Call → List Nat
  | [] => []
  | .planTests n :: cs => n.toNat :: saidPlans cs
  | .planSkip _ :: cs => 0 :: saidPlans cs
  | _ :: cs => saidPlans cs

def isSkip : Call → Bool
  | .planSkip _ => true
  | _ => false

theorem numbered_append (a b : List Test) : numbered (a ++ b) = numbered a ++ b.mapIdx fun i t => (a.length + (i + 1), t) := by
  unfold numbered
  rw [List.mapIdx_append]
  congr 1
  apply List.ext_getElem
  · simp
  · intro i h1 h2; simp only [List.getElem_mapIdx, Prod.mk.injEq, and_true]; omega

theorem numbered_one (a : List Test) (t : Test) : numbered (a ++ [t]) = numbered a ++ [(a.length + 1, t)] := by
  rw [numbered_append]; rfl

theorem numbered_replicate (a : List Test) (t : Test) (n : Nat) :
    numbered (a ++ List.replicate n t) = numbered a ++ (List.range' (a.length + 1) n).map fun i => (i, t) := by
  rw [numbered_append]
  congr 1
  apply List.ext_getElem
  · simp
  · intro i h1 h2; simp [Nat.add_comm, Nat.add_left_comm]

/-- The tests that count as failures. -/
def bad (ts : List Test) : Nat := (ts.filter fun t => !t.good).length

theorem bad_append (a b : List Test) : bad (a ++ b) = bad a + bad b := by
  unfold bad; rw [List.filter_append, List.length_append]

theorem bad_one (t : Test) : bad [t] = if t.good then 0 else 1 := by
  unfold bad
  rw [List.filter_cons]
  cases t.good <;> rfl

theorem bad_le (a : List Test) : bad a ≤ a.length := List.length_filter_le ..

theorem bad_zero (a : List Test) : bad a = 0 ↔ ∀ x ∈ a, x.good = true := by
  unfold bad
  rw [List.length_eq_zero_iff, List.filter_eq_nil_iff]
  constructor
  · intro h x hx
    have := h x hx
    cases hg : x.good
    · rw [hg] at this; exact absurd rfl this
    · rfl
  · intro h x hx; rw [h x hx]; decide

def PlanIs (s : State) : Option (Option Nat) → Prop
  | none => s.havePlan = false ∧ s.noPlan = false ∧ s.expected = 0 ∧ s.hooked = s.skipAll
  | some none => s.havePlan = true ∧ s.noPlan = true ∧ s.expected = 0 ∧ s.hooked = true
  | some (some n) => s.havePlan = true ∧ s.noPlan = false ∧ s.expected.toNat = n ∧ s.hooked = true

def HeldIs (s : State) (todo : Option Text) : Held → Prop
  | .never => s.msg = .null ∧ todo = none
  | .open_ => ∃ t, todo = some t
  | .ended => s.msg = .freed ∧ todo = none

structure Inv (s : State) (todo : Option Text) (h : Held) (ts : List Test) (pl : Option (Option Nat)) (q : List Nat) : Prop where
  reads : ∃ es, Says s.out es ∧ testsOf es = numbered ts ∧ plansOf es = q
  count : s.count.toNat = ts.length
  failures : s.failures.toNat = bad ts
  holds : Holds s todo
  line : '\n' ∉ todo.getD []
  held : HeldIs s todo h
  plan : PlanIs s pl
  died : s.died = false

theorem Inv.init : Inv {} none .never [] none [] where
  reads := ⟨[], .nil, rfl, rfl⟩
  count := rfl
  failures := rfl
  holds := rfl
  line := by decide
  held := ⟨rfl, rfl⟩
  plan := ⟨rfl, rfl, rfl, rfl⟩
  died := rfl

theorem Inv.note {s : State} {todo h ts pl q} (i : Inv s todo h ts pl q) {t : Text} (ht : '\n' ∉ t) : Inv (s.note t) todo h ts pl q := by
  obtain ⟨es, h1, h2, h3⟩ := i.reads
  refine { i with reads := ⟨es, ?_, h2, h3⟩, holds := ?_, held := ?_, plan := ?_ }
  · have := h1.append (Says.comment ht)
    rwa [List.append_nil] at this
  · have := i.holds; cases todo <;> exact this
  · have := i.held; cases h <;> exact this
  · have := i.plan
    cases pl with
    | none => exact this
    | some p => cases p <;> exact this

/-- After any calls that make one plan at most and end no block of things to do twice. -/
theorem run_all : ∀ (cs : List Call) (s : State) (todo : Option Text) (h : Held) (ts : List Test) (pl : Option (Option Nat)) (q : List Nat),
    Inv s todo h ts pl q → (∀ c ∈ cs, OneLine c) → Blocks h cs → ts.length + (tests todo cs).length < 2 ^ 31 →
    (∀ n, some n ∈ plans cs → 0 < n ∧ n < 2 ^ 31) → (pl.toList ++ plans cs).length ≤ 1 →
    ∃ s' todo' h', runAll s cs = some s' ∧ Inv s' todo' h' (ts ++ tests todo cs) (pl.toList ++ plans cs).head? (q ++ saidPlans cs) ∧
      s'.skipAll = (s.skipAll || cs.any isSkip)
  | [], s, todo, h, ts, pl, q, i, _, _, _, _, _ => by
    refine ⟨s, todo, h, rfl, ?_, by simp⟩
    rw [show tests todo [] = [] from rfl, show plans [] = [] from rfl, show saidPlans [] = [] from rfl, List.append_nil, List.append_nil,
      List.append_nil]
    cases pl <;> exact i
  | c :: cs, s, todo, h, ts, pl, q, i, hc, hb, hn, hp, hl => by
    have hc1 := hc c List.mem_cons_self
    have hc2 := fun x hx => hc x (List.mem_cons_of_mem _ hx)
    obtain ⟨es, hs1, hs2, hs3⟩ := i.reads
    cases c with
    | result ok func file line name =>
      obtain ⟨rem, fail, hr, hf, he⟩ := result_on s ok func file line name todo i.holds hc1.1 hc1.2.1 hc1.2.2
      have hn' : ts.length + ((tests todo cs).length + 1) < 2 ^ 31 := hn
      have hcnt : (s.count + 1).toNat = ts.length + 1 := by
        rw [BitVec.toNat_add, show (1 : BitVec 32).toNat = 1 from rfl, i.count, Nat.mod_eq_of_lt (by omega)]
      have hb' : Blocks h cs := by cases h <;> exact hb
      have key : Inv { s with count := s.count + 1, failures := if ok || todo.isSome then s.failures else s.failures + 1,
                              out := s.out ++ (rem ++ ((testText ok (s.count + 1) name todo ++ ['\n']) ++ fail)) } todo h
          (ts ++ [{ passed := ok, name, todo }]) pl q := by
        refine ⟨⟨es ++ [.test (ts.length + 1) { passed := ok, name, todo }], ?_, ?_, ?_⟩, ?_, ?_, ?_, i.line, ?_, ?_, i.died⟩
        · have h1 := (testText_says ok (s.count + 1) name todo (by omega) hc1.2.2 i.line)
          have := hs1.append (hr.append (h1.append hf))
          rw [hcnt] at this
          simpa using this
        · rw [numbered_one, ← hs2]; unfold testsOf; rw [List.filterMap_append]; rfl
        · rw [← hs3]; unfold plansOf; rw [List.filterMap_append]; simp
        · show (s.count + 1).toNat = _
          rw [hcnt, List.length_append]; rfl
        · show (if (ok || todo.isSome) = true then s.failures else s.failures + 1).toNat = _
          rw [bad_append]
          have hbl := bad_le ts
          cases hg : (ok || todo.isSome)
          · rw [if_neg (by decide), BitVec.toNat_add, show (1 : BitVec 32).toNat = 1 from rfl, i.failures, Nat.mod_eq_of_lt (by omega)]
            have : bad [{ passed := ok, name, todo }] = 1 := by rw [bad_one]; simp only [Test.good, hg]; rfl
            rw [this]
          · rw [if_pos rfl, i.failures]
            have : bad [{ passed := ok, name, todo }] = 0 := by rw [bad_one]; simp only [Test.good, hg]; rfl
            rw [this]; rfl
        · have := i.holds; cases todo <;> exact this
        · have := i.held; cases h <;> exact this
        · have := i.plan
          cases pl with
          | none => exact this
          | some p => cases p <;> exact this
      obtain ⟨s', t', h', e1, e2, e3⟩ := run_all cs _ todo h _ pl q key hc2 hb' (by rw [List.length_append]; simp only [List.length_singleton]; omega) hp hl
      refine ⟨s', t', h', ?_, ?_, e3⟩
      · rw [runAll, step, he]; exact e1
      · rw [List.append_assoc] at e2; exact e2
    | skip n why =>
      have hb' : Blocks h cs := by cases h <;> exact hb
      have hn' : ts.length + (n.toNat + (tests todo cs).length) < 2 ^ 31 := by
        rw [tests, List.length_append, List.length_replicate] at hn; exact hn
      obtain ⟨t, ht, he⟩ := skips_on why hc1 n.toNat s (by rw [i.count]; omega)
      have key : Inv (skips why n.toNat s) todo h (ts ++ List.replicate n.toNat { passed := true, skipped := some why }) pl q := by
        rw [he]
        refine ⟨⟨_, hs1.append ht, ?_, ?_⟩, ?_, ?_, ?_, i.line, ?_, ?_, i.died⟩
        · rw [numbered_replicate, ← hs2, i.count]; unfold testsOf
          rw [List.filterMap_append, List.filterMap_map]
          congr 1
          rw [← List.filterMap_eq_map]; rfl
        · rw [← hs3]; unfold plansOf
          rw [List.filterMap_append, List.filterMap_map]
          refine (congrArg (_ ++ ·) (List.filterMap_eq_nil_iff.2 ?_)).trans (List.append_nil _)
          intro a _; rfl
        · show (s.count + BitVec.ofNat 32 n.toNat).toNat = _
          rw [BitVec.ofNat_toNat, BitVec.setWidth_eq, BitVec.toNat_add, i.count, List.length_append, List.length_replicate,
            Nat.mod_eq_of_lt (by omega)]
        · show s.failures.toNat = _
          rw [bad_append, i.failures]
          have : bad (List.replicate n.toNat { passed := true, skipped := some why }) = 0 :=
            (bad_zero _).2 fun x hx => by rw [List.eq_of_mem_replicate hx]; rfl
          rw [this]; rfl
        · have := i.holds; cases todo <;> exact this
        · have := i.held; cases h <;> exact this
        · have := i.plan
          cases pl with
          | none => exact this
          | some p => cases p <;> exact this
      obtain ⟨s', t', h', e1, e2, e3⟩ := run_all cs _ todo h _ pl q key hc2 hb'
        (by rw [List.length_append, List.length_replicate]; omega) hp hl
      refine ⟨s', t', h', ?_, ?_, ?_⟩
      · rw [runAll, step]; exact e1
      · rw [List.append_assoc] at e2; exact e2
      · rw [e3, he]; rfl
    | todoStart t =>
      have key : Inv { s with msg := .live t, todo := true } (some t) .open_ ts pl q := by
        refine ⟨i.reads, i.count, i.failures, ⟨rfl, rfl⟩, hc1, ⟨t, rfl⟩, ?_, i.died⟩
        have := i.plan
        cases pl with
        | none => exact this
        | some p => cases p <;> exact this
      have hb' : Blocks .open_ cs := by cases h <;> exact hb
      obtain ⟨s', t', h', e1, e2, e3⟩ := run_all cs _ (some t) .open_ _ pl q key hc2 hb' hn hp hl
      exact ⟨s', t', h', e1, e2, e3⟩
    | todoEnd =>
      cases h with
      | ended => exact absurd hb id
      | never =>
        have hm : s.msg = .null := i.held.1
        have key : Inv { s with todo := false } none .never ts pl q := by
          refine ⟨i.reads, i.count, i.failures, rfl, by decide, ⟨hm, rfl⟩, ?_, i.died⟩
          have := i.plan
          cases pl with
          | none => exact this
          | some p => cases p <;> exact this
        obtain ⟨s', t', h', e1, e2, e3⟩ := run_all cs _ none .never _ pl q key hc2 hb hn hp hl
        refine ⟨s', t', h', ?_, e2, e3⟩
        have hst : step s .todoEnd = .on { s with todo := false } := by rw [step, hm]
        rw [runAll, hst]; exact e1
      | open_ =>
        obtain ⟨t, rfl⟩ := i.held
        have hm : s.msg = .live t := i.holds.2
        have key : Inv { s with todo := false, msg := .freed } none .ended ts pl q := by
          refine ⟨i.reads, i.count, i.failures, rfl, by decide, ⟨rfl, rfl⟩, ?_, i.died⟩
          have := i.plan
          cases pl with
          | none => exact this
          | some p => cases p <;> exact this
        obtain ⟨s', t', h', e1, e2, e3⟩ := run_all cs _ none .ended _ pl q key hc2 hb hn hp hl
        refine ⟨s', t', h', ?_, e2, e3⟩
        rw [runAll, step, hm]; exact e1
    | planTests n =>
      have hb' : Blocks h cs := by cases h <;> exact hb
      obtain ⟨h0, h31⟩ := hp n.toNat List.mem_cons_self
      cases pl with
      | some p =>
        have : 1 + ((plans cs).length + 1) ≤ 1 := by
          rw [List.length_append] at hl; exact hl
        omega
      | none =>
        obtain ⟨p1, p2, p3, p4⟩ := i.plan
        have key : Inv { ({ s with hooked := true } : State).print ("1..".toList ++ showInt n ++ ['\n']) with havePlan := true, expected := n }
            todo h ts (some (some n.toNat)) (q ++ [n.toNat]) := by
          refine ⟨⟨_, hs1.append (planText_says n h31), ?_, ?_⟩, i.count, i.failures, ?_, i.line, ?_, ⟨rfl, p2, rfl, rfl⟩, i.died⟩
          · rw [← hs2]; unfold testsOf; rw [List.filterMap_append]; simp
          · rw [← hs3]; unfold plansOf; rw [List.filterMap_append]; rfl
          · have := i.holds; cases todo <;> exact this
          · have := i.held; cases h <;> exact this
        obtain ⟨s', t', h', e1, e2, e3⟩ := run_all cs _ todo h _ _ _ key hc2 hb' hn (fun m hm => hp m (List.mem_cons_of_mem _ hm)) hl
        refine ⟨s', t', h', ?_, ?_, e3⟩
        · have hn0 : n ≠ 0 := fun e => by subst e; exact absurd h0 (by decide)
          rw [runAll, step]
          simp only [p1, Bool.false_eq_true, if_false, if_neg hn0]
          exact e1
        · rw [List.append_assoc] at e2; exact e2
    | planNone =>
      have hb' : Blocks h cs := by cases h <;> exact hb
      cases pl with
      | some p =>
        have : 1 + ((plans cs).length + 1) ≤ 1 := by
          rw [List.length_append] at hl; exact hl
        omega
      | none =>
        obtain ⟨p1, p2, p3, p4⟩ := i.plan
        have key : Inv { s with hooked := true, havePlan := true, noPlan := true } todo h ts (some none) q := by
          refine ⟨⟨_, hs1, hs2, hs3⟩, i.count, i.failures, ?_, i.line, ?_, ⟨rfl, rfl, p3, rfl⟩, i.died⟩
          · have := i.holds; cases todo <;> exact this
          · have := i.held; cases h <;> exact this
        obtain ⟨s', t', h', e1, e2, e3⟩ := run_all cs _ todo h _ _ _ key hc2 hb' hn (fun m hm => hp m (List.mem_cons_of_mem _ hm)) hl
        refine ⟨s', t', h', ?_, e2, e3⟩
        rw [runAll, step]
        simp only [p1, Bool.false_eq_true, if_false]
        exact e1
    | planSkip r =>
      have hb' : Blocks h cs := by cases h <;> exact hb
      have key : Inv (({ s with hooked := true, skipAll := true } : State).print
          ("1..0".toList ++ skipReason r ++ ['\n'])) todo h ts pl (q ++ [0]) := by
        refine ⟨⟨_, hs1.append (planSkip_says r hc1), ?_, ?_⟩, i.count, i.failures, ?_, i.line, ?_, ?_, i.died⟩
        · rw [← hs2]; unfold testsOf; rw [List.filterMap_append]; simp
        · rw [← hs3]; unfold plansOf; rw [List.filterMap_append]; rfl
        · have := i.holds; cases todo <;> exact this
        · have := i.held; cases h <;> exact this
        · have := i.plan
          cases pl with
          | none => exact ⟨this.1, this.2.1, this.2.2.1, rfl⟩
          | some p => cases p <;> exact ⟨this.1, this.2.1, this.2.2.1, rfl⟩
      obtain ⟨s', t', h', e1, e2, e3⟩ := run_all cs _ todo h _ _ _ key hc2 hb' hn hp hl
      refine ⟨s', t', h', e1, ?_, ?_⟩
      · rw [List.append_assoc] at e2; exact e2
      · rw [e3]; simp [isSkip, State.print]
    | diag t =>
      have hb' : Blocks h cs := by cases h <;> exact hb
      obtain ⟨s', t', h', e1, e2, e3⟩ := run_all cs _ todo h _ _ _ (i.note hc1) hc2 hb' hn hp hl
      exact ⟨s', t', h', e1, e2, e3⟩

theorem run_of_all : ∀ (cs : List Call) (s s' : State), runAll s cs = some s' → run s cs = some ⟨(cleanup s').out, (status s' % 256).toNat⟩
  | [], s, s', h => by injection h with h; subst h; rfl
  | c :: cs, s, s', h => by
    rw [runAll] at h
    rw [run]
    split at h
    · rename_i s1 he; rw [he]; exact run_of_all cs s1 s' h
    · cases h

end Tap
