import Verif.Tap.Runs
/-! **C105**: the report of a test program tells its results. -/
namespace Tap
open Spec

theorem saidPlans_none : ∀ {cs : List Call}, ¬ skipsAll cs → saidPlans cs = (plans cs).filterMap id
  | [], _ => rfl
  | c :: cs, h => by
    have h' : ¬ skipsAll cs := fun ⟨r, hr⟩ => h ⟨r, List.mem_cons_of_mem _ hr⟩
    have ih := saidPlans_none h'
    cases c with
    | planSkip r => exact absurd ⟨r, List.mem_cons_self⟩ h
    | planTests n => show n.toNat :: saidPlans cs = _; rw [ih]; rfl
    | planNone => exact ih
    | result => exact ih
    | skip => exact ih
    | todoStart => exact ih
    | todoEnd => exact ih
    | diag => exact ih

theorem noSkip {cs : List Call} (h : ¬ skipsAll cs) : cs.any isSkip = false := by
  rw [List.any_eq_false]
  intro c hc
  cases c with
  | planSkip r => exact absurd ⟨r, hc⟩ h
  | _ => intro e; cases e

theorem toInt_of_lt (v : BitVec 32) (h : v.toNat < 2 ^ 31) : v.toInt = v.toNat := by
  rw [BitVec.toInt_eq_toNat_cond, if_pos (by omega)]

/-- The entries of the whole report. -/
theorem cleanup_entries {s : State} {todo h ts pl q} (i : Inv s todo h ts pl q) (hl : ts.length < 2 ^ 31) :
    ∃ es, Says (cleanup s).out es ∧ testsOf es = numbered ts ∧
      plansOf es = q ++ if s.skipAll = false ∧ pl = some none then [ts.length] else [] := by
  have counted : ∀ {s : State} {q} (i : Inv s todo h ts pl q), ∃ q', q' = q ++ [ts.length] ∧
      ∃ es, Says (s.print ("1..".toList ++ showInt s.count ++ ['\n'])).out es ∧ testsOf es = numbered ts ∧ plansOf es = q' := by
    intro s q i
    obtain ⟨es, h1, h2, h3⟩ := i.reads
    refine ⟨_, rfl, _, h1.append (planText_says s.count (by rw [i.count]; exact hl)), ?_, ?_⟩
    · rw [← h2]; unfold testsOf; rw [List.filterMap_append]; simp
    · rw [← h3, ← i.count]; unfold plansOf; rw [List.filterMap_append]; rfl
  have notes : ∀ {s : State} {q t}, '\n' ∉ t → (∃ es, Says s.out es ∧ testsOf es = numbered ts ∧ plansOf es = q) →
      ∃ es, Says (s.note t).out es ∧ testsOf es = numbered ts ∧ plansOf es = q := by
    rintro s q t ht ⟨es, h1, h2, h3⟩
    have := h1.append (Says.comment ht)
    rw [List.append_nil] at this
    exact ⟨es, this, h2, h3⟩
  have tail : ∀ {s : State} {q}, (∃ es, Says s.out es ∧ testsOf es = numbered ts ∧ plansOf es = q) →
      ∃ es, Says (if (s.havePlan && !s.noPlan) && s.expected.ult s.count then
      s.note ("Looks like you planned ".toList ++ showInt s.expected ++ " tests but ran ".toList ++ showInt (s.count - s.expected) ++
        " extra.".toList)
    else if (s.havePlan || !s.noPlan) && s.count.ult s.expected then
      let s := s.note ("Looks like you planned ".toList ++ showInt s.expected ++ " tests but only ran ".toList ++ showInt s.count ++
        ".".toList)
      if s.failures ≠ 0 then
        s.note ("Looks like you failed ".toList ++ showInt s.failures ++ " tests of ".toList ++ showInt s.count ++ " run.".toList)
      else s
    else if s.failures ≠ 0 then
      s.note ("Looks like you failed ".toList ++ showInt s.failures ++ " tests of ".toList ++ showInt s.count ++ ".".toList)
    else s).out es ∧ testsOf es = numbered ts ∧ plansOf es = q := by
    intro s q hs
    have nl : ∀ (a b c : Text) (v w : BitVec 32), '\n' ∉ a → '\n' ∉ b → '\n' ∉ c → '\n' ∉ a ++ showInt v ++ b ++ showInt w ++ c :=
      fun a b c v w ha hb hc => noline_append (noline_append (noline_append (noline_append ha (showInt_noline _)) hb) (showInt_noline _)) hc
    split
    · exact notes (nl _ _ _ _ _ (by decide) (by decide) (by decide)) hs
    · split
      · have h1 := notes (nl "Looks like you planned ".toList " tests but only ran ".toList ".".toList s.expected s.count
          (by decide) (by decide) (by decide)) hs
        dsimp only
        split
        · exact notes (nl _ _ _ _ _ (by decide) (by decide) (by decide)) h1
        · exact h1
      · split
        · exact notes (nl _ _ _ _ _ (by decide) (by decide) (by decide)) hs
        · exact hs
  have base := i.reads
  unfold cleanup
  by_cases hh : s.hooked = true
  · rw [if_neg (by rw [hh]; decide)]
    have hp := i.plan
    cases pl with
    | none =>
      obtain ⟨p1, p2, p3, p4⟩ := hp
      have hsk : s.skipAll = true := by rw [← p4]; exact hh
      rw [if_neg (by rw [hsk]; simp), if_neg (by rw [i.died]; decide)]
      rw [if_neg (c := (!s.skipAll && (s.noPlan || !s.havePlan)) = true) (by rw [hsk]; simp),
        if_neg (c := s.skipAll = false ∧ none = some none) (by simp), List.append_nil]
      exact tail base
    | some p =>
      have hpl : s.havePlan = true := by cases p <;> exact hp.1
      rw [if_neg (by rw [hpl]; simp), if_neg (by rw [i.died]; decide)]
      cases p with
      | none =>
        obtain ⟨p1, p2, p3, p4⟩ := hp
        by_cases hsk : s.skipAll = false
        · rw [if_pos (c := (!s.skipAll && (s.noPlan || !s.havePlan)) = true) (by rw [hsk, p2]; rfl),
            if_pos (c := s.skipAll = false ∧ some none = some none) ⟨hsk, rfl⟩]
          obtain ⟨q', rfl, he⟩ := counted i
          exact tail he
        · have hsk' : s.skipAll = true := by cases hx : s.skipAll <;> simp_all
          rw [if_neg (c := (!s.skipAll && (s.noPlan || !s.havePlan)) = true) (by rw [hsk']; simp),
            if_neg (c := s.skipAll = false ∧ some none = some none) (fun x => hsk x.1), List.append_nil]
          exact tail base
      | some n =>
        obtain ⟨p1, p2, p3, p4⟩ := hp
        rw [if_neg (c := (!s.skipAll && (s.noPlan || !s.havePlan)) = true) (by rw [p1, p2]; simp),
          if_neg (c := s.skipAll = false ∧ some (some n) = some none) (by simp), List.append_nil]
        exact tail base
  · have hh' : s.hooked = false := by cases hx : s.hooked <;> simp_all
    rw [if_pos (by rw [hh']; rfl)]
    have hp := i.plan
    cases pl with
    | none => rw [if_neg (by simp), List.append_nil]; exact base
    | some p => cases p <;> exact absurd hp.2.2.2 hh

/-- The number that the status tells: tests that were not planned, or else failed tests and tests that did not run. -/
def shortfall (planned : Nat) (ts : List Test) : Nat :=
  if planned < ts.length then ts.length - planned else (ts.filter fun t => !t.good).length + (planned - ts.length)

/-- **C105** (partial). A program that makes one plan, for fewer than 2^31 tests, prints a report in which a harness finds that plan and the
tests that were made, in order, numbered from one, with their names, results and reasons; and its exit status is zero exactly if the harness
accepts the report.  Missing: names and messages with ends of lines, programs without a plan, and larger plans, for which this does not hold. -/
theorem C105_report_partial (cs : List Call) (p : Option Nat) (h1 : ∀ c ∈ cs, OneLine c) (h2 : Blocks .never cs)
    (h3 : (tests none cs).length < 2 ^ 31) (h4 : plans cs = [p]) (h5 : ∀ n, p = some n → 0 < n ∧ n < 2 ^ 31) (h6 : ¬ skipsAll cs) :
    ∃ e, run {} cs = some e ∧ readTests e.text = numbered (tests none cs) ∧ readPlans e.text = [p.getD (tests none cs).length] ∧
      e.code = min 255 (shortfall (p.getD (tests none cs).length) (tests none cs)) ∧
      (e.code = 0 ↔ accepted e.text) := by
  obtain ⟨s, todo, h, e1, i, e3⟩ := run_all cs {} none .never [] none [] .init h1 h2 (by simpa using h3)
    (fun n hn => h5 n (by rw [h4] at hn; exact (List.mem_singleton.1 hn).symm)) (by simp [h4])
  rw [noSkip h6] at e3
  have hsk : s.skipAll = false := e3
  simp only [Option.toList_none, List.nil_append, h4, List.head?_cons, saidPlans_none h6] at i
  obtain ⟨es, g1, g2, g3⟩ := cleanup_entries i h3
  have gr := g1.read
  have ht : readTests (cleanup s).out = numbered (tests none cs) := by unfold readTests; rw [gr]; exact g2
  have hpl : readPlans (cleanup s).out = [p.getD (tests none cs).length] := by
    unfold readPlans; rw [gr]
    refine Eq.trans g3 ?_
    cases p with
    | none => rw [if_pos ⟨hsk, rfl⟩]; rfl
    | some n => rw [if_neg (by simp)]; rfl
  have hb := bad_le (tests none cs)
  have hst : status_ s = (shortfall (p.getD (tests none cs).length) (tests none cs) : Int) := by
    have hpp := i.plan
    have hc := i.count
    have hf := i.failures
    unfold status_
    cases p with
    | none =>
      obtain ⟨p1, p2, p3, p4⟩ := hpp
      rw [if_pos (by rw [p2]; rfl), toInt_of_lt _ (by omega), hf]
      simp only [Option.getD_none, shortfall, Nat.lt_irrefl, if_false, Nat.sub_self, Nat.add_zero]
      rfl
    | some n =>
      obtain ⟨p1, p2, p3, p4⟩ := hpp
      have hn := (h5 n rfl).2
      rw [if_neg (by rw [p1, p2]; decide)]
      by_cases hlt : n < (tests none cs).length
      · have hu : s.expected.ult s.count = true := by simp only [BitVec.ult, p3, hc, decide_eq_true_eq]; exact hlt
        rw [if_pos hu]
        have e : (s.count - s.expected).toNat = (tests none cs).length - n := by
          rw [BitVec.toNat_sub, hc, p3]; omega
        rw [toInt_of_lt _ (by omega), e]
        simp only [Option.getD_some, shortfall, hlt, if_true]
      · have hu : ¬ s.expected.ult s.count = true := by simp only [BitVec.ult, p3, hc, decide_eq_true_eq]; exact hlt
        rw [if_neg hu]
        have e : (s.failures + s.expected - s.count).toNat = bad (tests none cs) + (n - (tests none cs).length) := by
          rw [BitVec.toNat_sub, BitVec.toNat_add, hc, p3, hf]; omega
        rw [toInt_of_lt _ (by omega), e]
        simp only [Option.getD_some, shortfall, hlt, if_false]
        rfl
  have hcode : (status s % 256).toNat = min 255 (shortfall (p.getD (tests none cs).length) (tests none cs)) := by
    unfold status
    rw [hst]
    split <;> omega
  refine ⟨_, run_of_all cs {} s e1, ht, hpl, hcode, ?_⟩
  show (status s % 256).toNat = 0 ↔ _
  rw [hcode]
  constructor
  · intro h0
    refine ⟨_, ht, ?_, ?_⟩
    · show readPlans (cleanup s).out = _
      rw [hpl]
      congr 1
      unfold shortfall at h0
      split at h0 <;> omega
    · rw [← bad_zero]
      have : bad (tests none cs) = (List.filter (fun t => !t.good) (tests none cs)).length := rfl
      unfold shortfall at h0
      split at h0 <;> omega
  · rintro ⟨ts, k1, k2, k3⟩
    have k1' : readTests (cleanup s).out = numbered ts := k1
    have k2' : readPlans (cleanup s).out = [ts.length] := k2
    rw [ht] at k1'
    rw [hpl] at k2'
    have hts : tests none cs = ts := by
      have := congrArg (List.map Prod.snd) k1'
      have e : ∀ l : List Test, (numbered l).map Prod.snd = l := by
        intro l
        apply List.ext_getElem
        · simp [numbered]
        · intro i _ _; simp [numbered]
      rwa [e, e] at this
    subst hts
    have k2'' := (List.cons.inj k2').1
    rw [k2'']
    have hz := (bad_zero _).2 k3
    have : bad (tests none cs) = (List.filter (fun t => !t.good) (tests none cs)).length := rfl
    unfold shortfall
    rw [if_neg (Nat.lt_irrefl _)]
    omega

/-- A program to show this with: five tests of which one fails, in any block of things to do and outside. -/
def exCalls : List Call :=
  [.planTests 5, .result true "main".toList "a.c".toList 3 (some "first # one".toList), .todoStart "later".toList,
   .result false "main".toList "a.c".toList 5 (some "second\\".toList), .todoEnd, .skip 2 "no file".toList, .diag "now".toList,
   .result false "f".toList "a.c".toList 9 none]

example : (∀ c ∈ exCalls, OneLine c) ∧ Blocks .never exCalls ∧ (tests none exCalls).length < 2 ^ 31 ∧ plans exCalls = [some 5] ∧
    ¬ skipsAll exCalls := by
  refine ⟨?_, ?_, by decide, by decide, ?_⟩
  · intro c hc
    simp only [exCalls, List.mem_cons, List.not_mem_nil, or_false] at hc
    rcases hc with rfl | rfl | rfl | rfl | rfl | rfl | rfl | rfl <;> simp only [OneLine] <;> decide
  · simp only [exCalls, Blocks]
  · rintro ⟨r, hr⟩
    simp [exCalls] at hr

example : run {} exCalls = some ⟨("1..5\nok 1 - first \\# one\nnot ok 2 - second\\ # TODO later\n#     Failed (TODO) test (a.c:main() at line 5)\n" ++
    "ok 3 # skip no file\nok 4 # skip no file\n# now\nnot ok 5\n#     Failed test (a.c:f() at line 9)\n" ++
    "# Looks like you failed 1 tests of 5.\n").toList, 1⟩ := by
  decide +kernel

/-- **C105** (partial). A program that plans to skip everything and makes no test ends with status 0, having said so. -/
theorem C105_skipped_partial (cs : List Call) (h1 : ∀ c ∈ cs, OneLine c) (h2 : Blocks .never cs) (h3 : tests none cs = [])
    (h4 : plans cs = []) (h5 : skipsAll cs) :
    ∃ e, run {} cs = some e ∧ e.code = 0 ∧ readTests e.text = [] ∧ readPlans e.text ≠ [] ∧ ∀ n ∈ readPlans e.text, n = 0 := by
  obtain ⟨s, todo, h, e1, i, e3⟩ := run_all cs {} none .never [] none [] .init h1 h2 (by rw [h3]; decide)
    (fun n hn => by rw [h4] at hn; cases hn) (by simp [h4])
  simp only [Option.toList_none, List.nil_append, h4, List.head?_nil, h3] at i
  obtain ⟨es, g1, g2, g3⟩ := cleanup_entries i (by decide)
  have gr := g1.read
  have hp : readPlans (cleanup s).out = saidPlans cs := by
    unfold readPlans; rw [gr]; refine Eq.trans g3 ?_; rw [if_neg (by simp), List.append_nil]
  have hz : ∀ (cs : List Call), plans cs = [] → ∀ n ∈ saidPlans cs, n = 0 := by
    intro cs
    induction cs with
    | nil => intro _ n hn; cases hn
    | cons c cs ih =>
      intro hp n hn
      cases c <;> first
        | exact ih hp n hn
        | cases hp
        | (rcases List.mem_cons.1 hn with h | h
           · exact h
           · exact ih hp n h)
  have hne : ∀ (cs : List Call), skipsAll cs → saidPlans cs ≠ [] := by
    intro cs
    induction cs with
    | nil => rintro ⟨r, hr⟩; cases hr
    | cons c cs ih =>
      rintro ⟨r, hr⟩
      cases c <;> first
        | exact ih ⟨r, (List.mem_cons.1 hr).resolve_left (by intro e; cases e)⟩
        | (intro e; cases e)
  refine ⟨_, run_of_all cs {} s e1, ?_, ?_, ?_, ?_⟩
  · have hf := i.failures
    obtain ⟨p1, p2, _, _⟩ := i.plan
    show (status s % 256).toNat = 0
    have : status_ s = 0 := by
      unfold status_
      rw [if_pos (by rw [p1]; simp), toInt_of_lt _ (by rw [hf]; decide), hf]
      rfl
    unfold status
    rw [this]; decide
  · show readTests (cleanup s).out = []
    unfold readTests; rw [gr]; exact g2
  · show readPlans (cleanup s).out ≠ []
    rw [hp]; exact hne cs h5
  · show ∀ n ∈ readPlans (cleanup s).out, n = 0
    rw [hp]; exact hz cs h4

example : skipsAll [.diag [], .planSkip (some "no disk".toList)] ∧
    run {} [.diag [], .planSkip (some "no disk".toList)] = some ⟨"# \n1..0 # Skip no disk\n".toList, 0⟩ := by
  exact ⟨⟨_, List.mem_cons_of_mem _ List.mem_cons_self⟩, by decide +kernel⟩

/-- **C105** (partial). A program that makes a second plan ends there with status 255, and so does one that plans no tests. -/
theorem C105_twice_partial (cs : List Call) (c : Call) (rest : List Call) (h1 : ∀ c ∈ cs, OneLine c) (h2 : Blocks .never cs)
    (h3 : (tests none cs).length < 2 ^ 31)
    (hc : (∃ p, plans cs = [p] ∧ (∀ n, p = some n → 0 < n ∧ n < 2 ^ 31) ∧ (c = .planNone ∨ ∃ n, c = .planTests n)) ∨
      (plans cs = [] ∧ c = .planTests 0)) :
    ∃ e, run {} (cs ++ c :: rest) = some e ∧ e.code = 255 := by
  obtain ⟨s, todo, h, e1, i, e3⟩ := run_all cs {} none .never [] none [] .init h1 h2 (by simpa using h3)
    (fun n hn => by
      rcases hc with ⟨p, h4, h5, _⟩ | ⟨h4, _⟩
      · exact h5 n (by rw [h4] at hn; exact (List.mem_singleton.1 hn).symm)
      · rw [h4] at hn; cases hn)
    (by rcases hc with ⟨p, h4, h5, _⟩ | ⟨h4, _⟩ <;> simp [h4])
  have go : ∀ (cs : List Call) (s0 : State), runAll s0 cs = some s → run s0 (cs ++ c :: rest) = run s (c :: rest) := by
    intro cs
    induction cs with
    | nil => intro s0 h; injection h with h; subst h; rfl
    | cons d cs ih =>
      intro s0 h
      rw [runAll] at h
      rw [List.cons_append, run]
      split at h
      · rename_i s1 he; rw [he]; exact ih s1 h
      · cases h
  rw [go cs {} e1, run]
  rcases hc with ⟨p, h4, _, hc⟩ | ⟨h4, rfl⟩
  · simp only [Option.toList_none, List.nil_append, h4, List.head?_cons] at i
    have hpl : s.havePlan = true := by
      have := i.plan
      cases p <;> exact this.1
    rcases hc with rfl | ⟨n, rfl⟩
    · simp only [step, hpl, if_true]; exact ⟨_, rfl, rfl⟩
    · simp only [step, hpl, if_true]; exact ⟨_, rfl, rfl⟩
  · simp only [Option.toList_none, List.nil_append, h4, List.head?_nil] at i
    have hpl : s.havePlan = false := i.plan.1
    simp only [step, hpl, Bool.false_eq_true, if_false, if_true]; exact ⟨_, rfl, rfl⟩

example : run {} ([.planTests 2, .result true [] [] 0 none] ++ .planNone :: []) =
    some ⟨"1..2\nok 1\n# Looks like your test died just after 1.\n".toList, 255⟩ := by decide +kernel

/-! ### Where the report does not tell the results -/

/-- **C105** does not hold without a plan: the harness rejects the report of a program whose status is 0. -/
theorem C105_noplan_refuted : run {} [.result true [] [] 0 none] = some ⟨"ok 1\n".toList, 0⟩ ∧ ¬ accepted "ok 1\n".toList := by
  refine ⟨by decide +kernel, ?_⟩
  rintro ⟨ts, _, h, _⟩
  have : readPlans "ok 1\n".toList = [] := by decide +kernel
  rw [this] at h; cases h

/-- **C105** does not hold of plans of 2^31 tests and more: a program that was to make that many and made none ends with status 0. -/
theorem C105_large_refuted : ∃ t, run {} [.planTests 0x80000000] = some ⟨t, 0⟩ ∧ tests none [.planTests 0x80000000] = [] :=
  ⟨("1..-2147483648\n" ++ "# Looks like you planned -2147483648 tests but only ran 0.\n").toList, by decide +kernel, rfl⟩

/-- **C105** does not hold of names with ends of lines: a test is followed by one that was not made. -/
theorem C105_lines_refuted :
    (run {} [.planTests 1, .result true "f".toList "a.c".toList 1 (some "a\nok 2".toList)]).map (fun e => readTests e.text) =
      some [(1, { passed := true, name := some "a".toList }), (2, { passed := true })] := by
  decide +kernel

/-- A block of things to do that is ended twice: memory is freed twice. -/
theorem C105_blocks_refuted : run {} [.todoStart "x".toList, .todoEnd, .todoEnd] = none := by decide +kernel

/-! ### The test program of the decoder -/

/-- **C105** (partial). A record passes in the test of the decoder exactly if all the fields that are compared are the expected ones; otherwise
the first other one is named. -/
theorem C105_record_partial (func file : Text) (line : BitVec 32) (name : Text) (es : List Expectation) :
    (tests none (testRecord func file line name es) = [{ passed := es.all (·.same), name := some name }]) ∧
    (∀ e, es.find? (fun e => !e.same) = some e → Call.diag (e.name ++ " differs".toList) ∈ testRecord func file line name es) := by
  induction es with
  | nil => exact ⟨rfl, by intro e h; cases h⟩
  | cons e es ih =>
    rw [testRecord]
    cases he : e.same
    · simp only [Bool.false_eq_true, if_false]
      refine ⟨?_, ?_⟩
      · simp [tests, he]
      · intro x hx
        rw [List.find?_cons_of_pos (by rw [he]; rfl)] at hx
        injection hx with hx; subst hx
        exact List.mem_cons_of_mem _ List.mem_cons_self
    · simp only [if_true]
      refine ⟨?_, ?_⟩
      · rw [ih.1]; simp [he]
      · intro x hx
        rw [List.find?_cons_of_neg (by rw [he]; simp)] at hx
        exact ih.2 x hx

example : testRecord "test_record".toList "radixtest.c".toList 1353 "walk".toList [⟨"nr_ptes".toList, true⟩, ⟨"insn_page_shift".toList, false⟩] =
    [.result false "test_record".toList "radixtest.c".toList 1353 (some "walk".toList), .diag "insn_page_shift differs".toList] := by
  decide +kernel

/-- **C105** does not hold of the test program of the decoder: it ends with status 0 whatever the results are, and without a plan. -/
theorem C105_radixtest_refuted (func file : Text) (line : BitVec 32) (ts : List (Text × List Expectation)) (e : Ended)
    (h : radixtest func file line ts = some e) : e.code = 0 := by
  unfold radixtest at h
  cases hr : runAll {} (ts.flatMap fun t => testRecord func file line t.1 t.2) with
  | none => rw [hr] at h; cases h
  | some s => rw [hr] at h; injection h with h; subst h; rfl

example : radixtest "test_record".toList "radixtest.c".toList 1353 [("walk".toList, [⟨"nr_ptes".toList, false⟩])] =
    some ⟨("not ok 1 - walk\n#     Failed test (radixtest.c:test_record() at line 1353)\n" ++ "# nr_ptes differs\n").toList, 0⟩ := by
  decide +kernel

end Tap
