import Verif.Tap.Lemmas
/-! Helper lemmas: what the calls of a test program leave. -/
namespace Tap
open Spec

theorem noline_append {a b : Text} (ha : '\n' ∉ a) (hb : '\n' ∉ b) : '\n' ∉ a ++ b :=
  fun h => (List.mem_append.1 h).elim ha hb

theorem remark_eq (name : Option Text) (h : '\n' ∉ name.getD []) :
    ∃ rem, Says rem [] ∧ ∀ s : State, s.remark name = { s with out := s.out ++ rem } := by
  cases name with
  | none => exact ⟨[], .nil, fun s => by rw [List.append_nil]; rfl⟩
  | some n =>
    by_cases hn : n.all digitOrSpace = true
    · refine ⟨_, Says.append (Says.comment (t := "    You named your test '".toList ++ n ++
        "'.  You shouldn't use numbers for your test names.".toList) ?_) (Says.comment (t := "    Very confusing.".toList) (by decide)), ?_⟩
      · exact noline_append (noline_append (by decide) h) (by decide)
      · intro s
        rw [State.remark, if_pos hn, State.note, State.note, State.print, State.print]
        simp only [List.append_assoc]
    · exact ⟨[], .nil, fun s => by rw [State.remark, if_neg hn, List.append_nil]⟩

/-- The message for a failed test. -/
def failText (todo : Bool) (func file : Text) (line : BitVec 32) : Text :=
  "# ".toList ++ ("    Failed ".toList ++ (if todo then "(TODO) ".toList else []) ++ "test (".toList ++ file ++ ":".toList ++ func ++
        "() at line ".toList ++ showInt line ++ ")".toList) ++ ['\n']

theorem failText_says (todo : Bool) (func file : Text) (line : BitVec 32) (h1 : '\n' ∉ func) (h2 : '\n' ∉ file) :
    Says (failText todo func file line) [] := by
  refine Says.comment ?_
  refine noline_append (noline_append (noline_append (noline_append (noline_append (noline_append (noline_append (noline_append (by decide) ?_)
    (by decide)) h2) (by decide)) h1) (by decide)) (showInt_noline _)) (by decide)
  cases todo <;> decide

/-- The line of a test. -/
def testText (ok : Bool) (n : BitVec 32) (name todo : Option Text) : Text :=
  (if ok then [] else "not ".toList) ++ ("ok ".toList ++ (showInt n ++ (nameText name ++ mark todo)))

/-- What the state holds of the block of things to do. -/
def Holds (s : State) : Option Text → Prop
  | none => s.todo = false
  | some t => s.todo = true ∧ s.msg = .live t

theorem result_on (s : State) (ok : Bool) (func file : Text) (line : BitVec 32) (name todo : Option Text)
    (hs : Holds s todo) (h1 : '\n' ∉ func) (h2 : '\n' ∉ file) (h3 : '\n' ∉ name.getD []) :
    ∃ rem fail, Says rem [] ∧ Says fail [] ∧ result s ok func file line name =
      .on { s with count := s.count + 1, failures := if ok || todo.isSome then s.failures else s.failures + 1,
                   out := s.out ++ (rem ++ ((testText ok (s.count + 1) name todo ++ ['\n']) ++ fail)) } := by
  obtain ⟨rem, hr, he⟩ := remark_eq name h3
  refine ⟨rem, if ok then [] else failText todo.isSome func file line, hr, ?_, ?_⟩
  · cases ok with
    | true => exact .nil
    | false => exact failText_says _ _ _ _ h1 h2
  · unfold result
    simp only [he]
    cases todo with
    | none =>
      have ht : s.todo = false := hs
      cases ok with
      | true =>
        simp only [State.print, ht, if_true, Bool.false_eq_true, if_false, Bool.true_or, testText, mark, List.nil_append, List.append_nil,
          List.append_assoc]
      | false =>
        simp only [State.print, State.note, ht, Bool.false_eq_true, if_false, Option.isSome_none, Bool.or_self, testText, mark, failText,
          List.nil_append, List.append_nil, List.append_assoc]
    | some t =>
      obtain ⟨ht, hm⟩ := hs
      have em : " # TODO ".toList ++ t = mark (some t) := by rw [mark_chars]; rfl
      cases ok with
      | true =>
        simp only [State.print, ht, hm, if_true, Bool.true_or, testText, em, List.nil_append, List.append_nil,
          List.append_assoc]
      | false =>
        simp only [State.print, State.note, ht, hm, if_true, Bool.false_eq_true, if_false, Option.isSome_some, Bool.or_true, testText, em, failText,
          List.append_assoc, BitVec.add_sub_cancel]

theorem ok_chars : "ok ".toList = ['o', 'k', ' '] := by decide
theorem notok_chars : "not ok ".toList = "not ".toList ++ "ok ".toList := by decide
theorem not_chars : "not ".toList = ['n', 'o', 't', ' '] := by decide
theorem plan_chars : "1..".toList = ['1', '.', '.'] := by decide

theorem readLine_ok (r : Text) : readLine ("ok ".toList ++ r) = some (readTest true r) := by
  rw [readLine, behind_append]

theorem readLine_notok (r : Text) : readLine ("not ".toList ++ ("ok ".toList ++ r)) = some (readTest false r) := by
  have e : behind "ok ".toList ("not ".toList ++ ("ok ".toList ++ r)) = none := behind_other _ _ (by rw [ok_chars, not_chars]; rfl)
  rw [readLine, e, ← List.append_assoc, ← notok_chars, behind_append]

theorem readLine_plan (r : Text) : readLine ("1..".toList ++ r) = some (.plan (Num.Spec.number (r.takeWhile Char.isDigit))) := by
  have e1 : behind "ok ".toList ("1..".toList ++ r) = none := behind_other _ _ (by rw [ok_chars, plan_chars]; rfl)
  have e2 : behind "not ok ".toList ("1..".toList ++ r) = none := behind_other _ _ (by rw [notok_chars, not_chars, plan_chars]; rfl)
  rw [readLine, e1, e2, behind_append]
  rfl

theorem mark_noline {todo : Option Text} (h : '\n' ∉ todo.getD []) : '\n' ∉ mark todo := by
  cases todo with
  | none => exact h
  | some t =>
    have : '\n' ∉ " # TODO ".toList ++ t := noline_append (by decide) h
    rwa [mark_chars] at this

theorem testText_says (ok : Bool) (n : BitVec 32) (name todo : Option Text) (hn : n.toNat < 2 ^ 31) (h1 : '\n' ∉ name.getD [])
    (h2 : '\n' ∉ todo.getD []) : Says (testText ok n name todo ++ ['\n']) [.test n.toNat { passed := ok, name, todo }] := by
  refine .one ?_ ?_
  · refine noline_append ?_ (noline_append (by decide) (noline_append (showInt_noline _) (noline_append ?_ (mark_noline h2))))
    · cases ok <;> decide
    · cases name with
      | none => exact h1
      | some x => exact noline_append (by decide) (escape_noline h1)
  · rw [testText, showInt_eq n hn]
    cases ok with
    | true => rw [if_pos rfl, List.nil_append, readLine_ok, readTest_line]; rfl
    | false => rw [if_neg (by decide), readLine_notok, readTest_line]; rfl

theorem planText_says (n : BitVec 32) (hn : n.toNat < 2 ^ 31) : Says ("1..".toList ++ showInt n ++ ['\n']) [.plan n.toNat] := by
  refine .one (noline_append (by decide) (showInt_noline _)) ?_
  rw [showInt_eq n hn, readLine_plan]
  have := (takeWhile_digits n.toNat [] (fun c hc => by cases hc)).1
  rw [List.append_nil] at this
  rw [this, (Num.dec_digits _).2]
  rfl

theorem planSkip_says (r : Option Text) (h : '\n' ∉ r.getD []) :
    Says ("1..0".toList ++ skipReason r ++ ['\n']) [.plan 0] := by
  have e : "1..0".toList = "1..".toList ++ Nat.toDigits 10 0 := by decide
  have e' : " # Skip ".toList = ' ' :: "# Skip ".toList := by decide
  refine .one (noline_append (by decide) ?_) ?_
  · cases r with
    | none => exact h
    | some r => exact noline_append (by decide) h
  · rw [e, List.append_assoc, readLine_plan, (takeWhile_digits 0 _ ?_).1, (Num.dec_digits _).2]
    · rfl
    · intro c hc
      cases r with
      | none => cases hc
      | some r =>
        have hc' : (" # Skip ".toList ++ r).head? = some c := hc
        rw [e'] at hc'
        simp only [List.cons_append, List.head?_cons, Option.some.injEq] at hc'
        subst hc'; decide

/-! ### Skipped tests -/

theorem skips_on (why : Text) (hw : '\n' ∉ why) : ∀ (n : Nat) (s : State), s.count.toNat + n < 2 ^ 31 →
    ∃ t, Says t ((List.range' (s.count.toNat + 1) n).map fun i => .test i { passed := true, skipped := some why }) ∧
      skips why n s = { s with count := s.count + BitVec.ofNat 32 n, out := s.out ++ t }
  | 0, s, _ => ⟨[], .nil, by rw [List.append_nil, show s.count + BitVec.ofNat 32 0 = s.count by simp]; rfl⟩
  | n + 1, s, h => by
    have h1 : (s.count + 1).toNat = s.count.toNat + 1 := by
      rw [BitVec.toNat_add, show (1 : BitVec 32).toNat = 1 from rfl, Nat.mod_eq_of_lt (by omega)]
    obtain ⟨t, ht, he⟩ := skips_on why hw n
      ({ s with count := s.count + 1 }.print ("ok ".toList ++ showInt (s.count + 1) ++ " # skip ".toList ++ why ++ ['\n']))
      (by show (s.count + 1).toNat + n < _; omega)
    have hl : Says ("ok ".toList ++ showInt (s.count + 1) ++ " # skip ".toList ++ why ++ ['\n'])
        [.test (s.count.toNat + 1) { passed := true, skipped := some why }] := by
      refine .one (noline_append (noline_append (noline_append (by decide) (showInt_noline _)) (by decide)) hw) ?_
      rw [showInt_eq _ (by omega), List.append_assoc, List.append_assoc, readLine_ok, readTest_skip, h1]
      rfl
    refine ⟨("ok ".toList ++ showInt (s.count + 1) ++ " # skip ".toList ++ why ++ ['\n']) ++ t, ?_, ?_⟩
    · have := hl.append ht
      rw [List.range'_succ, List.map_cons]
      have e2 : (State.print { s with count := s.count + 1 } ("ok ".toList ++ showInt (s.count + 1) ++ " # skip ".toList ++ why ++ ['\n'])).count
          = s.count + 1 := rfl
      rw [e2, h1] at this
      exact this
    · rw [skips, he]
      have : s.count + 1 + BitVec.ofNat 32 n = s.count + BitVec.ofNat 32 (n + 1) := by
        rw [BitVec.add_assoc]; congr 1
        apply BitVec.eq_of_toNat_eq
        simp only [BitVec.toNat_add, BitVec.toNat_ofNat]
        rw [show (1 : BitVec 32).toNat = 1 from rfl]; omega
      simp only [State.print, List.append_assoc, this]

end Tap
