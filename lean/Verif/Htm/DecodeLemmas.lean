import Verif.Htm.SourceLemmas
/-!
The decoding functions step back only over the record they read last, and then read no more.
-/
namespace Htm
open Htm.Pwc

/-- No condition on the result. -/
def Any {α : Type} (_ : α) (_ : Bool) : Prop := True

theorem quiet_finish9 (c : Conf) (s : Dec) (i : I9) : Quiet (fun _ => True) (finish9 c s i) := by
  unfold finish9
  cases wordOf i.branch i.opcode (recodeP9 i.opcode s.insnAddr) with
  | none => trivial
  | some w =>
    dsimp only
    unfold Quiet
    cases c.full with
    | true => refine quiet_tellAll ?_ _; exact trivial
    | false => trivial

theorem ok_finish9 (c : Conf) (s : Dec) (i : I9) (l : Option (BitVec 64)) (n : Nat) : Ok Any l n (finish9 c s i) :=
  quiet_ok _ (quiet_finish9 c s i)

theorem ok_draStep9 (c : Conf) (s : Dec) (i : I9) (l : Option (BitVec 64)) (n : Nat) : Ok Any l n (draStep9 c s i) := by
  unfold draStep9
  cases i.dra with
  | false => exact ok_finish9 ..
  | true =>
    refine ⟨trivial, fun v m _ => ?_⟩
    dsimp only
    cases c.full with
    | false => exact ok_finish9 ..
    | true =>
      cases i.esid with
      | true =>
        cases badTag v with
        | true => exact ⟨rfl, quiet_finish9 ..⟩
        | false => exact ok_finish9 ..
      | false =>
        cases dra9 v with
        | none => exact ⟨rfl, quiet_finish9 ..⟩
        | some p =>
          obtain ⟨a, n⟩ := p
          refine ok_tellAll (p := Prog.tell _ _) ?_ _
          exact ok_finish9 ..

theorem ok_deaStep9 (c : Conf) (s : Dec) (i : I9) (l : Option (BitVec 64)) (n : Nat) : Ok Any l n (deaStep9 c s i) := by
  unfold deaStep9
  cases i.dea with
  | false => exact ok_draStep9 ..
  | true =>
    refine ⟨trivial, fun v m _ => ?_⟩
    dsimp only
    cases c.full with
    | false => exact ok_draStep9 ..
    | true =>
      cases badTag v with
      | true => exact ⟨rfl, quiet_finish9 ..⟩
      | false =>
        cases i.esid with
        | true => exact ok_draStep9 ..
        | false => exact ok_draStep9 ..

theorem ok_iraStep9 (c : Conf) (s : Dec) (i : I9) (l : Option (BitVec 64)) (n : Nat) : Ok Any l n (iraStep9 c s i) := by
  unfold iraStep9
  show Ok Any l n _
  cases (i.ira && !i.soft) with
  | false => exact ok_deaStep9 ..
  | true =>
    refine ⟨trivial, fun v m _ => ?_⟩
    dsimp only
    cases c.full with
    | false => exact ok_deaStep9 ..
    | true =>
      rw [if_neg (by decide)]
      cases ira9 v s.insnAddr with
      | none => exact ⟨rfl, quiet_finish9 ..⟩
      | some p =>
        obtain ⟨a, k⟩ := p
        show Ok Any _ _ _
        dsimp only
        cases Tlb.raSet s.tlb s.insnAddr (reloc i.msrir) a (BitVec.twoPow 64 k) with
        | none => exact Or.inl rfl
        | some t => exact ok_deaStep9 ..

theorem ok_cached9 (c : Conf) (s : Dec) (i : I9) (l : Option (BitVec 64)) (n : Nat) : Ok Any l n (cached9 c s i) := by
  unfold cached9
  cases (c.full && !i.ira) with
  | false => exact ok_iraStep9 ..
  | true =>
    rw [if_pos rfl]
    cases Tlb.raGet s.tlb s.insnAddr (reloc i.msrir) with
    | none => exact Or.inl rfl
    | some o =>
      cases o with
      | none => exact ok_iraStep9 ..
      | some p => exact ok_iraStep9 ..

theorem ok_ieaStep9 (c : Conf) (s : Dec) (i : I9) (l : Option (BitVec 64)) (n : Nat) : Ok Any l n (ieaStep9 c s i) := by
  unfold ieaStep9
  cases i.iea with
  | false => exact ok_iraStep9 ..
  | true =>
    refine ⟨trivial, fun v m _ => ?_⟩
    dsimp only
    cases badTag v with
    | true => exact ⟨rfl, quiet_finish9 ..⟩
    | false => exact ok_cached9 ..

theorem ok_insn9 (c : Conf) (s : Dec) (v : BitVec 64) (l : Option (BitVec 64)) (n : Nat) : Ok Any l n (insn9 c s v) := by
  unfold insn9
  show Ok Any l n _
  cases info9 v with
  | none => trivial
  | some i =>
    dsimp only
    cases i.valid with
    | true => exact ok_ieaStep9 ..
    | false => trivial

/-! ### POWER10 -/

theorem ok_walks10 : ∀ (k : Nat) (x : Xlate) (i : Nat) (l : Option (BitVec 64)) (n : Nat), Ok (fun _ b => b = false) l n (walks10 x k i)
  | 0, _, _, _, _ => rfl
  | k + 1, x, i, l, n => by
    unfold walks10
    refine ⟨rfl, fun v m _ => ?_⟩
    dsimp only
    cases (walkOf v).finalRecord with
    | true => rfl
    | false => exact ok_walks10 k _ _ _ _

theorem badHalt_ok (e : Bad) : badHalt e = .assert ∨ badHalt e = .undefined := by cases e <;> simp [badHalt]

theorem ok_ieara10 (l : Option (BitVec 64)) (n : Nat) : Ok (fun _ b => b = false) l n ieara10 :=
  ⟨rfl, fun _ _ _ => ⟨rfl, fun _ _ _ => rfl⟩⟩

theorem ok_head10 : ∀ (k : Nat) (s : Dec) (ix : List Xlate) (i : I10) (v : BitVec 64) (l : Option (BitVec 64)) (n : Nat), n < k →
    Ok (fun _ b => b = false) l n (head10 k s ix i v)
  | 0, _, _, _, _, _, n, h => absurd h (by omega)
  | k + 1, s, ix, i, v, l, n, h => by
    unfold head10
    by_cases h3 : recType v = 3
    · rw [if_pos h3]
      apply ok_bind _ _ _ (ok_ieara10 l n)
      · intro a l' m hm _
        cases a with
        | none => rfl
        | some p =>
          obtain ⟨a, r⟩ := p
          dsimp only
          cases gotIeara s ix i a r with
          | error e => exact badHalt_ok e
          | ok q =>
            obtain ⟨s', i'⟩ := q
            refine ⟨rfl, fun v m' hm' => ?_⟩
            exact ok_head10 k s' ix i' v _ m' (by omega)
      · intro a ha; exact absurd ha (by simp)
    · rw [if_neg h3]
      by_cases h1 : recType v = 1
      · rw [if_pos h1]
        cases bit v 0 with
        | true =>
          rw [if_pos rfl]
          by_cases hd : i.ndxlates < 2
          · rw [if_pos hd]
            apply ok_bind _ _ _ (ok_walks10 ..)
            · intro a l' m hm _
              cases a with
              | none => rfl
              | some x =>
                refine ⟨rfl, fun v m' hm' => ?_⟩
                exact ok_head10 k _ _ _ v _ m' (by omega)
            · intro a ha; exact absurd ha (by simp)
          · rw [if_neg hd]; exact Or.inr rfl
        | false =>
          rw [if_neg (by decide)]
          by_cases hd : ix.length < 2
          · rw [if_pos hd]
            apply ok_bind _ _ _ (ok_walks10 ..)
            · intro a l' m hm _
              cases a with
              | none => rfl
              | some x =>
                refine ⟨rfl, fun v m' hm' => ?_⟩
                exact ok_head10 k _ _ _ v _ m' (by omega)
            · intro a ha; exact absurd ha (by simp)
          · rw [if_neg hd]; exact Or.inr rfl
      · rw [if_neg h1]; rfl

/-- After stepping back the loop over the data addresses ends. -/
def Left (r : Option (Bool × I10)) (b : Bool) : Prop := b = true → ∃ l, r = some (true, l)

theorem ok_draStep10 (c : Conf) (i : Nat) (x : I10) (l : Option (BitVec 64)) (n : Nat) : Ok Left l n (draStep10 c i x) := by
  unfold draStep10
  by_cases h : x.dra ≠ 0
  · rw [if_pos h]
    refine ⟨by simp [Ok, Left], fun v m _ => ?_⟩
    dsimp only
    cases c.full with
    | false => simp [Ok, Left]
    | true =>
      cases x.esid with
      | true =>
        cases badTag v with
        | true => exact ⟨rfl, fun _ => ⟨_, rfl⟩⟩
        | false => simp [Ok, Left]
      | false =>
        by_cases hi : i = 0
        · simp [hi, Ok, Left]
        · simp [hi, Ok, Left]
  · rw [if_neg h]; simp [Ok, Left]

theorem ok_dataStep10 (c : Conf) (i : Nat) (x : I10) (l : Option (BitVec 64)) (n : Nat) : Ok Left l n (dataStep10 c i x) := by
  unfold dataStep10
  by_cases h : x.dea ≠ 0
  · rw [if_pos h]
    refine ⟨by simp [Ok, Left], fun v m _ => ?_⟩
    dsimp only
    cases c.full with
    | false => exact ok_draStep10 ..
    | true =>
      cases x.esid with
      | true =>
        cases badTag v with
        | true => exact ⟨rfl, fun _ => ⟨_, rfl⟩⟩
        | false => exact ok_draStep10 ..
      | false =>
        by_cases hi : i = 0
        · simp only [hi, if_pos]; exact ok_draStep10 ..
        · simp only [hi]; exact ok_draStep10 ..
  · rw [if_neg h]; exact ok_draStep10 ..

theorem ok_data10 (c : Conf) (x : I10) (l : Option (BitVec 64)) (n : Nat) : Ok Any l n (data10 c x) := by
  unfold data10
  by_cases h : 0 < x.dea ∨ 0 < x.dra
  · rw [if_pos h]
    apply ok_bind _ _ _ (ok_dataStep10 ..)
    · intro a l' m hm _
      match a with
      | none => trivial
      | some (true, y) => trivial
      | some (false, y) =>
        dsimp only
        by_cases h2 : 1 < y.dea ∨ 1 < y.dra
        · rw [if_pos h2]
          apply ok_bind _ _ _ (ok_dataStep10 ..)
          · intro a l' m hm _; trivial
          · intro a ha; trivial
        · rw [if_neg h2]; trivial
    · intro a ha
      obtain ⟨y, hy⟩ := ha rfl
      rw [hy]; trivial
  · rw [if_neg h]; trivial

theorem newLine_error {s : Dec} {x : I10} {h : Halt} (he : newLine s x = .error h) : h = .assert ∨ h = .undefined := by
  unfold newLine at he
  dsimp only at he
  split at he
  · split at he
    · cases he; exact badHalt_ok _
    · cases he
  · split at he
    · cases he; exact badHalt_ok _
    · cases he

theorem iside_error {s : Dec} {x : I10} {h : Halt} (he : iside s x = .error h) : h = .assert ∨ h = .undefined := by
  unfold iside at he
  split at he
  · split at he
    · exact newLine_error he
    · unfold sameLine at he
      split at he
      · split at he
        · split at he
          · cases he; exact Or.inr rfl
          · cases he
        · cases he
      · cases he
  · cases he

theorem dside_error {xl : Xl.St} {x : I10} {a r : BitVec 64} {h : Halt} (he : dside xl x a r = .error h) : h = .assert ∨ h = .undefined := by
  unfold dside at he
  dsimp only at he
  split at he
  · split at he
    · cases he; exact badHalt_ok _
    · cases he
  · split at he
    · cases he; exact badHalt_ok _
    · cases he

theorem dside0_error {s : Dec} {x : I10} {h : Halt} (he : dside0 s x = .error h) : h = .assert ∨ h = .undefined := by
  unfold dside0 at he
  split at he
  · exact dside_error he
  · cases he

theorem dside1_error {b : Bool} {xl : Xl.St} {x : I10} {h : Halt} (he : dside1 b xl x = .error h) : h = .assert ∨ h = .undefined := by
  unfold dside1 at he
  split at he
  · split at he
    · rename_i hd; cases he; exact dside_error hd
    · cases he
  · cases he

theorem keepData_error {b : Bool} {xl : Xl.St} {x : I10} {h : Halt} (he : keepData b xl x = .error h) : h = .assert ∨ h = .undefined := by
  unfold keepData at he
  split at he
  · split at he
    · cases he; exact badHalt_ok _
    · cases he
  · cases he

theorem quiet_emit10 (c : Conf) (s : Dec) (x : I10) : Quiet (fun _ => True) (emit10 c s x) := by
  unfold emit10
  cases h1 : iside { s with prevAddr := s.insnAddr, prevBranch := x.branch || isCall s.insn } x with
  | error e => exact iside_error h1
  | ok p =>
    obtain ⟨s1, e1⟩ := p
    dsimp only
    cases h2 : dside0 s1 x with
    | error e => exact dside0_error h2
    | ok p =>
      obtain ⟨d, e2, xl, x1⟩ := p
      dsimp only
      cases h3 : dside1 s1.rpt xl x1 with
      | error e => exact dside1_error h3
      | ok p =>
        obtain ⟨xl2, x2⟩ := p
        dsimp only
        cases h4 : keepData s1.rpt xl2 x2 with
        | error e => exact keepData_error h4
        | ok xl3 => refine quiet_tellAll ?_ _; exact trivial

theorem quiet_finish10 (c : Conf) (s : Dec) (x : I10) : Quiet (fun _ => True) (finish10 c s x) := by
  unfold finish10
  cases wordOf x.branch x.opcode (recodeP10 x.opcode (place s x).insnAddr) with
  | none => trivial
  | some w =>
    show Quiet _ _
    dsimp only
    cases c.full with
    | true => exact quiet_emit10 ..
    | false => trivial

theorem ok_body10 (c : Conf) (s : Dec) (x : I10) (l : Option (BitVec 64)) (n : Nat) : Ok Any l n (body10 c s x) := by
  unfold body10
  apply ok_bind _ _ _ (ok_data10 ..)
  · intro a l' m _ _
    cases a with
    | none => trivial
    | some y => exact quiet_ok _ (quiet_finish10 ..)
  · intro a _
    cases a with
    | none => trivial
    | some y => exact quiet_finish10 ..

theorem ok_prefix10 (c : Conf) (s : Dec) (x : I10) (l : Option (BitVec 64)) (n : Nat) : Ok Any l n (prefix10 c s x) := by
  unfold prefix10
  cases x.hasPrefix with
  | true => exact ⟨trivial, fun v m _ => ok_body10 ..⟩
  | false => exact ok_body10 ..

theorem ok_msr10 (c : Conf) (s : Dec) (x : I10) (l : Option (BitVec 64)) (n : Nat) : Ok Any l n (msr10 c s x) :=
  ⟨trivial, fun _ _ _ => ok_prefix10 ..⟩

theorem ok_insn10 (c : Conf) {k : Nat} (s : Dec) (v : BitVec 64) (l : Option (BitVec 64)) {n : Nat} (h : n < k) : Ok Any l n (insn10 c k s v) := by
  unfold insn10
  show Ok Any l n _
  apply ok_bind _ _ _ (ok_head10 k s [] {} v l n h)
  · intro a l' m hm _
    obtain ⟨s', o⟩ := a
    match o with
    | none => trivial
    | some (x, w) =>
      dsimp only
      cases info10 x w with
      | none => trivial
      | some y => exact ok_msr10 c s' y l' m
  · intro a ha; exact absurd ha (by simp)

/-! ### One step of the decoder -/

/-- Between two steps. -/
structure Between (S c : List (BitVec 64)) (r : Rd) : Prop where
  acc : Acc S c r
  rewound : r.nrRewind ≤ r.nr + 1

theorem dispatch_spec {S c : List (BitVec 64)} {cf : Conf} {s : Dec} {r : Rd} (v : BitVec 64) (ha : Acc S c r) (hn : r.nrRewind ≤ r.nr) :
    match dispatch cf s r v with
    | .error h => h = .assert ∨ h = .undefined
    | .ok (_, r') => ∃ c', Between S c' r' ∧ c <+: c' := by
  unfold dispatch
  by_cases h1 : isStamp v
  · rw [if_pos h1]
    cases h2 : stamp cf r v with
    | error e => exact Or.inl (stamp_error h2)
    | ok p =>
      obtain ⟨b, r1⟩ := p
      obtain ⟨o, ho⟩ := stamp_frame h2
      subst ho
      exact ⟨c, ⟨acc_out ha o, by show r.nrRewind ≤ r.nr + 1; omega⟩, List.prefix_refl c⟩
  · rw [if_neg h1]
    by_cases h2 : u32 v 36 55 = 0xABCDE
    · rw [if_pos h2]
      have h := run_spec (base := c) cf (insn9 cf s v) none (r.left) c r (ok_insn9 ..) ha (pending_left r) hn (List.prefix_refl c)
      cases h3 : (insn9 cf s v).run cf r with
      | error e => rw [h3] at h; exact h
      | ok q => rw [h3] at h; obtain ⟨_, c', h4, h5, h6⟩ := h; exact ⟨c', ⟨h4, h6⟩, h5⟩
    · rw [if_neg h2]
      by_cases h3 : u32 v 36 55 = 0xABCDF
      · rw [if_pos h3]
        have h := run_spec (base := c) cf (insn10 cf (r.left + 1) s v) none (r.left) c r (ok_insn10 cf s v none (by omega)) ha (pending_left r) hn (List.prefix_refl c)
        cases h4 : (insn10 cf (r.left + 1) s v).run cf r with
        | error e => rw [h4] at h; exact h
        | ok q => rw [h4] at h; obtain ⟨_, c', h4, h5, h6⟩ := h; exact ⟨c', ⟨h4, h6⟩, h5⟩
      · rw [if_neg h3]
        exact ⟨c, ⟨ha, by omega⟩, List.prefix_refl c⟩

theorem decodeOne_spec {S c : List (BitVec 64)} {cf : Conf} {e : Nat} {s : Dec} {r : Rd} (hb : Between S c r) :
    match decodeOne cf e s r with
    | .error h => h = .assert ∨ h = .undefined ∨ h = .tooManyErrors
    | .ok (go, _, _, r') => ∃ c', Between S c' r' ∧ c <+: c' ∧ (go = true → (pending r').length < (pending r).length) ∧
        (go = false → c' = c ∧ pending r' = []) := by
  unfold decodeOne
  cases h1 : fetchInternal r with
  | mk a r1 =>
    cases a with
    | none =>
      obtain ⟨h2, h3⟩ := fetchInternal_none h1
      subst h2
      exact ⟨c, hb, List.prefix_refl c, (fun h => by cases h), fun _ => ⟨rfl, h3⟩⟩
    | some v =>
      obtain ⟨ha, hrw, hpv, hnr, hnr2, _, hpend⟩ := fetchInternal_some hb.acc h1
      have hn : r1.nrRewind ≤ r1.nr := by have := hb.rewound; omega
      have hc : c <+: c ++ [v] := List.prefix_append _ _
      have hlen : ∀ c' r', Acc S c' r' → c ++ [v] <+: c' → (pending r').length < (pending r).length := by
        intro c' r' h3 h4
        have e1 := congrArg List.length h3.rest
        have e2 := congrArg List.length hb.acc.rest
        have e3 := h4.length_le
        simp only [List.length_append, List.length_singleton] at e1 e2 e3
        omega
      dsimp only
      by_cases h0 : v = 0
      · rw [if_pos h0]
        exact ⟨c ++ [v], ⟨ha, by omega⟩, hc, fun _ => hlen _ _ ha (List.prefix_refl _), fun h => by cases h⟩
      · rw [if_neg h0]
        have hd := dispatch_spec (cf := cf) (s := s) v ha hn
        cases h2 : dispatch cf s r1 v with
        | error e => rw [h2] at hd; rcases hd with hd | hd <;> simp [hd]
        | ok q =>
          rw [h2] at hd
          obtain ⟨⟨s', b⟩, r'⟩ := q
          obtain ⟨c', h3, h4⟩ := hd
          cases b with
          | true => exact ⟨c', h3, hc.trans h4, fun _ => hlen _ _ h3.acc h4, fun h => by cases h⟩
          | false =>
            dsimp only
            by_cases he : e > 100
            · rw [if_pos he]; simp
            · rw [if_neg he]; exact ⟨c', h3, hc.trans h4, fun _ => hlen _ _ h3.acc h4, fun h => by cases h⟩

theorem decodeLoop_spec {S : List (BitVec 64)} (cf : Conf) : ∀ (n : Nat) (e : Nat) (s : Dec) (c : List (BitVec 64)) (r : Rd), Between S c r →
    (pending r).length < n →
    match decodeLoop cf n e s r with
    | .error h => h = .assert ∨ h = .undefined ∨ h = .tooManyErrors
    | .ok (_, r') => Between S S r' ∧ pending r' = []
  | 0, _, _, _, _, _, h => absurd h (by omega)
  | n + 1, e, s, c, r, hb, h => by
    unfold decodeLoop
    have h1 := decodeOne_spec (cf := cf) (e := e) (s := s) hb
    cases h2 : decodeOne cf e s r with
    | error x => rw [h2] at h1; exact h1
    | ok q =>
      rw [h2] at h1
      obtain ⟨go, e', s', r'⟩ := q
      obtain ⟨c', hb', hp, hgo, hend⟩ := h1
      cases go with
      | false =>
        obtain ⟨hc, hpend⟩ := hend rfl
        refine ⟨?_, hpend⟩
        have := hb'.acc.rest
        rw [hpend, List.append_nil] at this
        rw [← this] at hb'
        exact hb'
      | true => exact decodeLoop_spec cf n e' s' c' r' hb' (by have := hgo rfl; omega)

end Htm
