import Verif.Htm.Pure
/-!
C54: stamps do not change the instructions that are decoded.
-/
namespace Htm

/-- One step on a list of records without stamps. -/
def pureStep (c : Conf) (s : Dec) (v : BitVec 64) (l : List (BitVec 64)) : Except Halt ((Dec × Bool) × List (BitVec 64) × List Ev) :=
  if u32 v 36 55 = 0xABCDE then (insn9 c s v).eval l
  else if u32 v 36 55 = 0xABCDF then (insn10 c (l.length + 1) s v).eval l
  else .ok ((s, true), l, [])

/-- Decoding of a list of records without stamps. -/
def pureLoop (c : Conf) : Nat → Nat → Dec → List (BitVec 64) → Except Halt (Dec × List Ev)
  | 0, _, _, _ => .error .fuel
  | _ + 1, _, s, [] => .ok (s, [])
  | n + 1, e, s, v :: l =>
    if v = 0 then pureLoop c n e s l
    else
      match pureStep c s v l with
      | .error h => .error h
      | .ok ((s, b), l, es) =>
        if b = false ∧ e > 100 then .error .tooManyErrors
        else
          match pureLoop c n (if b then 0 else e + 1) s l with
          | .error h => .error h
          | .ok (s, es') => .ok (s, es ++ es')

theorem run_pure {α : Type} {P : α → Bool → Prop} {S c : List (BitVec 64)} {cf : Conf} {p : Prog α} {n : Nat} {r : Rd} (hok : Ok P none n p)
    (hacc : Acc S c r) (hle : (pending r).length ≤ n) (hn : r.nrRewind ≤ r.nr) (hk : AllKnown (pending r)) :
    match p.eval (plain (pending r)) with
    | .error h => p.run cf r = .error h
    | .ok (a, l, es) => ∃ r', p.run cf r = .ok (a, r') ∧ plain (pending r') = l ∧ AllKnown (pending r') ∧
        insnEvents r'.out = insnEvents r.out ++ insnEvents es := by
  have h := run_eval (base := []) cf p none n c r hok hacc hle hn List.nil_prefix (fun v hv => by cases hv) hk
  cases hr : p.run cf r with
  | error e => rw [hr] at h; dsimp only at h; rw [h]
  | ok q =>
    obtain ⟨a, r'⟩ := q
    rw [hr] at h
    obtain ⟨es, h1, h2, h3⟩ := h
    rw [h1]
    exact ⟨r', rfl, rfl, h2, h3⟩

theorem plain_length (l : List (BitVec 64)) : (plain l).length ≤ l.length := List.length_filter_le ..

theorem dispatch_pure {S c : List (BitVec 64)} {cf : Conf} {s : Dec} {r : Rd} {v : BitVec 64} (hv : isStamp v = false) (hacc : Acc S c r)
    (hn : r.nrRewind ≤ r.nr) (hk : AllKnown (pending r)) :
    match pureStep cf s v (plain (pending r)) with
    | .error h => dispatch cf s r v = .error h
    | .ok (a, l, es) => ∃ r', dispatch cf s r v = .ok (a, r') ∧ plain (pending r') = l ∧ AllKnown (pending r') ∧
        insnEvents r'.out = insnEvents r.out ++ insnEvents es := by
  unfold pureStep dispatch
  rw [hv]
  rw [if_neg (show ¬ (false = true) by decide)]
  by_cases h9 : u32 v 36 55 = 0xABCDE
  · rw [if_pos h9, if_pos h9]
    have h := run_pure (cf := cf) (p := insn9 cf s v) (ok_insn9 cf s v none _) hacc (Nat.le_refl _) hn hk
    cases he : (insn9 cf s v).eval (plain (pending r)) with
    | error x => rw [he] at h; exact h
    | ok q => rw [he] at h; exact h
  · rw [if_neg h9, if_neg h9]
    by_cases h10 : u32 v 36 55 = 0xABCDF
    · rw [if_pos h10, if_pos h10]
      have hp := pending_left r
      rw [insn10_fuel cf s v (n := r.left + 1) (Nat.lt_succ_self _) (by have := plain_length (pending r); omega)]
      have h := run_pure (cf := cf) (p := insn10 cf (r.left + 1) s v) (n := r.left) (ok_insn10 cf s v none (Nat.lt_succ_self _)) hacc hp hn hk
      cases he : (insn10 cf (r.left + 1) s v).eval (plain (pending r)) with
      | error x => rw [he] at h; exact h
      | ok q => rw [he] at h; exact h
    · rw [if_neg h10, if_neg h10]
      exact ⟨r, rfl, rfl, hk, by simp [insnEvents]⟩

theorem stamp_nonzero {v : BitVec 64} (h : isStamp v = true) : v ≠ 0 := by
  intro h0; rw [h0] at h; revert h; decide

theorem AllKnown.tail {v : BitVec 64} {l : List (BitVec 64)} (h : AllKnown (v :: l)) : AllKnown l :=
  fun w hw => h w (List.mem_cons_of_mem _ hw)

theorem eval_left {cf : Conf} {s : Dec} {v : BitVec 64} {l l' : List (BitVec 64)} {a : Dec × Bool} {es : List Ev}
    (h : pureStep cf s v l = .ok (a, l', es)) : l'.length ≤ l.length := by
  unfold pureStep at h
  by_cases h9 : u32 v 36 55 = 0xABCDE
  · rw [if_pos h9] at h
    exact eval_length _ none l.length l (ok_insn9 ..) (Nat.le_refl _) _ _ _ h
  · rw [if_neg h9] at h
    by_cases h10 : u32 v 36 55 = 0xABCDF
    · rw [if_pos h10] at h
      exact eval_length _ none l.length l (ok_insn10 cf s v none (Nat.lt_succ_self _)) (Nat.le_refl _) _ _ _ h
    · rw [if_neg h10] at h
      cases h; exact Nat.le_refl _

/-- With stamps the decoder does what it does without, except that it may tolerate more errors. -/
theorem loop_pure {S : List (BitVec 64)} (cf : Conf) : ∀ (n m e e' : Nat) (s : Dec) (c : List (BitVec 64)) (r : Rd), Between S c r →
    (pending r).length < n → (plain (pending r)).length < m → AllKnown (pending r) → e ≤ e' →
    match pureLoop cf m e' s (plain (pending r)) with
    | .error .tooManyErrors => e = e' → (∀ v ∈ S, isStamp v = false) → decodeLoop cf n e s r = .error .tooManyErrors
    | .error h => decodeLoop cf n e s r = .error h
    | .ok (s', es) => ∃ r', decodeLoop cf n e s r = .ok (s', r') ∧ insnEvents r'.out = insnEvents r.out ++ insnEvents es
  | 0, _, _, _, _, _, _, _, h, _, _, _ => absurd h (by omega)
  | n + 1, 0, _, _, _, _, _, _, _, h, _, _ => absurd h (by omega)
  | n + 1, m + 1, e, e', s, c, r, hb, hn, hm, hk, he => by
    have hone := decodeOne_spec (cf := cf) (e := e) (s := s) hb
    unfold decodeLoop
    cases h1 : fetchInternal r with
    | mk a b =>
      cases a with
      | none =>
        obtain ⟨hbr, hp⟩ := fetchInternal_none h1
        subst hbr
        rw [hp]
        have : decodeOne cf e s b = .ok (false, e, s, b) := by unfold decodeOne; rw [h1]
        rw [this]
        exact ⟨b, rfl, by simp [insnEvents]⟩
      | some v =>
        obtain ⟨hacc, hrw, hpv, hnr, hnr2, hout, hpend⟩ := fetchInternal_some hb.acc h1
        have hnb : b.nrRewind ≤ b.nr := by have := hb.rewound; omega
        have hkb : AllKnown (pending b) := by rw [hpend] at hk; exact hk.tail
        rw [hpend, List.length_cons] at hn
        cases hst : isStamp v with
        | true =>
          obtain ⟨o, ho, hoe⟩ := stamp_known (cf := cf) (r := b) (hk v (by rw [hpend]; exact List.mem_cons_self) hst)
          have hd : decodeOne cf e s r = .ok (true, 0, s, { b with out := o }) := by
            unfold decodeOne dispatch
            rw [h1]
            dsimp only
            rw [if_neg (stamp_nonzero hst), hst, if_pos rfl, ho]
          have hpl : plain (pending r) = plain (pending b) := by rw [hpend, plain_cons_stamp hst]
          have hne : ¬ ∀ v ∈ S, isStamp v = false := by
            intro hall
            have : v ∈ S := by rw [hb.acc.rest, hpend]; simp
            rw [hall v this] at hst; cases hst
          rw [hd] at hone ⊢
          obtain ⟨c', hb', _⟩ := hone
          have h2 := loop_pure cf n (m + 1) 0 e' s c' { b with out := o } hb' (by show (pending b).length < n; omega)
            (by rw [hpl] at hm; exact hm) hkb (Nat.zero_le _)
          rw [show pending { b with out := o } = pending b from rfl, ← hpl] at h2
          rw [show insnEvents r.out = insnEvents o from by rw [hoe, hout]]
          cases hrec : pureLoop cf (m + 1) e' s (plain (pending r)) with
          | ok q => rw [hrec] at h2; exact h2
          | error h =>
            rw [hrec] at h2
            cases h <;> first | exact h2 | exact fun _ hx => absurd hx hne
        | false =>
          have hpl : plain (pending r) = v :: plain (pending b) := by rw [hpend, plain_cons hst]
          rw [hpl] at hm ⊢
          rw [List.length_cons] at hm
          unfold pureLoop
          by_cases h0 : v = 0
          · rw [if_pos h0]
            have hd : decodeOne cf e s r = .ok (true, e, s, b) := by
              unfold decodeOne
              rw [h1]
              dsimp only
              rw [if_pos h0]
            rw [hd] at hone ⊢
            obtain ⟨c', hb', _⟩ := hone
            have h2 := loop_pure cf n m e e' s c' b hb' (by omega) (by omega) hkb he
            rw [← hout]
            exact h2
          · rw [if_neg h0]
            have hp := dispatch_pure (cf := cf) (s := s) hst hacc hnb hkb
            cases hs : pureStep cf s v (plain (pending b)) with
            | error h =>
              rw [hs] at hp
              have hd : decodeOne cf e s r = .error h := by
                unfold decodeOne
                rw [h1]
                dsimp only
                rw [if_neg h0, hp]
              rw [hd]
              cases h <;> first | rfl | exact fun _ _ => rfl
            | ok q =>
              obtain ⟨⟨s', ok⟩, l, es⟩ := q
              rw [hs] at hp
              obtain ⟨r1, h3, h4, h5, h6⟩ := hp
              dsimp only
              by_cases hmany : ok = false ∧ e' > 100
              · rw [if_pos hmany]
                intro hee _
                have hd : decodeOne cf e s r = .error .tooManyErrors := by
                  unfold decodeOne
                  rw [h1]
                  dsimp only
                  rw [if_neg h0, h3, hmany.1]
                  dsimp only
                  rw [if_pos (by omega)]
                rw [hd]
              · rw [if_neg hmany]
                have hd : decodeOne cf e s r = .ok (true, if ok then 0 else e + 1, s', r1) := by
                  unfold decodeOne
                  rw [h1]
                  dsimp only
                  rw [if_neg h0, h3]
                  cases ok with
                  | true => rfl
                  | false =>
                    dsimp only
                    rw [if_neg (by intro hx; exact hmany ⟨rfl, by omega⟩)]
                    rfl
                rw [hd] at hone ⊢
                obtain ⟨c', hb', _, hlt, _⟩ := hone
                have hlt := hlt rfl
                rw [hpend, List.length_cons] at hlt
                dsimp only
                have hl : l.length < m := by
                  have e1 := congrArg List.length h4
                  have e2 := eval_left (cf := cf) (s := s) (v := v) hs
                  omega
                have h2 := loop_pure cf n m (if ok then 0 else e + 1) (if ok then 0 else e' + 1) s' c' r1 hb' (by omega) (by rw [h4]; exact hl) h5
                  (by cases ok <;> simp [he])
                rw [h4] at h2
                cases hrec : pureLoop cf m (if ok then 0 else e' + 1) s' l with
                | error h =>
                  rw [hrec] at h2
                  cases h <;> first | exact h2 | exact fun hx hy => h2 (by rw [hx]) hy
                | ok q =>
                  obtain ⟨s2, es'⟩ := q
                  rw [hrec] at h2
                  obtain ⟨r2, h7, h8⟩ := h2
                  refine ⟨r2, h7, ?_⟩
                  rw [h8, h6, hout, insnEvents_append, List.append_assoc]

theorem decode_pure (c : Conf) (eof : Bool) (bytes : List (BitVec 8)) (failing : Bool) (fill phantom : BitVec 64)
    (hk : AllKnown (stream bytes failing eof fill phantom)) :
    match pureLoop c ((plain (stream bytes failing eof fill phantom)).length + 1) 0 {} (plain (stream bytes failing eof fill phantom)) with
    | .error .tooManyErrors => (∀ v ∈ stream bytes failing eof fill phantom, isStamp v = false) →
        decode c eof bytes failing fill phantom = .error .tooManyErrors
    | .error h => decode c eof bytes failing fill phantom = .error h
    | .ok (s, es) => ∃ r, decode c eof bytes failing fill phantom = .ok (s, r) ∧ insnEvents r.out = insnEvents es := by
  have h := loop_pure c ((start eof bytes failing fill phantom).left + 1) ((plain (stream bytes failing eof fill phantom)).length + 1) 0 0 {} []
    (start eof bytes failing fill phantom) (between_start eof bytes failing fill phantom)
    (by have := pending_left (start eof bytes failing fill phantom); omega) (Nat.lt_succ_self _) hk (Nat.le_refl 0)
  rw [show pending (start eof bytes failing fill phantom) = stream bytes failing eof fill phantom from rfl] at h
  cases hr : pureLoop c ((plain (stream bytes failing eof fill phantom)).length + 1) 0 {} (plain (stream bytes failing eof fill phantom)) with
  | ok q => rw [hr] at h; exact h
  | error x =>
    rw [hr] at h
    cases x <;> first | exact h | exact fun hx => h rfl hx

/-- **C54**: let one trace be another one without its stamps.  If it decodes, so does the other, with the same instructions,
the same statistics about them and the same final state; and if it ends the program, for any other reason than too many errors
in a row, so does the other. (`stream` is all
that is read of a file.) -/
theorem C54_stamps_partial (c : Conf) {eofA failA eofB failB : Bool} {bytesA bytesB : List (BitVec 8)} {fillA phantomA fillB phantomB : BitVec 64}
    (hk : AllKnown (stream bytesB failB eofB fillB phantomB))
    (hAB : stream bytesA failA eofA fillA phantomA = plain (stream bytesB failB eofB fillB phantomB)) :
    match decode c eofA bytesA failA fillA phantomA with
    | .ok (s, r) => ∃ r', decode c eofB bytesB failB fillB phantomB = .ok (s, r') ∧ insnEvents r'.out = insnEvents r.out
    | .error h => h = .tooManyErrors ∨ decode c eofB bytesB failB fillB phantomB = .error h := by
  have hfree : ∀ v ∈ stream bytesA failA eofA fillA phantomA, isStamp v = false := by
    intro v hv
    rw [hAB] at hv
    have := (List.mem_filter.1 hv).2
    revert this
    cases isStamp v <;> simp
  have hplain : plain (stream bytesA failA eofA fillA phantomA) = stream bytesA failA eofA fillA phantomA := by
    unfold plain
    rw [List.filter_eq_self]
    intro v hv
    rw [hfree v hv]; rfl
  have hA := decode_pure c eofA bytesA failA fillA phantomA (fun v hv hs => by rw [hfree v hv] at hs; cases hs)
  have hB := decode_pure c eofB bytesB failB fillB phantomB hk
  rw [hplain, hAB] at hA
  cases hr : pureLoop c ((plain (stream bytesB failB eofB fillB phantomB)).length + 1) 0 {} (plain (stream bytesB failB eofB fillB phantomB)) with
  | ok q =>
    rw [hr] at hA hB
    obtain ⟨r, h1, h2⟩ := hA
    obtain ⟨r', h3, h4⟩ := hB
    rw [h1]
    exact ⟨r', h3, by rw [h2, h4]⟩
  | error x =>
    rw [hr] at hA hB
    cases x with
    | tooManyErrors =>
      rw [hA (hAB ▸ hfree)]; exact Or.inl rfl
    | sameLocation => dsimp only at hA hB; rw [hA]; exact Or.inr hB
    | assert => dsimp only at hA hB; rw [hA]; exact Or.inr hB
    | undefined => dsimp only at hA hB; rw [hA]; exact Or.inr hB
    | fuel => dsimp only at hA hB; rw [hA]; exact Or.inr hB

/-- The instructions handed to the callback are among these events. -/
theorem insnEvents_instructions (l : List Ev) : instructions (insnEvents l) = instructions l := by
  induction l with
  | nil => rfl
  | cons e l ih =>
    unfold insnEvents
    cases h : ofInsn e with
    | true =>
      rw [List.filter_cons_of_pos h]
      show instructions (e :: insnEvents l) = _
      unfold instructions at ih ⊢
      rw [List.filterMap_cons, List.filterMap_cons, ih]
    | false =>
      rw [List.filter_cons_of_neg (by rw [h]; decide)]
      show instructions (insnEvents l) = _
      rw [ih]
      cases e <;> first | rfl | cases h

/-- **C54**, as seen by the callback. -/
theorem C54_instructions_partial (c : Conf) {eofA failA eofB failB : Bool} {bytesA bytesB : List (BitVec 8)} {fillA phantomA fillB phantomB : BitVec 64}
    (hk : AllKnown (stream bytesB failB eofB fillB phantomB))
    (hAB : stream bytesA failA eofA fillA phantomA = plain (stream bytesB failB eofB fillB phantomB)) {l : List Qt.Record}
    (h : decoded c eofA bytesA failA fillA phantomA = some l) : decoded c eofB bytesB failB fillB phantomB = some l := by
  have h1 := C54_stamps_partial c hk hAB
  unfold decoded at h ⊢
  cases hA : decode c eofA bytesA failA fillA phantomA with
  | error e => rw [hA] at h; cases h
  | ok q =>
    obtain ⟨s, r⟩ := q
    rw [hA] at h h1
    obtain ⟨r', h2, h3⟩ := h1
    rw [h2]
    cases h
    show some (instructions r'.out) = some (instructions r.out)
    rw [← insnEvents_instructions, h3, insnEvents_instructions]

/-- An instruction and its address, with a time stamp between them. -/
example :
    let file : List (BitVec 8) := [0x60, 0, 0, 0, 0x0a, 0xbc, 0xde, 0xc0, 0xac, 0xef, 0xf8, 0, 0, 0, 0, 5, 0, 0, 0, 0, 0, 0, 0x10, 0]
    let file' : List (BitVec 8) := [0x60, 0, 0, 0, 0x0a, 0xbc, 0xde, 0xc0, 0, 0, 0, 0, 0, 0, 0x10, 0]
    stream file' true false 0 0 = plain (stream file true false 0 0) ∧
    ((stream file true false 0 0).all fun v => !isStamp v || (stampOf v).toOption.join.isSome) = true ∧
    (decoded { fn := true, private_ := true, junk := {} } false file true 0 0).map (·.map (·.insnAddr)) = some [0x1000] := by
  decide +kernel

/-- **C54 needs the stamps to be known**: other records whose upper bits are those of a stamp make the instruction before
them disappear. -/
theorem C54_unknown_refuted :
    let file : List (BitVec 8) := [0x60, 0, 0, 0, 0x0a, 0xbc, 0xde, 0xc0, 0xac, 0xef, 0xf5, 0, 0, 0, 0, 5, 0, 0, 0, 0, 0, 0, 0x10, 0]
    let file' : List (BitVec 8) := [0x60, 0, 0, 0, 0x0a, 0xbc, 0xde, 0xc0, 0, 0, 0, 0, 0, 0, 0x10, 0]
    let c : Conf := { fn := true, private_ := true, junk := {} }
    stream file' true false 0 0 = plain (stream file true false 0 0) ∧
    (decoded c false file true 0 0).map (·.map (·.insnAddr)) = some [] ∧
    (decoded c false file' true 0 0).map (·.map (·.insnAddr)) = some [0x1000] := by
  decide +kernel

/-- **Some data addresses are taken for stamps**: a data address whose upper bits are those of a mark with reserved bits ends
the program. -/
theorem C54_data_address_refuted :
    let file : List (BitVec 8) := [0x80, 0, 0, 0, 0x0a, 0xbc, 0xde, 0x90, 0xac, 0xef, 0xf3, 0, 0, 0, 4, 0]
    let c : Conf := { fn := true, private_ := true, junk := {} }
    (match decode c false file true 0 0 with | .error .assert => true | _ => false) = true := by
  decide +kernel

/-- **Stamps do matter after many errors**: more than 101 invalid instructions in a row end the program, unless there is a stamp
among them. -/
theorem C54_errors_refuted :
    let bad : List (BitVec 8) := [0, 0, 0, 0, 0x0a, 0xbc, 0xde, 0x80]
    let file (l : List (BitVec 8)) := (List.replicate 60 bad).flatten ++ l ++ (List.replicate 60 bad).flatten
    let c : Conf := { fn := true, private_ := true, junk := {} }
    (match decode c false (file []) true 0 0 with | .error .tooManyErrors => true | _ => false) = true ∧
    (match decode c false (file [0xac, 0xef, 0xf8, 0, 0, 0, 0, 5]) true 0 0 with | .ok _ => true | _ => false) = true := by
  decide +kernel

end Htm
