import Verif.Htm.DecodeLemmas
/-!
C25: every record is accounted for once.  C26: decoding ends, and reads the records of the file and nothing else.
C53: the assertion that guards against stepping back for ever does not fail.
-/
namespace Htm

/-! ### Specification: a position in the stream of records -/

/-- What the decoding functions may ask of the reader: the next record, and to step back over it. -/
inductive Move where
  | fetch
  | back
deriving DecidableEq, Repr

/-- A reader over `n` records: its position, the position it last stepped back from, and whether it just read a record. -/
structure Pos where
  at_ : Nat := 0
  mark : Nat := 0
  fresh : Bool := false
deriving DecidableEq, Repr

inductive Fate where
  | at_ (p : Pos)
  /-- It would step back a second time from the same position. -/
  | repeated
  /-- It would step back without having read a record: the functions do not do this. -/
  | illegal
deriving DecidableEq, Repr

def Pos.move (n : Nat) (p : Pos) : Move → Fate
  | .fetch => if p.at_ < n then .at_ { p with at_ := p.at_ + 1, fresh := true } else .at_ { p with fresh := false }
  | .back => if p.fresh then if p.mark = p.at_ then .repeated else .at_ { at_ := p.at_ - 1, mark := p.at_ } else .illegal

def Pos.moves (n : Nat) : Pos → List Move → Fate
  | p, [] => .at_ p
  | p, m :: l =>
    match p.move n m with
    | .at_ p => p.moves n l
    | f => f

/-- The reader of the decoder: stepping back passes the record that was read last. -/
def Rd.moves : Rd → List Move → Except Halt Rd
  | r, [] => .ok r
  | r, .fetch :: l => (fetchInternal r).2.moves l
  | r, .back :: l =>
    match Htm.rewind r r.prev with
    | .error h => .error h
    | .ok r => r.moves l

/-- The reader at the start. -/
def start (eof : Bool) (bytes : List (BitVec 8)) (failing : Bool) (fill phantom : BitVec 64) : Rd :=
  { bytes := bytes, failing := failing, fill := fill, phantom := phantom, eof := eof }

/-- The reader has consumed `c` and what follows is `rest`. -/
structure Accounts (r : Rd) (c rest : List (BitVec 64)) : Prop where
  sum : r.checksum = checksum c
  count : r.scanned = BitVec.ofNat 32 c.length
  offset : r.offset = BitVec.ofNat 64 (8 * c.length)
  next : ∀ v r', read r = (some v, r') → rest.head? = some v
  last : (read r).1 = none → rest = []

theorem Acc.accounts {S c : List (BitVec 64)} {r : Rd} (h : Acc S c r) : Accounts r c (S.drop c.length) := by
  have hd : S.drop c.length = pending r := by rw [h.rest, List.drop_left]
  refine ⟨h.sum, h.count, h.offset, ?_, ?_⟩
  · intro v r' hr
    rw [hd, (read_some hr).1]; rfl
  · intro hr
    rw [hd]
    cases h1 : read r with
    | mk a b =>
      rw [h1] at hr
      cases hr
      exact (read_none h1).2

theorem acc_start (eof : Bool) (bytes : List (BitVec 8)) (failing : Bool) (fill phantom : BitVec 64) :
    Acc (stream bytes failing eof fill phantom) [] (start eof bytes failing fill phantom) :=
  ⟨rfl, rfl, rfl, rfl, rfl⟩

/-- The reader is at this position. -/
structure Tracks (S : List (BitVec 64)) (p : Pos) (r : Rd) : Prop where
  le : p.at_ ≤ S.length
  acc : Acc S (S.take p.at_) r
  mark : r.nrRewind = p.mark
  fresh : p.fresh = true → 0 < p.at_ ∧ r.rewind = false ∧ S[p.at_ - 1]? = some r.prev

theorem tracks_moves {S : List (BitVec 64)} : ∀ (l : List Move) {p : Pos} {r : Rd}, Tracks S p r →
    match p.moves S.length l with
    | .at_ q => ∃ r', r.moves l = .ok r' ∧ Tracks S q r'
    | .repeated => r.moves l = .error .sameLocation
    | .illegal => True
  | [], p, r, h => ⟨r, rfl, h⟩
  | .fetch :: l, p, r, h => by
    unfold Pos.moves Rd.moves
    have hlen : (S.take p.at_).length = p.at_ := by rw [List.length_take]; have := h.le; omega
    have hpend : pending r = S.drop p.at_ := by
      have := h.acc.rest
      rw [← List.take_append_drop p.at_ S] at this
      have h2 := List.append_inj_right this (by simp)
      simpa using h2.symm
    cases h1 : fetchInternal r with
    | mk a b =>
      cases a with
      | none =>
        obtain ⟨hb, hp⟩ := fetchInternal_none h1
        subst hb
        have hn : ¬ p.at_ < S.length := by
          rw [hpend] at hp
          have := List.drop_eq_nil_iff.1 hp
          omega
        unfold Pos.move
        dsimp only
        rw [if_neg hn]
        exact tracks_moves l ⟨h.le, h.acc, h.mark, fun h => by cases h⟩
      | some v =>
        obtain ⟨hacc, hrw, hpv, hnr, _, _, hp⟩ := fetchInternal_some h.acc h1
        rw [hpend] at hp
        have hn : p.at_ < S.length := by
          have := congrArg List.length hp
          rw [List.length_drop, List.length_cons] at this
          omega
        have hv : S[p.at_]? = some v := by
          have := congrArg List.head? hp
          rw [List.head?_drop] at this
          exact this
        have htake : S.take p.at_ ++ [v] = S.take (p.at_ + 1) := by
          rw [List.take_add_one, hv]; rfl
        unfold Pos.move
        dsimp only
        rw [if_pos hn]
        rw [htake] at hacc
        exact tracks_moves l ⟨hn, hacc, by rw [hnr, h.mark], fun _ => ⟨Nat.succ_pos _, hrw, by rw [hpv]; exact hv⟩⟩
  | .back :: l, p, r, h => by
    unfold Pos.moves Rd.moves Pos.move
    dsimp only
    cases hf : p.fresh with
    | false => trivial
    | true =>
      obtain ⟨hpos, hrw, hprev⟩ := h.fresh hf
      have hlen : (S.take p.at_).length = p.at_ := by rw [List.length_take]; have := h.le; omega
      have hnr : r.nr = p.at_ := by rw [h.acc.nr, hlen]
      rw [if_pos rfl]
      by_cases hm : p.mark = p.at_
      · rw [if_pos hm]
        unfold rewind
        rw [if_pos (by rw [h.mark, hnr, hm])]
      · rw [if_neg hm]
        have htake : S.take p.at_ = S.take (p.at_ - 1) ++ [r.prev] := by
          have : p.at_ = p.at_ - 1 + 1 := by omega
          rw [this, List.take_add_one, Nat.add_sub_cancel, hprev]; rfl
        have hacc := h.acc
        rw [htake] at hacc
        cases h1 : rewind r r.prev with
        | error e =>
          exfalso
          unfold rewind at h1
          rw [h.mark, hnr, if_neg (by omega)] at h1
          cases h1
        | ok r1 =>
          obtain ⟨ha1, hn1, _, _⟩ := rewind_ok hacc hrw rfl h1
          have h2 : (S.take (p.at_ - 1)).length = p.at_ - 1 := by rw [List.length_take]; have := h.le; omega
          dsimp only
          refine tracks_moves l (p := { at_ := p.at_ - 1, mark := p.at_ }) ⟨?_, ha1, ?_, fun h => by cases h⟩
          · show p.at_ - 1 ≤ _; have := h.le; omega
          · rw [hn1, ha1.nr, h2]; show _ = (p.at_ : Int); omega

/-- **C25**: for every file and every sequence of fetching records and stepping back over the record just fetched, the
checksum, the count and the offset are those of the records before the position reached, and the records from there on are
still to come; the reader refuses only to step back twice from the same position. -/
theorem C25_interleavings_partial (eof : Bool) (bytes : List (BitVec 8)) (failing : Bool) (fill phantom : BitVec 64) (l : List Move) :
    match ({} : Pos).moves (stream bytes failing eof fill phantom).length l with
    | .at_ p => ∃ r, (start eof bytes failing fill phantom).moves l = .ok r ∧
        Accounts r ((stream bytes failing eof fill phantom).take p.at_) ((stream bytes failing eof fill phantom).drop p.at_)
    | .repeated => (start eof bytes failing fill phantom).moves l = .error .sameLocation
    | .illegal => True := by
  have h := tracks_moves l (p := {}) (r := start eof bytes failing fill phantom)
    ⟨Nat.zero_le _, acc_start eof bytes failing fill phantom, rfl, fun h => by cases h⟩
  revert h
  cases ({} : Pos).moves (stream bytes failing eof fill phantom).length l with
  | repeated => exact id
  | illegal => exact id
  | at_ p =>
    rintro ⟨r, h1, h2⟩
    refine ⟨r, h1, ?_⟩
    have h3 := h2.acc.accounts
    rw [List.length_take, Nat.min_eq_left h2.le] at h3
    exact h3

/-- Three records; the second is read, given back, and read again. -/
example : ({} : Pos).moves 3 [.fetch, .fetch, .back, .fetch, .fetch, .back] = .at_ { at_ := 2, mark := 3 } := by decide

/-- Stepping back without having read a record is what the reader does not support: it then subtracts a record twice. -/
theorem C25_twice_refuted :
    let r := start true [0, 0, 0, 0, 0, 0, 0, 1, 0, 0, 0, 0, 0, 0, 0, 2] false 0 0
    (r.moves [.fetch, .fetch, .back, .back]).toOption.map (·.checksum) = some (-1) := by decide

/-! ### Decoding -/

/-- Some steps of the decoder: `none` when it stopped the program or reached the end before. -/
def steps (c : Conf) : Nat → Nat → Dec → Rd → Option (Dec × Rd)
  | 0, _, s, r => some (s, r)
  | n + 1, e, s, r =>
    match decodeOne c e s r with
    | .ok (true, e, s, r) => steps c n e s r
    | _ => none

theorem steps_spec {S : List (BitVec 64)} (cf : Conf) : ∀ (n : Nat) {e : Nat} {s s' : Dec} {r r' : Rd} {c : List (BitVec 64)}, Between S c r →
    steps cf n e s r = some (s', r') → ∃ c', Between S c' r' ∧ c <+: c'
  | 0, _, _, _, _, _, c, hb, h => by cases h; exact ⟨c, hb, List.prefix_refl c⟩
  | n + 1, e, s, s', r, r', c, hb, h => by
    unfold steps at h
    have h1 := decodeOne_spec (cf := cf) (e := e) (s := s) hb
    cases h2 : decodeOne cf e s r with
    | error x => rw [h2] at h; cases h
    | ok q =>
      obtain ⟨go, e1, s1, r1⟩ := q
      rw [h2] at h h1
      cases go with
      | false => cases h
      | true =>
        obtain ⟨c1, hb1, hp, _⟩ := h1
        obtain ⟨c2, hb2, hp2⟩ := steps_spec cf n hb1 h
        exact ⟨c2, hb2, hp.trans hp2⟩

theorem between_start (eof : Bool) (bytes : List (BitVec 8)) (failing : Bool) (fill phantom : BitVec 64) :
    Between (stream bytes failing eof fill phantom) [] (start eof bytes failing fill phantom) :=
  ⟨acc_start eof bytes failing fill phantom, by show (0 : Int) ≤ 0 + 1; omega⟩

/-- **C25**, for decoding itself: after any number of steps the accounts are those of a prefix of the records. -/
theorem C25_decoding (c : Conf) (eof : Bool) (bytes : List (BitVec 8)) (failing : Bool) (fill phantom : BitVec 64) {n : Nat} {s : Dec} {r : Rd}
    (h : steps c n 0 {} (start eof bytes failing fill phantom) = some (s, r)) :
    ∃ k, k ≤ (stream bytes failing eof fill phantom).length ∧
      Accounts r ((stream bytes failing eof fill phantom).take k) ((stream bytes failing eof fill phantom).drop k) := by
  obtain ⟨c', hb, _⟩ := steps_spec c n (between_start eof bytes failing fill phantom) h
  have h1 := hb.acc.accounts
  have h2 := hb.acc.rest
  refine ⟨c'.length, by rw [h2, List.length_append]; omega, ?_⟩
  have h3 : (stream bytes failing eof fill phantom).take c'.length = c' := by rw [h2, List.take_left]
  rw [h3]; exact h1

/-- A POWER9 instruction with an address that is not one: the decoder steps back. -/
example : (steps { fn := true, private_ := true, junk := {} } 1 0 {} (start true [0x60, 0, 0, 0, 0x0a, 0xbc, 0xde, 0xc0, 0x60, 0, 0, 0, 0x0a, 0xbc, 0xde, 0x80] false 0 0)).map
    (fun p => (p.2.rewind, p.2.scanned)) = some (true, 1) := by decide

theorem decode_spec (c : Conf) (eof : Bool) (bytes : List (BitVec 8)) (failing : Bool) (fill phantom : BitVec 64) :
    match decode c eof bytes failing fill phantom with
    | .error h => h = .assert ∨ h = .undefined ∨ h = .tooManyErrors
    | .ok (_, r') => Between (stream bytes failing eof fill phantom) (stream bytes failing eof fill phantom) r' ∧ pending r' = [] := by
  have h := decodeLoop_spec c ((start eof bytes failing fill phantom).left + 1) 0 {} [] _ (between_start eof bytes failing fill phantom)
    (by have := pending_left (start eof bytes failing fill phantom); omega)
  exact h

/-- **C26**: decoding ends, for every file: the bound of the loops of the model is not reached. -/
theorem C26_terminates (c : Conf) (eof : Bool) (bytes : List (BitVec 8)) (failing : Bool) (fill phantom : BitVec 64) :
    decode c eof bytes failing fill phantom ≠ .error .fuel := by
  have h := decode_spec c eof bytes failing fill phantom
  intro he
  rw [he] at h
  rcases h with h | h | h <;> cases h

/-- A larger bound for the number of steps makes no difference. -/
theorem decodeLoop_more (c : Conf) (k : Nat) : ∀ (n e : Nat) (s : Dec) (r : Rd), decodeLoop c n e s r ≠ .error .fuel →
    decodeLoop c (n + k) e s r = decodeLoop c n e s r
  | 0, _, _, _, h => absurd rfl h
  | n + 1, e, s, r, h => by
    rw [show n + 1 + k = n + k + 1 from by omega]
    unfold decodeLoop at h ⊢
    cases h1 : decodeOne c e s r with
    | error x => rfl
    | ok q =>
      obtain ⟨go, e1, s1, r1⟩ := q
      rw [h1] at h
      cases go with
      | false => rfl
      | true => exact decodeLoop_more c k n e1 s1 r1 h

/-- **C26**: nor does a larger bound change anything. -/
theorem C26_bound (c : Conf) (eof : Bool) (bytes : List (BitVec 8)) (failing : Bool) (fill phantom : BitVec 64) {n : Nat}
    (hn : (start eof bytes failing fill phantom).left < n) :
    decodeLoop c n 0 {} (start eof bytes failing fill phantom) = decode c eof bytes failing fill phantom := by
  have h := decodeLoop_more c (n - ((start eof bytes failing fill phantom).left + 1)) ((start eof bytes failing fill phantom).left + 1) 0 {}
    (start eof bytes failing fill phantom) (C26_terminates c eof bytes failing fill phantom)
  rw [show (start eof bytes failing fill phantom).left + 1 + (n - ((start eof bytes failing fill phantom).left + 1)) = n from by omega] at h
  exact h

/-- **C26**: when decoding ends without ending the program, all records were read, once each and in order, and nothing else
but what `stream` lists. -/
theorem C26_all_records (c : Conf) (eof : Bool) (bytes : List (BitVec 8)) (failing : Bool) (fill phantom : BitVec 64) {s : Dec} {r : Rd}
    (h : decode c eof bytes failing fill phantom = .ok (s, r)) :
    Accounts r (stream bytes failing eof fill phantom) [] := by
  have h1 := decode_spec c eof bytes failing fill phantom
  rw [h] at h1
  have h2 := h1.1.acc.accounts
  rw [List.drop_length] at h2
  exact h2

/-- **C26**, the part that holds: when reading the file fails, or for the second and later files that a process decodes,
if they have a whole number of records, nothing is read but the records of the file. -/
theorem C26_only_records_partial (c : Conf) (eof : Bool) (bytes : List (BitVec 8)) (failing : Bool) (fill phantom : BitVec 64) {s : Dec} {r : Rd}
    (h : decode c eof bytes failing fill phantom = .ok (s, r)) (hf : failing = true ∨ (eof = true ∧ remainder bytes = [])) :
    Accounts r (records bytes) [] := by
  have h1 := C26_all_records c eof bytes failing fill phantom h
  have h2 : stream bytes failing eof fill phantom = records bytes := by
    unfold stream padded
    rcases hf with hf | ⟨hf, hr⟩
    · rw [hf]; simp
    · rw [hf, hr]; simp
  rw [h2] at h1
  exact h1

example : remainder [0x60, 0, 0, 0, 0x0a, 0xbc, 0xde, 0x80] = [] := by decide

/-- The instructions that were handed to the callback. -/
def instructions (l : List Ev) : List Qt.Record := l.filterMap fun
  | .insn r => some r
  | _ => none

/-- The instructions of a decoded file. -/
def decoded (c : Conf) (eof : Bool) (bytes : List (BitVec 8)) (failing : Bool) (fill phantom : BitVec 64) : Option (List Qt.Record) :=
  (decode c eof bytes failing fill phantom).toOption.map fun p => instructions p.2.out

/-- **C26 is false as stated**: an instruction is delivered for a file without records, if the uninitialised buffer happens to
contain one; so too for a file with one byte, part of the instruction being that byte; and a second decoding of the same
file has another result. -/
theorem C26_refuted :
    let c : Conf := { fn := true, private_ := true, junk := {} }
    (decoded c false [] false 0 0x600000000abcde80).map (·.map (·.insn)) = some [0x60000000] ∧
    (decoded c true [] false 0 0x600000000abcde80).map (·.map (·.insn)) = some [] ∧
    (decoded c true [0x61] false 0x600000000abcde80 0).map (·.map (·.insn)) = some [0x61000000] := by
  decide +kernel

/-- How decoding may end the program: nothing but failed assertions and undefined behaviour in the decoding of instructions
and too many errors. -/
theorem C26_outcomes (c : Conf) (eof : Bool) (bytes : List (BitVec 8)) (failing : Bool) (fill phantom : BitVec 64) {h : Halt}
    (he : decode c eof bytes failing fill phantom = .error h) : h = .assert ∨ h = .undefined ∨ h = .tooManyErrors := by
  have h1 := decode_spec c eof bytes failing fill phantom
  rw [he] at h1
  exact h1

/-- **C53**: the assertion against stepping back twice from the same record never fails. -/
theorem C53_never_repeats (c : Conf) (eof : Bool) (bytes : List (BitVec 8)) (failing : Bool) (fill phantom : BitVec 64) :
    decode c eof bytes failing fill phantom ≠ .error .sameLocation := by
  intro he
  rcases C26_outcomes c eof bytes failing fill phantom he with h | h | h <;> cases h

end Htm
