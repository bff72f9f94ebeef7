import Verif.Qt.PropsJoinedWords
import Verif.Qt.PropsJoinedCases
import Verif.Qt.PropsCopyCases
/-
Property C127: the copy of a file of several traces joined one behind the other.
-/
namespace Qt
open Spec

theorem next_of_following (rs os : List Record) (hl : os.length = rs.length)
    (h : ∀ (i : Nat) (r : Record), rs[i]? = some r → ∃ o, os[i]? = some o ∧ SameAccess r o ∧ o.nextInsnAddr = following rs i r) :
    instructions os = instructions rs ∧ (os.map (·.nextInsnAddr)).dropLast = (os.map (·.insnAddr)).tail := by
  constructor
  · apply List.ext_getElem?
    intro i
    unfold instructions
    rw [List.getElem?_map, List.getElem?_map]
    cases hi : rs[i]? with
    | none =>
      rw [List.getElem?_eq_none_iff] at hi
      rw [List.getElem?_eq_none_iff.mpr (by rw [hl]; exact hi)]
    | some r =>
      obtain ⟨o, h1, ⟨a, b, -⟩, -⟩ := h i r hi
      rw [h1]
      simp [a, b]
  · apply List.ext_getElem?
    intro i
    rw [List.getElem?_dropLast, List.getElem?_tail, List.getElem?_map, List.getElem?_map, List.length_map]
    split
    · next hi =>
      have h0 : i < rs.length := by omega
      have h1 : i + 1 < rs.length := by omega
      obtain ⟨o, k1, -, k2⟩ := h i rs[i] (List.getElem?_eq_getElem h0)
      obtain ⟨n, l1, ⟨-, l2, -⟩, -⟩ := h (i + 1) rs[i + 1] (List.getElem?_eq_getElem h1)
      rw [k1, l1]
      simp [k2, l2, following, List.getElem?_eq_getElem h1]
    · next hi =>
      rw [List.getElem?_eq_none_iff.mpr (by omega)]
      rfl

/-- C127. If the records read of joined traces can be written again, the copy of the joined file is one trace of the instructions of all
traces in order, and in it every instruction tells the address of the next, also where one trace ended and the next began. -/
theorem C127_copied_partial (magic : BitVec 32) (rs : List Record) (ts : List (BitVec 32 × List Record))
    (hx : ∀ t ∈ (magic, rs) :: ts, Expressible t.2) (hc : Chain (fun t _ => EndsWhole t.2) ((magic, rs) :: ts))
    (hne : ∃ t ∈ (magic, rs) :: ts, t.2 ≠ []) :
    ∃ file, joined ((magic, rs) :: ts) = .ok file ∧ ∀ beyond,
      Copyable (readTrace { bytes := file, beyond := beyond } false false).records →
      ∃ copy, copyTrace { bytes := file, beyond := beyond } (fun _ => true) = .done copy ∧ ∀ beyond',
        let R := readTrace { bytes := copy, beyond := beyond' } false false
        R.final = .fail ∧ instructions R.records = (((magic, rs) :: ts).flatMap fun t => instructions t.2) ∧
        (R.records.map (·.nextInsnAddr)).dropLast = (R.records.map (·.insnAddr)).tail := by
  obtain ⟨file, e, H⟩ := C127_instructions_partial magic rs ts hx hc
  obtain ⟨f2, e2, H2⟩ := C127_joined_partial magic rs ts hx hc
  obtain rfl : file = f2 := WRes.ok.inj (e.symm.trans e2)
  refine ⟨file, e, fun beyond hcp => ?_⟩
  have hi := H beyond
  obtain ⟨-, -, hf, -⟩ := H2 beyond
  have ho : ∃ c, readerInit { bytes := file, beyond := beyond } = .ok () c := by
    cases hc : readerInit { bytes := file, beyond := beyond } with
    | ok u c => exact ⟨c, rfl⟩
    | err e c =>
      unfold readTrace at hi
      rw [hc] at hi
      obtain ⟨t, ht, hn⟩ := hne
      have := (List.flatMap_eq_nil_iff.mp hi.symm) t ht
      exact absurd (List.map_eq_nil_iff.mp this) hn
  obtain ⟨copy, c1, c2⟩ := C113_copy_partial _ ho hf hcp
  refine ⟨copy, c1, fun beyond' => ?_⟩
  obtain ⟨d1, d2, d3⟩ := c2 beyond'
  obtain ⟨g1, g2⟩ := next_of_following _ _ d2 fun i r hr => by
    obtain ⟨o, q1, q2, q3, -⟩ := d3 i r hr
    exact ⟨o, q1, q2, q3⟩
  exact ⟨d1, g1.trans hi, g2⟩

/-! ### Traces without walks -/

/-- The reader knows of no walks, and of page sizes that can be written. -/
structure PlainState (s : RState) : Prop where
  w1 : s.radixInsn.nrPtes = 0
  w2 : s.nextRadixInsn.nrPtes = 0
  s1 : s.insnPageShift < 64
  s2 : s.nextInsnPageShift < 64
  s3 : s.guestInsnPageShift < 64
  s4 : s.nextGuestInsnPageShift < 64

/-- The record has no walks, and page sizes that can be written. -/
def Walkless (r : Record) : Prop := ShiftsOk r ∧ NoWalk r.radixInsn ∧ NoWalk r.radixData

theorem PlainState.header {s : RState} (h : PlainState s) (magic : BitVec 32) {r : Record} (hr : ShiftsOk r) :
    PlainState (hdrOut magic QTWRITER_VERSION r .none s) := by
  obtain ⟨w1, w2, s1, s2, s3, s4⟩ := h
  obtain ⟨r1, r2, -, -⟩ := hr
  constructor <;> simp only [hdrOut]
  · exact w1
  · exact w2
  · exact s1
  · split
    · next hv => exact r1 hv
    · exact s2
  · exact s3
  · split
    · next hv => exact r2 hv
    · exact s4

theorem PlainState.step {s : RState} (h : PlainState s) {a b : Record} (ha : ShiftsOk a) (hb : ShiftsOk b) (hn : NoWalk b.radixInsn) : PlainState (outOf s a b).st := by
  obtain ⟨w1, w2, s1, s2, s3, s4⟩ := h
  obtain ⟨r1, r2, -, -⟩ := hb
  obtain ⟨-, -, r3, -⟩ := ha
  unfold NoWalk at hn
  have hd : iwOf a b = .none := by unfold iwOf walkIf radixWalk; simp [hn]
  unfold outOf
  rw [recOut_st, hd]
  constructor <;> simp only [w2, ne_eq, not_true_eq_false, if_false]
  · exact w1
  · unfold insnWalkOut
    split
    · exact w2
    · exact w2
  all_goals grind

theorem PlainState.record {s : RState} (h : PlainState s) {a b : Record} (ha : Walkless a) (hb : ShiftsOk b) : Walkless (outOf s a b).rcd := by
  obtain ⟨w1, w2, s1, s2, s3, s4⟩ := h
  obtain ⟨⟨-, -, r3, r4⟩, -, hq⟩ := ha
  obtain ⟨-, b2, -, -⟩ := hb
  unfold NoWalk at hq
  have hd : dwOf a = .none := by unfold dwOf walkIf radixWalk; simp [hq]
  unfold outOf
  rw [recOut_rcd, hd]
  refine ⟨⟨?_, ?_, ?_, ?_⟩, ?_, ?_⟩
  · simp only; grind
  · simp only; grind
  · simp only; grind
  · simp only; grind
  · simp only [NoWalk, w1, w2, ne_eq, not_true_eq_false, if_false]
  · simp only [NoWalk]
    unfold dataWalkOut
    cases a.dataRaValid <;> rfl

theorem sim_plain : ∀ (rs : List Record) (r : Record) (s : RState), PlainState s → Walkless r → (∀ x ∈ rs, Walkless x) →
    (∀ o ∈ (sim s r rs).1, Walkless o) ∧ PlainState (sim s r rs).2
  | [], _, s, h, _, _ => ⟨by simp [sim], h⟩
  | a :: rs, r, s, h, hr, hx => by
    have ha := hx a (by simp)
    obtain ⟨k1, k2⟩ := sim_plain rs a (outOf s r a).st (h.step hr.1 ha.1 ha.2.1) ha (fun x h' => hx x (by simp [h']))
    refine ⟨fun o ho => ?_, k2⟩
    rcases List.mem_cons.mp ho with rfl | ho
    · exact h.record hr ha.1
    · exact k1 o ho

theorem closer_walkless (r : Record) : Walkless (closer r) := ⟨(closer_ok r).1, rfl, rfl⟩

theorem parts_plain : ∀ (ts : List (BitVec 32 × List Record)) (s : RState), PlainState s → (∀ t ∈ ts, ∀ r ∈ t.2, Walkless r) →
    ∀ o ∈ (parts s ts).flatten, Walkless o
  | [], _, _, _ => by simp [parts]
  | (magic, rs) :: ts, s, h, hx => by
    have key : (∀ o ∈ (behind magic s rs).1, Walkless o) ∧ PlainState (behind magic s rs).2 := by
      cases rs with
      | nil => exact ⟨by simp [behind], h.header magic (closer_walkless _).1⟩
      | cons r rs =>
        have hr := hx (magic, r :: rs) (by simp)
        have hw : radixWalk r.radixInsn = .ok .none := by
          have := (hr r (by simp)).2.1
          unfold NoWalk at this
          unfold radixWalk
          simp [this]
        unfold behind
        dsimp only
        rw [hw]
        refine sim_plain _ _ _ (h.header magic (hr r (by simp)).1) (hr r (by simp)) fun x hx => ?_
        rcases List.mem_append.mp hx with hx | hx
        · exact hr x (by simp [hx])
        · obtain rfl := List.mem_singleton.mp hx
          exact closer_walkless _
    intro o ho
    rw [parts, List.flatten_cons, List.mem_append] at ho
    rcases ho with ho | ho
    · exact key.1 o ho
    · exact parts_plain ts _ key.2 (fun t ht => hx t (by simp [ht])) o ho

theorem walkless_copyable (rs : List Record) (h : ∀ r ∈ rs, Walkless r) : Copyable rs := by
  refine ⟨fun r hr => ⟨(h r hr).1, fun _ => .inl (h r hr).2.1, fun _ => .inl (h r hr).2.2⟩, ?_, ?_⟩
  · refine chain_zip _ fun p hp _ _ _ => .inl ⟨(h _ (List.of_mem_zip hp).1).2.2, (h _ (List.mem_of_mem_drop (List.of_mem_zip hp).2)).2.1⟩
  · exact fun r hr w => absurd (h r (List.mem_of_mem_head? hr)).2.1 w

/-- C127. Traces without walks, not all empty, can be joined and copied: the copy of the joined file is one trace of the instructions of
all traces in order, and in it every instruction tells the address of the next, also where one trace ended and the next began. -/
theorem C127_walkless_copied_partial (magic : BitVec 32) (rs : List Record) (ts : List (BitVec 32 × List Record))
    (hx : ∀ t ∈ (magic, rs) :: ts, Expressible t.2) (hc : Chain (fun t _ => EndsWhole t.2) ((magic, rs) :: ts))
    (hne : ∃ t ∈ (magic, rs) :: ts, t.2 ≠ []) (hn : ∀ t ∈ (magic, rs) :: ts, ∀ r ∈ t.2, NoWalk r.radixInsn ∧ NoWalk r.radixData) :
    ∃ file, joined ((magic, rs) :: ts) = .ok file ∧ ∀ beyond,
      ∃ copy, copyTrace { bytes := file, beyond := beyond } (fun _ => true) = .done copy ∧ ∀ beyond',
        let R := readTrace { bytes := copy, beyond := beyond' } false false
        R.final = .fail ∧ instructions R.records = (((magic, rs) :: ts).flatMap fun t => instructions t.2) ∧
        (R.records.map (·.nextInsnAddr)).dropLast = (R.records.map (·.insnAddr)).tail := by
  obtain ⟨file, e, H⟩ := C127_copied_partial magic rs ts hx hc hne
  obtain ⟨f2, e2, H2⟩ := joined_file magic rs ts hx hc
  obtain rfl : file = f2 := WRes.ok.inj (e.symm.trans e2)
  refine ⟨file, e, fun beyond => H beyond (walkless_copyable _ ?_)⟩
  rw [(H2 beyond).1]
  refine parts_plain _ _ ⟨rfl, rfl, by decide, by decide, by decide, by decide⟩ fun t ht r hr => ?_
  exact ⟨((hx t ht).1 r hr).1, hn t ht r hr⟩

/-- The two traces of `C127_jump_refuted` meet the hypotheses. -/
example : (∀ t ∈ farApart, Expressible t.2) ∧ Chain (fun t _ => EndsWhole t.2) farApart ∧ (∃ t ∈ farApart, t.2 ≠ []) ∧
    ∀ t ∈ farApart, ∀ r ∈ t.2, NoWalk r.radixInsn ∧ NoWalk r.radixData :=
  ⟨by simp [farApart, Expressible, RecordOk, ShiftsOk, WalkOk, Chain, NoWalk], by simp [farApart, Chain, EndsWhole, IsPrefix],
    by simp [farApart], by simp [farApart, NoWalk]⟩

/-- And so the records read of them can be written again. -/
example : ∃ file, joined farApart = .ok file ∧ ∀ beyond, Copyable (readTrace { bytes := file, beyond := beyond } false false).records := by
  obtain ⟨file, e, H⟩ := joined_file 0 [{ insn := 0x60000000, insnAddr := 0x10000 }] [(0, [{ insn := 0x60000000, insnAddr := 0x40000 }])]
    (by simp [Expressible, RecordOk, ShiftsOk, WalkOk, Chain, NoWalk]) (by simp [Chain, EndsWhole, IsPrefix])
  refine ⟨file, e, fun beyond => walkless_copyable _ ?_⟩
  rw [(H beyond).1]
  refine parts_plain _ _ ⟨rfl, rfl, by decide, by decide, by decide, by decide⟩ ?_
  simp [Walkless, ShiftsOk, NoWalk]

end Qt
