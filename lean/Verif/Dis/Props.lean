import Verif.Dis.Written

/-! # Properties of the disassembly listing: C43, C63, C64, C65 -/

namespace Dis
open Qt DisSpec
open Qt.Spec hiding IsPrefix

/-! ## C65: the listing has a line for every instruction of the trace, and no others -/

/-- C65. For every trace that does not end between the two words of an instruction, the listing has one line for each
instruction, in order, with its (first) word, and two words are shown exactly for the prefixed ones; it ends as reading
does.  What is missing: `C65_refuted`. -/
theorem C65_listing_partial (m : Mem) (h : Complete (readTrace m false false).records) :
    (list m).shown.map (fun x => ((line x).word, (line x).suffix.isSome)) =
      (instructions (readTrace m false false).records).map (fun x => (x.1.insn, x.2.isSome)) ∧
    (list m).final = (readTrace m false false).final := by
  obtain ⟨ea, e⟩ := list_some_start m h
  refine ⟨?_, (list_expected m h).2.2.1⟩
  rw [← expected_words _ ea false 0, ← e, List.map_map]
  rfl

/-- A header giving an address. -/
def header (a : Bytes) : Bytes := [0, 0, 0, 0, 0, 1, 0, 2, 0x20, 0] ++ a

/-- A trace cut off in the record of a suffix: that record should give the address 0x7fff000012.. of what follows. -/
def cutTrace : Bytes :=
  header [0, 0, 0, 0, 0, 0, 0x10, 0] ++ [4, 0, 0, 0, 0, 0] ++ [0xe4, 0x61, 0, 0x10, 0, 0x40, 0, 0, 0x7f, 0xff, 0, 0, 0x12]

/-- C65, negated: a trace cut off behind a prefix has one instruction; the part of the cut record not yet consumed is
taken for another record, and shown as an instruction of the trace. -/
theorem C65_refuted :
    ((readTrace { bytes := cutTrace, beyond := fun _ => 0 } false false).records.map (·.insn)) = [0x04000000] ∧
    ((list { bytes := cutTrace, beyond := fun _ => 0 }).shown.map (fun x => (line x).word)) = [0x04000000, 0x00007fff] := by
  exact ⟨by decide +kernel, by decide +kernel⟩

/-! ## C43: both words of a prefixed instruction are shown -/

/-- C43. For a trace without prefixed instructions every line shows the word of its instruction, and nothing else.
What is missing: `C43_refuted`. -/
theorem C43_plain_partial (m : Mem) (h : ∀ r ∈ (readTrace m false false).records, ¬ IsPrefix r.insn) :
    (list m).shown.map (fun x => ((line x).word, (line x).suffix)) =
      (readTrace m false false).records.map (fun r => (r.insn, none)) := by
  have key : ∀ (rs : List Record), (∀ r ∈ rs, ¬ IsPrefix r.insn) → instructions rs = rs.map (fun r => (r, none)) := by
    intro rs
    induction rs with
    | nil => intro _; rfl
    | cons r rs ih =>
      intro h
      rw [instructions_plain r rs (h r (by simp)), ih fun x hx => h x (by simp [hx])]
      rfl
  have hk := key _ h
  have hC : Complete (readTrace m false false).records := by
    intro x hx _
    rw [hk] at hx
    obtain ⟨r, hr, rfl⟩ := List.mem_map.mp hx
    exact h r hr
  obtain ⟨ea, e⟩ := list_some_start m hC
  have e2 := congrArg (List.map fun x : Line => (x.word, x.suffix)) e
  rw [List.map_map] at e2
  refine Eq.trans e2 ?_
  rw [hk]
  have : ∀ (rs : List Record) ea suf, (expected ea false suf (rs.map (fun r => (r, none)))).map
      (fun x : Line => (x.word, x.suffix)) = rs.map (fun r => (r.insn, none)) := by
    intro rs
    induction rs with
    | nil => intros; rfl
    | cons r rs ih => intro ea suf; rw [List.map_cons, expected, List.map_cons, if_neg Bool.false_ne_true, ih]; rfl
  exact this _ _ _

/-- What the listing shows instead of the second words: those of the preceding prefixed instruction each, and 0 for the
first. -/
theorem C43_shifted (m : Mem) (h : Complete (readTrace m false false).records)
    (hs : ∀ x ∈ instructions (readTrace m false false).records, ∀ s, x.2 = some s → ¬ IsPrefix s.insn) :
    (list m).shown.filterMap (fun x => (line x).suffix) =
      (0 :: suffixes (readTrace m false false).records).dropLast := by
  obtain ⟨ea, e⟩ := list_some_start m h
  have := expected_shift _ ea 0 hs
  rw [← e, List.filterMap_map] at this
  exact this

/-- C43, negated, for every trace with a prefixed instruction, the first of which has a second word other than 0: the
second words shown are not those of the trace. -/
theorem C43_refuted (m : Mem) (h : Complete (readTrace m false false).records)
    (hs : ∀ x ∈ instructions (readTrace m false false).records, ∀ s, x.2 = some s → ¬ IsPrefix s.insn) (w : BitVec 32)
    (hw : (suffixes (readTrace m false false).records).head? = some w) (h0 : w ≠ 0) :
    (list m).shown.map (fun x => ((line x).word, (line x).suffix)) ≠
      (instructions (readTrace m false false).records).map words := by
  intro e
  have e1 : (list m).shown.filterMap (fun x => (line x).suffix) = suffixes (readTrace m false false).records := by
    have := congrArg (List.filterMap fun x : BitVec 32 × Option (BitVec 32) => x.2) e
    rw [List.filterMap_map, List.filterMap_map] at this
    exact this
  rw [C43_shifted m h hs] at e1
  cases hl : suffixes (readTrace m false false).records with
  | nil => rw [hl] at hw; cases hw
  | cons a l =>
    rw [hl] at hw e1
    cases hw
    rw [List.dropLast_cons_of_ne_nil (by simp)] at e1
    exact h0 (List.cons.inj e1).1.symm

/-- Two prefixed instructions, `pld` of different addresses. -/
def pldTrace : Bytes :=
  header [0, 0, 0, 0, 0, 0, 0x10, 0] ++ [4, 0, 0, 0, 0, 0] ++ [0xe4, 0x61, 0, 0x10, 0, 0] ++
    [4, 0x10, 0, 1, 0, 0] ++ [0xe4, 0x80, 0, 0x20, 0, 0]

/-- It meets the hypotheses of `C43_refuted`, and shows 0 and the second word of the first instruction. -/
example : Complete (readTrace { bytes := pldTrace, beyond := fun _ => 0 } false false).records ∧
    (∀ x ∈ instructions (readTrace { bytes := pldTrace, beyond := fun _ => 0 } false false).records,
      ∀ s, x.2 = some s → ¬ IsPrefix s.insn) ∧
    suffixes (readTrace { bytes := pldTrace, beyond := fun _ => 0 } false false).records = [0xe4610010, 0xe4800020] ∧
    (list { bytes := pldTrace, beyond := fun _ => 0 }).shown.map line =
      [⟨0x1000, 0x04000000, some 0⟩, ⟨0x1008, 0x04100001, some 0xe4610010⟩] := by
  have e : (instructions (readTrace { bytes := pldTrace, beyond := fun _ => 0 } false false).records).map
      (fun x => (x.1.insn, x.2.map (·.insn))) = [(0x04000000, some 0xe4610010), (0x04100001, some 0xe4800020)] := by decide +kernel
  refine ⟨?_, ?_, by decide +kernel, by decide +kernel⟩
  · intro x hx hn
    have := List.mem_map_of_mem (f := fun x : Record × Option Record => (x.1.insn, x.2.map (·.insn))) hx
    rw [e, hn] at this
    simp at this
  · intro x hx s hs
    have := List.mem_map_of_mem (f := fun x : Record × Option Record => (x.1.insn, x.2.map (·.insn))) hx
    rw [e, hs] at this
    simp at this
    rcases this with h | h <;> rw [h.2] <;> decide

/-! ## C63: the address shown is the instruction's own -/

/-- C63. In every trace in which each record says where the next one is, and the header where the first one is, the address
on each line is that of the instruction.  What is missing: `C63_refuted`. -/
theorem C63_linked_partial (m : Mem) (h : Complete (readTrace m false false).records)
    (hl : Linked (readTrace m false false).records)
    (hh : ∀ c r, readerInit m = .ok () c → (readTrace m false false).records.head? = some r →
      r.insnAddr = c.st.nextInsnAddr) :
    (list m).shown.map (fun x => (line x).ea) =
      (instructions (readTrace m false false).records).map (fun x => x.1.insnAddr) := by
  cases hi : readerInit m with
  | err e c =>
    have e1 : list m = { shown := [], final := e } := by simp [list, hi]
    have e2 : (readTrace m false false).records = [] := by simp [readTrace, hi]
    rw [e1, e2]; rfl
  | ok a c =>
    have e := (list_expected m h).1 c hi
    have := expected_eas _ _ (Nat.le_refl _) c.st.nextInsnAddr false 0 hl fun r hr => hh c r hi hr
    rw [← e, List.map_map] at this
    exact this

/-- C63, for the traces the writer makes: every expressible sequence of records, written and listed, shows the address and
the (first) word of every instruction. -/
theorem C63_written_partial (magic : BitVec 32) (rs : List Record) (h : Expressible rs) (hc : Complete rs) :
    ∃ file, writeTrace magic rs = .ok file ∧ ∀ beyond,
      (list { bytes := file, beyond := beyond }).shown.map (fun x => ((line x).ea, (line x).word)) =
        (instructions rs).map (fun x => (x.1.insnAddr, x.1.insn)) := by
  obtain ⟨file, hw, H⟩ := C01_roundtrip_partial magic rs h
  refine ⟨file, hw, fun beyond => ?_⟩
  obtain ⟨file', hw', H4⟩ := C04_branches magic rs h
  obtain rfl : file = file' := WRes.ok.inj (hw.symm.trans hw')
  have H1 := (H beyond).1
  generalize hR : (readTrace { bytes := file, beyond := beyond } false false).records = R at H1
  have hi : R.map (·.insn) = rs.map (·.insn) := by
    have := congrArg (List.map Prod.fst) H1
    rw [List.map_map, List.map_map] at this
    exact this
  have hlen : R.length = rs.length := by simpa using congrArg List.length hi
  have hat : ∀ (i : Nat) (a : Record), R[i]? = some a → ∃ r : Record, rs[i]? = some r ∧ a.insnAddr = r.insnAddr := by
    intro i a ha
    have := congrArg (fun l => l[i]?) H1
    simp only [List.getElem?_map, ha, Option.map_some] at this
    cases hr : rs[i]? with
    | none => rw [hr] at this; cases this
    | some r => rw [hr] at this; exact ⟨r, rfl, congrArg Prod.snd (Option.some.inj this)⟩
  have hC : Complete R := (instructions_map (fun r => (r.insn, r.insnAddr)) _ R rs (Nat.le_refl _) hi H1).2 hc
  have hL : Linked R := by
    refine linked_of R fun i a b ha hb => ?_
    obtain ⟨r, hr, _⟩ := hat i a ha
    obtain ⟨n, hn, e⟩ := hat (i + 1) b hb
    obtain ⟨o, ho, hnext, _⟩ := H4 beyond i r hr
    rw [hR, ha] at ho
    cases ho
    rw [hnext, e]
    simp only [following, hn]
  have hh : ∀ c r, readerInit { bytes := file, beyond := beyond } = .ok () c → R.head? = some r →
      r.insnAddr = c.st.nextInsnAddr := by
    intro c r hin hr
    cases rs with
    | nil => cases R with
      | nil => cases hr
      | cons => simp at hlen
    | cons r0 rs =>
      rw [init_closed magic r0 rs h hw beyond hin]
      rw [List.head?_eq_getElem?] at hr
      obtain ⟨r', hr', e⟩ := hat 0 r hr
      cases hr'
      exact e
  have e1 := C63_linked_partial { bytes := file, beyond := beyond } (by rw [hR]; exact hC) (by rw [hR]; exact hL)
    (by rw [hR]; exact hh)
  have e2 := (C65_listing_partial { bytes := file, beyond := beyond } (by rw [hR]; exact hC)).1
  rw [hR] at e1 e2
  have e3 := (instructions_map (fun r => (r.insn, r.insnAddr)) _ R rs (Nat.le_refl _) hi H1).1
  have e4 := congrArg (List.map fun x => (x.1.2, x.1.1)) e3
  rw [List.map_map, List.map_map] at e4
  refine Eq.trans ?_ (show _ = _ from e4)
  have z : ∀ (S : List Shown) (I : List (Record × Option Record)),
      S.map (fun x => (line x).ea) = I.map (fun x => x.1.insnAddr) →
      S.map (fun x => ((line x).word, (line x).suffix.isSome)) = I.map (fun x => (x.1.insn, x.2.isSome)) →
      S.map (fun x => ((line x).ea, (line x).word)) =
        I.map ((fun x => (x.1.2, x.1.1)) ∘ fun x => ((x.1.insn, x.1.insnAddr), x.2.map fun r => (r.insn, r.insnAddr))) := by
    intro S
    induction S with
    | nil => intro I h _; cases I with
      | nil => rfl
      | cons => simp at h
    | cons s S ih =>
      intro I h1 h2
      cases I with
      | nil => simp at h1
      | cons i I =>
        simp only [List.map_cons] at h1 h2 ⊢
        obtain ⟨a1, h1⟩ := List.cons.inj h1
        obtain ⟨a2, h2⟩ := List.cons.inj h2
        rw [ih I h1 h2, a1, show (line s).word = i.1.insn from congrArg Prod.fst a2]
        rfl
  exact z _ _ e1 e2

/-- A branch, a prefixed instruction and another one: expressible and complete. -/
example : Expressible
    [ { insn := 0x48000100, insnAddr := 0x10000, branch := true }, { insn := 0x04000000, insnAddr := 0x10100 },
      { insn := 0xe4610010, insnAddr := 0x10104 }, { insn := 0x60000000, insnAddr := 0x10108 } ] ∧
    Complete
    [ { insn := 0x48000100, insnAddr := 0x10000, branch := true }, { insn := 0x04000000, insnAddr := 0x10100 },
      { insn := 0xe4610010, insnAddr := 0x10104 }, { insn := 0x60000000, insnAddr := 0x10108 } ] := by
  refine ⟨?_, ?_⟩
  · simp [Expressible, RecordOk, ShiftsOk, WalkOk, Chain, StepOk, Jumps, Spec.IsPrefix, NoWalk]
  · simp [Complete, instructions, IsPrefix]

/-- Two instructions with a header in between that says where the second one is. -/
def movedTrace : Bytes :=
  header [0, 0, 0, 0, 0, 0, 0x10, 0] ++ [0x60, 0, 0, 0, 0, 0] ++ header [0, 0, 0, 0, 0, 0, 0x80, 0] ++ [0x60, 0, 0, 0, 0, 0]

/-- C63, negated: behind a header in the middle of a trace the address shown is the one the previous record led to, not the
one the header gives. -/
theorem C63_refuted :
    ((readTrace { bytes := movedTrace, beyond := fun _ => 0 } false false).records.map (·.insnAddr)) = [0x1000, 0x8000] ∧
    ((list { bytes := movedTrace, beyond := fun _ => 0 }).shown.map (fun x => (line x).ea)) = [0x1000, 0x1004] := by
  exact ⟨by decide +kernel, by decide +kernel⟩

/-! ## C64: dump strategy 1 shows the accesses of each instruction -/

theorem frame_real (rpn : BitVec 32) (a : BitVec 64) :
    frame ((rpn.setWidth 64 <<< 12) ||| (a &&& ((1#64 <<< 12) - 1))) = rpn.setWidth 64 <<< 12 := by
  have h1 : ∀ i, i < 64 → (0xfffffffffffff000#64).getLsbD i = decide (12 ≤ i) := by decide
  have h2 : ∀ i, i < 64 → ((1#64 <<< 12) - 1).getLsbD i = decide (i < 12) := by decide
  unfold frame
  apply BitVec.eq_of_getLsbD_eq
  intro i hi
  rw [BitVec.getLsbD_and, BitVec.getLsbD_or, BitVec.getLsbD_and, h2 i hi, BitVec.getLsbD_shiftLeft]
  erw [h1 i hi]
  by_cases hc : i < 12
  · have : ¬ 12 ≤ i := by omega
    simp [hc, this]
  · have : 12 ≤ i := by omega
    simp [hc, this]

/-- C64. For every trace whose data pages are all of 4 KiB, that does not end within an instruction, strategy 1 shows the data
access of each instruction: the effective address, the frame of the real address and the page size of its (first) record.
What is missing: `C64_page_refuted`, and for the instruction fetch `C64_fetch_refuted`. -/
theorem C64_data_partial (m : Mem) (h : Complete (readTrace m false false).records)
    (hp : ∀ x ∈ instructions (readTrace m false false).records, x.1.dataRaValid = true →
      x.1.dataPageShiftValid = true ∧ x.1.dataPageShift = 12) :
    (list m).shown.map (fun x => (dataLine x).map fun a => (a.ea, a.ra, a.shift)) =
      (instructions (readTrace m false false).records).map (fun x => access x.1) := by
  obtain ⟨-, e, -, F⟩ := list_expected m h
  have key : ∀ x ∈ (list m).shown, (dataLine x).map (fun a => (a.ea, a.ra, a.shift)) = access x.rcd := by
    intro x hx
    obtain ⟨s', hb, ht, hn⟩ := F x hx
    obtain ⟨d1, d2⟩ := nextRecord_data hn hb ht
    dsimp only at d1 d2
    have hm : ∃ y ∈ instructions (readTrace m false false).records, y.1 = x.rcd := by
      have : x.rcd ∈ (list m).shown.map (·.rcd) := List.mem_map_of_mem hx
      rw [e] at this
      obtain ⟨y, hy, e⟩ := List.mem_map.mp this
      exact ⟨y, hy, e⟩
    obtain ⟨y, hy, ey⟩ := hm
    have hp := hp y hy
    rw [ey] at hp
    unfold dataLine access
    cases hv : x.rcd.dataAddrValid with
    | false => rfl
    | true =>
      simp only [if_true, Option.map_some]
      cases hr : x.st.dataRpnValid with
      | false => rw [hr] at d1; rw [d1]; rfl
      | true =>
        rw [hr] at d1
        obtain ⟨p1, p2⟩ := hp d1
        rw [d1, d2 hr]
        unfold dataReal
        dsimp only
        rw [p1, p2, hv]
        simp only [if_true]
        have := frame_real x.st.dataRpn x.rcd.dataAddr
        rw [show 12 % 256 = 12 from rfl, this]
  have := List.map_congr_left key
  rw [this]
  have e' := congrArg (List.map access) e
  rw [List.map_map, List.map_map] at e'
  exact e'

/-- A load in a page of 4 KiB. -/
def loadTrace (shift : BitVec 8) : Bytes :=
  header [0, 0, 0, 0, 0, 0, 0x10, 0] ++
    [0xe8, 0x61, 0, 0, 0x0a, 1, 1, 0] ++ [0, 0, 0, 0, 0x10, 0x01, 0x23, 0x48] ++ [0, 0, 0, 7] ++ [shift]

/-- It meets the hypotheses of `C64_data_partial`. -/
example : ((readTrace { bytes := loadTrace 12, beyond := fun _ => 0 } false false).records.map
      fun r => (r.dataAddr, r.dataRaValid, r.dataRa, r.dataPageShiftValid, r.dataPageShift)) =
        [(0x10012348, true, 0x7348, true, 12)] ∧
    ((list { bytes := loadTrace 12, beyond := fun _ => 0 }).shown.map dataLine) =
      [some ⟨0x10012348, some 0x7000, some 12⟩] :=
  ⟨by decide +kernel, by decide +kernel⟩

/-- C64, negated: for a page of 64 KiB the frame number is still taken for one of 4 KiB, so that a load from real address
0x72348 is shown as one from 0x7000. -/
theorem C64_page_refuted :
    ((readTrace { bytes := loadTrace 16, beyond := fun _ => 0 } false false).records.map (·.dataRa)) = [0x72348] ∧
    ((list { bytes := loadTrace 16, beyond := fun _ => 0 }).shown.map dataLine) =
      [some ⟨0x10012348, some 0x7000, some 16⟩] := by
  exact ⟨by decide +kernel, by decide +kernel⟩

/-- A branch to a page with known translation. -/
def fetchTrace : Bytes :=
  header [0, 0, 0, 0, 0, 0, 0x10, 0] ++
    [0x48, 0x01, 0xf0, 0, 0, 0x50] ++ [0, 0, 0, 0, 0, 2, 0, 0] ++ [0, 0, 0, 5] ++ [0x60, 0, 0, 0, 0, 0]

/-- C64, negated: the real address on the line of an instruction fetch is that of the following instruction.  Here the
branch has no known real address and its target has; shown is the converse. -/
theorem C64_fetch_refuted :
    ((readTrace { bytes := fetchTrace, beyond := fun _ => 0 } false false).records.map
      fun r => (r.insnAddr, r.insnRaValid, r.insnRa)) = [(0x1000, false, 0), (0x20000, true, 0x50000)] ∧
    ((list { bytes := fetchTrace, beyond := fun _ => 0 }).shown.map fetchLine) =
      [⟨0x1000, some 0x5000, none⟩, ⟨0x20000, none, none⟩] := by
  exact ⟨by decide +kernel, by decide +kernel⟩

end Dis
