import Verif.Qt.PropsCopy
/-
Property C113 for everything that was written without walks: the copy reads like the original.
-/
namespace Qt
open Spec

/-- Known page sizes of the reader's state are shift counts. -/
structure SizesOk (s : RState) : Prop where
  p1 : s.insnPageShiftValid = true → s.insnPageShift < 64
  p2 : s.nextInsnPageShiftValid = true → s.nextInsnPageShift < 64
  g1 : s.guestInsnPageShiftValid = true → s.guestInsnPageShift < 64
  g2 : s.nextGuestInsnPageShiftValid = true → s.nextGuestInsnPageShift < 64

theorem SizesOk.step {s : RState} {a b : Record} (h : SizesOk s) (ha : ShiftsOk a) (hb : ShiftsOk b) : SizesOk (outOf s a b).st := by
  obtain ⟨p1, p2, g1, g2⟩ := h
  obtain ⟨_, _, a3, _⟩ := ha
  obtain ⟨b1, b2, _, _⟩ := hb
  unfold outOf
  constructor
  · rw [recOut_st]; simp only; grind
  · rw [recOut_st]; simp only; grind
  · rw [recOut_st]; simp only; grind
  · rw [recOut_st]; simp only; grind

theorem SizesOk.start (magic : BitVec 32) {r : Record} (w : Walk) (h : ShiftsOk r) : SizesOk (startState magic r w) := by
  obtain ⟨a1, a2, _, _⟩ := h
  constructor
  · intro _; simp [startState, hdrOut, RState.initial]
  · simp only [startState, hdrOut, RState.initial]; grind
  · intro _; simp [startState, hdrOut, RState.initial]
  · simp only [startState, hdrOut, RState.initial]; grind

theorem raOf_frame (rpn : BitVec 32) {p : Nat} (hp : p < 64) (ea ea' : BitVec 64) :
    (raOf rpn p ea).toNat / 2 ^ p = (raOf rpn p ea').toNat / 2 ^ p := by
  have hpos := Nat.two_pow_pos p
  have hsplit : 2 ^ 64 = 2 ^ p * 2 ^ (64 - p) := by rw [← Nat.pow_add]; congr 1; omega
  have hm : rpn.toNat * 2 ^ p % 2 ^ 64 = 2 ^ p * (rpn.toNat % 2 ^ (64 - p)) := by
    rw [hsplit, Nat.mul_comm, Nat.mul_mod_mul_left]
  have k : ∀ ea, (raOf rpn p ea).toNat / 2 ^ p = rpn.toNat % 2 ^ (64 - p) := by
    intro ea
    rw [raOf_toNat rpn p ea hp, hm, Nat.mul_add_div hpos, Nat.div_eq_of_lt (Nat.mod_lt _ hpos), Nat.add_zero]
  rw [k, k]

/-- A record read back and the next one. -/
theorem out_pages {s : RState} {a b c : Record} (hs : SizesOk s) (hn : s.nextInsnAddr = a.insnAddr) :
    ¬ Jumps (outOf s a b).rcd (outOf (outOf s a b).st b c).rcd → SamePage (outOf s a b).rcd (outOf (outOf s a b).st b c).rcd := by
  intro hj
  have hc : iarChange a b = false := by
    unfold Jumps at hj
    unfold outOf at hj
    rw [recOut_rcd, recOut_rcd, recOut_st] at hj
    simp only [ne_eq, Classical.not_not] at hj
    cases h : iarChange a b with
    | false => rfl
    | true =>
      rw [h, if_pos rfl] at hj
      have := iarChange_iff.mp h
      unfold Jumps at this
      rw [← hn] at this
      exact absurd hj this
  obtain ⟨p1, p2, g1, g2⟩ := hs
  unfold outOf
  rw [recOut_rcd, recOut_rcd, recOut_st]
  simp only [SamePage, hc, Bool.and_false, Bool.false_or, Bool.or_false, Bool.false_eq_true, if_false]
  refine ⟨trivial, trivial, fun _ => trivial, trivial, fun _ => trivial, fun hv => ?_⟩
  rw [if_pos hv, if_pos hv]
  have e : ∀ (v : Bool) (n : Nat), (v = true → n < 64) → pageShift v (if v = true then n else 0) = shiftOr16 v n ∧ shiftOr16 v n < 64 := by
    intro v n h
    unfold pageShift shiftOr16
    cases v with
    | false => simp
    | true => simp; have := h rfl; omega
  obtain ⟨e1, e2⟩ := e (s.nextInsnPageShiftValid || s.insnPageShiftValid)
    (if s.nextInsnPageShiftValid = true then s.nextInsnPageShift else s.insnPageShift) (by grind)
  rw [e1]
  exact raOf_frame _ e2 _ _

/-- Records read back from a written trace are translated by the same page as their predecessor unless control jumps. -/
theorem sim_pages (c : Record) : ∀ (rs : List Record) (r : Record) (s : RState), s.nextInsnAddr = r.insnAddr → SizesOk s →
    (∀ x ∈ r :: rs, ShiftsOk x) → ShiftsOk c →
    Chain (fun a b => ¬ Jumps a b → SamePage a b) (sim s r (rs ++ [c])).1 := by
  have addr : ∀ (s : RState) (a b : Record), s.nextInsnAddr = a.insnAddr → (outOf s a b).st.nextInsnAddr = b.insnAddr := by
    intro s a b h
    unfold outOf
    rw [recOut_st]
    simp only [h]
    cases hc : iarChange a b with
    | true => rfl
    | false =>
      have : ¬ Jumps a b := fun hj => by rw [iarChange_iff.mpr hj] at hc; cases hc
      unfold Jumps at this
      simp at this
      simp [this]
  intro rs
  induction rs with
  | nil => intros; trivial
  | cons b rs ih =>
    intro r s h hs hx hc
    have i := ih b (outOf s r b).st (addr s r b h) (hs.step (hx r (by simp)) (hx b (by simp))) (fun x hx' => hx x (by simp [hx'])) hc
    cases rs with
    | nil => exact ⟨out_pages hs h, i⟩
    | cons d rs => exact ⟨out_pages hs h, i⟩

/-- Either no guest page size of an instruction or no page size of a data access is known. -/
def Spec.OneKindOfSize (rs : List Record) : Prop :=
  (∀ r ∈ rs, r.guestInsnPageShiftValid = false) ∨ (∀ r ∈ rs, r.dataPageShiftValid = false)

/-- Page sizes read back from a written trace are shift counts, and of one kind if they were. -/
theorem sizes_back (magic : BitVec 32) (rs : List Record) (h : Expressible rs) :
    ∃ file, writeTrace magic rs = .ok file ∧ ∀ (beyond : Nat → Byte),
      (∀ o ∈ (readTrace { bytes := file, beyond := beyond } false false).records, ShiftsOk o) ∧
      (OneKindOfSize rs → OneKindOfSize (readTrace { bytes := file, beyond := beyond } false false).records) ∧
      Chain (fun a b => ¬ Jumps a b → SamePage a b) (readTrace { bytes := file, beyond := beyond } false false).records := by
  cases rs with
  | nil =>
    obtain ⟨file, e, H⟩ := readTrace_empty magic
    refine ⟨file, e, fun beyond => ?_⟩
    rw [(H beyond).1]
    exact ⟨by simp, fun _ => .inl (by simp), trivial⟩
  | cons r rs =>
    obtain ⟨file, w, e, hw, H⟩ := readTrace_closed magic r rs h
    refine ⟨file, e, fun beyond => ?_⟩
    rw [(H beyond).1]
    have hok : ∀ x ∈ r :: rs, ShiftsOk x := fun x hx => (h.1 x hx).1
    have hcl : ∀ x : Record, ShiftsOk (closer x) := fun x => by simp [closer, Record.zero, ShiftsOk]
    have hlen : (sim (startState magic r w) r (rs ++ [closer (lastOf r rs)])).1.length = (r :: rs).length := by
      rw [sim_length]; simp
    have hall : ∀ (R : Record → Record → Prop) (l : List Record), (∀ a ∈ l, ∀ b ∈ l, R a b) → Chain R l := by
      intro R l
      induction l with
      | nil => intros; trivial
      | cons a l ih =>
        cases l with
        | nil => intros; trivial
        | cons b l => exact fun hl => ⟨hl a (by simp) b (by simp), ih (fun x hx y hy => hl x (by simp [hx]) y (by simp [hy]))⟩
    have hlast : lastOf r rs ∈ r :: rs := List.mem_of_getElem? (lastOf_getElem? rs r)
    have lift : ∀ (G : Record → Prop) (Inv : RState → Prop) (P : Record → Prop), (∀ x ∈ r :: rs, G x) → G (closer (lastOf r rs)) →
        Inv (startState magic r w) → (∀ s a b, Inv s → G a → G b → P (outOf s a b).rcd) →
        (∀ s a b, Inv s → G a → G b → Inv (outOf s a b).st) →
        ∀ o ∈ (sim (startState magic r w) r (rs ++ [closer (lastOf r rs)])).1, P o := by
      intro G Inv P hG hGc h0 hP hI o ho
      obtain ⟨i, hi⟩ := List.getElem?_of_mem ho
      have hlt : i < (r :: rs).length := by
        rw [← hlen]; exact (List.getElem?_eq_some_iff.mp hi).1
      obtain ⟨o', b, k1, _, k3⟩ := sim_forall (fun s _ => Inv s) (fun a b => G a ∧ G b) (fun a b => G a ∧ G b) (fun _ _ o => P o)
        (fun s a b hs q => hP s a b hs q.1 q.2) (fun s a b hs q => hI s a b hs q.1 q.2) (closer (lastOf r rs)) rs r (startState magic r w) h0
        (hall _ _ (fun a ha b hb => ⟨hG a ha, hG b hb⟩)) (hall _ _ (fun a ha b hb => ⟨hG a ha, hG b hb⟩))
        ⟨hG _ hlast, hGc⟩ i _ (List.getElem?_eq_getElem hlt)
      obtain rfl : o = o' := Option.some.inj (hi.symm.trans k1)
      exact k3
    refine ⟨?_, ?_, ?_⟩
    · refine lift ShiftsOk SizesOk ShiftsOk hok (hcl _) (SizesOk.start magic w (hok r (by simp))) ?_ (fun s a b hs ha hb => hs.step ha hb)
      intro s a b ⟨p1, p2, g1, g2⟩ ⟨a1, a2, a3, a4⟩ ⟨b1, b2, b3, b4⟩
      unfold outOf
      rw [recOut_rcd]
      simp only [ShiftsOk, Bool.or_false]
      refine ⟨?_, ?_, ?_, ?_⟩ <;> grind
    · rintro (hk | hk)
      · refine .inl (lift (fun x => x.guestInsnPageShiftValid = false)
          (fun s => s.guestInsnPageShiftValid = false ∧ s.nextGuestInsnPageShiftValid = false) _ hk rfl ?_ ?_ ?_)
        · have := hk r (by simp)
          simp [startState, hdrOut, RState.initial, this]
        · intro s a b hs _ _
          unfold outOf
          rw [recOut_rcd]
          simp [hs.1, hs.2]
        · intro s a b hs _ hb
          unfold outOf
          rw [recOut_st]
          simp [hs.1, hs.2, hb]
      · refine .inr (lift (fun x => x.dataPageShiftValid = false) (fun _ => True) _ hk rfl trivial ?_ (fun _ _ _ _ _ _ => trivial))
        intro s a b _ ha _
        unfold outOf
        rw [recOut_rcd]
        simp [ha]
    · exact sim_pages _ rs r _ rfl (SizesOk.start magic w (hok r (by simp))) hok (hcl _)

/-- C113. Whatever is written without walks and with one kind of page sizes: the copy reads like the original, with all instructions,
addresses, data addresses, real addresses and page sizes; no hypothesis is made on when translations change. -/
theorem C113_reads_alike_partial (magic : BitVec 32) (rs : List Record) (h : Expressible rs) (hne : rs ≠ [])
    (hn : ∀ r ∈ rs, NoWalk r.radixInsn ∧ NoWalk r.radixData) (hk : OneKindOfSize rs) :
    ∃ file, writeTrace magic rs = .ok file ∧ ∀ beyond, ∃ file', copyTrace { bytes := file, beyond := beyond } (fun _ => true) = .done file' ∧
      ∀ beyond',
        let R := readTrace { bytes := file, beyond := beyond } false false
        let R' := readTrace { bytes := file', beyond := beyond' } false false
        R.records.length = rs.length ∧ R'.final = .fail ∧ R'.records.length = rs.length ∧
        ∀ (i : Nat) (o : Record), R.records[i]? = some o → ∃ o', R'.records[i]? = some o' ∧ SameAccess o o' ∧ SameTranslation o o' := by
  obtain ⟨file, e1, H1⟩ := C01_roundtrip_partial magic _ h
  obtain ⟨f3, e3, H3⟩ := sizes_back magic _ h
  obtain ⟨f4, e4, H4⟩ := noWalks_back magic _ h hn
  obtain rfl : file = f3 := WRes.ok.inj (e1.symm.trans e3)
  obtain rfl : file = f4 := WRes.ok.inj (e1.symm.trans e4)
  refine ⟨file, e1, fun beyond => ?_⟩
  obtain ⟨j1, j2⟩ := H1 beyond
  obtain ⟨s1, s2, s3⟩ := H3 beyond
  have hl : (readTrace { bytes := file, beyond := beyond } false false).records.length = rs.length := by
    simpa using congrArg List.length j1
  have nw : ∀ o ∈ (readTrace { bytes := file, beyond := beyond } false false).records, NoWalk o.radixInsn ∧ NoWalk o.radixData := by
    intro o ho
    obtain ⟨i, hi⟩ := List.getElem?_of_mem ho
    have hlt : i < rs.length := by rw [← hl]; exact (List.getElem?_eq_some_iff.mp hi).1
    obtain ⟨o', k1, k2⟩ := H4 beyond i rs[i] (List.getElem?_eq_getElem hlt)
    obtain rfl : o = o' := Option.some.inj (hi.symm.trans k1)
    exact k2
  have ho : ∃ c, readerInit { bytes := file, beyond := beyond } = .ok () c := by
    cases hc : readerInit { bytes := file, beyond := beyond } with
    | ok u c => exact ⟨c, rfl⟩
    | err e c =>
      unfold readTrace at hl
      rw [hc] at hl
      exact absurd (List.length_eq_zero_iff.mp hl.symm) hne
  have two : ∀ (P : Record → Prop) (R S : Record → Record → Prop) (l : List Record), (∀ a ∈ l, P a) → Chain R l →
      (∀ a b, P a → P b → R a b → S a b) → Chain S l := by
    intro P R S l
    induction l with
    | nil => intros; trivial
    | cons a l ih =>
      cases l with
      | nil => intros; trivial
      | cons b l => exact fun hp hr hs => ⟨hs a b (hp a (by simp)) (hp b (by simp)) hr.1, ih (fun x hx => hp x (by simp [hx])) hr.2 hs⟩
  have hcp : Copyable (readTrace { bytes := file, beyond := beyond } false false).records := by
    refine ⟨fun o ho => ⟨s1 o ho, fun _ => .inl (nw o ho).1, fun _ => .inl (nw o ho).2⟩, ?_, fun o ho hw => ?_⟩
    · exact two _ _ _ _ nw s3 (fun a b na nb _ _ _ _ => .inl ⟨na.2, nb.1⟩)
    · exact absurd (nw o (List.mem_of_mem_head? ho)).1 hw
  have hpj : Chain PagesAtJumps (readTrace { bytes := file, beyond := beyond } false false).records := by
    rcases s2 hk with k | k
    · exact two _ _ _ _ k s3 (fun a b _ kb p => ⟨p, fun _ _ v => by rw [kb] at v; cases v⟩)
    · exact two _ _ _ _ k s3 (fun a b ka _ p => ⟨p, fun _ v _ => by rw [ka] at v; cases v⟩)
  obtain ⟨file', g1, G1⟩ := C113_copy_partial _ ho j2 hcp
  obtain ⟨f', g2, G2⟩ := C113_translations_partial _ ho j2 hcp hpj
  obtain rfl : file' = f' := Copied.done.inj (g1.symm.trans g2)
  refine ⟨file', g1, fun beyond' => ⟨hl, (G1 beyond').1, by rw [(G1 beyond').2.1, hl], fun i o hi => ?_⟩⟩
  obtain ⟨o', l1, l2, _⟩ := (G1 beyond').2.2 i o hi
  obtain ⟨o'', m1, m2⟩ := G2 beyond' i o hi
  obtain rfl : o' = o'' := Option.some.inj (l1.symm.trans m1)
  exact ⟨o', l1, l2, m2⟩

/-- Records whose translation changes sequentially and is forgotten again meet the hypotheses. -/
example :
    let rs : List Record :=
      [{ insn := 0xE8610008, insnAddr := 0x1FFF8, insnRaValid := true, insnRa := 0x7FFF8,
         dataAddrValid := true, dataAddr := 0x5008, dataRaValid := true, dataRa := 0x85008,
         dataPageShiftValid := true, dataPageShift := 12 },
       { insn := 0x60000000, insnAddr := 0x1FFFC, insnRaValid := true, insnRa := 0x90000 },
       { insn := 0x60000000, insnAddr := 0x20000 }]
    Expressible rs ∧ rs ≠ [] ∧ (∀ r ∈ rs, NoWalk r.radixInsn ∧ NoWalk r.radixData) ∧ OneKindOfSize rs := by
  simp [Expressible, RecordOk, ShiftsOk, WalkOk, Chain, NoWalk, StepOk, Jumps, OneKindOfSize]

end Qt
