import Verif.Qt.Told
import Verif.Qt.PropsTranslation
/-
Property C03, exactly: what the reader reports about the pages of instructions and data, for every trace.
-/
namespace Qt
open Spec

/-- C03. In the round trip of C01, whatever the translations are: an instruction is reported to lie in the page frame that
was told last at or before it, where the trace tells of a frame only at its beginning and where control jumps; likewise
the size of the page. Its real address is the one in that frame at the offset of its effective address. -/
theorem C03_reported (magic : BitVec 32) (rs : List Record) (h : Expressible rs) :
    ∃ file, writeTrace magic rs = .ok file ∧ ∀ (beyond : Nat → Byte) (i : Nat) (r : Record), rs[i]? = some r →
      ∃ o, (readTrace { bytes := file, beyond := beyond } false false).records[i]? = some o ∧
        o.insnPageShiftValid = (carried insnShift rs i).isSome ∧
        (∀ sh, carried insnShift rs i = some sh → o.insnPageShift = sh) ∧
        o.insnRaValid = (carried insnFrame rs i).isSome ∧
        ∀ fr, carried insnFrame rs i = some fr →
          o.insnRa.toNat = inFrame fr ((carried insnShift rs i).getD 16) r.insnAddr := by
  cases rs with
  | nil =>
    obtain ⟨file, e, _⟩ := readTrace_empty magic
    exact ⟨file, e, fun _ i r hr => by simp at hr⟩
  | cons r rs =>
    obtain ⟨file, w, e, hw, H⟩ := readTrace_closed magic r rs h
    refine ⟨file, e, fun beyond i a ha => ?_⟩
    rw [(H beyond).1]
    have hsh : ∀ x ∈ r :: rs, ShiftsOk x := fun x hx => (h.1 x hx).1
    have hch : ∀ l : List Record, (∀ x ∈ l, ShiftsOk x) → Chain (fun _ b => ShiftsOk b) l := by
      intro l
      induction l with
      | nil => intros; trivial
      | cons a l ih =>
        cases l with
        | nil => intros; trivial
        | cons b l => exact fun hl => ⟨hl b (by simp), ih (fun x hx => hl x (by simp [hx]))⟩
    have hf : ∀ i, carried frame32 (r :: rs) i = (carried insnFrame (r :: rs) i).map (BitVec.ofNat 32) := by
      intro i
      rw [← carried_map]
      exact carried_congr (fun x hx => frame32_eq (hsh x hx)) i
    obtain ⟨o, h1, h2⟩ := sim_ghost carry2 ToldInv (fun _ b => ShiftsOk b) (fun _ => True)
      (fun a g o => o.insnPageShiftValid = g.2.isSome ∧ (∀ sh, g.2 = some sh → o.insnPageShift = sh) ∧
        o.insnRaValid = g.1.isSome ∧
        ∀ n, g.1 = some n → o.insnRa.toNat = n.toNat * 2 ^ g.2.getD 16 % 2 ^ 64 + a.insnAddr.toNat % 2 ^ g.2.getD 16)
      (by
        intro s a b g hI _
        obtain ⟨addr, rv, rpn, pv, ps, sm⟩ := hI
        unfold outOf
        rw [recOut_rcd]
        simp only [rv, pv, Bool.or_false]
        refine ⟨trivial, ?_, trivial, ?_⟩
        · intro sh hsh
          rw [hsh, Option.isSome_some, if_pos rfl]
          exact ps sh hsh
        · intro n hn
          rw [hn, Option.isSome_some, if_pos rfl, rpn n hn, addr]
          cases hg : g.2 with
          | none =>
            rw [raOf_toNat _ _ _ (by unfold shiftOr16; simp)]; rfl
          | some sh =>
            rw [ps sh hg]
            have := sm sh hg
            have e : shiftOr16 (some sh).isSome sh = sh := by unfold shiftOr16; simp; omega
            rw [e, raOf_toNat _ _ _ this]; rfl)
      (by intro s a b g hI hb; exact hI.step hb)
      (closer (lastOf r rs)) (fun i => (carried frame32 (r :: rs) i, carried insnShift (r :: rs) i)) rs r (startState magic r w) 0
      (ToldInv.start (hsh r (by simp))) (hch _ hsh) (fun _ _ => trivial)
      (fun i a b hi hb => by
        unfold carry2
        dsimp only
        rw [Nat.zero_add, carried_succ _ _ _ _ _ hi hb, carried_succ _ _ _ _ _ hi hb]) i a ha
    rw [Nat.zero_add] at h2
    obtain ⟨p1, p2, p3, p4⟩ := h2
    refine ⟨o, h1, p1, p2, ?_, ?_⟩
    · rw [p3, hf]; cases carried insnFrame (r :: rs) i <;> rfl
    · intro fr hfr
      rw [p4 (BitVec.ofNat 32 fr) (by rw [hf, hfr]; rfl), BitVec.toNat_ofNat]; rfl

/-- C03. Likewise for data: the frame and the page size are those of the record itself, unless (a fault of the format) the
instruction jumped to has a guest page size. -/
theorem C03_data_reported (magic : BitVec 32) (rs : List Record) (h : Expressible rs) (hg : ∀ r ∈ rs, r.guestInsnPageShiftValid = false) :
    ∃ file, writeTrace magic rs = .ok file ∧ ∀ (beyond : Nat → Byte) (i : Nat) (r : Record), rs[i]? = some r →
      ∃ o, (readTrace { bytes := file, beyond := beyond } false false).records[i]? = some o ∧
        o.dataPageShiftValid = r.dataPageShiftValid ∧
        (r.dataPageShiftValid = true → o.dataPageShift = r.dataPageShift) ∧
        o.dataRaValid = r.dataRaValid ∧
        (r.dataRaValid = true → o.dataRa.toNat =
          inFrame (r.dataRa.toNat / 2 ^ pageShift r.dataPageShiftValid r.dataPageShift) (pageShift r.dataPageShiftValid r.dataPageShift)
            (if r.dataAddrValid then r.dataAddr else 0)) := by
  cases rs with
  | nil =>
    obtain ⟨file, e, _⟩ := readTrace_empty magic
    exact ⟨file, e, fun _ i r hr => by simp at hr⟩
  | cons r rs =>
    obtain ⟨file, w, e, hw, H⟩ := readTrace_closed magic r rs h
    refine ⟨file, e, fun beyond i a ha => ?_⟩
    rw [(H beyond).1]
    have hall : ∀ (R : Record → Record → Prop) (l : List Record), (∀ a ∈ l, ∀ b ∈ l, R a b) → Chain R l := by
      intro R l
      induction l with
      | nil => intros; trivial
      | cons a l ih =>
        cases l with
        | nil => intros; trivial
        | cons b l => exact fun hl => ⟨hl a (by simp) b (by simp), ih (fun x hx y hy => hl x (by simp [hx]) y (by simp [hy]))⟩
    obtain ⟨o, b, h1, h2, h3⟩ := sim_forall (fun _ _ => True) (fun _ _ => True)
      (fun a b => ShiftsOk a ∧ b.guestInsnPageShiftValid = false)
      (fun a _ o => o.dataPageShiftValid = a.dataPageShiftValid ∧
        (a.dataPageShiftValid = true → o.dataPageShift = a.dataPageShift) ∧
        o.dataRaValid = a.dataRaValid ∧
        (a.dataRaValid = true → o.dataRa.toNat =
          inFrame (a.dataRa.toNat / 2 ^ pageShift a.dataPageShiftValid a.dataPageShift) (pageShift a.dataPageShiftValid a.dataPageShift)
            (if a.dataAddrValid then a.dataAddr else 0)))
      (by
        intro s a b _ ⟨hsh, hgb⟩
        unfold outOf
        rw [recOut_rcd]
        simp only [hgb, Bool.false_and, Bool.false_eq_true, if_false, Bool.or_false]
        refine ⟨trivial, ?_, trivial, ?_⟩
        · intro hv; rw [if_pos hv]
        · intro hv
          simp only [hv, if_true]
          have e1 : shiftOr16 a.dataPageShiftValid (if a.dataPageShiftValid = true then a.dataPageShift else 0) =
              pageShift a.dataPageShiftValid a.dataPageShift := by
            have := shiftOr16_eq hsh.2.2.1
            cases hdv : a.dataPageShiftValid
            · rfl
            · rw [hdv] at this; rw [if_pos rfl]; exact this.1
          have e2 : (if a.dataAddrValid = true then (if a.dataAddrValid = true then a.dataAddr else 0) else 0) =
              (if a.dataAddrValid = true then a.dataAddr else 0) := by split <;> rfl
          rw [e1, e2, raOf_toNat _ _ _ (shiftOr16_eq hsh.2.2.1).2]
          unfold inFrame rpnOf
          rw [(shiftOr16_eq hsh.2.2.1).1, BitVec.toNat_setWidth, BitVec.toNat_ushiftRight, Nat.shiftRight_eq_div_pow])
      (by intros; trivial)
      (closer (lastOf r rs)) rs r (startState magic r w) trivial (chain_of_forall (fun _ _ => trivial) _)
      (hall _ _ (fun a ha b hb => ⟨(h.1 a ha).1, hg b hb⟩))
      ⟨(h.1 _ (List.mem_of_getElem? (lastOf_getElem? rs r))).1, rfl⟩ i a ha
    exact ⟨o, h1, h3⟩

/-- Two records in different page frames, one after the other: the trace is expressible, and says that both are in the first. -/
example :
    let rs : List Record :=
      [ { insn := 0x60000000, insnAddr := 0x1fffc, insnRaValid := true, insnRa := 0x70000 },
        { insn := 0x60000000, insnAddr := 0x20000, insnRaValid := true, insnRa := 0x90000 } ]
    Expressible rs ∧ carried insnFrame rs 1 = some 7 ∧ inFrame 7 16 0x20000 = 0x70000 := by
  refine ⟨?_, by decide, by decide⟩
  simp [Expressible, RecordOk, ShiftsOk, WalkOk, Chain, StepOk, Jumps]

end Qt
