import Verif.Qt.PropsRoundTrip
import Verif.Qt.Translation
/-
Properties C03 and C05: translations and page walks in the round trip.
-/
namespace Qt
open Spec

/-- C03. In the round trip of C01, for translations the format can express (see `Spec.TranslationOk` and
`Spec.TranslationStep`), real addresses, page shifts and guest page shifts come back as written. -/
theorem C03_translations_partial (magic : BitVec 32) (rs : List Record) (h : Expressible rs)
    (ht : ∀ r ∈ rs, TranslationOk r) (hs : Chain TranslationStep rs) :
    ∃ file, writeTrace magic rs = .ok file ∧ ∀ (beyond : Nat → Byte) (i : Nat) (r : Record), rs[i]? = some r →
      ∃ o, (readTrace { bytes := file, beyond := beyond } false false).records[i]? = some o ∧
        SameTranslation r o := by
  cases rs with
  | nil =>
    obtain ⟨file, e, _⟩ := readTrace_empty magic
    exact ⟨file, e, fun _ i r hr => by simp at hr⟩
  | cons r rs =>
    obtain ⟨file, w, e, hw, H⟩ := readTrace_closed magic r rs h
    refine ⟨file, e, fun beyond i a ha => ?_⟩
    rw [(H beyond).1]
    let Good (a : Record) : Prop := ShiftsOk a ∧ TranslationOk a
    let Swap (a b : Record) : Prop := Jumps a b → a.dataPageShiftValid = true →
      b.guestInsnPageShiftValid = true → b.guestInsnPageShift = a.dataPageShift
    have hgood : ∀ x ∈ r :: rs, Good x := fun x hx => ⟨(h.1 x hx).1, ht x hx⟩
    have hlift : ∀ (R : Record → Record → Prop) (l : List Record), (∀ x ∈ l, Good x) →
        Chain TranslationStep l → (∀ a b, Good a → Good b → TranslationStep a b → R a b) → Chain R l := by
      intro R l
      induction l with
      | nil => intros; trivial
      | cons a l ih =>
        cases l with
        | nil => intros; trivial
        | cons b l =>
          intro hg hc hR
          exact ⟨hR a b (hg a (by simp)) (hg b (by simp)) hc.1,
            ih (fun x hx => hg x (by simp [hx])) hc.2 hR⟩
    have hgl : Good (lastOf r rs) :=
      hgood _ (List.mem_of_getElem? (lastOf_getElem? rs r))
    obtain ⟨o, b, h1, h2, h3⟩ := sim_forall TransInv
      (fun a b => ShiftsOk a ∧ ShiftsOk b ∧ TranslationStep a b)
      (fun a b => Good a ∧ Swap a b)
      (fun a _ o => SameTranslation a o)
      (by
        intro s a b hI ⟨⟨hsh, hta⟩, hsw⟩
        obtain ⟨addr, rv, rpn, pv, ps, gv, gs⟩ := hI
        unfold outOf
        rw [recOut_rcd]
        have hdsh : a.dataPageShiftValid = true → (if (b.guestInsnPageShiftValid && iarChange a b) = true then
            b.guestInsnPageShift else a.dataPageShift) = a.dataPageShift := by
          intro hv
          split
          · rename_i hc
            simp only [Bool.and_eq_true] at hc
            exact hsw (iarChange_iff.mp hc.2) hv hc.1
          · rfl
        simp only [SameTranslation, rv, pv, gv, Bool.or_false]
        refine ⟨trivial, ?_, trivial, ?_, trivial, ?_, trivial, ?_, trivial, ?_, trivial, ?_⟩
        · intro hv
          rw [if_pos hv, rpn hv, addr]
          have : shiftOr16 a.insnPageShiftValid
              (if s.nextInsnPageShiftValid = true then s.nextInsnPageShift else s.insnPageShift) =
              shiftOr16 a.insnPageShiftValid a.insnPageShift := by
            cases hpv : a.insnPageShiftValid
            · rfl
            · rw [ps hpv]
          rw [this]
          exact raOf_rpnOf hsh.1 (hta.1 hv)
        · intro hv; rw [if_pos hv]; exact ps hv
        · intro hv; rw [if_pos hv]; exact gs hv
        · intro hv
          simp only [hv, if_true]
          have e1 : shiftOr16 a.dataPageShiftValid (if a.dataPageShiftValid = true then
              (if (b.guestInsnPageShiftValid && iarChange a b) = true then
                b.guestInsnPageShift else a.dataPageShift) else 0) =
              shiftOr16 a.dataPageShiftValid a.dataPageShift := by
            cases hdv : a.dataPageShiftValid
            · rfl
            · rw [if_pos rfl, hdsh hdv]
          rw [e1]
          have e2 : (if a.dataAddrValid = true then (if a.dataAddrValid = true then a.dataAddr else 0) else 0) =
              (if a.dataAddrValid = true then a.dataAddr else 0) := by split <;> rfl
          rw [e2]
          exact raOf_rpnOf hsh.2.2.1 (hta.2 hv)
        · intro hv; rw [if_pos hv, hdsh hv]
        · intro hv; rw [if_pos hv])
      (by intro s a b hI ⟨p1, p2, p3⟩; exact hI.step p1 p2 p3)
      (closer (lastOf r rs)) rs r (startState magic r w) (TransInv.start magic r w)
      (hlift _ _ hgood hs (fun a b ga gb t => ⟨ga.1, gb.1, t⟩))
      (hlift _ _ hgood hs (fun a b ga _ t => ⟨ga, t.2.2.2.2⟩))
      ⟨hgl, by intro _ _ hv; simp [closer, Record.zero] at hv⟩ i a ha
    exact ⟨o, h1, h3⟩

/-- Two consecutive records on the same page, then a jump to another page with a data access in between. -/
example :
    let rs : List Record :=
      [ { insn := 0x7C0802A6, insnAddr := 0x10000, insnRaValid := true, insnRa := 0x7650000,
          insnPageShiftValid := true, insnPageShift := 16, guestInsnPageShiftValid := true,
          guestInsnPageShift := 12 },
        { insn := 0x4E800020, insnAddr := 0x10004, insnRaValid := true, insnRa := 0x7650004,
          insnPageShiftValid := true, insnPageShift := 16, guestInsnPageShiftValid := true,
          guestInsnPageShift := 12, branch := true, dataAddrValid := true, dataAddr := 0x2008,
          dataRaValid := true, dataRa := 0x9008 , dataPageShiftValid := true, dataPageShift := 12 },
        { insn := 0x60000000, insnAddr := 0x3000, insnRaValid := true, insnRa := 0x8883000,
          insnPageShiftValid := true, insnPageShift := 12, guestInsnPageShiftValid := true,
          guestInsnPageShift := 12 } ]
    Expressible rs ∧ (∀ r ∈ rs, TranslationOk r) ∧ Chain TranslationStep rs := by
  simp [Expressible, RecordOk, ShiftsOk, WalkOk, Chain, StepOk, Jumps, NoWalk, TranslationOk, RaOk,
    TranslationStep, SamePage, WalksCompatible, pageShift]

/-- C05. In the round trip of C01, the page walk of every data access comes back with all its entries and
real addresses (single walks with four entries, nested walks of any admissible size), a record without one
comes back without one, and the same holds for every instruction walk, provided sequential instructions do
not change their walk (`Spec.WalkStep`).  The kind of a single data walk comes back unless the instruction
jumped to has a single walk of another kind. -/
theorem C05_page_walks_partial (magic : BitVec 32) (rs : List Record) (h : Expressible rs)
    (h4 : ∀ r ∈ rs, FourIfSingle r.radixInsn ∧ FourIfSingle r.radixData) (hs : Chain WalkStep rs) :
    ∃ file, writeTrace magic rs = .ok file ∧ ∀ (beyond : Nat → Byte) (i : Nat) (r : Record), rs[i]? = some r →
      ∃ o, (readTrace { bytes := file, beyond := beyond } false false).records[i]? = some o ∧
        (r.dataRaValid = true → ¬ NoWalk r.radixData → SameWalk r.radixData o.radixData) ∧
        (r.dataRaValid = true → NoWalk r.radixData → NoWalk o.radixData) ∧
        (r.dataRaValid = false → NoWalk o.radixData) ∧
        (r.insnRaValid = true → ¬ NoWalk r.radixInsn → SameWalk r.radixInsn o.radixInsn) ∧
        (r.dataRaValid = true → Single r.radixData →
          (∀ n, rs[i + 1]? = some n → Jumps r n → n.insnRaValid = true → Single n.radixInsn →
            n.radixInsn.type = r.radixData.type) → o.radixData.type = r.radixData.type) := by
  cases rs with
  | nil =>
    obtain ⟨file, e, _⟩ := readTrace_empty magic
    exact ⟨file, e, fun _ i r hr => by simp at hr⟩
  | cons r rs =>
    obtain ⟨file, w, e, hw, H⟩ := readTrace_closed magic r rs h
    refine ⟨file, e, fun beyond i a ha => ?_⟩
    rw [(H beyond).1]
    let Good (a : Record) : Prop := RecordOk a ∧ FourIfSingle a.radixInsn ∧ FourIfSingle a.radixData
    have hgood : ∀ x ∈ r :: rs, Good x := fun x hx => ⟨h.1 x hx, h4 x hx⟩
    have hlift : ∀ (R : Record → Record → Prop) (l : List Record), (∀ x ∈ l, Good x) →
        Chain WalkStep l → (∀ a b, Good a → Good b → WalkStep a b → R a b) → Chain R l := by
      intro R l
      induction l with
      | nil => intros; trivial
      | cons a l ih =>
        cases l with
        | nil => intros; trivial
        | cons b l =>
          intro hg hc hR
          exact ⟨hR a b (hg a (by simp)) (hg b (by simp)) hc.1,
            ih (fun x hx => hg x (by simp [hx])) hc.2 hR⟩
    have hgl : Good (lastOf r rs) :=
      hgood _ (List.mem_of_getElem? (lastOf_getElem? rs r))
    have hstart : WalkInv (startState magic r w) r := by
      have hr := hgood r (by simp)
      obtain ⟨w', _, hw', _, hn⟩ := headerBytes_total (magic := magic) (version := QTWRITER_VERSION)
        hr.1 (h.2.2 r rfl).2
      obtain rfl : w = w' := WRes.ok.inj (hw.symm.trans hw')
      exact WalkInv.start hw hn hr.2.1
    obtain ⟨o, b, h1, h2, h3⟩ := sim_forall WalkInv
      (fun a b => Good b ∧ WalkStep a b)
      (fun a b => Good a ∧ RecordOk b)
      (fun a b o =>
        (a.dataRaValid = true → ¬ NoWalk a.radixData → SameWalk a.radixData o.radixData) ∧
        (a.dataRaValid = true → NoWalk a.radixData → NoWalk o.radixData) ∧
        (a.dataRaValid = false → NoWalk o.radixData) ∧
        (a.insnRaValid = true → ¬ NoWalk a.radixInsn → SameWalk a.radixInsn o.radixInsn) ∧
        (a.dataRaValid = true → Single a.radixData →
          (Jumps a b → b.insnRaValid = true → Single b.radixInsn →
            b.radixInsn.type = a.radixData.type) → o.radixData.type = a.radixData.type))
      (by
        intro s a b hI ⟨⟨hok, hf1, hf2⟩, hokb⟩
        unfold outOf
        rw [recOut_rcd]
        have ed := dwOf_eq hok
        refine ⟨?_, ?_, ?_, ?_, ?_⟩
        · intro hv hn
          obtain ⟨w, e, a1, _⟩ := radixWalk_of_ok (hok.2.2 hv)
          rw [hv] at ed
          obtain rfl : w = dwOf a := WRes.ok.inj (e.symm.trans ed)
          simp only [dataWalkOut, hv, if_true]
          exact walkOut_same e (fun h => hn (a1.mp h)) hf2
        · intro hv hn
          obtain ⟨w, e, a1, _⟩ := radixWalk_of_ok (hok.2.2 hv)
          rw [hv] at ed
          obtain rfl : w = dwOf a := WRes.ok.inj (e.symm.trans ed)
          simp only [dataWalkOut, hv, if_true, a1.mpr hn]
          rfl
        · intro hv; simp only [dataWalkOut, hv, Bool.false_eq_true, if_false]; rfl
        · intro hv hn
          have := hI hv hn
          have hne : (effRadix s).nrPtes ≠ 0 := by rw [this.1]; exact hn
          simp only
          unfold effRadix at this hne
          split
          · rename_i h0; rwa [if_pos h0] at this
          · rename_i h0
            rw [if_neg h0] at this hne
            rw [if_pos hne]; exact this
        · intro hv hsg htype
          exact dataWalk_type hok hokb hv hsg htype)
      (by intro s a b hI ⟨⟨p1, p2, _⟩, p3⟩; exact hI.step p1 p2 p3)
      (closer (lastOf r rs)) rs r (startState magic r w) hstart
      (hlift _ _ hgood hs (fun a b ga gb t => ⟨gb, t⟩))
      (hlift _ _ hgood hs (fun a b ga gb _ => ⟨ga, gb.1⟩))
      ⟨hgl, closer_ok _⟩ i a ha
    refine ⟨o, h1, h3.1, h3.2.1, h3.2.2.1, h3.2.2.2.1, ?_⟩
    intro hv hsg hty
    refine h3.2.2.2.2 hv hsg ?_
    rcases succ_of ha h2 with ⟨n, hn, rfl⟩ | ⟨hn, rfl⟩
    · exact hty b hn
    · intro _ hc; simp [closer, Record.zero] at hc

/-- A jump between two pages with nested walks and a data access with a nested walk. -/
example :
    let rs : List Record :=
      [ { insn := 0x4E800020, insnAddr := 0x10004, insnRaValid := true, insnRa := 0x7650004,
          radixInsn := { nrPtes := 4, nrWalks := 5, hostPtes := fun i j => BitVec.ofNat 64 (8 * i + j) },
          dataAddrValid := true, dataAddr := 0x2008, dataRaValid := true, dataRa := 0x9008,
          radixData := { nrPtes := 3, nrWalks := 2, hostRas := fun _ => 7 }},
        { insn := 0x60000000, insnAddr := 0x3000, insnRaValid := true, insnRa := 0x8883000,
          radixInsn := { nrPtes := 2, nrWalks := 4 } } ]
    Expressible rs ∧ (∀ r ∈ rs, FourIfSingle r.radixInsn ∧ FourIfSingle r.radixData) ∧ Chain WalkStep rs := by
  simp [Expressible, RecordOk, ShiftsOk, WalkOk, Chain, StepOk, Jumps, NoWalk, FourIfSingle, Single, Nested,
    WalkStep, WalksCompatible]

end Qt
