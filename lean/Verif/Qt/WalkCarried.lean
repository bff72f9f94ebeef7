import Verif.Qt.PropsTranslation
/-
Walks of instructions reached sequentially: the reader reports the walk of the last instruction jumped to.  `Of r x` says
that `x` is a walk for the instruction of the record `r`.
-/
namespace Qt
open Spec

theorem SameWalk.refl (x : Radix) : SameWalk x x := ⟨rfl, rfl, fun _ _ _ _ => rfl, fun _ _ _ => rfl, fun _ _ _ => rfl⟩

/-- The walk that the reader would report is one for the instruction. -/
def CarryInv (Of : Record → Radix → Prop) (s : RState) (a : Record) : Prop :=
  a.insnRaValid = true → ∃ x, Of a x ∧ ¬ NoWalk x ∧ SameWalk x (effRadix s)

theorem CarryInv.step {Of : Record → Radix → Prop} {s a b} (h : CarryInv Of s a) (hb : RecordOk b) (h4 : FourIfSingle b.radixInsn)
    (hown : b.insnRaValid = true → ¬ NoWalk b.radixInsn ∧ Of b b.radixInsn)
    (hs : ¬ Jumps a b → b.insnRaValid = true → a.insnRaValid = true ∧ ∀ x, Of a x → Of b x) : CarryInv Of (outOf s a b).st b := by
  intro hv
  unfold outOf
  rw [recOut_st]
  unfold effRadix
  by_cases hj : Jumps a b
  · obtain ⟨hn, ho⟩ := hown hv
    have hc : iarChange a b = true := iarChange_iff.mpr hj
    have ei := iwOf_eq (prev := a) hb
    obtain ⟨w, e, a1, _⟩ := radixWalk_of_ok (hb.2.1 hv)
    rw [hv, hc] at ei
    obtain rfl : w = iwOf a b := WRes.ok.inj (e.symm.trans ei)
    have := walkOut_same (ty := s.nextRadixInsn.type) (x0 := s.nextRadixInsn) e (fun h => hn (a1.mp h)) h4
    refine ⟨b.radixInsn, ho, hn, ?_⟩
    simp only [hc, hv, Bool.and_true, insnWalkOut, if_true]
    rw [if_pos (by rw [this.1]; exact hn)]
    exact this
  · have hc : iarChange a b = false := by
      rw [← Bool.not_eq_true, iarChange_iff]; exact hj
    obtain ⟨q1, q2⟩ := hs hj hv
    obtain ⟨x, hx, hn, hsw⟩ := h q1
    refine ⟨x, q2 x hx, hn, ?_⟩
    simp only [hc, Bool.and_false, insnWalkOut, Bool.false_eq_true, if_false]
    have : effRadix s = (if s.nextRadixInsn.nrPtes ≠ 0 then s.nextRadixInsn else
        (if s.nextRadixInsn.nrPtes ≠ 0 then s.nextRadixInsn else s.radixInsn)) := by
      unfold effRadix; split <;> rfl
    rw [← this]
    exact hsw

/-- Data walks come back; the walk of an instruction comes back as one that is a walk for it. -/
theorem walks_carried (magic : BitVec 32) (rs : List Record) (h : Expressible rs)
    (h4 : ∀ r ∈ rs, FourIfSingle r.radixInsn ∧ (r.dataRaValid = true → FourIfSingle r.radixData)) (Of : Record → Radix → Prop)
    (hown : ∀ r ∈ rs, r.insnRaValid = true → ¬ NoWalk r.radixInsn ∧ Of r r.radixInsn)
    (hs : Chain (fun a b => ¬ Jumps a b → b.insnRaValid = true → a.insnRaValid = true ∧ ∀ x, Of a x → Of b x) rs) :
    ∃ file, writeTrace magic rs = .ok file ∧ ∀ (beyond : Nat → Byte) (i : Nat) (r : Record), rs[i]? = some r →
      ∃ o, (readTrace { bytes := file, beyond := beyond } false false).records[i]? = some o ∧
        (r.dataRaValid = true → ¬ NoWalk r.radixData → SameWalk r.radixData o.radixData) ∧
        (r.insnRaValid = true → ∃ x, Of r x ∧ SameWalk x o.radixInsn) := by
  cases rs with
  | nil =>
    obtain ⟨file, e, _⟩ := readTrace_empty magic
    exact ⟨file, e, fun _ i r hr => by simp at hr⟩
  | cons r rs =>
    obtain ⟨file, w, e, hw, H⟩ := readTrace_closed magic r rs h
    refine ⟨file, e, fun beyond i a ha => ?_⟩
    rw [(H beyond).1]
    let Good (a : Record) : Prop := RecordOk a ∧ FourIfSingle a.radixInsn ∧ (a.dataRaValid = true → FourIfSingle a.radixData) ∧
      (a.insnRaValid = true → ¬ NoWalk a.radixInsn ∧ Of a a.radixInsn)
    let Step (a b : Record) : Prop := ¬ Jumps a b → b.insnRaValid = true → a.insnRaValid = true ∧ ∀ x, Of a x → Of b x
    have hgood : ∀ x ∈ r :: rs, Good x := fun x hx => ⟨h.1 x hx, (h4 x hx).1, (h4 x hx).2, hown x hx⟩
    have hlift : ∀ (R : Record → Record → Prop) (l : List Record), (∀ x ∈ l, Good x) →
        Chain Step l → (∀ a b, Good a → Good b → Step a b → R a b) → Chain R l := by
      intro R l
      induction l with
      | nil => intros; trivial
      | cons a l ih =>
        cases l with
        | nil => intros; trivial
        | cons b l =>
          intro hg hc hR
          exact ⟨hR a b (hg a (by simp)) (hg b (by simp)) hc.1,
            ih (fun x hx => hg x (by simp [hx])) hc.2 hR⟩
    have hgl : Good (lastOf r rs) :=
      hgood _ (List.mem_of_getElem? (lastOf_getElem? rs r))
    have hstart : CarryInv Of (startState magic r w) r := by
      have hr := hgood r (by simp)
      obtain ⟨w', _, hw', _, hn⟩ := headerBytes_total (magic := magic) (version := QTWRITER_VERSION)
        hr.1 (h.2.2 r rfl).2
      obtain rfl : w = w' := WRes.ok.inj (hw.symm.trans hw')
      intro hv
      obtain ⟨n1, n2⟩ := hr.2.2.2 hv
      exact ⟨_, n2, n1, WalkInv.start hw hn hr.2.1 hv n1⟩
    obtain ⟨o, b, h1, h2, h3⟩ := sim_forall (CarryInv Of)
      (fun a b => Good b ∧ Step a b)
      (fun a _ => Good a)
      (fun a _ o =>
        (a.dataRaValid = true → ¬ NoWalk a.radixData → SameWalk a.radixData o.radixData) ∧
        (a.insnRaValid = true → ∃ x, Of a x ∧ SameWalk x o.radixInsn))
      (by
        intro s a b hI ⟨hok, hf1, hf2, _⟩
        unfold outOf
        rw [recOut_rcd]
        have ed := dwOf_eq hok
        refine ⟨?_, ?_⟩
        · intro hv hn
          obtain ⟨w, e, a1, _⟩ := radixWalk_of_ok (hok.2.2 hv)
          rw [hv] at ed
          obtain rfl : w = dwOf a := WRes.ok.inj (e.symm.trans ed)
          simp only [dataWalkOut, hv, if_true]
          exact walkOut_same e (fun h => hn (a1.mp h)) (hf2 hv)
        · intro hv
          obtain ⟨x, hx, hn, this⟩ := hI hv
          refine ⟨x, hx, ?_⟩
          have hne : (effRadix s).nrPtes ≠ 0 := by rw [this.1]; exact hn
          simp only
          unfold effRadix at this hne
          split
          · rename_i h0; rwa [if_pos h0] at this
          · rename_i h0
            rw [if_neg h0] at this hne
            rw [if_pos hne]; exact this)
      (by intro s a b hI ⟨⟨p1, p2, _, p3⟩, p4⟩; exact hI.step p1 p2 p3 p4)
      (closer (lastOf r rs)) rs r (startState magic r w) hstart
      (hlift _ _ hgood hs (fun a b ga gb t => ⟨gb, t⟩))
      (hlift _ _ hgood hs (fun a b ga gb _ => ga))
      hgl i a ha
    exact ⟨o, h1, h3⟩

end Qt
