import Verif.Qt.PropsJoined
/-
Property C127: page-table walks of traces joined one behind the other.
-/
namespace Qt
open Spec

theorem WalkInv.header {s : RState} {r : Record} {w : Walk} (magic : BitVec 32) (hw : radixWalk r.radixInsn = .ok w)
    (hn : r.radixInsn.nrPtes ≠ 0 → r.insnRaValid = true ∧ w ≠ .none) (h4 : FourIfSingle r.radixInsn) :
    WalkInv (hdrOut magic QTWRITER_VERSION r w s) r := by
  intro _ h
  have hwn := (hn h).2
  have := walkOut_same (ty := getRadixType 10 8 (hdrFlags3 w)) (x0 := s.nextRadixInsn) hw hwn h4
  unfold effRadix
  have e : (hdrOut magic QTWRITER_VERSION r w s).nextRadixInsn =
    walkOut w (getRadixType 10 8 (hdrFlags3 w)) r.radixInsn s.nextRadixInsn := rfl
  rw [e, if_pos (by rw [this.1]; exact h)]
  exact this

theorem sim_walks (r : Record) (rs : List Record) (s : RState) (hI0 : WalkInv s r) (h : ∀ x ∈ r :: rs, RecordOk x)
    (h4 : ∀ x ∈ r :: rs, FourIfSingle x.radixInsn ∧ FourIfSingle x.radixData) (hs : Chain WalkStep (r :: rs)) (i : Nat) (a : Record)
    (ha : (r :: rs)[i]? = some a) :
    ∃ o, (sim s r (rs ++ [closer (lastOf r rs)])).1[i]? = some o ∧ WalksTold (r :: rs) i a o := by
  let Good (a : Record) : Prop := RecordOk a ∧ FourIfSingle a.radixInsn ∧ FourIfSingle a.radixData
  have hgood : ∀ x ∈ r :: rs, Good x := fun x hx => ⟨h x hx, h4 x hx⟩
  have hlift : ∀ (R : Record → Record → Prop) (l : List Record), (∀ x ∈ l, Good x) →
      Chain WalkStep l → (∀ a b, Good a → Good b → WalkStep a b → R a b) → Chain R l := by
    intro R l
    induction l with
    | nil => intros; trivial
    | cons a l ih =>
      cases l with
      | nil => intros; trivial
      | cons b l =>
        intro hg hc hR
        exact ⟨hR a b (hg a (by simp)) (hg b (by simp)) hc.1,
          ih (fun x hx => hg x (by simp [hx])) hc.2 hR⟩
  have hgl : Good (lastOf r rs) :=
    hgood _ (List.mem_of_getElem? (lastOf_getElem? rs r))
  obtain ⟨o, b, h1, h2, h3⟩ := sim_forall WalkInv
    (fun a b => Good b ∧ WalkStep a b)
    (fun a b => Good a ∧ RecordOk b)
    (fun a b o =>
      (a.dataRaValid = true → ¬ NoWalk a.radixData → SameWalk a.radixData o.radixData) ∧
      (a.dataRaValid = true → NoWalk a.radixData → NoWalk o.radixData) ∧
      (a.dataRaValid = false → NoWalk o.radixData) ∧
      (a.insnRaValid = true → ¬ NoWalk a.radixInsn → SameWalk a.radixInsn o.radixInsn) ∧
      (a.dataRaValid = true → Single a.radixData →
        (Jumps a b → b.insnRaValid = true → Single b.radixInsn →
          b.radixInsn.type = a.radixData.type) → o.radixData.type = a.radixData.type))
    (by
      intro s a b hI ⟨⟨hok, hf1, hf2⟩, hokb⟩
      unfold outOf
      rw [recOut_rcd]
      have ed := dwOf_eq hok
      refine ⟨?_, ?_, ?_, ?_, ?_⟩
      · intro hv hn
        obtain ⟨w, e, a1, _⟩ := radixWalk_of_ok (hok.2.2 hv)
        rw [hv] at ed
        obtain rfl : w = dwOf a := WRes.ok.inj (e.symm.trans ed)
        simp only [dataWalkOut, hv, if_true]
        exact walkOut_same e (fun h => hn (a1.mp h)) hf2
      · intro hv hn
        obtain ⟨w, e, a1, _⟩ := radixWalk_of_ok (hok.2.2 hv)
        rw [hv] at ed
        obtain rfl : w = dwOf a := WRes.ok.inj (e.symm.trans ed)
        simp only [dataWalkOut, hv, if_true, a1.mpr hn]
        rfl
      · intro hv; simp only [dataWalkOut, hv, Bool.false_eq_true, if_false]; rfl
      · intro hv hn
        have := hI hv hn
        have hne : (effRadix s).nrPtes ≠ 0 := by rw [this.1]; exact hn
        simp only
        unfold effRadix at this hne
        split
        · rename_i h0; rwa [if_pos h0] at this
        · rename_i h0
          rw [if_neg h0] at this hne
          rw [if_pos hne]; exact this
      · intro hv hsg htype
        exact dataWalk_type hok hokb hv hsg htype)
    (by intro s a b hI ⟨⟨p1, p2, _⟩, p3⟩; exact hI.step p1 p2 p3)
    (closer (lastOf r rs)) rs r s hI0
    (hlift _ _ hgood hs (fun a b ga gb t => ⟨gb, t⟩))
    (hlift _ _ hgood hs (fun a b ga gb _ => ⟨ga, gb.1⟩))
    ⟨hgl, closer_ok _⟩ i a ha
  refine ⟨o, h1, h3.1, h3.2.1, h3.2.2.1, h3.2.2.2.1, ?_⟩
  intro hv hsg hty
  refine h3.2.2.2.2 hv hsg ?_
  rcases succ_of ha h2 with ⟨n, hn, rfl⟩ | ⟨hn, rfl⟩
  · exact hty b hn
  · intro _ hc; simp [closer, Record.zero] at hc

theorem parts_walks : ∀ (ts : List (BitVec 32 × List Record)) (s : RState), (∀ t ∈ ts, Expressible t.2) →
    (∀ t ∈ ts, (∀ r ∈ t.2, FourIfSingle r.radixInsn ∧ FourIfSingle r.radixData) ∧ Chain WalkStep t.2) →
    ∀ (j : Nat) (t : BitVec 32 × List Record) (part : List Record), ts[j]? = some t → (parts s ts)[j]? = some part →
      ∀ (i : Nat) (r : Record), t.2[i]? = some r → ∃ o, part[i]? = some o ∧ WalksTold t.2 i r o
  | [], _, _, _ => by simp
  | (magic, rs) :: ts, s, hx, h4 => by
    intro j t part hj hp i r hr
    cases j with
    | zero =>
      cases hj
      cases hp
      cases rs with
      | nil => simp at hr
      | cons q qs =>
        have hE := hx (magic, q :: qs) (by simp)
        obtain ⟨h5, hS⟩ := h4 (magic, q :: qs) (by simp)
        obtain ⟨w, _, hw, _, hn⟩ := headerBytes_total (magic := magic) (version := QTWRITER_VERSION) (hE.1 q (by simp)) (hE.2.2 q rfl).2
        have hb0 : behind magic s (q :: qs) = sim (hdrOut magic QTWRITER_VERSION q w s) q (qs ++ [closer (lastOf q qs)]) := by
          unfold behind
          dsimp only
          rw [hw]
        rw [hb0]
        exact sim_walks q qs _ (WalkInv.header magic hw hn (h5 q (by simp)).1) hE.1 h5 hS i r hr
    | succ j =>
      exact parts_walks ts _ (fun t h => hx t (by simp [h])) (fun t h => h4 t (by simp [h])) j t part (by simpa using hj)
        (by simpa [parts] using hp) i r hr

/-- C127. If in each of the traces single walks have four entries and walks of instructions change only where control jumps, the walks
are those of the traces. -/
theorem C127_walks_partial (magic : BitVec 32) (rs : List Record) (ts : List (BitVec 32 × List Record))
    (hx : ∀ t ∈ (magic, rs) :: ts, Expressible t.2) (hc : Chain (fun t _ => EndsWhole t.2) ((magic, rs) :: ts))
    (h4 : ∀ t ∈ (magic, rs) :: ts, (∀ r ∈ t.2, FourIfSingle r.radixInsn ∧ FourIfSingle r.radixData) ∧ Chain WalkStep t.2) :
    ∃ file, joined ((magic, rs) :: ts) = .ok file ∧ ∀ beyond, ∃ ps : List (List Record),
      (readTrace { bytes := file, beyond := beyond } false false).records = ps.flatten ∧
      ∀ (j : Nat) (t : BitVec 32 × List Record), ((magic, rs) :: ts)[j]? = some t → ∃ part, ps[j]? = some part ∧
        ToldAlone t.2 part ∧ ∀ (i : Nat) (r : Record), t.2[i]? = some r → ∃ o, part[i]? = some o ∧ WalksTold t.2 i r o := by
  obtain ⟨file, e, H⟩ := joined_file magic rs ts hx hc
  refine ⟨file, e, fun beyond => ⟨parts RState.initial ((magic, rs) :: ts), ?_⟩⟩
  obtain ⟨k1, _, k3⟩ := H beyond
  refine ⟨k1, fun j t hj => ?_⟩
  obtain ⟨part, l1, l2⟩ := k3 j t hj
  exact ⟨part, l1, l2, parts_walks _ _ hx h4 j t part hj l1⟩

/-- Two traces with nested walks meet the hypotheses. -/
example :
    let one : List Record :=
      [ { insn := 0x4E800020, insnAddr := 0x10004, insnRaValid := true, insnRa := 0x7650004,
          radixInsn := { nrPtes := 4, nrWalks := 5, hostPtes := fun i j => BitVec.ofNat 64 (8 * i + j) },
          dataAddrValid := true, dataAddr := 0x2008, dataRaValid := true, dataRa := 0x9008,
          radixData := { nrPtes := 3, nrWalks := 2, hostRas := fun _ => 7 }},
        { insn := 0x60000000, insnAddr := 0x3000, insnRaValid := true, insnRa := 0x8883000,
          radixInsn := { nrPtes := 2, nrWalks := 4 } } ]
    let two : List Record := [{ insn := 0x60000000, insnAddr := 0x40000, insnRaValid := true, insnRa := 0xC0000 }]
    let ts : List (BitVec 32 × List Record) := [(1, one), (2, two)]
    (∀ t ∈ ts, Expressible t.2) ∧ Chain (fun t _ => EndsWhole t.2) ts ∧
    (∀ t ∈ ts, (∀ r ∈ t.2, FourIfSingle r.radixInsn ∧ FourIfSingle r.radixData) ∧ Chain WalkStep t.2) := by
  simp [Expressible, RecordOk, ShiftsOk, WalkOk, Chain, StepOk, Jumps, NoWalk, FourIfSingle, Single, Nested,
    WalkStep, WalksCompatible, EndsWhole, IsPrefix]

end Qt
