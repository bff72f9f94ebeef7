import Verif.Dis.VerboseLemmas

/-! # C95: the verbose listing -/

namespace Dis
open Qt DisSpec
open Qt.Spec hiding IsPrefix

theorem own_of {x : Shown} (h1 : x.rcd.dataRaValid = x.st.dataRpnValid) (h2 : x.st.dataRpnValid = true → x.rcd.dataRa = dataReal ⟨x.st, x.rcd⟩)
    (hp : x.rcd.dataRaValid = true → pageShift x.rcd.dataPageShiftValid x.rcd.dataPageShift ≤ 32) : Own (remarks x) x.rcd := by
  refine ⟨?_, ?_, ?_, ?_, ?_, ?_, ?_⟩
  · intro a; simp [remarks, mem_noteIf]
  · intro v
    have e : Remark.dataRpn v ∈ remarks x ↔ x.st.dataRpnValid = true ∧ v = x.st.dataRpn := by simp [remarks, mem_noteIf]
    rw [e, ← h1]
    refine and_congr_right fun hv => ?_
    have hs : (if x.rcd.dataPageShiftValid then x.rcd.dataPageShift % 256 else 16) = pageShift x.rcd.dataPageShiftValid x.rcd.dataPageShift := by
      have := hp hv
      unfold pageShift at this ⊢
      cases hc : x.rcd.dataPageShiftValid with
      | false => rfl
      | true =>
        rw [hc] at this
        have : x.rcd.dataPageShift ≤ 32 := this
        show x.rcd.dataPageShift % 256 = x.rcd.dataPageShift
        omega
    rw [h2 (h1 ▸ hv)]
    unfold dataReal
    dsimp only
    rw [hs, pageNumber_raOf _ (hp hv)]
  · intro w hw
    have e : x.rcd.radixData.nrPtes ≠ 0 ∧ w = rows x.rcd.radixData := by simpa [remarks, mem_noteIf] using hw
    rw [e.2]
    exact ⟨e.1, isWalk_rows _⟩
  · intro hn
    exact ⟨rows x.rcd.radixData, by simp [remarks, mem_noteIf, hn]⟩
  · intro n; simp [remarks, mem_noteIf]
  · intro n; simp [remarks, mem_noteIf]
  · intro a b; simp [remarks, mem_noteIf]

theorem marked_of {x : Shown} (h : x.rcd.radixData.nrPtes ≠ 0 → x.st.dataRpnValid = true) : marked x = true ↔ remarks x ≠ [] := by
  unfold marked remarks noteIf
  by_cases hn : x.rcd.radixData.nrPtes = 0
  · cases x.rcd.dataAddrValid <;> cases x.st.dataRpnValid <;> cases x.st.nextInsnRpnValid <;> cases x.rcd.nodeValid <;> cases x.rcd.branch <;>
      cases x.rcd.dataPageShiftValid <;> cases x.st.nextInsnPageShiftValid <;> simp [hn]
  · rw [h hn]
    simp

/-- **C95**, the remarks about an instruction itself: for every trace file that does not end within an instruction, and has data pages of 4 GiB
at most, the verbose listing has for every instruction the address of its data, the number and the size of the page, all entries of its walk, the
node and the termination codes of the first of its records, and nothing else of that kind; the remarks are marked as such exactly if there are any. -/
theorem C95_own_partial (m : Mem) (h : Complete (readTrace m false false).records)
    (hp : ∀ r ∈ (readTrace m false false).records, r.dataRaValid = true → pageShift r.dataPageShiftValid r.dataPageShift ≤ 32) :
    (list m).shown.length = (instructions (readTrace m false false).records).length ∧
    ∀ (i : Nat) (x : Shown) (y : Record × Option Record), (list m).shown[i]? = some x →
      (instructions (readTrace m false false).records)[i]? = some y → Own (remarks x) y.1 ∧ (marked x = true ↔ remarks x ≠ []) := by
  obtain ⟨-, e, -, F⟩ := list_expected m h
  have hlen := congrArg List.length e
  rw [List.length_map, List.length_map] at hlen
  refine ⟨hlen, fun i x y hx hy => ?_⟩
  have ex : x.rcd = y.1 := by
    have := congrArg (fun l => l[i]?) e
    simp only [List.getElem?_map, hx, hy, Option.map_some] at this
    exact Option.some.inj this
  obtain ⟨s', hb, ht, hn⟩ := F x (List.mem_of_getElem? hx)
  obtain ⟨d1, d2⟩ := nextRecord_data hn hb ht
  have d3 := nextRecord_walk hn hb ht
  have hmem : ∀ (l : List Record) (y : Record × Option Record), y ∈ instructions l → y.1 ∈ l := by
    intro l
    induction l using instructions.induct with
    | case1 => intro y hy; cases hy
    | case2 r => intro y hy; cases List.mem_singleton.1 hy; exact List.mem_cons_self ..
    | case3 r s rest hpre ih =>
      intro y hy
      rw [instructions_prefix _ _ _ hpre] at hy
      rcases List.mem_cons.1 hy with rfl | hy
      · exact List.mem_cons_self ..
      · exact List.mem_cons_of_mem _ (List.mem_cons_of_mem _ (ih y hy))
    | case4 r s rest hpre ih =>
      intro y hy
      rw [instructions_plain _ _ hpre] at hy
      rcases List.mem_cons.1 hy with rfl | hy
      · exact List.mem_cons_self ..
      · exact List.mem_cons_of_mem _ (ih y hy)
  rw [← ex]
  refine ⟨own_of d1 d2 fun hv => hp _ ?_ hv, marked_of d3⟩
  rw [ex]
  exact hmem _ _ (List.mem_of_getElem? hy)

/-! ## The instruction that follows -/

theorem next_of {s : RState} {a b : Record} {dw iw : Walk} {p : Nat} {r : Record} {ea : BitVec 64} (hb : ShiftsOk b) :
    Next (remarks ⟨(recOut s a b dw iw).st.at p, r, ea⟩) a b ∧
    (¬ Jumps a b → NoNext (remarks ⟨(recOut s a b dw iw).st.at p, r, ea⟩)) := by
  have v1 : ((recOut s a b dw iw).st.at p).nextInsnRpnValid = (b.insnRaValid && iarChange a b) := by
    show (recOut s a b dw iw).st.nextInsnRpnValid = _
    rw [recOut_st]
  have v2 : ((recOut s a b dw iw).st.at p).nextInsnPageShiftValid = (b.insnPageShiftValid && iarChange a b) := by
    show (recOut s a b dw iw).st.nextInsnPageShiftValid = _
    rw [recOut_st]
  have w1 : (b.insnRaValid && iarChange a b) = true → ((recOut s a b dw iw).st.at p).nextInsnRpn = rpnOf b.insnRa b.insnPageShiftValid b.insnPageShift := by
    intro h
    show (recOut s a b dw iw).st.nextInsnRpn = _
    rw [recOut_st]
    dsimp only
    rw [if_pos h]
  have w2 : (b.insnPageShiftValid && iarChange a b) = true → ((recOut s a b dw iw).st.at p).nextInsnPageShift = b.insnPageShift := by
    intro h
    show (recOut s a b dw iw).st.nextInsnPageShift = _
    rw [recOut_st]
    dsimp only
    rw [if_pos h]
  generalize (recOut s a b dw iw).st.at p = st at v1 v2 w1 w2
  have hn : rpnOf b.insnRa b.insnPageShiftValid b.insnPageShift = pageNumber b.insnRa (pageShift b.insnPageShiftValid b.insnPageShift) := by
    have hs : shiftOr16 b.insnPageShiftValid b.insnPageShift = pageShift b.insnPageShiftValid b.insnPageShift := by
      unfold shiftOr16 pageShift
      cases hc : b.insnPageShiftValid with
      | false => rfl
      | true =>
        have := hb.1 hc
        show b.insnPageShift % 256 = b.insnPageShift
        omega
    unfold rpnOf pageNumber
    rw [hs]
    apply BitVec.eq_of_toNat_eq
    rw [BitVec.toNat_ofNat, BitVec.toNat_setWidth, BitVec.toNat_ushiftRight, Nat.shiftRight_eq_div_pow]
  have m1 : ∀ v, Remark.insnRpn v ∈ remarks ⟨st, r, ea⟩ ↔ st.nextInsnRpnValid = true ∧ v = st.nextInsnRpn := by
    intro v; simp [remarks, mem_noteIf]
  have m2 : ∀ n, Remark.insnSize n ∈ remarks ⟨st, r, ea⟩ ↔ st.nextInsnPageShiftValid = true ∧ n = st.nextInsnPageShift := by
    intro v; simp [remarks, mem_noteIf]
  have m3 : ∀ w, Remark.insnWalk w ∈ remarks ⟨st, r, ea⟩ → st.nextInsnRpnValid = true := by
    intro w hw
    have : (st.nextInsnRpnValid = true ∧ ¬ st.radixInsn.nrPtes = 0) ∧ w = rows st.radixInsn := by simpa [remarks, mem_noteIf] using hw
    exact this.1.1
  refine ⟨⟨fun v => ?_, fun n => ?_⟩, fun hj => ⟨fun v hv => ?_, fun w hw => ?_, fun n hn => ?_⟩⟩
  · rw [m1, v1, Bool.and_eq_true, iarChange_iff]
    constructor
    · rintro ⟨⟨g1, g2⟩, rfl⟩
      exact ⟨g2, g1, by rw [w1 (by rw [g1, iarChange_iff.2 g2]; rfl), hn]⟩
    · rintro ⟨g2, g1, rfl⟩
      exact ⟨⟨g1, g2⟩, by rw [w1 (by rw [g1, iarChange_iff.2 g2]; rfl), hn]⟩
  · rw [m2, v2, Bool.and_eq_true, iarChange_iff]
    constructor
    · rintro ⟨⟨g1, g2⟩, rfl⟩
      exact ⟨g2, g1, w2 (by rw [g1, iarChange_iff.2 g2]; rfl)⟩
    · rintro ⟨g2, g1, rfl⟩
      exact ⟨⟨g1, g2⟩, (w2 (by rw [g1, iarChange_iff.2 g2]; rfl)).symm⟩
  · have := (m1 v).1 hv
    rw [v1, Bool.and_eq_true, iarChange_iff] at this
    exact hj this.1.2
  · have := m3 w hw
    rw [v1, Bool.and_eq_true, iarChange_iff] at this
    exact hj this.2
  · have := (m2 n).1 hn
    rw [v2, Bool.and_eq_true, iarChange_iff] at this
    exact hj this.1.2

/-- What is said about the instruction that follows. -/
def Told (x : Shown) (y : Record × Option Record) : Prop :=
  match y.2 with
  | some b => Next (remarks x) y.1 b ∧ (¬ Jumps y.1 b → NoNext (remarks x))
  | none => NoNext (remarks x)

theorem followed_prefix (r s : Record) (rest) (h : IsPrefix r.insn) : followed (r :: s :: rest) = (r, some s) :: followed rest := by
  simp [followed, h]

theorem followed_plain (r s : Record) (rest) (h : ¬ IsPrefix r.insn) : followed (r :: s :: rest) = (r, some s) :: followed (s :: rest) := by
  simp [followed, h]

theorem loop_end {m : Mem} {s : RState} {fuel : Nat} {ea : BitVec 64} (R : Ready s) (h : m.bytes.length ≤ s.pos) : (loop m fuel ea s).shown = [] := by
  cases fuel with
  | zero => rfl
  | succ fuel =>
    obtain ⟨c, hc⟩ := nextRecord_end R h
    simp [loop, hc]

theorem step_one {m : Mem} {s : RState} {p : Nat} {prev r : Record} {l : List Record} {b : Bytes} (hb : bodyBytes prev (r :: l) = .ok b)
    (hS : Steps prev (r :: l)) (R : Ready s) (hv : prev.insn = 0 → s.prefixed = true) (h : m.bytes.drop p = b) :
    ∃ (s' : RState) (q : Nat) (o : Record) (b' : Bytes), nextRecord m (s.at p) = .ok () ⟨s'.at q, o⟩ ∧ s' = (recOut s prev r (dwOf prev) (iwOf prev r)).st ∧
      Ready s' ∧ bodyBytes r l = .ok b' ∧ Steps r l ∧ m.bytes.drop q = b' ∧ (s'.prefixed = true ↔ IsPrefix prev.insn) ∧
      (l ≠ [] → r.insn = 0 → s'.prefixed = true) ∧ ShiftsOk r := by
  obtain ⟨hI, hz, hS⟩ := hS
  obtain ⟨b1, hb1, hb⟩ := WRes.bind_ok hb
  obtain ⟨b2, hb2, hb⟩ := WRes.bind_ok hb
  obtain rfl : b1 ++ b2 = b := WRes.ok.inj hb
  have h1 := nextRecord_step hI R hb1 hv h
  have hpre : (recOut s prev r (dwOf prev) (iwOf prev r)).st.prefixed = (prev.insn >>> 26 == 1) := by rw [recOut_st]
  refine ⟨_, p + b1.length, _, b2, h1, rfl, R.step hI.curShift, hb2, hS, drop_after h, ?_, ?_, hI.curShift⟩
  · rw [hpre, isPrefix_iff]; simp
  · intro h1 h2; rw [hpre, hz h1 h2]; rfl

theorem loop_told (m : Mem) (c : Record) : ∀ (n : Nat) (rs : List Record) (prev : Record) (s : RState) (p fuel : Nat) (ea : BitVec 64) (b : Bytes),
    rs.length ≤ n → c.insnAddr = (lastOf prev rs).insnAddr + 4 → bodyBytes prev (rs ++ [c]) = .ok b → Steps prev (rs ++ [c]) → Ready s →
    (prev.insn = 0 → s.prefixed = true) → m.bytes.drop p = b → Complete (prev :: rs) →
    ∀ (i : Nat) (x : Shown), (loop m fuel ea (s.at p)).shown[i]? = some x → ∃ y, (followed (prev :: rs))[i]? = some y ∧ Told x y := by
  intro n
  induction n with
  | zero =>
    intro rs prev s p fuel ea b hn hcl hb hS R hv h hC i x hx
    obtain rfl : rs = [] := List.length_eq_zero_iff.1 (by omega)
    cases fuel with
    | zero => simp [loop] at hx
    | succ fuel =>
    obtain ⟨s', q, o, b', e, es, R', hb', -, h', hpre, -, hc⟩ := step_one hb hS R hv h
    obtain rfl : [] = b' := WRes.ok.inj hb'
    have np : ¬ s'.prefixed = true := by
      rw [hpre]; exact hC (prev, none) (by simp [instructions]) rfl
    have hend : (loop m fuel (s'.at q).nextInsnAddr (s'.at q)).shown = [] := loop_end (s := s'.at q) ⟨R'.1, R'.2, R'.3, R'.4⟩ (List.drop_eq_nil_iff.1 h')
    have el : (loop m (fuel + 1) ea (s.at p)).shown = [⟨s'.at q, o, ea⟩] := by
      rw [loop, e]
      dsimp only
      rw [if_neg (show ¬ (s'.at q).prefixed = true from np), hend]
    rw [el] at hx
    cases i with
    | succ i => simp at hx
    | zero =>
      obtain rfl := Option.some.inj hx
      refine ⟨(prev, none), rfl, ?_⟩
      subst es
      exact (next_of hc).2 (by unfold Jumps; rw [hcl]; simp [lastOf])
  | succ n ih =>
    intro rs prev s p fuel ea b hn hcl hb hS R hv h hC i x hx
    cases rs with
    | nil =>
      exact ih [] prev s p fuel ea b (Nat.zero_le _) hcl hb hS R hv h hC i x hx
    | cons r rs =>
    cases fuel with
    | zero => simp [loop] at hx
    | succ fuel =>
    obtain ⟨s', q, o, b', e, es, R', hb', hS', h', hpre, hv', hc⟩ := step_one (l := rs ++ [c]) hb hS R hv h
    have told : Told ⟨s'.at q, o, ea⟩ (prev, some r) := by
      subst es
      exact next_of hc
    by_cases pr : IsPrefix prev.insn
    · have hp : (s'.at q).prefixed = true := hpre.2 pr
      rw [followed_prefix _ _ _ pr]
      cases rs with
      | nil =>
        obtain ⟨s2, q2, o2, b2, e2, -, R2, hb2, -, h2, -, -, -⟩ := step_one hb' hS' R' (hv' (by simp)) h'
        obtain rfl : [] = b2 := WRes.ok.inj hb2
        have hend : (loop m fuel (s2.at q2).nextInsnAddr (s2.at q2)).shown = [] :=
          loop_end (s := s2.at q2) ⟨R2.1, R2.2, R2.3, R2.4⟩ (List.drop_eq_nil_iff.1 h2)
        have el : (loop m (fuel + 1) ea (s.at p)).shown = [⟨s'.at q, o, ea⟩] := by
          rw [loop, e]
          dsimp only
          rw [if_pos hp, e2]
          dsimp only
          rw [hend]
        rw [el] at hx
        cases i with
        | succ i => simp at hx
        | zero =>
          obtain rfl := Option.some.inj hx
          exact ⟨_, rfl, told⟩
      | cons r2 rest =>
        obtain ⟨s2, q2, o2, b2, e2, -, R2, hb2, hS2, h2, -, hv2, -⟩ := step_one (l := rest ++ [c]) hb' hS' R' (hv' (by simp)) h'
        have el : (loop m (fuel + 1) ea (s.at p)).shown = ⟨s'.at q, o, ea⟩ :: (loop m fuel (s2.at q2).nextInsnAddr (s2.at q2)).shown := by
          rw [loop, e]
          dsimp only
          rw [if_pos hp, e2]
        rw [el] at hx
        cases i with
        | zero =>
          obtain rfl := Option.some.inj hx
          exact ⟨_, rfl, told⟩
        | succ i =>
          have hC' : Complete (r2 :: rest) := by
            unfold Complete at hC ⊢
            rw [instructions_prefix _ _ _ pr] at hC
            exact fun y hy => hC y (List.mem_cons_of_mem _ hy)
          exact ih rest r2 s2 q2 fuel _ b2 (by simp only [List.length_cons] at hn; omega) hcl hb2 hS2 R2 (hv2 (by simp)) h2 hC' i x hx
    · have hp : ¬ (s'.at q).prefixed = true := fun h => pr (hpre.1 h)
      rw [followed_plain _ _ _ pr]
      have el : (loop m (fuel + 1) ea (s.at p)).shown = ⟨s'.at q, o, ea⟩ :: (loop m fuel (s'.at q).nextInsnAddr (s'.at q)).shown := by
        rw [loop, e]
        dsimp only
        rw [if_neg hp]
      rw [el] at hx
      cases i with
      | zero =>
        obtain rfl := Option.some.inj hx
        exact ⟨_, rfl, told⟩
      | succ i =>
        have hC' : Complete (r :: rs) := by
          unfold Complete at hC ⊢
          rw [instructions_plain _ _ pr] at hC
          exact fun y hy => hC y (List.mem_cons_of_mem _ hy)
        exact ih rs r s' q fuel _ b' (by simp only [List.length_cons] at hn; omega) hcl hb' hS' R' (hv' (by simp)) h' hC' i x hx

theorem list_told (magic : BitVec 32) (r : Record) (rs : List Record) (H : Expressible (r :: rs)) (hC : Complete (r :: rs)) {file : Bytes}
    (e : writeTrace magic (r :: rs) = .ok file) (beyond : Nat → Byte) (i : Nat) (x : Shown)
    (hx : (list { bytes := file, beyond := beyond }).shown[i]? = some x) : ∃ y, (followed (r :: rs))[i]? = some y ∧ Told x y := by
  obtain ⟨hR, hCh, hH⟩ := H
  have hr := hR r (by simp)
  have hrs : ∀ x ∈ rs, RecordOk x := fun x hx => hR x (by simp [hx])
  have hlast : RecordOk (lastOf r rs) := by
    have : ∀ (rs : List Record) (r : Record), RecordOk r → (∀ x ∈ rs, RecordOk x) → RecordOk (lastOf r rs) := by
      intro rs
      induction rs with
      | nil => intro r h _; exact h
      | cons a l ih => intro r _ h; exact ih a (h a (by simp)) (fun x hx => h x (by simp [hx]))
    exact this rs r hr hrs
  obtain ⟨hz, hnw⟩ := hH r rfl
  obtain ⟨w, h, hw, hh, hn⟩ := headerBytes_total (magic := magic) (version := QTWRITER_VERSION) hr hnw
  obtain ⟨b, hb⟩ := bodyBytes_total rs r hr hrs
  obtain ⟨b', hb'⟩ := recordBytes_total hlast (closer_ok (lastOf r rs))
  rw [writeTrace_cons hh hb hb'] at e
  obtain rfl := WRes.ok.inj e
  have e := parseHeader_reads (m := { bytes := h ++ (b ++ b'), beyond := beyond })
    (c := { st := .initial, rcd := .zero }) hh hw hr.1 hn 0 (b ++ b') rfl
  have e' : readerInit { bytes := h ++ (b ++ b'), beyond := beyond } = .ok ()
      (({ st := startState magic r w, rcd := .zero } : Ctx).at h.length) := by
    have := e
    simp only [Nat.zero_add] at this
    exact this
  have hbody := bodyBytes_append rs r _ b b' hb hb'
  have hsteps := steps_of rs r _ hr hrs hCh (closer_ok _) (closer_pair _)
  unfold list at hx
  rw [e'] at hx
  refine loop_told _ (closer (lastOf r rs)) rs.length rs r (startState magic r w) h.length _ _ (b ++ b') (Nat.le_refl _) rfl hbody hsteps
    (startState_ready hr.1) (fun h0 => absurd h0 hz) ?_ hC i x hx
  show (h ++ (b ++ b')).drop h.length = _
  simp

theorem followed_length (l : List Record) : (followed l).length = (instructions l).length := by
  induction l using instructions.induct with
  | case1 => rfl
  | case2 r => rfl
  | case3 r s rest hpre ih => rw [followed_prefix _ _ _ hpre, instructions_prefix _ _ _ hpre, List.length_cons, List.length_cons, ih]
  | case4 r s rest hpre ih => rw [followed_plain _ _ _ hpre, instructions_plain _ _ hpre, List.length_cons, List.length_cons, ih]

/-- **C95**, the remarks about the instruction that follows, for the traces the writer makes: they give the number and the size of the page of the
record behind the first one of the instruction, exactly if it is jumped to and has them; nothing is said about another instruction otherwise. -/
theorem C95_next_partial (magic : BitVec 32) (rs : List Record) (h : Expressible rs) (hc : Complete rs) :
    ∃ file, writeTrace magic rs = .ok file ∧ ∀ beyond,
      (list { bytes := file, beyond := beyond }).shown.length = (followed rs).length ∧
      ∀ (i : Nat) (x : Shown), (list { bytes := file, beyond := beyond }).shown[i]? = some x → ∃ a n, (followed rs)[i]? = some (a, n) ∧
        (∀ b, n = some b → Next (remarks x) a b ∧ (¬ Jumps a b → NoNext (remarks x))) ∧ (n = none → NoNext (remarks x)) := by
  obtain ⟨file, hw, H⟩ := C01_roundtrip_partial magic rs h
  refine ⟨file, hw, fun beyond => ?_⟩
  have H1 := (H beyond).1
  have hi : (readTrace { bytes := file, beyond := beyond } false false).records.map (·.insn) = rs.map (·.insn) := by
    have := congrArg (List.map Prod.fst) H1
    rw [List.map_map, List.map_map] at this
    exact this
  obtain ⟨hm, hC⟩ := instructions_map (fun r => (r.insn, r.insnAddr)) _ _ rs (Nat.le_refl _) hi H1
  obtain ⟨-, e, -, -⟩ := list_expected { bytes := file, beyond := beyond } (hC hc)
  have hlen : (list { bytes := file, beyond := beyond }).shown.length = (followed rs).length := by
    have l1 := congrArg List.length e
    have l2 := congrArg List.length hm
    simp only [List.length_map] at l1 l2
    rw [followed_length, l1, l2]
  refine ⟨hlen, fun i x hx => ?_⟩
  cases rs with
  | nil =>
    rw [List.eq_nil_of_length_eq_zero hlen] at hx
    cases hx
  | cons r rs =>
    obtain ⟨⟨a, n⟩, hy, ht⟩ := list_told magic r rs h hc hw beyond i x hx
    refine ⟨a, n, hy, ?_, ?_⟩
    · rintro b rfl; exact ht
    · rintro rfl; exact ht

/-- A prefixed instruction, and one that loads, with a walk, and jumps. -/
def exVerbose : List Record :=
  [ { insn := 0x04000000, insnAddr := 0x1000 }, { insn := 0xe4610010, insnAddr := 0x1004 },
    { insn := 0x4E800020, insnAddr := 0x1008, insnRaValid := true, insnRa := 0x7650008, branch := true,
      dataAddrValid := true, dataAddr := 0x2008, dataRaValid := true, dataRa := 0x9008, radixData := { nrPtes := 3, nrWalks := 2, hostRas := fun _ => 7 }},
    { insn := 0x60000000, insnAddr := 0x3000, insnRaValid := true, insnRa := 0x8883000, insnPageShiftValid := true, insnPageShift := 12,
      radixInsn := { nrPtes := 2, nrWalks := 4 } } ]

example : Expressible exVerbose ∧ Complete exVerbose := by
  refine ⟨?_, ?_⟩
  · simp [exVerbose, Expressible, RecordOk, ShiftsOk, WalkOk, Chain, NoWalk, StepOk, Jumps, Spec.IsPrefix, WalksCompatible, Nested, Single]
  · simp [exVerbose, Complete, instructions, DisSpec.IsPrefix]

theorem wres_of {α} {X : WRes α} {f : α → Bool} (h : (match X with | .ok a => f a | _ => false) = true) : ∃ a, X = .ok a ∧ f a = true := by
  cases X with
  | ok a => exact ⟨a, rfl, h⟩
  | abort => cases h
  | ub => cases h

/-- What is said about it: nothing of the walk of the instruction that is jumped to. -/
theorem exVerbose_file : ∃ file, writeTrace 0 exVerbose = .ok file ∧ ((list { bytes := file, beyond := fun _ => 0 }).shown.map remarks ==
      [[],
       [.dataAddr 0x2008, .dataRpn 0, .dataWalk [⟨0, [0, 0, 0], some 7⟩, ⟨0, [0, 0, 0], none⟩], .insnRpn 0x8883, .insnSize 12, .node 0, .term 0 0x08],
       []]) = true :=
  wres_of (by decide +kernel)

/-- That file is one that `C95_own_partial` is about. -/
example : ∃ file, writeTrace 0 exVerbose = .ok file ∧ Complete (readTrace { bytes := file, beyond := fun _ => 0 } false false).records ∧
    ∀ r ∈ (readTrace { bytes := file, beyond := fun _ => 0 } false false).records, r.dataRaValid = true →
      pageShift r.dataPageShiftValid r.dataPageShift ≤ 32 := by
  obtain ⟨file, hw, hf⟩ := wres_of (X := writeTrace 0 exVerbose)
    (f := fun file => ((instructions (readTrace { bytes := file, beyond := fun _ => 0 } false false).records).all fun x =>
        x.2.isSome || !decide (DisSpec.IsPrefix x.1.insn)) &&
      (readTrace { bytes := file, beyond := fun _ => 0 } false false).records.all fun r =>
        decide (pageShift r.dataPageShiftValid r.dataPageShift ≤ 32)) (by decide +kernel)
  obtain ⟨h1, h2⟩ := (Bool.and_eq_true _ _).mp hf
  refine ⟨file, hw, fun x hx hn => ?_, fun r hr _ => of_decide_eq_true (List.all_eq_true.1 h2 r hr)⟩
  have := List.all_eq_true.1 h1 x hx
  rw [hn] at this
  simpa using this

/-- An instruction reached with a walk of five by four entries, that jumps to one reached with four by two. -/
def exWalks : List Record :=
  [ { insn := 0x4E800020, insnAddr := 0x10004, insnRaValid := true, insnRa := 0x7650004, branch := true,
      radixInsn := { nrPtes := 4, nrWalks := 5, hostPtes := fun i j => BitVec.ofNat 64 (8 * i + j) } },
    { insn := 0x60000000, insnAddr := 0x3000, insnRaValid := true, insnRa := 0x8883000, radixInsn := { nrPtes := 2, nrWalks := 4 } } ]

/-- **C95** fails for the walks of instructions: behind the page of the instruction that is jumped to comes the walk of the one that jumps. -/
theorem C95_walk_refuted : ¬ ∀ (magic : BitVec 32) (rs : List Record) (file : Bytes) (beyond : Nat → Byte) (i : Nat) (x : Shown) (a b : Record),
    Expressible rs → Complete rs → writeTrace magic rs = .ok file → (list { bytes := file, beyond := beyond }).shown[i]? = some x →
    (followed rs)[i]? = some (a, some b) → ∀ w, .insnWalk w ∈ remarks x → IsWalk w b.radixInsn := by
  intro h
  obtain ⟨file, hw, hf⟩ := wres_of (X := writeTrace 0 exWalks)
    (f := fun file => ((list { bytes := file, beyond := fun _ => 0 }).shown[0]?.map fun x => (remarks x).any fun
      | .insnWalk w => w.length == 5
      | _ => false) == some true) (by decide +kernel)
  cases hx : (list { bytes := file, beyond := fun _ => 0 }).shown[0]? with
  | none => rw [hx] at hf; cases hf
  | some x =>
    rw [hx] at hf
    have hf := Option.some.inj (eq_of_beq hf)
    obtain ⟨r, hr, hl⟩ := List.any_eq_true.1 hf
    have E : Expressible exWalks := by
      simp [exWalks, Expressible, RecordOk, ShiftsOk, WalkOk, Chain, NoWalk, StepOk, Jumps, WalksCompatible]
    have C : Complete exWalks := by simp [exWalks, Complete, instructions, DisSpec.IsPrefix]
    have := h 0 exWalks file (fun _ => 0) 0 x _ _ E C hw hx rfl
    cases r with
    | insnWalk w =>
      have l1 := (this w hr).length
      have l2 : w.length = 5 := eq_of_beq hl
      rw [l2] at l1
      cases l1
    | _ => cases hl

/-- A prefixed instruction in front of one that is not at the next address. -/
def exAfter : List Record :=
  [ { insn := 0x04000000, insnAddr := 0x1000 }, { insn := 0xe4610010, insnAddr := 0x1004 },
    { insn := 0x60000000, insnAddr := 0x3000, insnRaValid := true, insnRa := 0x8883000 } ]

/-- **C95** fails behind prefixed instructions: where the next instruction is in memory is not told. -/
theorem C95_after_refuted : ¬ ∀ (magic : BitVec 32) (rs : List Record) (file : Bytes) (beyond : Nat → Byte) (i : Nat) (a b : Record),
    Expressible rs → Complete rs → writeTrace magic rs = .ok file → rs[i]? = some a → rs[i + 1]? = some b → Jumps a b → b.insnRaValid = true →
    ∃ x ∈ (list { bytes := file, beyond := beyond }).shown, .insnRpn (pageNumber b.insnRa (pageShift b.insnPageShiftValid b.insnPageShift)) ∈ remarks x := by
  intro h
  obtain ⟨file, hw, hf⟩ := wres_of (X := writeTrace 0 exAfter)
    (f := fun file => (list { bytes := file, beyond := fun _ => 0 }).shown.all fun x => (remarks x).all fun
      | .insnRpn _ => false
      | _ => true) (by decide +kernel)
  have E : Expressible exAfter := by
    simp [exAfter, Expressible, RecordOk, ShiftsOk, WalkOk, Chain, NoWalk, StepOk, Jumps]
  have C : Complete exAfter := by simp [exAfter, Complete, instructions, DisSpec.IsPrefix]
  obtain ⟨x, hx, hr⟩ := h 0 exAfter file (fun _ => 0) 1 _ _ E C hw rfl rfl (by unfold Jumps; decide) rfl
  have := List.all_eq_true.1 (List.all_eq_true.1 hf x hx) _ hr
  cases this

end Dis
