import Verif.Qt.Copy
import Verif.Qt.CopyLemmas
import Verif.Qt.SpecCopy
import Verif.Qt.PropsRoundTrip
import Verif.Qt.PropsTranslation
import Verif.Qt.PropsFormat
/-
Property C113: a trace copied record by record.
-/
namespace Qt
open Spec

theorem chain_and {α} {P Q S : α → α → Prop} (h : ∀ a b, P a b → Q a b → S a b) : ∀ l : List α, Chain P l → Chain Q l → Chain S l
  | [], _, _ => trivial
  | [_], _, _ => trivial
  | a :: b :: l, hp, hq => ⟨h a b hp.1 hq.1, chain_and h (b :: l) hp.2 hq.2⟩

/-- Whatever the trace: what is read can be written again, if the walks and page sizes can. -/
theorem expressible_of_copyable (m : Mem) (h : Copyable (readTrace m false false).records) :
    Expressible (readTrace m false false).records := by
  obtain ⟨f1, f2, f3⟩ := readTrace_facts m
  exact ⟨h.1, chain_and (fun a b p q => ⟨p.1, q⟩) _ f1 h.2.1, fun r hr => ⟨f3 r hr, h.2.2 r hr⟩⟩

theorem copyLoop_eq (m : Mem) : ∀ fuel n s w file,
    (readLoop m fuel s).final = .fail →
    (writeAll w (readLoop m fuel s).records >>= fun w => writerClose w true) = .ok file →
    (∀ w' r, ∃ x, writeRecord w' r true = x ∧ ∀ b w'', x = .ok (b, w'') → b = true) →
    copyLoop m (fun _ => true) fuel n s w = .done file
  | 0, n, s, w, file, _, h, _ => by
    replace h : writerClose w true = .ok file := h
    unfold copyLoop copyEnd
    rw [h]
  | fuel + 1, n, s, w, file, hf, h, ht => by
    unfold copyLoop
    unfold readLoop at hf h
    cases hn : nextRecord m s with
    | err e c =>
      rw [hn] at hf h
      replace hf : e = .fail := hf
      subst hf
      replace h : writerClose w true = .ok file := h
      show copyEnd w true = _
      unfold copyEnd
      rw [h]
    | ok u c =>
      rw [hn] at hf h
      replace hf : (readLoop m fuel c.st).final = .fail := hf
      replace h : (writeAll w (c.rcd :: (readLoop m fuel c.st).records) >>= fun w => writerClose w true) = .ok file := h
      unfold writeAll at h
      obtain ⟨x, e, hx⟩ := ht w c.rcd
      rw [e] at h
      dsimp only
      rw [e]
      cases x with
      | abort => cases h
      | ub => cases h
      | ok p =>
        obtain ⟨b, w'⟩ := p
        obtain rfl := hx b w' rfl
        exact copyLoop_eq m fuel (n + 1) c.st w' file hf h ht

theorem writeRecord_true (w : WState) (r : Record) : ∃ x, writeRecord w r true = x ∧ ∀ b w'', x = .ok (b, w'') → b = true := by
  refine ⟨_, rfl, fun b w'' h => ?_⟩
  unfold writeRecord at h
  simp only [Bool.not_true, Bool.and_false, Bool.false_eq_true, if_false] at h
  split at h
  · obtain ⟨x, e, h⟩ := WRes.bind_ok h
    cases h; rfl
  · obtain ⟨x, e, h⟩ := WRes.bind_ok h
    cases h; rfl

/-- A trace that is read to the end and whose records can be written is copied. -/
theorem copyTrace_eq (m : Mem) (ho : ∃ c, readerInit m = .ok () c) (hf : (readTrace m false false).final = .fail) (file : Bytes)
    (hw : writeTrace 0 (readTrace m false false).records = .ok file) : copyTrace m (fun _ => true) = .done file := by
  obtain ⟨c, hc⟩ := ho
  unfold copyTrace
  have e : readTrace m false false = readLoop m (m.bytes.length + 1) { c.st with wantBranch := false, wantTlbie := false } := by
    unfold readTrace; rw [hc]
  have ew : { c.st with wantBranch := false, wantTlbie := false } = c.st := by
    have h := Comm.parseHeader m { st := .initial, rcd := .zero } (false, false)
    have h0 : ({ st := .initial, rcd := .zero } : Ctx).want (false, false) = { st := .initial, rcd := .zero } := rfl
    rw [h0] at h
    replace hc : parseHeader m { st := .initial, rcd := .zero } = .ok () c := hc
    rw [hc] at h
    have := (Out.ok.inj h).2
    exact (congrArg Ctx.st this).symm
  rw [ew] at e
  rw [e] at hf hw
  rw [hc]
  exact copyLoop_eq m _ 0 c.st (writerOpen 0) file hf hw writeRecord_true

/-- C113. Any trace whatever that can be opened and whose walks and page sizes can be written is copied, and the copy has as many
records: of the same instructions at the same addresses with the same data addresses. It tells of a branch where the original did, or
where control leaves the sequential path; a branch is conditional if it was. -/
theorem C113_copy_partial (m : Mem) (ho : ∃ c, readerInit m = .ok () c) (hf : (readTrace m false false).final = .fail)
    (h : Copyable (readTrace m false false).records) :
    ∃ file, copyTrace m (fun _ => true) = .done file ∧ ∀ beyond,
      let rs := (readTrace m false false).records
      let R := readTrace { bytes := file, beyond := beyond } false false
      R.final = .fail ∧ R.records.length = rs.length ∧
      ∀ (i : Nat) (r : Record), rs[i]? = some r → ∃ o, R.records[i]? = some o ∧ SameAccess r o ∧
        o.nextInsnAddr = following rs i r ∧
        (o.branchTaken = true ↔ following rs i r ≠ r.insnAddr + 4) ∧
        (o.branch = true ↔ r.branch = true ∨ following rs i r ≠ r.insnAddr + 4) ∧
        (r.branch = true → o.conditionalBranch = r.conditionalBranch) := by
  have hx := expressible_of_copyable m h
  obtain ⟨file, e1, H1⟩ := C01_roundtrip_partial 0 _ hx
  obtain ⟨f2, e2, H2⟩ := C02_data_addresses 0 _ hx
  obtain ⟨f3, e3, H3⟩ := C04_branches 0 _ hx
  obtain rfl : file = f2 := WRes.ok.inj (e1.symm.trans e2)
  obtain rfl : file = f3 := WRes.ok.inj (e1.symm.trans e3)
  refine ⟨file, copyTrace_eq m ho hf file e1, fun beyond => ?_⟩
  obtain ⟨j1, j2⟩ := H1 beyond
  refine ⟨j2, by simpa using congrArg List.length j1, fun i r hr => ?_⟩
  obtain ⟨o, k1, k2, k3⟩ := H2 beyond i r hr
  obtain ⟨o', l1, l2, l3, l4, l5⟩ := H3 beyond i r hr
  obtain rfl : o = o' := Option.some.inj (k1.symm.trans l1)
  have key := congrArg (fun l => l[i]?) j1
  simp only [List.getElem?_map, k1, hr, Option.map_some, Option.some.injEq, Prod.mk.injEq] at key
  have Fr := ((readTrace_facts m).2.1 r (List.mem_of_getElem? hr)).1
  have Fo := ((readTrace_facts { bytes := file, beyond := beyond }).2.1 o (List.mem_of_getElem? k1)).1
  refine ⟨o, k1, ⟨key.1, key.2, k2, k3⟩, l2, l3, ?_, ?_⟩
  · rw [l4]
    constructor
    · rintro (h | h | h)
      · exact .inl h
      · exact .inr h
      · exact .inl (Fr.branch.mpr (.inr ((isCond_iff _).mp h)))
    · rintro (h | h)
      · exact .inl h
      · exact .inr (.inl h)
  · intro hb
    cases hu : isUnconditionalBranch r.insn with
    | false => exact l5 hb hu
    | true =>
      have no : ∀ x : Record, BranchInv x → x.insn = r.insn → x.conditionalBranch = false := by
        intro x hx he
        cases hc : x.conditionalBranch with
        | false => rfl
        | true =>
          have hn := uncond_not_cond _ hu
          rcases hx.cond.mp hc with h | h
          · rw [he] at h; exact absurd h.1 hn
          · rw [he] at h
            exfalso
            rw [isUncond_iff, Spec.hasBO] at hu
            rcases h.1 with hk | hk <;> (rw [hk] at hu; simp at hu)
      rw [no r Fr rfl, no o Fo key.1]

/-- C113. If moreover pages of instructions change only where control jumps, and page sizes do not conflict there, the copy has the real
addresses and page sizes of the original. (That a translation read is one that can be written, and that what is known of instructions
stays known, needs no hypothesis: it holds of everything the reader returns.) -/
theorem C113_translations_partial (m : Mem) (ho : ∃ c, readerInit m = .ok () c) (hf : (readTrace m false false).final = .fail)
    (h : Copyable (readTrace m false false).records) (hp : Chain PagesAtJumps (readTrace m false false).records) :
    ∃ file, copyTrace m (fun _ => true) = .done file ∧ ∀ (beyond : Nat → Byte) (i : Nat) (r : Record),
      (readTrace m false false).records[i]? = some r →
      ∃ o, (readTrace { bytes := file, beyond := beyond } false false).records[i]? = some o ∧ SameTranslation r o := by
  have hx := expressible_of_copyable m h
  obtain ⟨f1, f2, f3⟩ := readTrace_facts m
  obtain ⟨file, e1, H1⟩ := C03_translations_partial 0 _ hx (fun r hr => (f2 r hr).2 (h.1 r hr).1)
    (chain_and (fun a b p q => ⟨q.1, p.2.1, p.2.2.1, p.2.2.2, q.2⟩) _ f1 hp)
  exact ⟨file, copyTrace_eq m ho hf file e1, H1⟩

/-- C113. If moreover single walks have four entries and walks of instructions change only where control jumps, the copy has the walks. -/
theorem C113_walks_partial (m : Mem) (ho : ∃ c, readerInit m = .ok () c) (hf : (readTrace m false false).final = .fail)
    (h : Copyable (readTrace m false false).records)
    (h4 : ∀ r ∈ (readTrace m false false).records, FourIfSingle r.radixInsn ∧ FourIfSingle r.radixData)
    (hs : Chain WalkStep (readTrace m false false).records) :
    ∃ file, copyTrace m (fun _ => true) = .done file ∧ ∀ (beyond : Nat → Byte) (i : Nat) (r : Record),
      (readTrace m false false).records[i]? = some r →
      ∃ o, (readTrace { bytes := file, beyond := beyond } false false).records[i]? = some o ∧
        (r.dataRaValid = true → ¬ NoWalk r.radixData → SameWalk r.radixData o.radixData) ∧
        (r.dataRaValid = true → NoWalk r.radixData → NoWalk o.radixData) ∧
        (r.insnRaValid = true → ¬ NoWalk r.radixInsn → SameWalk r.radixInsn o.radixInsn) := by
  have hx := expressible_of_copyable m h
  obtain ⟨file, e1, H1⟩ := C05_page_walks_partial 0 _ hx h4 hs
  refine ⟨file, copyTrace_eq m ho hf file e1, fun beyond i r hr => ?_⟩
  obtain ⟨o, k1, k2, k3, _, k4, _⟩ := H1 beyond i r hr
  exact ⟨o, k1, k2, k3, k4⟩

/-! ### Traces of the writer -/

/-- Reading a trace written without walks gives records without walks. -/
theorem noWalks_back (magic : BitVec 32) (rs : List Record) (h : Expressible rs)
    (hn : ∀ r ∈ rs, NoWalk r.radixInsn ∧ NoWalk r.radixData) :
    ∃ file, writeTrace magic rs = .ok file ∧ ∀ (beyond : Nat → Byte) (i : Nat) (r : Record), rs[i]? = some r →
      ∃ o, (readTrace { bytes := file, beyond := beyond } false false).records[i]? = some o ∧
        NoWalk o.radixInsn ∧ NoWalk o.radixData := by
  cases rs with
  | nil =>
    obtain ⟨file, e, _⟩ := readTrace_empty magic
    exact ⟨file, e, fun _ i r hr => by simp at hr⟩
  | cons r rs =>
    obtain ⟨file, w, e, hw, H⟩ := readTrace_closed magic r rs h
    refine ⟨file, e, fun beyond i a ha => ?_⟩
    rw [(H beyond).1]
    have hall : ∀ (R : Record → Record → Prop) (l : List Record), (∀ a ∈ l, ∀ b ∈ l, R a b) → Chain R l := by
      intro R l
      induction l with
      | nil => intros; trivial
      | cons a l ih =>
        cases l with
        | nil => intros; trivial
        | cons b l => exact fun hl => ⟨hl a (by simp) b (by simp), ih (fun x hx y hy => hl x (by simp [hx]) y (by simp [hy]))⟩
    have hw0 : w = .none := by
      have := (hn r (by simp)).1
      unfold NoWalk at this
      unfold radixWalk at hw
      simp [this] at hw
      exact hw.symm
    obtain ⟨o, b, h1, h2, h3⟩ := sim_forall (fun s _ => s.radixInsn.nrPtes = 0 ∧ s.nextRadixInsn.nrPtes = 0)
      (fun _ b => NoWalk b.radixInsn) (fun a _ => NoWalk a.radixData)
      (fun _ _ o => NoWalk o.radixInsn ∧ NoWalk o.radixData)
      (by
        intro s a b hI hq
        unfold outOf
        rw [recOut_rcd]
        simp only [NoWalk, hI.1, hI.2, ne_eq, not_true_eq_false, if_false, true_and]
        unfold NoWalk at hq
        have hd : dwOf a = .none := by unfold dwOf walkIf radixWalk; simp [hq]
        rw [hd]
        unfold dataWalkOut
        cases a.dataRaValid <;> rfl)
      (by
        intro s a b hI hp
        unfold outOf
        rw [recOut_st]
        simp only [hI.2, ne_eq, not_true_eq_false, if_false]
        refine ⟨hI.1, ?_⟩
        unfold NoWalk at hp
        have hd : iwOf a b = .none := by unfold iwOf walkIf radixWalk; simp [hp]
        rw [hd]
        unfold insnWalkOut
        split
        · exact hI.2
        · exact hI.2)
      (closer (lastOf r rs)) rs r (startState magic r w) (by subst hw0; exact ⟨rfl, rfl⟩)
      (hall _ _ (fun a ha b hb => (hn b hb).1)) (hall _ _ (fun a ha b hb => (hn a ha).2))
      (hn _ (List.mem_of_getElem? (lastOf_getElem? rs r))).2 i a ha
    exact ⟨o, h1, h3⟩

theorem chain_image {α} {P R S : α → α → Prop} (h : ∀ a b a' b', R a b → P a a' → P b b' → S a' b') :
    ∀ rs os : List α, os.length = rs.length → (∀ (i : Nat) (a : α), rs[i]? = some a → ∃ a', os[i]? = some a' ∧ P a a') →
      Chain R rs → Chain S os
  | _, [], _, _, _ => trivial
  | _, [_], _, _, _ => trivial
  | [], _ :: _ :: _, hl, _, _ => by simp at hl
  | [_], _ :: _ :: _, hl, _, _ => by simp at hl
  | a :: b :: rs, a' :: b' :: os, hl, hp, hr => by
    refine ⟨?_, chain_image h (b :: rs) (b' :: os) (by simpa using hl) (fun i x hx => by simpa using hp (i + 1) x (by simpa using hx)) hr.2⟩
    obtain ⟨x, e1, p1⟩ := hp 0 a rfl
    obtain ⟨y, e2, p2⟩ := hp 1 b rfl
    cases e1
    cases e2
    exact h _ _ _ _ hr.1 p1 p2

/-- C113 for traces of the writer: a sequence of records without walks, whose translations the format can express, is the same after
being written, copied and read. -/
theorem C113_written_partial (magic : BitVec 32) (rs : List Record) (h : Expressible rs) (hne : rs ≠ [])
    (hn : ∀ r ∈ rs, NoWalk r.radixInsn ∧ NoWalk r.radixData) (ht : ∀ r ∈ rs, TranslationOk r) (hs : Chain TranslationStep rs) :
    ∃ file, writeTrace magic rs = .ok file ∧ ∀ beyond, ∃ file', copyTrace { bytes := file, beyond := beyond } (fun _ => true) = .done file' ∧
      ∀ beyond',
        let R := readTrace { bytes := file', beyond := beyond' } false false
        R.final = .fail ∧ R.records.length = rs.length ∧
        ∀ (i : Nat) (r : Record), rs[i]? = some r → ∃ o, R.records[i]? = some o ∧ SameAccess r o ∧ SameTranslation r o := by
  obtain ⟨file, e1, H1⟩ := C01_roundtrip_partial magic _ h
  obtain ⟨f2, e2, H2⟩ := C02_data_addresses magic _ h
  obtain ⟨f3, e3, H3⟩ := C03_translations_partial magic _ h ht hs
  obtain ⟨f4, e4, H4⟩ := noWalks_back magic _ h hn
  obtain rfl : file = f2 := WRes.ok.inj (e1.symm.trans e2)
  obtain rfl : file = f3 := WRes.ok.inj (e1.symm.trans e3)
  obtain rfl : file = f4 := WRes.ok.inj (e1.symm.trans e4)
  refine ⟨file, e1, fun beyond => ?_⟩
  obtain ⟨j1, j2⟩ := H1 beyond
  have hl : (readTrace { bytes := file, beyond := beyond } false false).records.length = rs.length := by
    simpa using congrArg List.length j1
  have each : ∀ (i : Nat) (r : Record), rs[i]? = some r →
      ∃ o, (readTrace { bytes := file, beyond := beyond } false false).records[i]? = some o ∧
        (SameAccess r o ∧ SameTranslation r o ∧ NoWalk o.radixInsn ∧ NoWalk o.radixData ∧ ShiftsOk o) := by
    intro i r hr
    obtain ⟨o, k1, k2, k3⟩ := H2 beyond i r hr
    obtain ⟨o', l1, l2⟩ := H3 beyond i r hr
    obtain rfl : o = o' := Option.some.inj (k1.symm.trans l1)
    obtain ⟨o', q1, q2⟩ := H4 beyond i r hr
    obtain rfl : o = o' := Option.some.inj (k1.symm.trans q1)
    have key := congrArg (fun l => l[i]?) j1
    simp only [List.getElem?_map, k1, hr, Option.map_some, Option.some.injEq, Prod.mk.injEq] at key
    refine ⟨o, k1, ⟨key.1, key.2, k2, k3⟩, l2, q2.1, q2.2, ?_⟩
    have ho := (h.1 r (List.mem_of_getElem? hr)).1
    obtain ⟨t1, t2, t3, t4, t5, t6, t7, t8, t9, t10, t11, t12⟩ := l2
    obtain ⟨s1, s2, s3, s4⟩ := ho
    refine ⟨fun v => ?_, fun v => ?_, fun v => ?_, fun v => ?_⟩
    · rw [t3] at v; rw [t4 v]; exact s1 v
    · rw [t5] at v; rw [t6 v]; exact s2 v
    · rw [t9] at v; rw [t10 v]; exact s3 v
    · rw [t11] at v; rw [t12 v]; exact s4 v
  have back : ∀ o ∈ (readTrace { bytes := file, beyond := beyond } false false).records,
      ∃ r ∈ rs, SameAccess r o ∧ SameTranslation r o ∧ NoWalk o.radixInsn ∧ NoWalk o.radixData ∧ ShiftsOk o := by
    intro o ho
    obtain ⟨i, hi⟩ := List.getElem?_of_mem ho
    have hlt : i < rs.length := by
      rw [← hl]
      exact (List.getElem?_eq_some_iff.mp hi).1
    obtain ⟨o', k1, k2⟩ := each i rs[i] (List.getElem?_eq_getElem hlt)
    obtain rfl : o = o' := Option.some.inj (hi.symm.trans k1)
    exact ⟨_, List.getElem_mem hlt, k2⟩
  have ho : ∃ c, readerInit { bytes := file, beyond := beyond } = .ok () c := by
    cases hc : readerInit { bytes := file, beyond := beyond } with
    | ok u c => exact ⟨c, rfl⟩
    | err e c =>
      unfold readTrace at hl
      rw [hc] at hl
      exact absurd (List.length_eq_zero_iff.mp hl.symm) hne
  have hcp : Copyable (readTrace { bytes := file, beyond := beyond } false false).records := by
    refine ⟨fun o ho => ?_, ?_, fun o ho => ?_⟩
    · obtain ⟨r, hr, _, _, n1, n2, s⟩ := back o ho
      exact ⟨s, fun _ => .inl n1, fun _ => .inl n2⟩
    · refine chain_image (P := fun r o => SameAccess r o ∧ SameTranslation r o ∧ NoWalk o.radixInsn ∧ NoWalk o.radixData ∧ ShiftsOk o)
        (R := TranslationStep) ?_ rs _ hl each hs
      exact fun a b a' b' _ p q _ _ _ => .inl ⟨p.2.2.2.1, q.2.2.1⟩
    · obtain ⟨r, hr, _, _, n1, n2, s⟩ := back o (List.mem_of_mem_head? ho)
      exact fun hw => absurd n1 hw
  have hpj : Chain PagesAtJumps (readTrace { bytes := file, beyond := beyond } false false).records := by
    refine chain_image (P := fun r o => SameAccess r o ∧ SameTranslation r o ∧ NoWalk o.radixInsn ∧ NoWalk o.radixData ∧ ShiftsOk o)
        (R := TranslationStep) ?_ rs _ hl each hs
    intro a b a' b' st p q
    obtain ⟨⟨_, pa, _⟩, ⟨t1, t2, t3, t4, t5, t6, t7, t8, t9, t10, t11, t12⟩, _⟩ := p
    obtain ⟨⟨_, qa, _⟩, ⟨u1, u2, u3, u4, u5, u6, u7, u8, u9, u10, u11, u12⟩, _⟩ := q
    have hj : Jumps a' b' ↔ Jumps a b := by unfold Jumps; rw [pa, qa]
    refine ⟨fun hnj => ?_, fun hjj v1 v2 => ?_⟩
    · obtain ⟨w1, w2, w3, w4, w5, w6⟩ := st.1 (fun x => hnj (hj.mpr x))
      refine ⟨by rw [u1, t1, w1], by rw [u3, t3, w2], fun v => ?_, by rw [u5, t5, w4], fun v => ?_, fun v => ?_⟩
      · rw [t3] at v
        rw [t4 v, u4 (by rw [w2]; exact v), w3 v]
      · rw [t5] at v
        rw [t6 v, u6 (by rw [w4]; exact v), w5 v]
      · rw [t1] at v
        have hp1 : pageShift a'.insnPageShiftValid a'.insnPageShift = pageShift a.insnPageShiftValid a.insnPageShift := by
          unfold pageShift
          rw [t3]
          split
          · next hv => exact t4 hv
          · rfl
        have hp2 : pageShift b'.insnPageShiftValid b'.insnPageShift = pageShift b.insnPageShiftValid b.insnPageShift := by
          unfold pageShift
          rw [u3]
          split
          · next hv => exact u4 hv
          · rfl
        rw [hp1, hp2, t2 v, u2 (by rw [w1]; exact v)]
        exact w6 v
    · rw [t9] at v1
      rw [u5] at v2
      rw [t10 v1, u6 v2]
      exact st.2.2.2.2 (hj.mp hjj) v1 v2
  obtain ⟨file', g1, G1⟩ := C113_copy_partial _ ho j2 hcp
  obtain ⟨f', g2, G2⟩ := C113_translations_partial _ ho j2 hcp hpj
  obtain rfl : file' = f' := Copied.done.inj (g1.symm.trans g2)
  refine ⟨file', g1, fun beyond' => ⟨(G1 beyond').1, by rw [(G1 beyond').2.1, hl], fun i r hr => ?_⟩⟩
  obtain ⟨o, k1, ⟨a1, a2, a3, a4⟩, ⟨t1, t2, t3, t4, t5, t6, t7, t8, t9, t10, t11, t12⟩, _⟩ := each i r hr
  obtain ⟨o', l1, ⟨b1, b2, b3, b4⟩, _⟩ := (G1 beyond').2.2 i o k1
  obtain ⟨o'', l2, u1, u2, u3, u4, u5, u6, u7, u8, u9, u10, u11, u12⟩ := G2 beyond' i o k1
  obtain rfl : o' = o'' := Option.some.inj (l1.symm.trans l2)
  refine ⟨o', l1, ⟨b1.trans a1, b2.trans a2, b3.trans a3, fun v => ?_⟩, u1.trans t1, fun v => ?_, u3.trans t3, fun v => ?_, u5.trans t5,
    fun v => ?_, u7.trans t7, fun v => ?_, u9.trans t9, fun v => ?_, u11.trans t11, fun v => ?_⟩
  · rw [b4 (by rw [a3]; exact v), a4 v]
  · rw [u2 (by rw [t1]; exact v), t2 v]
  · rw [u4 (by rw [t3]; exact v), t4 v]
  · rw [u6 (by rw [t5]; exact v), t6 v]
  · rw [u8 (by rw [t7]; exact v), t8 v]
  · rw [u10 (by rw [t9]; exact v), t10 v]
  · rw [u12 (by rw [t11]; exact v), t12 v]

end Qt
