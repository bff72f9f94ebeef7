import Verif.Ptracer.LiveLemmas
import Verif.Ptracer.PropsWindow
import Verif.Qt.PropsWriter

/-! # The trace file of the live tracer, read back (C88) -/

namespace Ptr
open LiveSpec IsaMem PmSpec

theorem liveFile_closed (xlate : Bool) (extra : Nat) (xs : List Seen) (ht : Traceable xs) (ha : xlate = true → Answers xs) :
    liveFile xlate true extra xs = Qt.writeTrace 0 (makeAll xlate Maps.init xs).1 := by
  have := (makeAll_made xlate xs Maps.init (fun x hx => storage_ne_abort (ht.supported x hx)) ha).1
  unfold liveFile
  rw [if_pos (by rw [this]; rfl)]

theorem following_next (xlate : Bool) (s : Maps) (xs : List Seen) (ht : Traceable xs) (ha : xlate = true → Answers xs) (i : Nat) (x : Seen)
    (r : Qt.Record) (hx : xs[i]? = some x) (hr : (makeAll xlate s xs).1[i]? = some r) (hb : Basic x r) :
    Qt.Spec.following (makeAll xlate s xs).1 i r = nextPc xs i x := by
  obtain ⟨-, hl, hm⟩ := makeAll_made xlate xs s (fun x hx => storage_ne_abort (ht.supported x hx)) ha
  unfold Qt.Spec.following nextPc
  cases hn : xs[i + 1]? with
  | none =>
    rw [List.getElem?_eq_none_iff] at hn
    rw [List.getElem?_eq_none (by omega)]
    dsimp only
    rw [hb.addr]
  | some y =>
    obtain ⟨q, h1, h2⟩ := hm (i + 1) y hn
    rw [h1]
    exact h2.addr

/-- How a reader sees a conditional branch. -/
theorem conditional_read (rs : List Qt.Record) (h : Qt.Spec.Expressible rs) (hc : ∀ r ∈ rs, r.branch = Qt.isBranch r.insn ∧
    r.conditionalBranch = Qt.isConditionalBranch r.insn) :
    ∃ file, Qt.writeTrace 0 rs = .ok file ∧ ∀ (beyond : Nat → Qt.Byte) (i : Nat) (r : Qt.Record), rs[i]? = some r →
      ∃ o, (Qt.readTrace { bytes := file, beyond := beyond } false false).records[i]? = some o ∧
        o.conditionalBranch = Qt.isConditionalBranch r.insn := by
  cases rs with
  | nil =>
    obtain ⟨file, e, _⟩ := Qt.readTrace_empty 0
    exact ⟨file, e, fun _ i r hr => by simp at hr⟩
  | cons r rs =>
    obtain ⟨file, w, e, hw, H⟩ := Qt.readTrace_closed 0 r rs h
    refine ⟨file, e, fun beyond i a ha => ?_⟩
    rw [(H beyond).1]
    have hall : ∀ (l : List Qt.Record), (∀ a ∈ l, a.branch = Qt.isBranch a.insn ∧ a.conditionalBranch = Qt.isConditionalBranch a.insn) →
        Qt.Spec.Chain (fun a _ => a.branch = Qt.isBranch a.insn ∧ a.conditionalBranch = Qt.isConditionalBranch a.insn) l := by
      intro l
      induction l with
      | nil => intros; trivial
      | cons a l ih =>
        cases l with
        | nil => intros; trivial
        | cons b l => exact fun hl => ⟨hl a (by simp), ih (fun x hx => hl x (by simp [hx]))⟩
    obtain ⟨o, b, h1, -, h3⟩ := Qt.sim_forall (fun _ _ => True) (fun _ _ => True)
      (fun a _ => a.branch = Qt.isBranch a.insn ∧ a.conditionalBranch = Qt.isConditionalBranch a.insn)
      (fun a _ o => o.conditionalBranch = Qt.isConditionalBranch a.insn)
      (by
        intro s a b _ ⟨h1, h2⟩
        unfold Qt.outOf
        rw [Qt.recOut_rcd]
        dsimp only
        have hx := Qt.C13_exclusive a.insn
        rw [h1, h2]
        unfold Qt.isBranch
        cases hu : Qt.isUnconditionalBranch a.insn <;> cases hcb : Qt.isConditionalBranch a.insn <;>
          cases Qt.writeIsBranch a b <;> simp_all)
      (by intros; trivial)
      (Qt.closer (Qt.lastOf r rs)) rs r (Qt.startState 0 r w) trivial (Qt.chain_of_forall (fun _ _ => trivial) _)
      (hall _ hc) (hc _ (List.mem_of_getElem? (Qt.lastOf_getElem? rs r))) i a ha
    exact ⟨o, h1, h3⟩

/-- C88 (partial). Whatever instructions the tracer sees, if it can record them (`Traceable`) and the kernel answers when it is
asked about pages, the file it leaves on closing holds exactly these instructions, in order: addresses, words, the data
addresses that the ISA gives for the registers seen, where control went next, and what is a branch. -/
theorem C88_file_partial (xlate : Bool) (extra : Nat) (xs : List Seen) (ht : Traceable xs) (ha : xlate = true → Answers xs) :
    ∃ file, liveFile xlate true extra xs = .ok file ∧ Holds file xs := by
  have hx := makeAll_expressible xlate Maps.init xs ht ha
  obtain ⟨-, hl, hm⟩ := makeAll_made xlate xs Maps.init (fun x hx => storage_ne_abort (ht.supported x hx)) ha
  have hfn := following_next xlate Maps.init xs ht ha
  rw [liveFile_closed xlate extra xs ht ha]
  generalize (makeAll xlate Maps.init xs).1 = rs at hx hl hm hfn ⊢
  obtain ⟨f1, e1, R1⟩ := Qt.C01_roundtrip_partial 0 rs hx
  obtain ⟨f2, e2, R2⟩ := Qt.C02_data_addresses 0 rs hx
  obtain ⟨f3, e3, R3⟩ := Qt.C04_branches 0 rs hx
  obtain ⟨f4, e4, R4⟩ := conditional_read rs hx (fun r hr => by
    obtain ⟨i, hi⟩ := List.getElem?_of_mem hr
    have hlt := (List.getElem?_eq_some_iff.1 hi).1
    obtain ⟨q, h1, h2⟩ := hm i (xs[i]'(by omega)) (List.getElem?_eq_getElem (by omega))
    rw [hi] at h1
    obtain rfl := Option.some.inj h1
    rw [h2.insn]
    exact ⟨h2.branch, h2.cond⟩)
  rw [e1] at e2 e3 e4
  obtain rfl := Qt.WRes.ok.inj e2
  obtain rfl := Qt.WRes.ok.inj e3
  obtain rfl := Qt.WRes.ok.inj e4
  refine ⟨f1, e1, fun beyond => ?_⟩
  obtain ⟨a1, a2⟩ := R1 beyond
  have hlen : (Qt.readTrace { bytes := f1, beyond := beyond } false false).records.length = xs.length := by
    have := congrArg List.length a1
    rw [List.length_map, List.length_map] at this
    omega
  refine ⟨a2, hlen, fun i x hxi => ?_⟩
  obtain ⟨r, hr, hb⟩ := hm i x hxi
  obtain ⟨o, ho, d1, d2⟩ := R2 beyond i r hr
  obtain ⟨o', ho', b1, b2, b3, -⟩ := R3 beyond i r hr
  obtain ⟨o'', ho'', c1⟩ := R4 beyond i r hr
  rw [ho] at ho' ho''
  obtain rfl := Option.some.inj ho'
  obtain rfl := Option.some.inj ho''
  have hia : (o.insn, o.insnAddr) = (r.insn, r.insnAddr) := by
    have := congrArg (fun l => l[i]?) a1
    simp only [List.getElem?_map, ho, hr, Option.map_some] at this
    exact Option.some.inj this
  obtain ⟨i1, i2⟩ := Prod.mk.inj hia
  have hf := hfn i x r hxi hr hb
  rw [hf, hb.addr] at b2
  rw [hf, hb.addr, hb.branch, hb.insn] at b3
  rw [hf] at b1
  have hd := hb.data
  obtain ⟨s1, s2⟩ := C37_storage_partial x.insn x.regs
  refine ⟨o, ho, i2.trans hb.addr, i1.trans hb.insn, fun k hk he => ?_, fun hn => ?_, b1, b2, ?_, ?_⟩
  · obtain ⟨a, n, e, v, -⟩ := s1 k hk he
    rw [e] at hd
    cases hv : r.dataAddrValid with
    | false => rw [hv] at hd; cases hd
    | true =>
      rw [hv] at hd
      have hd : some r.dataAddr = some a := hd
      refine ⟨d1.trans hv, ?_⟩
      rw [d2 hv, Option.some.inj hd, v]
  · rw [s2 hn] at hd
    cases hv : r.dataAddrValid with
    | true => rw [hv] at hd; cases hd
    | false => exact d1.trans hv
  · rw [b3, Qt.C13_is_branch_partial]
    constructor
    · rintro (h | h | h)
      · exact .inl h
      · exact .inr h
      · refine .inl ((Qt.C13_is_branch_partial _).1 ?_)
        unfold Qt.isBranch; rw [h]; rfl
    · rintro (h | h)
      · exact .inl h
      · exact .inr (.inl h)
  · rw [c1, hb.insn]; exact Qt.C13_conditional x.insn

/-- C88 (partial). Together with the options: with a skip of `s` and a limit of `n` (see `C46_window_partial`) the file holds
instructions number `s+1` to `s+n` of those executed. -/
theorem C88_window_partial (stream : List Seen) (s n c : BitVec 64) (xlate : Bool) (extra : Nat) (chunks : List (Chunk Seen))
    (hc : c.toNat ≤ s.toNat) (hs : chunks.flatMap Chunk.insns = stream.drop c.toNat)
    (ht : Traceable ((stream.drop s.toNat).take (limitOf n stream.length)))
    (ha : xlate = true → Answers ((stream.drop s.toNat).take (limitOf n stream.length))) :
    ∃ file, traceFile s n c xlate true extra chunks = .ok file ∧
      Holds file ((stream.drop s.toNat).take (limitOf n stream.length)) := by
  unfold traceFile
  rw [C46_window_partial stream s n c chunks hc hs]
  exact C88_file_partial xlate extra _ ht ha

theorem writeAll_runWrites : ∀ (rs : List Qt.Record) (w w' : Qt.WState), Qt.writeAll w rs = .ok w' →
    ∃ bs, Qt.runWrites w (rs.map fun r => (r, true)) = .ok (bs, w') ∧ Qt.Spec.accepted (rs.map fun r => (r, true)) bs = rs
  | [], w, w', h => ⟨[], by rw [Qt.WRes.ok.inj h]; rfl, rfl⟩
  | r :: rs, w, w', h => by
    obtain ⟨⟨b, w1⟩, e1, e⟩ := Qt.WRes.bind_ok h
    obtain ⟨bs, h1, h2⟩ := writeAll_runWrites rs w1 w' e
    have hb : b = true := by
      unfold Qt.writeRecord at e1
      simp only [Bool.not_true, Bool.and_false, Bool.false_eq_true, if_false] at e1
      split at e1
      · obtain ⟨_, _, e2⟩ := Qt.WRes.bind_ok e1
        exact (Prod.mk.inj (Qt.WRes.ok.inj e2)).1.symm
      · obtain ⟨_, _, e2⟩ := Qt.WRes.bind_ok e1
        exact (Prod.mk.inj (Qt.WRes.ok.inj e2)).1.symm
    subst hb
    refine ⟨true :: bs, ?_, ?_⟩
    · rw [List.map_cons, Qt.runWrites]
      show Qt.WRes.bind _ _ = _
      rw [e1]
      show Qt.WRes.bind (Qt.runWrites w1 _) _ = _
      rw [h1]; rfl
    · rw [List.map_cons]
      show r :: Qt.Spec.accepted (rs.map fun r => (r, true)) bs = r :: rs
      rw [h2]

/-- C88 (partial). If the tracer is killed (or exits) instead of closing the file, the instructions it saw are all in the file but
the last one, provided the last one but one is not a prefix. -/
theorem C88_killed_partial (xlate : Bool) (extra : Nat) (xs : List Seen) (ht : Traceable xs) (ha : xlate = true → Answers xs)
    (hp : ∀ x, xs.dropLast.getLast? = some x → ¬ Qt.Spec.IsPrefix x.insn) :
    ∃ file, liveFile xlate false extra xs = .ok file ∧ ∀ beyond,
      let R := Qt.readTrace { bytes := file, beyond := beyond } false false
      R.final = .fail ∧ R.records.map (fun o => (o.insn, o.insnAddr)) = xs.dropLast.map (fun x => (x.insn, x.pc)) := by
  have hx := makeAll_expressible xlate Maps.init xs ht ha
  obtain ⟨-, hl, hm⟩ := makeAll_made xlate xs Maps.init (fun x hx => storage_ne_abort (ht.supported x hx)) ha
  have hmap : (makeAll xlate Maps.init xs).1.map (fun r => (r.insn, r.insnAddr)) = xs.map (fun x => (x.insn, x.pc)) := by
    apply List.ext_getElem?
    intro i
    rw [List.getElem?_map, List.getElem?_map]
    cases hi : xs[i]? with
    | none =>
      rw [List.getElem?_eq_none_iff] at hi
      rw [List.getElem?_eq_none (by omega)]; rfl
    | some x =>
      obtain ⟨r, h1, h2⟩ := hm i x hi
      rw [h1, Option.map_some, Option.map_some, h2.insn, h2.addr]
  unfold liveFile
  rw [if_neg (by simp)]
  generalize (makeAll xlate Maps.init xs).1 = rs at hx hl hmap ⊢
  have hw : ∃ w, Qt.writeAll (Qt.writerOpen 0) rs = .ok w := by
    cases rs with
    | nil => exact ⟨_, rfl⟩
    | cons r rs =>
      obtain ⟨out, w, -, ⟨s, e, -⟩, -⟩ := Qt.readTrace_open 0 r rs hx
      exact ⟨s, e⟩
  obtain ⟨w, hw⟩ := hw
  rw [hw]
  refine ⟨_, rfl, fun beyond => ?_⟩
  obtain ⟨bs, h1, h2⟩ := writeAll_runWrites rs _ w hw
  have hdl : rs.dropLast.map (fun r => (r.insn, r.insnAddr)) = xs.dropLast.map (fun x => (x.insn, x.pc)) := by
    rw [List.map_dropLast, List.map_dropLast, hmap]
  have key := Qt.C10_crash_partial 0 _ bs w h1 (by rw [h2]; exact hx) (by
    rw [h2]
    intro r hr hpre
    have : (rs.dropLast.map (fun r => (r.insn, r.insnAddr))).getLast? = some (r.insn, r.insnAddr) := by
      rw [List.getLast?_map, hr]; rfl
    rw [hdl, List.getLast?_map] at this
    cases hxl : xs.dropLast.getLast? with
    | none => rw [hxl] at this; cases this
    | some x =>
      rw [hxl] at this
      have e := (Prod.mk.inj (Option.some.inj this)).1
      exact hp x hxl (by rw [e]; exact hpre)) extra beyond
  rw [h2, hdl] at key
  exact ⟨key.2, key.1⟩

/-! ### Real addresses -/

theorem getElem?_accesses {xs : List Seen} {i : Nat} {x : Seen} (hx : xs[i]? = some x) :
    accesses xs = accesses (xs.take i) ++ lookUps x ++ accesses (xs.drop (i + 1)) := by
  have hi := (List.getElem?_eq_some_iff.1 hx).1
  have e : xs = xs.take i ++ x :: xs.drop (i + 1) := by
    rw [← (List.getElem?_eq_some_iff.1 hx).2, List.getElem_cons_drop, List.take_append_drop]
  conv => lhs; rw [e]
  unfold accesses
  rw [List.flatMap_append, List.flatMap_cons, List.append_assoc]

/-- A look-up in a trace of mapped pages succeeds, with something that the kernel said lately. -/
theorem lookUp_fresh {xs : List Seen} (hM : Mapped xs) (h rest : List Access) (a : Access)
    (e : accesses xs = h ++ a :: rest) :
    ∃ pa sh, (eaToPa (runMaps h) a).2 = .yes pa sh ∧ LiveSpec.Fresh h a a.ea pa sh ∧ pa.toNat < 2 ^ 48 ∧ (sh = 16 ∨ sh = 21) := by
  have hmem : ∀ b ∈ h ++ [a], b ∈ accesses xs := by
    intro b hb
    rw [e]
    rcases List.mem_append.1 hb with hb | hb
    · exact List.mem_append_left _ hb
    · rw [List.mem_singleton] at hb
      subst hb
      simp
  have hlen : h.length + 1 < 2 ^ 32 := by
    have := hM.few
    rw [e, List.length_append, List.length_cons] at this
    omega
  cases hr : (eaToPa (runMaps h) a).2 with
  | yes pa sh =>
    obtain ⟨n, b, h1, h2, h3, h4⟩ := C41_fresh_partial h a pa sh hlen (hM.high a (hmem a (by simp))) hr
    exact ⟨pa, sh, rfl, ⟨n, b, h1, h2, h3, h4⟩, hM.room b (hmem b (List.mem_of_getElem? h1)) pa sh h4, eaToPa_shift _ _ _ _ hr⟩
  | exit =>
    exfalso
    rcases eaToPa_cases (runMaps h) a with ⟨en, t, i, -, -, -, he⟩ | he
    · rw [he] at hr; cases hr
    · rw [he] at hr
      obtain ⟨pa, sh, w, f, g1, g2, g3, g4, g5⟩ := hM.present a (hmem a (by simp))
      unfold fill at hr
      dsimp only at hr
      rw [shift_ofNat, g1] at hr
      dsimp only at hr
      split at hr
      · cases hr
      · have ep : (w &&& 0x3fffffffffffff#64) <<< basePshift = pa := by
          apply BitVec.eq_of_toNat_eq
          rw [pa_toNat, g3]
        rw [ep, shift_ofNat, g4] at hr
        dsimp only at hr
        split at hr <;> cases hr
  | no =>
    exfalso
    rcases eaToPa_cases (runMaps h) a with ⟨en, t, i, -, -, -, he⟩ | he
    · rw [he] at hr; cases hr
    · rw [he] at hr
      obtain ⟨pa, sh, w, f, g1, g2, g3, g4, g5⟩ := hM.present a (hmem a (by simp))
      unfold fill at hr
      dsimp only at hr
      rw [shift_ofNat, g1] at hr
      dsimp only at hr
      rw [if_neg (fun hz => by rw [(and_bit w 63 (by omega)).1 hz] at g2; cases g2)] at hr
      split at hr
      · cases hr
      · split at hr <;> cases hr

theorem inFrame_real (pa : BitVec 64) (sh : Nat) (ea : BitVec 64) (hpa : pa.toNat < 2 ^ 48) (hs : sh = 16 ∨ sh = 21) :
    Qt.Spec.inFrame (pa.toNat / 2 ^ sh) sh ea = realAddr pa sh ea := by
  unfold Qt.Spec.inFrame realAddr
  have h1 : pa.toNat / 2 ^ sh < 2 ^ 32 := by
    rcases hs with rfl | rfl <;> omega
  have h2 : pa.toNat / 2 ^ sh * 2 ^ sh ≤ pa.toNat := Nat.div_mul_le_self _ _
  rw [Nat.mod_eq_of_lt h1, Nat.mod_eq_of_lt (by omega)]

/-- What is told of the instruction at the beginning of a straight piece is carried on to its end. -/
theorem carried_straight {α : Type} (f : Qt.Record → Option α) (rs : List Qt.Record) (j : Nat) (v : α) (r : Qt.Record)
    (hr : rs[j]? = some r) (hf : f r = some v)
    (hj : j = 0 ∨ ∃ a b, rs[j - 1]? = some a ∧ rs[j]? = some b ∧ b.insnAddr ≠ a.insnAddr + 4) :
    ∀ (i : Nat), j ≤ i → i < rs.length →
      (∀ k a b, j ≤ k → k < i → rs[k]? = some a → rs[k + 1]? = some b → b.insnAddr = a.insnAddr + 4) →
      Qt.Spec.carried f rs i = some v := by
  intro i
  induction i with
  | zero =>
    intro h1 _ _
    obtain rfl : j = 0 := by omega
    show rs[0]?.bind f = _
    rw [hr]; exact hf
  | succ i ih =>
    intro h1 h2 h3
    obtain ⟨a, ha⟩ : ∃ a, rs[i]? = some a := ⟨_, List.getElem?_eq_getElem (by omega)⟩
    obtain ⟨b, hb⟩ : ∃ b, rs[i + 1]? = some b := ⟨_, List.getElem?_eq_getElem h2⟩
    rw [Qt.carried_succ f rs i a b ha hb]
    unfold Qt.carry Qt.iarChange
    by_cases hij : j = i + 1
    · subst hij
      rcases hj with hj | ⟨a', b', h5, h6, h7⟩
      · omega
      · rw [Nat.add_sub_cancel, ha] at h5
        rw [hb] at h6
        obtain rfl := Option.some.inj h5
        obtain rfl := Option.some.inj h6
        rw [hb] at hr
        obtain rfl := Option.some.inj hr
        rw [if_pos (bne_iff_ne.mpr h7), hf]; rfl
    · have h8 := h3 i a b (by omega) (by omega) ha hb
      rw [if_neg (by rw [h8]; simp)]
      exact ih (by omega) (by omega) (fun k a b hk hki => h3 k a b hk (by omega))

/-- C88 (partial). With translation, the real address reported for an instruction is right where control came to its page by
a jump: it is the address in the frame that the kernel gave for that page, at most 10000 look-ups before control came there. Missing:
instructions that are reached from the page before without a jump (`C88_real_refuted`). -/
theorem C88_real_partial (extra : Nat) (xs : List Seen) (ht : Traceable xs) (hA : Answers xs) (hM : Mapped xs) :
    ∃ file, liveFile true true extra xs = .ok file ∧ ∀ (beyond : Nat → Qt.Byte) (i j : Nat) (x y : Seen),
      xs[i]? = some x → xs[j]? = some y → Straight xs j i → x.pc.toNat / 2 ^ 16 = y.pc.toNat / 2 ^ 16 →
      ∃ o pa sh, (Qt.readTrace { bytes := file, beyond := beyond } false false).records[i]? = some o ∧
        LiveSpec.Fresh (accesses (xs.take j)) (fetch y) x.pc pa sh ∧
        o.insnRaValid = true ∧ o.insnRa.toNat = realAddr pa sh x.pc ∧ o.insnPageShiftValid = true ∧ o.insnPageShift = sh := by
  have hab : ∀ x ∈ xs, isStorageInsn x.insn x.regs ≠ .abort := fun x hx => storage_ne_abort (ht.supported x hx)
  have hx := makeAll_expressible true Maps.init xs ht (fun _ => hA)
  obtain ⟨-, hl, hm⟩ := makeAll_made true xs Maps.init hab (fun _ => hA)
  have hsays := makeAll_says xs [] hab hA
  rw [liveFile_closed true extra xs ht (fun _ => hA)]
  have e0 : runMaps [] = Maps.init := rfl
  rw [e0] at hsays
  generalize (makeAll true Maps.init xs).1 = rs at hx hl hm hsays ⊢
  obtain ⟨file, e, R⟩ := Qt.C03_reported 0 rs hx
  refine ⟨file, e, fun beyond i j x y hi hj hst hp => ?_⟩
  obtain ⟨r, hr, hb⟩ := hm i x hi
  obtain ⟨q, hq, k1, -, -⟩ := hsays j y hj
  rw [List.nil_append] at k1
  obtain ⟨pa, sh, l1, ⟨n, b, l2, l3, l4, l5⟩, l6, l7⟩ := lookUp_fresh hM (accesses (xs.take j)) _ (fetch y)
    (by rw [getElem?_accesses hj, List.append_assoc]; rfl)
  rw [l1] at k1
  obtain ⟨m1, m2, m3, m4⟩ := k1
  obtain ⟨h1, h2, h3⟩ := hst
  have hil := (List.getElem?_eq_some_iff.1 hi).1
  have back : ∀ (k : Nat) (a : Qt.Record), rs[k]? = some a → ∃ z, xs[k]? = some z ∧ z.pc = a.insnAddr := by
    intro k a hk
    have hkl := (List.getElem?_eq_some_iff.1 hk).1
    obtain ⟨z, hz⟩ : ∃ z, xs[k]? = some z := ⟨_, List.getElem?_eq_getElem (by omega)⟩
    obtain ⟨a', g1, g2⟩ := hm k z hz
    rw [hk] at g1
    exact ⟨z, hz, by rw [Option.some.inj g1, g2.addr]⟩
  have hj' : j = 0 ∨ ∃ a b, rs[j - 1]? = some a ∧ rs[j]? = some b ∧ b.insnAddr ≠ a.insnAddr + 4 := by
    rcases h2 with h2 | ⟨a, b, g1, g2, g3⟩
    · exact .inl h2
    · obtain ⟨a', u1, u2⟩ := hm _ a g1
      obtain ⟨b', v1, v2⟩ := hm _ b g2
      exact .inr ⟨a', b', u1, v1, by rw [u2.addr, v2.addr]; exact g3⟩
  have hseq : ∀ k a b, j ≤ k → k < i → rs[k]? = some a → rs[k + 1]? = some b → b.insnAddr = a.insnAddr + 4 := by
    intro k a b g1 g2 g3 g4
    obtain ⟨a', u1, u2⟩ := back k a g3
    obtain ⟨b', v1, v2⟩ := back _ b g4
    rw [← u2, ← v2]; exact h3 k a' b' g1 g2 u1 v1
  have c1 := carried_straight Qt.Spec.insnFrame rs j (pa.toNat / 2 ^ sh) q hq
    (by unfold Qt.Spec.insnFrame Qt.Spec.pageShift; rw [if_pos m1, if_pos m3, m2, m4]) hj' i h1 (by omega) hseq
  have c2 := carried_straight Qt.Spec.insnShift rs j sh q hq
    (by unfold Qt.Spec.insnShift; rw [if_pos m3, m4]) hj' i h1 (by omega) hseq
  obtain ⟨o, ho, p1, p2, p3, p4⟩ := R beyond i r hr
  refine ⟨o, pa, sh, ho, ⟨n, b, l2, l3, ?_, l5⟩, by rw [p3, c1]; rfl, ?_, by rw [p1, c2]; rfl, p2 sh c2⟩
  · rw [l4]
    show y.pc.toNat / 2 ^ sh = x.pc.toNat / 2 ^ sh
    rcases l7 with rfl | rfl
    · exact hp.symm
    · rw [show (2 : Nat) ^ 21 = 2 ^ 16 * 2 ^ 5 by decide, ← Nat.div_div_eq_div_mul, ← Nat.div_div_eq_div_mul, hp]
  · rw [p4 _ c1, c2, Option.getD_some, hb.addr, inFrame_real _ _ _ l6 l7]

/-- C88. With translation, the real address reported for the data of every load and store is the one in the frame that
the kernel gave for its page, at most 100 look-ups before. -/
theorem C88_data_real_partial (extra : Nat) (xs : List Seen) (ht : Traceable xs) (hA : Answers xs) (hM : Mapped xs) :
    ∃ file, liveFile true true extra xs = .ok file ∧ ∀ (beyond : Nat → Qt.Byte) (i : Nat) (x : Seen) (k : IsaMem.Insn),
      xs[i]? = some x → k ∈ handled → k.Encodes x.insn →
      ∃ o a pa sh, (Qt.readTrace { bytes := file, beyond := beyond } false false).records[i]? = some o ∧
        a.toNat = k.ea.value x.insn x.regs ∧
        LiveSpec.Fresh (accesses (xs.take i) ++ [fetch x]) ⟨x.kernel, a, false⟩ a pa sh ∧
        o.dataRaValid = true ∧ o.dataRa.toNat = realAddr pa sh a ∧ o.dataPageShiftValid = true ∧ o.dataPageShift = sh := by
  have hab : ∀ x ∈ xs, isStorageInsn x.insn x.regs ≠ .abort := fun x hx => storage_ne_abort (ht.supported x hx)
  have hx := makeAll_expressible true Maps.init xs ht (fun _ => hA)
  obtain ⟨-, hl, hm⟩ := makeAll_made true xs Maps.init hab (fun _ => hA)
  have hsays := makeAll_says xs [] hab hA
  rw [liveFile_closed true extra xs ht (fun _ => hA)]
  have e0 : runMaps [] = Maps.init := rfl
  rw [e0] at hsays
  generalize (makeAll true Maps.init xs).1 = rs at hx hl hm hsays ⊢
  obtain ⟨file, e, R⟩ := Qt.C03_data_reported 0 rs hx (fun r hr => by
    obtain ⟨i, hi⟩ := List.getElem?_of_mem hr
    have hlt := (List.getElem?_eq_some_iff.1 hi).1
    obtain ⟨q, h1, h2⟩ := hm i (xs[i]'(by omega)) (List.getElem?_eq_getElem (by omega))
    rw [hi] at h1
    rw [Option.some.inj h1]
    exact h2.gi)
  refine ⟨file, e, fun beyond i x k hi hk he => ?_⟩
  obtain ⟨r, hr, hb⟩ := hm i x hi
  obtain ⟨a, n, st, hv, -⟩ := (C37_storage_partial x.insn x.regs).1 k hk he
  obtain ⟨q, hq, -, k2, -⟩ := hsays i x hi
  rw [hr] at hq
  obtain rfl := Option.some.inj hq
  have k2 := k2 a n st
  rw [List.nil_append] at k2
  obtain ⟨pa, sh, l1, l2, l6, l7⟩ := lookUp_fresh hM (accesses (xs.take i) ++ [fetch x]) _ ⟨x.kernel, a, false⟩
    (by rw [getElem?_accesses hi]; unfold lookUps; rw [st]; simp; rfl)
  rw [l1] at k2
  obtain ⟨m1, m2, m3, m4⟩ := k2
  obtain ⟨o, ho, p1, p2, p3, p4⟩ := R beyond i r hr
  have hd := hb.data
  rw [st] at hd
  have hdv : r.dataAddrValid = true ∧ r.dataAddr = a := by
    cases hv : r.dataAddrValid with
    | false => rw [hv] at hd; cases hd
    | true => rw [hv] at hd; exact ⟨rfl, Option.some.inj hd⟩
  refine ⟨o, a, pa, sh, ho, hv, l2, p3.trans m1, ?_, p1.trans m3, (p2 m3).trans m4⟩
  rw [p4 m1, hdv.1, hdv.2, m2, m3, m4]
  exact inFrame_real _ _ _ l6 l7

/-! ### Concrete cases -/

/-- A kernel that maps page `0x1000` to frame 7, page `0x1001` to frame 9 and everything else to frame 5. -/
def kernelN : Kernel :=
  ⟨fun p => some (0x8000000000000000#64 ||| (if p = 0x1001 then 9 else if p = 0x1000 then 7 else 5)), fun _ => some 0#64⟩

def regs1 : Gprs := fun n => if n = 1 then 0x20000000 else 0

/-- A load of `8(r1)`, a branch, and a no-op. -/
def seen3 : List Seen :=
  [⟨0x10000000, 0x80610008, regs1, kernelN⟩, ⟨0x10000004, 0x48000ffc, regs1, kernelN⟩, ⟨0x10001000, 0x60000000, regs1, kernelN⟩]

/-- Two no-ops, on both sides of the boundary of a page. -/
def seenX : List Seen := [⟨0x1000fffc, 0x60000000, regs1, kernelN⟩, ⟨0x10010000, 0x60000000, regs1, kernelN⟩]

/-- A prefixed load and the instruction behind it: the second word of the former is never seen. -/
def seenP : List Seen := [⟨0x10000000, 0x06000000, regs1, kernelN⟩, ⟨0x10000008, 0x60000000, regs1, kernelN⟩]

/-- Decidable version of `Traceable.supported`. -/
theorem traceable_of (xs : List Seen)
    (h1 : (xs.all fun x => unsupported.all fun i => !(decide (bits x.insn 0 6 = i.op) && decide (bits x.insn i.xf i.xl = i.xo))) = true)
    (h2 : (xs.all fun x => x.insn != 0) = true) : Traceable xs := by
  rw [List.all_eq_true] at h1 h2
  refine ⟨fun x hx i hi he => ?_, fun x hx h0 => ?_, ?_⟩
  · have := h1 x hx
    rw [List.all_eq_true] at this
    have := this i hi
    rw [decide_eq_true he.1, decide_eq_true he.2] at this
    cases this
  · have := h2 x (List.mem_of_mem_head? hx)
    rw [h0] at this; cases this
  · clear h1
    induction xs with
    | nil => trivial
    | cons a l ih =>
      cases l with
      | nil => trivial
      | cons b l =>
        refine ⟨fun h0 => ?_, ih (fun x hx => h2 x (by simp [hx]))⟩
        have := h2 b (by simp)
        rw [h0] at this; cases this

theorem answersN (xs : List Seen) (h : ∀ x ∈ xs, x.kernel = kernelN) : Answers xs := by
  intro x hx p
  rw [h x hx]
  exact ⟨by simp [kernelN], by simp [kernelN]⟩

theorem saysN (a : Access) (h : a.kernel = kernelN) (pa : BitVec 64) (sh : Nat) : Says a pa sh ↔
    (pa = (if BitVec.ofNat 64 (a.ea.toNat / 2 ^ 16) = 0x1001 then 0x90000 else
      if BitVec.ofNat 64 (a.ea.toNat / 2 ^ 16) = 0x1000 then 0x70000 else 0x50000) ∧ sh = 16) := by
  unfold Says
  rw [h]
  unfold kernelN
  dsimp only
  generalize BitVec.ofNat 64 (a.ea.toNat / 2 ^ 16) = p
  constructor
  · rintro ⟨w, f, h1, -, h3, h4, h5⟩
    have hf : f = 0#64 := (Option.some.inj h4).symm
    refine ⟨?_, by rw [h5, hf]; decide⟩
    rw [← Option.some.inj h1] at h3
    apply BitVec.eq_of_toNat_eq
    rw [h3]
    by_cases c1 : p = 0x1001
    · rw [if_pos c1, if_pos c1]; decide
    · rw [if_neg c1, if_neg c1]
      by_cases c2 : p = 0x1000
      · rw [if_pos c2, if_pos c2]; decide
      · rw [if_neg c2, if_neg c2]; decide
  · rintro ⟨h1, h2⟩
    refine ⟨_, _, rfl, ?_, ?_, rfl, by rw [h2]; decide⟩
    · by_cases c1 : p = 0x1001
      · rw [if_pos c1]; decide
      · rw [if_neg c1]
        by_cases c2 : p = 0x1000
        · rw [if_pos c2]; decide
        · rw [if_neg c2]; decide
    · rw [h1]
      by_cases c1 : p = 0x1001
      · rw [if_pos c1, if_pos c1]; decide
      · rw [if_neg c1, if_neg c1]
        by_cases c2 : p = 0x1000
        · rw [if_pos c2, if_pos c2]; decide
        · rw [if_neg c2, if_neg c2]; decide

theorem mappedN (xs : List Seen) (h : ∀ x ∈ xs, x.kernel = kernelN) (h1 : ((accesses xs).all fun a => decide (2 ^ 21 ≤ a.ea.toNat)) = true)
    (h2 : (accesses xs).length < 2 ^ 32) : Mapped xs := by
  have hk : ∀ a ∈ accesses xs, a.kernel = kernelN := by
    intro a ha
    unfold accesses at ha
    rw [List.mem_flatMap] at ha
    obtain ⟨x, hx, ha⟩ := ha
    unfold lookUps at ha
    rw [← h x hx]
    rcases List.mem_cons.1 ha with rfl | ha
    · rfl
    · split at ha
      · rw [List.mem_singleton] at ha; rw [ha]
      · simp at ha
  refine ⟨fun a ha => ⟨_, _, (saysN a (hk a ha) _ _).2 ⟨rfl, rfl⟩⟩, fun a ha pa sh hs => ?_, fun a ha => ?_, h2⟩
  · rw [((saysN a (hk a ha) _ _).1 hs).1]
    split
    · decide
    · split <;> decide
  · rw [List.all_eq_true] at h1
    exact of_decide_eq_true (h1 a ha)

/-- For concrete files: the file is made and passes a check. -/
def passes (X : Qt.WRes Qt.Bytes) (f : Qt.Bytes → Bool) : Bool :=
  match X with
  | .ok file => f file
  | _ => false

theorem of_passes {X : Qt.WRes Qt.Bytes} {P : Qt.Bytes → Prop} [DecidablePred P] (h : passes X (fun f => decide (P f)) = true) :
    ∃ file, X = .ok file ∧ P file := by
  cases X with
  | ok f => exact ⟨f, rfl, of_decide_eq_true h⟩
  | abort => cases h
  | ub => cases h

/-- The hypotheses of the theorems above are met by a load, a branch and a no-op ... -/
theorem seen3_ok : Traceable seen3 ∧ Answers seen3 ∧ Mapped seen3 := by
  have hk : ∀ x ∈ seen3, x.kernel = kernelN := by simp [seen3]
  exact ⟨traceable_of _ (by decide +kernel) (by decide +kernel), answersN _ hk, mappedN _ hk (by decide +kernel) (by decide +kernel)⟩

/-- ... and the file that the tracer writes says where they are: in frame 7, the data in frame 5. -/
example : ∃ file, liveFile true true 0 seen3 = .ok file ∧
    (Qt.readTrace { bytes := file, beyond := fun _ => 0 } false false).records.map
      (fun o => (o.insnAddr, o.insnRa, o.branchTaken)) =
      [(0x10000000, 0x70000, false), (0x10000004, 0x70004, true), (0x10001000, 0x71000, false)] ∧
    (Qt.readTrace { bytes := file, beyond := fun _ => 0 } false false).records.map
      (fun o => (o.dataAddrValid, o.dataAddr, o.dataRa)) =
      [(true, 0x20000008, 0x50008), (false, 0, 0), (false, 0, 0)] := by
  exact of_passes (by decide +kernel)

/-- The second and third instruction: reached by a jump (or at the beginning) and straight on, within the page. -/
example : Straight seen3 0 1 ∧ Straight seen3 2 2 := by
  refine ⟨⟨by omega, .inl rfl, fun k a b h1 h2 h3 h4 => ?_⟩, ⟨by omega, .inr ⟨_, _, rfl, rfl, by decide⟩, fun k a b h1 h2 => by omega⟩⟩
  obtain rfl : k = 0 := by omega
  rw [← Option.some.inj h3, ← Option.some.inj h4]; decide

/-- C88 in full is violated: an instruction that is reached from the page before without a jump is reported to be in the frame of
that page, though the tracer has asked the kernel about its own page and was told another frame. -/
theorem C88_real_refuted : ∃ xs : List Seen, Traceable xs ∧ Answers xs ∧ Mapped xs ∧
    ∃ file x o, liveFile true true 0 xs = .ok file ∧ xs[1]? = some x ∧
      (Qt.readTrace { bytes := file, beyond := fun _ => 0 } false false).records[1]? = some o ∧
      o.insnAddr = x.pc ∧ o.insnRaValid = true ∧ o.insnRa = 0x70000 ∧ ∀ pa sh, Says (fetch x) pa sh → pa = 0x90000 ∧ sh = 16 := by
  have hk : ∀ x ∈ seenX, x.kernel = kernelN := by simp [seenX]
  refine ⟨seenX, traceable_of _ (by decide +kernel) (by decide +kernel), answersN _ hk,
    mappedN _ hk (by decide +kernel) (by decide +kernel), ?_⟩
  have hr : ∃ file, liveFile true true 0 seenX = .ok file ∧
      ((Qt.readTrace { bytes := file, beyond := fun _ => 0 } false false).records[1]?).map
        (fun o => (o.insnAddr, o.insnRaValid, o.insnRa)) = some (0x10010000, true, 0x70000) :=
    of_passes (by decide +kernel)
  obtain ⟨file, e, h⟩ := hr
  rw [Option.map_eq_some_iff] at h
  obtain ⟨o, ho, h⟩ := h
  obtain ⟨h1, h2⟩ := Prod.mk.inj h
  obtain ⟨h2, h3⟩ := Prod.mk.inj h2
  refine ⟨file, ⟨0x10010000, 0x60000000, regs1, kernelN⟩, o, e, rfl, ho, h1, h2, h3, fun pa sh hs => ?_⟩
  have := (saysN _ rfl pa sh).1 hs
  exact this

/-- C88 in full is violated: of a prefixed instruction the file has the first word only, and says that it is a branch that
was taken. -/
theorem C88_prefixed_refuted : ∃ xs : List Seen, Traceable xs ∧
    ∃ file x y o, liveFile false true 0 xs = .ok file ∧ xs = [x, y] ∧ Qt.Spec.IsPrefix x.insn ∧ y.pc = x.pc + 8 ∧
      (Qt.readTrace { bytes := file, beyond := fun _ => 0 } false false).records.map (fun o => o.insn) = [x.insn, y.insn] ∧
      (Qt.readTrace { bytes := file, beyond := fun _ => 0 } false false).records[0]? = some o ∧
      o.branch = true ∧ o.branchTaken = true := by
  refine ⟨seenP, traceable_of _ (by decide +kernel) (by decide +kernel), ?_⟩
  have hr : ∃ file, liveFile false true 0 seenP = .ok file ∧
      (Qt.readTrace { bytes := file, beyond := fun _ => 0 } false false).records.map (fun o => o.insn) = [0x06000000, 0x60000000] ∧
      ((Qt.readTrace { bytes := file, beyond := fun _ => 0 } false false).records[0]?).map
        (fun o => (o.branch, o.branchTaken)) = some (true, true) :=
    of_passes (by decide +kernel)
  obtain ⟨file, e, h0, h⟩ := hr
  rw [Option.map_eq_some_iff] at h
  obtain ⟨o, ho, h⟩ := h
  obtain ⟨h1, h2⟩ := Prod.mk.inj h
  exact ⟨file, _, _, o, e, rfl, by simp [Qt.Spec.IsPrefix], by decide, h0, ho, h1, h2⟩

/-- C88 in full is violated: an instruction that the tracer does not know (`lswx`) makes it abort, and the instruction recorded last
before is lost too. -/
theorem C88_abort_refuted : ∃ xs : List Seen, xs.length = 2 ∧ Answers xs ∧ ∃ file, liveFile true true 0 xs = .ok file ∧
    (Qt.readTrace { bytes := file, beyond := fun _ => 0 } false false).records.length = 0 :=
  ⟨[⟨0x10000000, 0x60000000, regs1, kernelN⟩, ⟨0x10000004, 0x7c00042a, regs1, kernelN⟩], rfl, answersN _ (by simp),
    of_passes (by decide +kernel)⟩

end Ptr
