import Verif.Build.TextLemmas
import Verif.Qt.PropsRoundTrip

/-! # Traces turned into assembler text and back (C89) -/

namespace Qtb
open QtbSpec AsmSpec

/-- The records built from lines without zero words can be written. -/
theorem source_expressible (pc : BitVec 64) (lines : List Line) (hb : 4 * lines.length < 2 ^ 64)
    (hp : ∀ l ∈ lines, Plain l) (h4 : pc.toNat % 4 = 0) (hw : Words lines) (h0 : ∀ l, lines.head? = some l → l.word ≠ 0) :
    Qt.Spec.Expressible (buildSource pc lines).records := by
  have hall : Follows pc lines (buildSource pc lines).records ∧ ∀ r ∈ (buildSource pc lines).records,
      r.insnRaValid = false ∧ r.dataRaValid = false ∧ r.insnPageShiftValid = false ∧
      r.guestInsnPageShiftValid = false ∧ r.dataPageShiftValid = false ∧ r.guestDataPageShiftValid = false ∧ r.radixInsn.nrPtes = 0 := by
    rw [buildSource_eq pc lines hb]
    have h := loop_follows lines 0 pc [] (by omega) hp h4 (fun e h => by cases h)
    rw [List.nil_append] at h
    exact ⟨h.1, record_ok _ _ _ _ _⟩
  refine ⟨fun r hr => ?_, follows_chain lines pc _ hall.1 hw fun r hr => (hall.2 r hr).2.1, fun r hr => ?_⟩
  · obtain ⟨a1, a2, a3, a4, a5, a6, _⟩ := hall.2 r hr
    refine ⟨⟨?_, ?_, ?_, ?_⟩, ?_, ?_⟩ <;> intro h
    · rw [a3] at h; cases h
    · rw [a4] at h; cases h
    · rw [a5] at h; cases h
    · rw [a6] at h; cases h
    · rw [a1] at h; cases h
    · rw [a2] at h; cases h
  · have hm := List.mem_of_mem_head? hr
    refine ⟨fun hz => ?_, fun hn => absurd (hall.2 r hm).2.2.2.2.2.2 hn⟩
    have hf := hall.1
    cases hrs : (buildSource pc lines).records with
    | nil => rw [hrs] at hr; cases hr
    | cons r' rs =>
      rw [hrs] at hr hf
      injection hr with hr; subst hr
      cases lines with
      | nil => exact hf
      | cons l ls => exact h0 l rfl ((follows_insn hf.1 hf.2.1).1 hz)

theorem after_aligned {rs : List Qt.Record} (h : Regular rs) {i : Nat} {r : Qt.Record} (hr : rs[i]? = some r) :
    after rs i r ≠ r.insnAddr + 4 → (after rs i r).toNat % 4 = 0 := by
  intro hne
  unfold after at hne ⊢
  cases hs : rs[i + 1]? with
  | none => rw [hs] at hne; exact absurd rfl hne
  | some s => exact h.aligned s (List.mem_of_getElem? hs)

/-- The lines of a regular trace are fine. -/
theorem lines_fine {r : Qt.Record} {rs : List Qt.Record} (h : Regular (r :: rs)) :
    (∀ l ∈ linesOf (r :: rs), Plain l) ∧ (∀ l ∈ linesOf (r :: rs), l.word ≠ 0) ∧ SourceOk r.insnAddr (linesOf (r :: rs)) := by
  have back : ∀ l ∈ linesOf (r :: rs), ∃ (i : Nat) (q : Qt.Record), (r :: rs)[i]? = some q ∧ (linesOf (r :: rs))[i]? = some l := by
    intro l hl
    obtain ⟨i, hi⟩ := List.getElem?_of_mem hl
    have hlt := (List.getElem?_eq_some_iff.1 hi).1
    rw [linesOf_length] at hlt
    exact ⟨i, _, List.getElem?_eq_getElem hlt, hi⟩
  refine ⟨fun l hl => ?_, fun l hl => ?_, sourceOk_of _ _ fun i l a h1 h2 => ?_⟩
  · obtain ⟨i, q, h1, h2⟩ := back l hl
    rw [linesOf_get _ i q h1] at h2
    rw [← Option.some.inj h2]
    unfold Plain
    dsimp only
    by_cases hc : after (r :: rs) i q = q.insnAddr + 4
    · rw [if_neg (by rw [hc]; simp)]; trivial
    · rw [if_pos hc]; exact after_aligned h h1 hc
  · obtain ⟨i, q, h1, h2⟩ := back l hl
    rw [linesOf_get _ i q h1] at h2
    rw [← Option.some.inj h2]
    exact withoutTarget_ne_zero (h.words q (List.mem_of_getElem? h1))
  · have hlt := (List.getElem?_eq_some_iff.1 h1).1
    rw [linesOf_length] at hlt
    obtain ⟨q, hq⟩ : ∃ q, (r :: rs)[i]? = some q := ⟨_, List.getElem?_eq_getElem hlt⟩
    have hm := List.mem_of_getElem? hq
    rw [addresses_linesOf _ _ (fun q hq => by rw [← Option.some.inj hq]), List.getElem?_map, hq] at h2
    have h2 : q.insnAddr = a := Option.some.inj h2
    rw [linesOf_get _ i q hq] at h1
    rw [← Option.some.inj h1, ← h2]
    refine ⟨?_, ?_, ?_⟩
    · dsimp only
      have : ((place q).2.isSome = true) ↔ q.dataAddrValid = true := by
        unfold place
        cases q.dataAddrValid <;> simp
      rw [this, h.data q hm]
      constructor
      · rintro ⟨k, h3, h4⟩
        exact ⟨k, h3, (encodes_withoutTarget _ k (List.mem_append_left _ h3)).2 h4⟩
      · rintro ⟨k, h3, h4⟩
        exact ⟨k, h3, (encodes_withoutTarget _ k (List.mem_append_left _ h3)).1 h4⟩
    · rintro ⟨k, h3, h4⟩
      exact h.supported q hm ⟨k, h3, (encodes_withoutTarget _ k (List.mem_append_right _ h3)).1 h4⟩
    · intro j hj
      dsimp only at hj ⊢
      by_cases hc : after (r :: rs) i q = q.insnAddr + 4
      · rw [if_neg (by rw [hc]; simp)] at hj; cases hj
      · have hj' := hj
        rw [if_pos hc] at hj'
        obtain rfl := Option.some.inj hj'
        refine ⟨fun hk => ?_, withoutTarget_ne_zero (h.words q hm), trivial⟩
        have ht : Targeted q.insn := (withoutTarget_targeted _).1 hk
        have hf := withoutTarget_fields ht
        rw [reachable_congr hf.1 hf.2.2.1]
        have e : next ⟨withoutTarget q.insn, some (.abs (after (r :: rs) i q)), (place q).2⟩ q.insnAddr = after (r :: rs) i q := rfl
        rw [if_pos hc, e, h.targets i q hq ht hc]
        exact reachable_target ht _

/-- What is built from the lines of a regular trace. -/
theorem built_of {r : Qt.Record} {rs : List Qt.Record} (h : Regular (r :: rs)) :
    (buildSource r.insnAddr (linesOf (r :: rs))).final = .done ∧
    (buildSource r.insnAddr (linesOf (r :: rs))).records.map place = (r :: rs).map place ∧
    ∀ (i : Nat) (q : Qt.Record), (r :: rs)[i]? = some q →
      ((buildSource r.insnAddr (linesOf (r :: rs))).records[i]?).map (·.insn) = some (leftOf (r :: rs) i q) := by
  obtain ⟨f1, f2, f3⟩ := lines_fine h
  have hsz : 4 * (linesOf (r :: rs)).length < 2 ^ 64 := by rw [linesOf_length]; exact h.size
  have h4 := h.aligned r (by simp)
  have hd := C45_built_partial r.insnAddr _ hsz f1 h4 f3
  obtain ⟨hflow, hlen⟩ := C45_flow_partial r.insnAddr _ hsz f1 h4
  have hlen := hlen hd
  rw [linesOf_length] at hlen
  have key : ∀ (i : Nat) (q : Qt.Record), (r :: rs)[i]? = some q → ∃ b, (buildSource r.insnAddr (linesOf (r :: rs))).records[i]? = some b ∧
      b.insn = leftOf (r :: rs) i q ∧ place b = place q := by
    intro i q hq
    have hlt := (List.getElem?_eq_some_iff.1 hq).1
    have hm := List.mem_of_getElem? hq
    obtain ⟨b, hb⟩ : ∃ b, (buildSource r.insnAddr (linesOf (r :: rs))).records[i]? = some b :=
      ⟨_, List.getElem?_eq_getElem (by rw [hlen]; exact hlt)⟩
    obtain ⟨l, a, h1, h2, m1, m2, m3, m4, -⟩ := hflow i b hb
    rw [addresses_linesOf _ _ (fun q hq => by rw [← Option.some.inj hq]), List.getElem?_map, hq] at h2
    have h2 : q.insnAddr = a := Option.some.inj h2
    rw [linesOf_get _ i q hq] at h1
    have h1 := Option.some.inj h1
    refine ⟨b, hb, ?_, ?_⟩
    · unfold leftOf
      by_cases hc : after (r :: rs) i q = q.insnAddr + 4
      · rw [if_pos hc]
        rw [← h1] at m2
        rw [if_neg (by rw [hc]; simp)] at m2
        exact m2
      · rw [if_neg hc]
        rw [← h1] at m2
        rw [if_pos hc] at m2
        have e : next ⟨withoutTarget q.insn, some (.abs (after (r :: rs) i q)), (place q).2⟩ a = after (r :: rs) i q := rfl
        dsimp only at m2
        rw [e] at m2
        unfold Reaches at m2
        by_cases ht : Targeted q.insn
        · have hf := withoutTarget_fields ht
          rw [if_pos (show Qt.Spec.kind _ = _ ∨ Qt.Spec.kind _ = _ from (withoutTarget_targeted _).2 ht)] at m2
          obtain ⟨n1, n2, n3, n4, n5⟩ := m2
          refine word_determined (pc := a) ht (n2.trans hf.1) (n3.trans hf.2.1) (n4.trans hf.2.2.1) (fun hk => ?_) ?_
          · have n5 := n5 (by rw [hf.1]; exact hk)
            exact ⟨n5.1.trans (hf.2.2.2 hk).1, n5.2.trans (hf.2.2.2 hk).2⟩
          · rw [n1, h.targets i q hq ht hc, h2]
        · rw [if_neg (show ¬ (Qt.Spec.kind _ = _ ∨ Qt.Spec.kind _ = _) from fun hh => ht ((withoutTarget_targeted _).1 hh)), withoutTarget_other ht] at m2
          exact m2
    · unfold place
      rw [m1, ← h2]
      have hv : b.dataAddrValid = q.dataAddrValid := by
        rw [Bool.eq_iff_iff, m3, h.data q hm, ← h1]
        constructor
        · rintro ⟨k, h3, h4⟩
          exact ⟨k, h3, (encodes_withoutTarget _ k (List.mem_append_left _ h3)).1 h4⟩
        · rintro ⟨k, h3, h4⟩
          exact ⟨k, h3, (encodes_withoutTarget _ k (List.mem_append_left _ h3)).2 h4⟩
      rw [hv]
      cases hq' : q.dataAddrValid with
      | false => rfl
      | true =>
        have := m4 (hv.trans hq')
        rw [← h1] at this
        unfold place at this
        rw [hq'] at this
        have this : some q.dataAddr = some b.dataAddr := this
        simp only [if_true]
        rw [this]
  refine ⟨hd, ?_, fun i q hq => ?_⟩
  · apply List.ext_getElem?
    intro i
    rw [List.getElem?_map, List.getElem?_map]
    cases hq : (r :: rs)[i]? with
    | none =>
      rw [List.getElem?_eq_none_iff] at hq
      rw [List.getElem?_eq_none (by omega)]
    | some q =>
      obtain ⟨b, k1, -, k2⟩ := key i q hq
      rw [k1, Option.map_some, Option.map_some, k2]
  · obtain ⟨b, k1, k2, -⟩ := key i q hq
    rw [k1, Option.map_some, k2]

theorem instructions_no_prefix : ∀ (rs : List Qt.Record), (∀ r ∈ rs, ¬ DisSpec.IsPrefix r.insn) →
    DisSpec.instructions rs = rs.map (fun r => (r, none))
  | [], _ => rfl
  | [_], _ => rfl
  | r :: s :: l, h => by
    have ih := instructions_no_prefix (s :: l) (fun x hx => h x (List.mem_cons_of_mem _ hx))
    show (if DisSpec.IsPrefix r.insn then _ else _) = _
    rw [if_neg (h r (by simp)), ih]; rfl

theorem pairwise_of : ∀ (xs : List Dis.Shown) (rs : List Qt.Record), xs.length = rs.length →
    (∀ (i : Nat) (x : Dis.Shown) (r : Qt.Record), xs[i]? = some x → rs[i]? = some r → Shows x r) → Pairwise xs rs
  | [], [], _, _ => .nil
  | [], _ :: _, h, _ => by cases h
  | _ :: _, [], h, _ => by cases h
  | x :: xs, r :: rs, h, hs => .cons (hs 0 x r rfl rfl)
      (pairwise_of xs rs (Nat.succ.inj h) fun i x r h1 h2 => hs (i + 1) x r h1 h2)

theorem map_get {α β γ : Type} {f : α → γ} {g : β → γ} {xs : List α} {ys : List β} (h : xs.map f = ys.map g) {i : Nat} {x : α} {y : β}
    (hx : xs[i]? = some x) (hy : ys[i]? = some y) : f x = g y := by
  have := congrArg (·[i]?) h
  simp only [List.getElem?_map, hx, hy, Option.map_some] at this
  exact Option.some.inj this

theorem place_of_read {rs R : List Qt.Record} (h1 : R.map (fun r => (r.insn, r.insnAddr)) = rs.map (fun r => (r.insn, r.insnAddr)))
    (h2 : ∀ (i : Nat) (r : Qt.Record), rs[i]? = some r → ∃ o, R[i]? = some o ∧ o.dataAddrValid = r.dataAddrValid ∧
      (r.dataAddrValid = true → o.dataAddr = r.dataAddr)) : R.map place = rs.map place ∧ R.map (·.insn) = rs.map (·.insn) := by
  have hlen : R.length = rs.length := by simpa using congrArg List.length h1
  refine ⟨List.ext_getElem? fun i => ?_, ?_⟩
  · rw [List.getElem?_map, List.getElem?_map]
    cases hr : rs[i]? with
    | none =>
      rw [List.getElem?_eq_none_iff] at hr
      rw [List.getElem?_eq_none (by omega)]
    | some r =>
      obtain ⟨o, ho, d1, d2⟩ := h2 i r hr
      rw [ho, Option.map_some, Option.map_some]
      have e := (Prod.mk.inj (map_get h1 ho hr)).2
      unfold place
      rw [e, d1]
      cases hv : r.dataAddrValid with
      | false => rfl
      | true => rw [d2 hv]
  · have := congrArg (List.map Prod.fst) h1
    rw [List.map_map, List.map_map] at this
    exact this

/-- C89 (partial), exactly: a regular trace turned into assembler text and back gives, in order, a record for every record, with the same address
and data address and the same word, but the branches that are not taken have lost their targets; and so the trace file written from
there reads. -/
theorem C89_rebuilt_partial (magic : BitVec 32) (rs : List Qt.Record) (hx : Qt.Spec.Expressible rs) (h0 : rs ≠ []) (h : Regular rs) :
    ∃ file, Qt.writeTrace magic rs = .ok file ∧ ∀ beyond, ∃ b file', rebuild { bytes := file, beyond := beyond } = some b ∧
      b.final = .done ∧ Qt.writeTrace 0 b.records = .ok file' ∧ ∀ beyond',
        let R := Qt.readTrace { bytes := file', beyond := beyond' } false false
        R.final = .fail ∧ R.records.map place = rs.map place ∧
        ∀ (i : Nat) (r : Qt.Record), rs[i]? = some r → (R.records[i]?).map (·.insn) = some (leftOf rs i r) := by
  have hpre : ∀ r ∈ rs, ¬ DisSpec.IsPrefix r.insn := h.plain
  have hin := instructions_no_prefix rs hpre
  have hcomp : DisSpec.Complete rs := by
    intro x hx' _
    rw [hin, List.mem_map] at hx'
    obtain ⟨r, hr, rfl⟩ := hx'
    exact hpre r hr
  obtain ⟨file, hw, H1⟩ := Qt.C01_roundtrip_partial magic rs hx
  obtain ⟨file2, hw2, H2⟩ := Qt.C02_data_addresses magic rs hx
  obtain ⟨file3, hw3, H3⟩ := Dis.C63_written_partial magic rs hx hcomp
  rw [hw] at hw2 hw3
  obtain rfl := Qt.WRes.ok.inj hw2
  obtain rfl := Qt.WRes.ok.inj hw3
  refine ⟨file, hw, fun beyond => ?_⟩
  obtain ⟨p1, p2⟩ := place_of_read (H1 beyond).1 (H2 beyond)
  have H3 := H3 beyond
  have hR : ∀ o ∈ (Qt.readTrace { bytes := file, beyond := beyond } false false).records, ¬ DisSpec.IsPrefix o.insn := by
    intro o ho
    have : o.insn ∈ rs.map (·.insn) := by rw [← p2]; exact List.mem_map_of_mem ho
    obtain ⟨r, hr, e⟩ := List.mem_map.1 this
    rw [← e]; exact hpre r hr
  have hinR := instructions_no_prefix _ hR
  have hcompR : DisSpec.Complete (Qt.readTrace { bytes := file, beyond := beyond } false false).records := by
    intro x hx' _
    rw [hinR, List.mem_map] at hx'
    obtain ⟨r, hr, rfl⟩ := hx'
    exact hR r hr
  have h43 := Dis.C43_plain_partial { bytes := file, beyond := beyond } hR
  have hrcd := (Dis.list_expected { bytes := file, beyond := beyond } hcompR).2.1
  rw [hinR, List.map_map] at hrcd
  rw [hin, List.map_map] at H3
  generalize hRd : (Qt.readTrace { bytes := file, beyond := beyond } false false).records = R at *
  have hlen : R.length = rs.length := by simpa using congrArg List.length p2
  have hpw : Pairwise (Dis.list { bytes := file, beyond := beyond }).shown rs := by
    refine pairwise_of _ _ ?_ fun i x r h1 h2 => ?_
    · have := congrArg List.length H3
      simpa using this
    · obtain ⟨o, ho⟩ : ∃ o, R[i]? = some o := ⟨_, List.getElem?_eq_getElem (by rw [hlen]; exact (List.getElem?_eq_some_iff.1 h2).1)⟩
      have e1 := map_get H3 h1 h2
      have e2 := map_get h43 h1 ho
      have e3 := map_get hrcd h1 ho
      have e4 := map_get p1 ho h2
      obtain ⟨e5, e6⟩ := Prod.mk.inj e1
      obtain ⟨-, e7⟩ := Prod.mk.inj e2
      have e8 : (Dis.line x).ea = r.insnAddr := e5
      refine ⟨e8, ?_, ?_⟩
      · have e6 : (Dis.line x).word = r.insn := e6
        cases hl : Dis.line x with
        | mk a b c =>
          rw [hl] at e6 e7 e8
          rw [show a = r.insnAddr from e8, show b = r.insn from e6, show c = none from e7]
      · have e3 : x.rcd = o := e3
        rw [e3, e4]
  cases rs with
  | nil => exact absurd rfl h0
  | cons r rs =>
    obtain ⟨b1, b2, b3⟩ := built_of h
    obtain ⟨f1, f2, -⟩ := lines_fine h
    have hx' := source_expressible r.insnAddr (linesOf (r :: rs)) (by rw [linesOf_length]; exact h.size) f1 (h.aligned r (by simp))
      (words_of _ f2) (fun l hl => f2 l (List.mem_of_mem_head? hl))
    obtain ⟨file', hw', G1⟩ := Qt.C01_roundtrip_partial 0 _ hx'
    obtain ⟨file2, hw2, G2⟩ := Qt.C02_data_addresses 0 _ hx'
    rw [hw'] at hw2
    obtain rfl := Qt.WRes.ok.inj hw2
    refine ⟨_, file', rebuild_eq _ r rs hpw, b1, hw', fun beyond' => ⟨(G1 beyond').2, ?_, fun i q hq => ?_⟩⟩
    · rw [(place_of_read (G1 beyond').1 (G2 beyond')).1, b2]
    · rw [← b3 i q hq]
      have := (place_of_read (G1 beyond').1 (G2 beyond')).2
      have := congrArg (·[i]?) this
      simpa only [List.getElem?_map] using this

/-- C89 (partial). If every branch with a target in its word is taken, the trace comes back as it was. Missing: `C89_refuted`. -/
theorem C89_same_partial (magic : BitVec 32) (rs : List Qt.Record) (hx : Qt.Spec.Expressible rs) (h0 : rs ≠ []) (h : Regular rs)
    (ht : ∀ (i : Nat) (r : Qt.Record), rs[i]? = some r → Targeted r.insn → after rs i r ≠ r.insnAddr + 4) :
    ∃ file, Qt.writeTrace magic rs = .ok file ∧ ∀ beyond, ∃ b file', rebuild { bytes := file, beyond := beyond } = some b ∧
      b.final = .done ∧ Qt.writeTrace 0 b.records = .ok file' ∧ ∀ beyond',
        let R := Qt.readTrace { bytes := file', beyond := beyond' } false false
        R.final = .fail ∧ R.records.map place = rs.map place ∧ R.records.map (·.insn) = rs.map (·.insn) := by
  obtain ⟨file, hw, H⟩ := C89_rebuilt_partial magic rs hx h0 h
  refine ⟨file, hw, fun beyond => ?_⟩
  obtain ⟨b, file', h1, h2, h3, h4⟩ := H beyond
  refine ⟨b, file', h1, h2, h3, fun beyond' => ?_⟩
  obtain ⟨k1, k2, k3⟩ := h4 beyond'
  refine ⟨k1, k2, List.ext_getElem? fun i => ?_⟩
  have hlen := congrArg List.length k2
  rw [List.length_map, List.length_map] at hlen
  rw [List.getElem?_map, List.getElem?_map]
  cases hr : rs[i]? with
  | none =>
    rw [List.getElem?_eq_none_iff] at hr
    rw [List.getElem?_eq_none (by omega)]
  | some r =>
    rw [k3 i r hr, Option.map_some]
    unfold leftOf
    by_cases hc : after rs i r = r.insnAddr + 4
    · rw [if_pos hc, withoutTarget_other (fun hT => ht i r hr hT hc)]
    · rw [if_neg hc]

/-! ### Concrete cases -/

/-- A trace: a load, a conditional branch that is taken, and a return. -/
def demoTrace : List Qt.Record := [
  { insn := 0x80610008, insnAddr := 0x1000, dataAddrValid := true, dataAddr := 0x7008 },
  { insn := 0x41820010, insnAddr := 0x1004, branch := true, conditionalBranch := true },
  { insn := 0x4e800020, insnAddr := 0x1014, branch := true },
  { insn := 0x60000000, insnAddr := 0x4000 } ]

/-- A trace with a conditional branch that is not taken. -/
def untaken : List Qt.Record := [
  { insn := 0x41820010, insnAddr := 0x1000, branch := true, conditionalBranch := true },
  { insn := 0x60000000, insnAddr := 0x1004 } ]

/-- Decidable conditions for a trace to be regular. -/
theorem regular_of (rs : List Qt.Record)
    (h1 : (rs.all fun r => decide (r.insn.toNat / 2 ^ 26 ≠ 1) && decide (r.insn ≠ 0) && decide (r.insnAddr.toNat % 4 = 0) &&
      decide (Ptr.isStorage r.insn = some r.dataAddrValid)) = true)
    (h2 : ((List.range rs.length).all fun i => match rs[i]? with
      | none => true
      | some r => decide (Targeted r.insn → after rs i r ≠ r.insnAddr + 4 → after rs i r = Qt.Spec.target r.insn.toNat r.insnAddr)) = true)
    (h3 : 4 * rs.length < 2 ^ 64) : Regular rs := by
  rw [List.all_eq_true] at h1 h2
  have h1' : ∀ r ∈ rs, r.insn.toNat / 2 ^ 26 ≠ 1 ∧ r.insn ≠ 0 ∧ r.insnAddr.toNat % 4 = 0 ∧ Ptr.isStorage r.insn = some r.dataAddrValid := by
    intro r hr
    have := h1 r hr
    simp only [Bool.and_eq_true, decide_eq_true_eq] at this
    exact ⟨this.1.1.1, this.1.1.2, this.1.2, this.2⟩
  refine ⟨fun r hr => (h1' r hr).1, fun r hr => (h1' r hr).2.1, fun r hr => (h1' r hr).2.2.1, fun r hr => ?_, fun r hr hu => ?_,
    fun i r hr => ?_, h3⟩
  · rw [← handled_iff, (h1' r hr).2.2.2]; simp
  · have := isStorage_unsupported hu
    rw [(h1' r hr).2.2.2] at this; cases this
  · have := h2 i (List.mem_range.2 (List.getElem?_eq_some_iff.1 hr).1)
    rw [hr] at this
    exact of_decide_eq_true this

/-- The hypotheses of `C89_same_partial` are met by the first trace. -/
example : Qt.Spec.Expressible demoTrace ∧ Regular demoTrace ∧
    ∀ (i : Nat) (r : Qt.Record), demoTrace[i]? = some r → Targeted r.insn → after demoTrace i r ≠ r.insnAddr + 4 := by
  refine ⟨?_, regular_of _ (by decide +kernel) (by decide +kernel) (by decide), fun i r hr ht => ?_⟩
  · simp [demoTrace, Qt.Spec.Expressible, Qt.Spec.RecordOk, Qt.Spec.ShiftsOk, Qt.Spec.WalkOk, Qt.Spec.Chain, Qt.Spec.StepOk, Qt.Spec.Jumps, Qt.Spec.NoWalk]
  · match i, hr with
    | 0, hr => rw [← Option.some.inj hr] at ht; exact absurd ht (by decide)
    | 1, hr => rw [← Option.some.inj hr]; decide
    | 2, hr => rw [← Option.some.inj hr] at ht; exact absurd ht (by decide)
    | 3, hr => rw [← Option.some.inj hr] at ht; exact absurd ht (by decide)
    | n + 4, hr => simp [demoTrace] at hr

/-- C89 in full is violated: `beq .+16` that is not taken comes back as `beq .`. -/
theorem C89_refuted : ∃ rs : List Qt.Record, Qt.Spec.Expressible rs ∧ Regular rs ∧ rs.map (·.insn) = [0x41820010, 0x60000000] ∧
    ∃ file, Qt.writeTrace 0 rs = .ok file ∧ ∀ beyond, ∃ b file', rebuild { bytes := file, beyond := beyond } = some b ∧
      b.final = .done ∧ Qt.writeTrace 0 b.records = .ok file' ∧ ∀ beyond',
        ((Qt.readTrace { bytes := file', beyond := beyond' } false false).records[0]?).map (·.insn) = some 0x41820000 := by
  have hx : Qt.Spec.Expressible untaken := by
    simp [untaken, Qt.Spec.Expressible, Qt.Spec.RecordOk, Qt.Spec.ShiftsOk, Qt.Spec.WalkOk, Qt.Spec.Chain, Qt.Spec.StepOk, Qt.Spec.Jumps, Qt.Spec.NoWalk]
  have hr : Regular untaken := regular_of _ (by decide +kernel) (by decide +kernel) (by decide)
  refine ⟨untaken, hx, hr, rfl, ?_⟩
  obtain ⟨file, hw, H⟩ := C89_rebuilt_partial 0 untaken hx (by simp [untaken]) hr
  refine ⟨file, hw, fun beyond => ?_⟩
  obtain ⟨b, file', h1, h2, h3, h4⟩ := H beyond
  refine ⟨b, file', h1, h2, h3, fun beyond' => ?_⟩
  rw [(h4 beyond').2.2 0 _ rfl]
  decide

/-- For concrete traces: the words that are built, and how building ends. -/
def outcome (rs : List Qt.Record) : Option (List (BitVec 32) × End) :=
  match Qt.writeTrace 0 rs with
  | .ok file => (rebuild { bytes := file, beyond := fun _ => 0 }).map fun b => (b.records.map (·.insn), b.final)
  | _ => none

/-- C89 is violated when an interrupt follows a branch: `beq .+16` at `0x1000`, not taken, followed by the interrupt at `0x500`, comes back
as a branch to `0x500`. -/
theorem C89_interrupt_refuted : outcome [{ insn := 0x41820010, insnAddr := 0x1000 }, { insn := 0x60000000, insnAddr := 0x500 }] =
    some ([0x4182f500, 0x60000000], .done) := by decide +kernel

/-- C89 is violated for prefixed instructions: the text has a second word of 0 (`C43_refuted`) and what follows counts as a jump, which
makes `qtbuild` give up. -/
theorem C89_prefixed_refuted : outcome [{ insn := 0x06000000, insnAddr := 0x1000 }, { insn := 0x38600001, insnAddr := 0x1004 },
    { insn := 0x60000000, insnAddr := 0x1008 }] = some ([0x06000000], .exit) := by decide +kernel

/-- C89 is violated for a load that the tool does not know (`lswx`): it aborts. -/
theorem C89_abort_refuted : outcome [{ insn := 0x60000000, insnAddr := 0x1000 },
    { insn := 0x7c00042a, insnAddr := 0x1004, dataAddrValid := true, dataAddr := 0x7000 }] = some ([0x60000000], .abort) := by decide +kernel

end Qtb
