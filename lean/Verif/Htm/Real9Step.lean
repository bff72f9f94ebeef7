import Verif.Htm.Real9
/-! One instruction of a POWER9 trace with real addresses. -/
namespace Htm
open Htm.Spec

/-- What goes on after events that are not records. -/
def after (es0 : List Ev) {α : Type} (e : Except Halt (α × List (BitVec 64) × List Ev)) : Except Halt (α × List (BitVec 64) × List Ev) :=
  match e with
  | .error h => .error h
  | .ok (b, l', es') => .ok (b, l', es0 ++ es')

theorem after_nil {α : Type} (e : Except Halt (α × List (BitVec 64) × List Ev)) : after [] e = e := by cases e <;> rfl

theorem after_after {α : Type} (a b : List Ev) (e : Except Halt (α × List (BitVec 64) × List Ev)) : after a (after b e) = after (a ++ b) e := by
  cases e with
  | error h => rfl
  | ok q => show Except.ok _ = Except.ok _; rw [List.append_assoc]

theorem Tlb.run_append : ∀ (a b : List Tlb.Op) (c : Tlb.Cache), Tlb.run c (a ++ b) = (Tlb.run c a).bind fun c => Tlb.run c b
  | [], _, _ => rfl
  | .set ea flags ra size :: a, b, c => by
    show (Tlb.raSet c ea flags ra size).bind _ = ((Tlb.raSet c ea flags ra size).bind _).bind _
    cases Tlb.raSet c ea flags ra size with
    | none => rfl
    | some c => exact run_append a b c
  | .get ea flags :: a, b, c => by
    show (Tlb.raGet c ea flags).bind _ = ((Tlb.raGet c ea flags).bind _).bind _
    cases Tlb.raGet c ea flags with
    | none => rfl
    | some r => exact run_append a b c

/-- The record for an instruction, and what is counted for it. -/
theorem finish9_put {c : Conf} (hc : c.full = true) (s : Dec) (i : I9) (l : List (BitVec 64)) :
    ∃ s' w es, wordOf i.branch i.opcode (recodeP9 i.opcode s.insnAddr) = some w ∧
      (finish9 c s i).eval l = .ok ((s', true), l, es) ∧ s'.tlb = s.tlb ∧ s'.insnAddr = s.insnAddr ∧
      instructions es = [record9 c { s with insn := w } i] ∧
      counters es = counters (jumpEvents s) ∧ s'.prevAddr = s.insnAddr ∧ s'.prevBranch = (i.branch || isCall w || jumped s) ∧ lookups es = [] := by
  obtain ⟨w, hw⟩ := wordOf_some (branch := i.branch) (op := i.opcode) (low_p9 i.opcode s.insnAddr)
  have hf : (finish9 c s i).eval l = (Prog.tell (.inst s.insnAddr w) (tellAll (jumpEvents s) (.tell (.insn (record9 c { s with insn := w } i))
      (.done ({ s with insn := w, prevAddr := s.insnAddr, prevBranch := i.branch || isCall w || jumped s }, true))))).eval l := by
    unfold finish9
    rw [hw]
    dsimp only
    rw [hc, if_pos rfl]
  rw [eval_tell, eval_tellAll, eval_tell] at hf
  refine ⟨{ s with insn := w, prevAddr := s.insnAddr, prevBranch := i.branch || isCall w || jumped s }, w, _, hw, hf, rfl, rfl, ?_, ?_, rfl, rfl, ?_⟩
  · show instructions (jumpEvents s ++ [Ev.insn (record9 c { s with insn := w } i)]) = _
    rw [instructions_append]
    have : instructions (jumpEvents s) = [] := by
      unfold jumpEvents
      split
      · split
        · rfl
        · split <;> rfl
      · rfl
    rw [this]; rfl
  · show counters (jumpEvents s ++ [Ev.insn (record9 c { s with insn := w } i)]) = _
    rw [counters_append]
    exact List.append_nil _
  · show lookups (jumpEvents s ++ [Ev.insn (record9 c { s with insn := w } i)]) = _
    rw [lookups_append]
    unfold jumpEvents
    split
    · split
      · rfl
      · split <;> rfl
    · rfl

/-- The real page of the data. -/
def putDra (i : I9) : Option (BitVec 64) → I9
  | none => i
  | some v => { i with draAddr := BitVec.ofNat 64 (drFrame v), draSize := drSize v }

/-- What is counted for the record with the real page of the data, or with their virtual segment. -/
def dra9Counts (seg : Bool) : Option (BitVec 64) → List Counter
  | some v => if seg then [.segment (BitVec.ofNat 32 (fld v 0 1)), .withDVsid] else [.withoutDVsid]
  | none => []

/-- The address of the data, which is not in the trace if the segment is. -/
theorem dea9_put {c : Conf} (hc : c.full = true) (s : Dec) (i : I9) (l : List (BitVec 64)) (dea : Option (BitVec 64))
    (h : i.dea = dea.isSome) (ht : ∀ v, dea = some v → badTag v = false) :
    (deaStep9 c s i).eval (dea.toList ++ l) = (draStep9 c s { i with deaAddr := if i.esid then i.deaAddr else dea.getD i.deaAddr }).eval l := by
  by_cases he : i.esid = true
  · rw [if_pos he]
    cases dea with
    | none =>
      unfold deaStep9
      rw [if_neg (by rw [h]; decide)]
      rfl
    | some v =>
      unfold deaStep9
      rw [if_pos (by rw [h]; rfl)]
      show Prog.eval (if (!c.full) = true then _ else if badTag v = true then _ else if i.esid = true then _ else _) l = _
      rw [hc, if_neg (by decide), if_neg (by rw [ht v rfl]; decide), if_pos he]
  · rw [if_neg he]
    exact dea9_eval hc s i l dea h (by simpa using he) ht

theorem dra9_segment {c : Conf} (hc : c.full = true) (s : Dec) (i : I9) (l : List (BitVec 64)) (dra : Option (BitVec 64))
    (h : i.dra = dra.isSome) (he : i.esid = true) (ht : ∀ v, dra = some v → badTag v = false) :
    ∃ es0, instructions es0 = [] ∧ (draStep9 c s i).eval (dra.toList ++ l) = after es0 ((finish9 c s i).eval l) ∧
      counters es0 = dra9Counts true dra ∧ lookups es0 = [] := by
  cases dra with
  | none =>
    refine ⟨[], rfl, ?_, rfl, rfl⟩
    unfold draStep9
    rw [if_neg (by rw [h]; decide), after_nil]
    rfl
  | some v =>
    have hu : u32 v 0 1 = BitVec.ofNat 32 (fld v 0 1) := by
      rw [← u32_fld (v := v) (a := 0) (b := 1) (by omega) (by omega) (by omega), BitVec.ofNat_toNat, BitVec.setWidth_eq]
    refine ⟨[.count (.segment (BitVec.ofNat 32 (fld v 0 1))), .count .withDVsid], rfl, ?_, rfl, rfl⟩
    unfold draStep9
    rw [if_pos (by rw [h]; rfl)]
    show Prog.eval (if (!c.full) = true then _ else if i.esid = true then (if badTag v = true then _ else _) else _) l = _
    rw [hc, if_neg (by decide), if_pos he, if_neg (by rw [ht v rfl]; decide), eval_tell, eval_tell, hu]
    generalize (finish9 c s i).eval l = e
    cases e <;> rfl

theorem dra9_put {c : Conf} (hc : c.full = true) (s : Dec) (i : I9) (l : List (BitVec 64)) (dra : Option (BitVec 64))
    (h : i.dra = dra.isSome) (he : i.esid = false) (ht : ∀ v, dra = some v → badTag v = false ∧ fld v 0 1 ≠ 2 ∧ drFrame v % 2 ^ drSize v = 0) :
    ∃ es0, instructions es0 = [] ∧ (draStep9 c s i).eval (dra.toList ++ l) = after es0 ((finish9 c s (putDra i dra)).eval l) ∧
      counters es0 = dra9Counts false dra ∧ lookups es0 = [] := by
  cases dra with
  | none =>
    refine ⟨[], rfl, ?_, rfl, rfl⟩
    unfold draStep9
    rw [if_neg (by rw [h]; decide), after_nil]
    rfl
  | some v =>
    obtain ⟨h1, h2⟩ := ht v rfl
    obtain ⟨a, hd, ha⟩ := dra9_value h1 h2
    have ha : a = BitVec.ofNat 64 (drFrame v) := by rw [← ha, BitVec.ofNat_toNat, BitVec.setWidth_eq]
    have hdp : dataPages9 (drSize v) = [] := by
      have := drSize_cases v
      unfold dataPages9
      rw [if_neg (by omega), if_neg (by omega), if_neg (by omega)]
    refine ⟨dataPages9 (drSize v) ++ [.count .withoutDVsid], ?_, ?_, by rw [hdp]; rfl, by rw [hdp]; rfl⟩
    · rw [instructions_append]
      unfold dataPages9
      split
      · rfl
      · split
        · rfl
        · split <;> rfl
    · unfold draStep9
      rw [if_pos (by rw [h]; rfl)]
      show Prog.eval (if (!c.full) = true then _ else if i.esid = true then _ else _) l = _
      rw [hc, if_neg (by decide), if_neg (by rw [he]; decide), hd]
      dsimp only
      rw [ha]
      show _ = after _ ((finish9 c s { i with draAddr := BitVec.ofNat 64 (drFrame v), draSize := drSize v }).eval l)
      generalize finish9 c s { i with draAddr := BitVec.ofNat 64 (drFrame v), draSize := drSize v } = p
      rw [eval_tellAll, eval_tell]
      generalize p.eval l = e
      cases e with
      | error h => rfl
      | ok q => show Except.ok _ = Except.ok _; rw [List.append_assoc]; rfl

/-- What is counted for the real page of an instruction. -/
def ira9Counts (seg : Bool) : Option (BitVec 64) → List Counter
  | some v => [.insnPages (irSize v), if seg then .withIVsid else .withoutIVsid, .withIra]
  | none => [.withoutIra]

/-- What is known of an instruction once its addresses are read. -/
structure Placed (c : Conf) (t : Layout) (i0 : I9) (i : Item9r) (seen : List (Nat × Nat)) (prev : BitVec 64) (s' : Dec) (i' : I9) : Prop where
  opcode : i'.opcode = i0.opcode
  branch : i'.branch = i0.branch
  dea : i'.dea = i0.dea
  dra : i'.dra = i0.dra
  esid : i'.esid = i0.esid
  deaAddr : i'.deaAddr = i0.deaAddr
  addr : s'.insnAddr = i.addr prev
  cached : Cached t (i.seen seen prev) s'.tlb
  real : (if i'.ira && decide (i'.iraSize > 0) then some (i'.iraAddr.toNat, i'.iraSize) else none) = i.known t seen prev

theorem place_addr9 (s : Dec) (i : Item9r) : (place9 s i.iea).insnAddr = i.addr s.insnAddr := by
  unfold place9 Item9r.addr
  cases i.iea with
  | none => rfl
  | some v => exact mask_word v

/-- The instruction has its real page in the trace. -/
theorem ira9_put {c : Conf} (hc : c.full = true) {t : Layout} {seen : List (Nat × Nat)} {s : Dec} (hs : Cached t seen s.tlb) (prev : BitVec 64) (i0 : I9) (i : Item9r)
    (l : List (BitVec 64)) (hf : i.Format) (hw : i.Within t prev) (ha : s.insnAddr = i.addr prev) {v : BitVec 64} (hv : i.ira = some v)
    (hi : i0.ira = true) (hsoft : i0.soft = false) (hm : i0.msrir = decide i.Translated) :
    ∃ s' i' es0, instructions es0 = [] ∧ (iraStep9 c s i0).eval (v :: l) = after es0 ((deaStep9 c s' i').eval l) ∧ Placed c t i0 i seen prev s' i' ∧
      s'.prevAddr = s.prevAddr ∧ s'.prevBranch = s.prevBranch ∧ counters es0 = ira9Counts i0.esid i.ira ∧ lookups es0 = i.asks prev ∧
      Tlb.run s.tlb (i.asks prev) = some s'.tlb := by
  have hp := hf.ipage v hv
  have hst : ¬ IsStamp v := hf.plain v (by unfold Item9r.words; rw [hv]; simp)
  obtain ⟨a, e1, e2⟩ := ira9_value hst hp s.insnAddr
  have hsz := irSize_cases v
  have hset : ∃ c', Tlb.raSet s.tlb s.insnAddr (reloc i0.msrir) a (BitVec.twoPow 64 (irSize v)) = some c' ∧ Cached t (i.seen seen prev) c' := by
    by_cases ht : i.Translated
    · have hsize : (BitVec.twoPow 64 (irSize v)).toNat = 2 ^ irSize v := by
        rw [BitVec.toNat_twoPow, Nat.mod_eq_of_lt (Nat.pow_lt_pow_right (by decide) (by omega))]
      have p1 := hw.page ht v hv
      have htop := hw.top ht
      rw [hm, decide_eq_true ht]
      obtain ⟨c', q1, q2⟩ := hs.set (a := s.insnAddr) (ra := a) (size := BitVec.twoPow 64 (irSize v))
        (f := irFrame v) (by rw [e2, ha, ← p1]) (by rw [ha, ← p1]; exact hp.2.2) (by rw [hsize, p1, ha]) (by rw [ha]; exact htop)
      refine ⟨c', q1, ?_⟩
      unfold Item9r.seen
      rw [hv]
      dsimp only
      rw [if_pos ht, ← ha]
      exact q2
    · rw [hm, decide_eq_false ht]
      refine ⟨s.tlb, ?_, ?_⟩
      · unfold Tlb.raSet reloc
        rw [if_pos (by decide)]
      · unfold Item9r.seen
        rw [hv]
        dsimp only
        rw [if_neg ht]
        exact hs
  obtain ⟨c', hset, hcached⟩ := hset
  have hasks : i.asks prev = [.set s.insnAddr (reloc i0.msrir) a (BitVec.twoPow 64 (irSize v))] := by
    unfold Item9r.asks
    rw [hv, hm, ← ha]
    dsimp only
    rw [← e2, BitVec.ofNat_toNat, BitVec.setWidth_eq]
    congr 2
    · by_cases ht : i.Translated
      · rw [if_pos ht, decide_eq_true ht]; rfl
      · rw [if_neg ht, decide_eq_false ht]; rfl
    · apply BitVec.eq_of_toNat_eq
      rw [BitVec.toNat_twoPow, BitVec.toNat_ofNat]
  refine ⟨{ s with tlb := c' }, { i0 with iraAddr := a, iraSize := irSize v },
    [.ea s.insnAddr, .count (.insnPages (irSize v)), .count (if i0.esid then .withIVsid else .withoutIVsid),
      .tlb (.set s.insnAddr (reloc i0.msrir) a (BitVec.twoPow 64 (irSize v))), .count .withIra], rfl, ?_, ?_, rfl, rfl, by rw [hv]; rfl, by rw [hasks]; rfl,
    by rw [hasks]; show (Tlb.raSet _ _ _ _ _).bind _ = _; rw [hset]; rfl⟩
  · unfold iraStep9
    rw [eval_tell, if_pos (by rw [hi, hsoft]; rfl)]
    have hfetch : ∀ (k : Option (BitVec 64) → Prog (Dec × Bool)), (Prog.fetch k).eval (v :: l) = (k (some v)).eval l := fun _ => rfl
    rw [hfetch]
    dsimp only
    rw [hc, if_neg (by decide), e1]
    dsimp only
    rw [eval_tell, eval_tell, eval_tell, hset]
    dsimp only
    rw [eval_tell]
    generalize (deaStep9 c { s with tlb := c' } { i0 with iraAddr := a, iraSize := irSize v }).eval l = e
    cases e <;> rfl
  · refine ⟨rfl, rfl, rfl, rfl, rfl, rfl, ha, hcached, ?_⟩
    show (if (i0.ira && decide (irSize v > 0)) = true then some (a.toNat, irSize v) else none) = _
    rw [hi, decide_eq_true (by omega), if_pos (by decide), e2, ha]
    unfold Item9r.known
    rw [hv]

/-- The addresses of an instruction. -/
theorem iea9_put {c : Conf} (hc : c.full = true) {t : Layout} {seen : List (Nat × Nat)} {s : Dec} (hs : Cached t seen s.tlb) (i0 : I9) (i : Item9r)
    (l : List (BitVec 64)) (hf : i.Format) (hw : i.Within t s.insnAddr) (h : i0.iea = i.iea.isSome) (hi : i0.ira = i.ira.isSome) (hsoft : i0.soft = false)
    (hm : i0.msrir = false) (hbi : ∀ v, i.iea = some v → badTag v = false) :
    ∃ s' i' es0, instructions es0 = [] ∧ (ieaStep9 c s i0).eval (i.iea.toList ++ (i.ira.toList ++ l)) = after es0 ((deaStep9 c s' i').eval l) ∧
      Placed c t i0 i seen s.insnAddr s' i' ∧ s'.prevAddr = s.prevAddr ∧ s'.prevBranch = s.prevBranch ∧ counters es0 = ira9Counts i0.esid i.ira ∧ lookups es0 = i.asks s.insnAddr ∧
      Tlb.run s.tlb (i.asks s.insnAddr) = some s'.tlb := by
  have hplace := place_addr9 s i
  have hstep : (ieaStep9 c s i0).eval (i.iea.toList ++ (i.ira.toList ++ l)) =
      (match i.iea with
        | none => iraStep9 c (place9 s none) i0
        | some v => cached9 c (place9 s (some v)) { i0 with msrir := bit v 63 }).eval (i.ira.toList ++ l) := by
    unfold ieaStep9
    cases hv : i.iea with
    | none => rw [hv] at h; rw [if_neg (by rw [h]; decide)]; rfl
    | some v =>
      rw [hv] at h
      rw [if_pos (by rw [h]; rfl)]
      show Prog.eval (if badTag v = true then _ else _) _ = _
      rw [if_neg (by rw [hbi v hv]; decide)]
      rfl
  have hbit : ∀ v, i.iea = some v → bit v 63 = decide i.Translated := by
    intro v hv
    rw [bit_fld (by omega)]
    apply decide_eq_decide.2
    exact ⟨fun g => ⟨v, hv, g⟩, fun ⟨u, hu, g⟩ => by rw [hv] at hu; cases hu; exact g⟩
  rw [hstep]
  cases hr : i.ira with
  | some v =>
    rw [hr] at hi
    cases hv : i.iea with
    | none =>
      obtain ⟨s', i', es0, q1, q2, q3, q4, q5, q6, q7, q8⟩ := ira9_put hc (s := place9 s none) hs s.insnAddr i0 i l hf hw (by rw [← hplace, hv]) hr hi hsoft
        (by rw [hm, decide_eq_false]; rintro ⟨u, hu, -⟩; rw [hv] at hu; cases hu)
      exact ⟨s', i', es0, q1, q2, q3, q4, q5, by rw [q6, hr], q7, q8⟩
    | some u =>
      obtain ⟨s', i', es0, q1, q2, q3, q4, q5, q6, q7, q8⟩ := ira9_put hc (s := place9 s (some u)) hs s.insnAddr { i0 with msrir := bit u 63 } i l hf hw (by rw [← hplace, hv])
        hr hi hsoft (hbit u hv)
      refine ⟨s', i', es0, q1, ?_, ⟨q3.opcode, q3.branch, q3.dea, q3.dra, q3.esid, q3.deaAddr, q3.addr, q3.cached, q3.real⟩, q4, q5, by rw [q6, hr], q7, q8⟩
      dsimp only
      unfold cached9
      rw [if_neg (by show ¬ (c.full && !i0.ira) = true; rw [hi, hc]; intro h; cases h)]
      exact q2
  | none =>
    rw [hr] at hi
    have hi : i0.ira = false := hi
    have hseen : i.seen seen s.insnAddr = seen := by
      unfold Item9r.seen
      rw [hr]
    have main : ∀ (f : List Ev), instructions f = [] → counters f = [] → lookups f = i.asks s.insnAddr → Tlb.run s.tlb (i.asks s.insnAddr) = some s.tlb → ∀ (s' : Dec) (i' : I9), s'.tlb = s.tlb → i'.ira = false ∨ i'.soft = true → Placed c t i0 i seen s.insnAddr s' i' ∧ s'.prevAddr = s.prevAddr ∧ s'.prevBranch = s.prevBranch →
        ∃ s1 i1 es0, instructions es0 = [] ∧ (tellAll f (iraStep9 c s' i')).eval l = after es0 ((deaStep9 c s1 i1).eval l) ∧ Placed c t i0 i seen s.insnAddr s1 i1 ∧
          s1.prevAddr = s.prevAddr ∧ s1.prevBranch = s.prevBranch ∧ counters es0 = ira9Counts i0.esid none ∧ lookups es0 = i.asks s.insnAddr ∧
          Tlb.run s.tlb (i.asks s.insnAddr) = some s1.tlb := by
      intro f hf1 hf2 hf3 hf4 s' i' htlb h1 ⟨h2, h3, h4⟩
      refine ⟨s', i', f ++ [.ea s'.insnAddr, .count .withoutIra], by rw [instructions_append, hf1]; rfl, ?_, h2, h3, h4, by rw [counters_append, hf2]; rfl,
        by rw [lookups_append, hf3]; exact List.append_nil _, by rw [htlb]; exact hf4⟩
      rw [eval_tellAll, ira9_eval s' i' l h1]
      generalize (deaStep9 c s' i').eval l = e
      cases e with
      | error h => rfl
      | ok q => show Except.ok _ = Except.ok _; rw [List.append_assoc]; rfl
    cases hv : i.iea with
    | none =>
      have hasks : i.asks s.insnAddr = [] := by unfold Item9r.asks; rw [hr, hv]
      refine main [] rfl rfl hasks.symm (by rw [hasks]; rfl) (place9 s none) i0 rfl (.inl hi) ⟨⟨rfl, rfl, rfl, rfl, rfl, rfl, by rw [← hplace, hv], by rw [hseen]; exact hs, ?_⟩, rfl, rfl⟩
      rw [hi]
      unfold Item9r.known
      rw [hr, hv]
      rfl
    | some u =>
      rw [hv] at hplace
      have hu := hbit u hv
      have hasks : i.asks s.insnAddr = [.get (i.addr s.insnAddr) (reloc (bit u 63))] := by
        unfold Item9r.asks
        rw [hr, hv, hu]
        dsimp only
        congr 2
        by_cases ht : i.Translated
        · rw [if_pos ht, decide_eq_true ht]; rfl
        · rw [if_neg ht, decide_eq_false ht]; rfl
      have hrun : ∀ r, Tlb.raGet s.tlb (i.addr s.insnAddr) (reloc (bit u 63)) = some r → Tlb.run s.tlb (i.asks s.insnAddr) = some s.tlb := by
        intro r hg
        rw [hasks]
        show (Tlb.raGet _ _ _).bind _ = _
        rw [hg]
        rfl
      have hreal : i.known t seen s.insnAddr = if fld u 63 63 = 0 then some ((i.addr s.insnAddr).toNat % 2 ^ 62, 12)
          else (t.latest (i.addr s.insnAddr).toNat seen).map fun frame => (frame + (i.addr s.insnAddr).toNat % 2 ^ t.size (i.addr s.insnAddr).toNat, t.size (i.addr s.insnAddr).toNat) := by
        unfold Item9r.known
        rw [hr, hv]
      have hf2 : fld u 63 63 < 2 := fld_lt u 63 63
      have hb : bit u 63 = decide (fld u 63 63 = 1) := bit_fld (by omega)
      show ∃ s' i' es0, _ ∧ (cached9 c (place9 s (some u)) { i0 with msrir := bit u 63 }).eval l = _ ∧ _
      unfold cached9
      rw [if_pos (by show (c.full && !i0.ira) = true; rw [hc, hi]; rfl)]
      show ∃ s' i' es0, _ ∧ Prog.eval (.tell (.tlb (.get (place9 s (some u)).insnAddr (reloc (bit u 63)))) <| match Tlb.raGet s.tlb (place9 s (some u)).insnAddr (reloc (bit u 63)) with
        | none => Prog.stop .assert
        | some none => iraStep9 c (place9 s (some u)) { i0 with msrir := bit u 63 }
        | some (some (a, size)) => iraStep9 c (place9 s (some u)) { i0 with msrir := bit u 63, ira := true, soft := true, iraAddr := a, iraSize := shiftOf size }) l = _ ∧ _
      rw [hplace]
      by_cases ht : fld u 63 63 = 1
      · rw [hb, decide_eq_true ht] at hasks hrun ⊢
        show ∃ s' i' es0, _ ∧ Prog.eval (.tell (.tlb (.get (i.addr s.insnAddr) 1)) <| match Tlb.raGet s.tlb (i.addr s.insnAddr) 1 with
          | none => Prog.stop .assert
          | some none => iraStep9 c (place9 s (some u)) { i0 with msrir := true }
          | some (some (a, size)) => iraStep9 c (place9 s (some u)) { i0 with msrir := true, ira := true, soft := true, iraAddr := a, iraSize := shiftOf size }) l = _ ∧ _
        rw [if_neg (by omega)] at hreal
        cases hk : t.latest (i.addr s.insnAddr).toNat seen with
        | some f =>
          obtain ⟨ra, size, g1, g2, g3⟩ := hs.hit hk
          rw [g1]
          refine main [.tlb (.get (i.addr s.insnAddr) 1)] rfl rfl hasks.symm (hrun _ g1) (place9 s (some u)) { i0 with msrir := true, ira := true, soft := true, iraAddr := ra, iraSize := shiftOf size } rfl (.inr rfl)
            ⟨⟨rfl, rfl, rfl, rfl, rfl, rfl, hplace, by rw [hseen]; exact hs, ?_⟩, rfl, rfl⟩
          rw [hreal, hk]
          show (if (true && decide (shiftOf size > 0)) = true then some (ra.toNat, shiftOf size) else none) = _
          rw [g3, g2]
          have := t.sizes (i.addr s.insnAddr).toNat
          rw [decide_eq_true (by omega), if_pos (by decide)]
          rfl
        | none =>
          rw [hs.miss hk]
          refine main [.tlb (.get (i.addr s.insnAddr) 1)] rfl rfl hasks.symm (hrun _ (hs.miss hk)) (place9 s (some u)) { i0 with msrir := true } rfl (.inl hi) ⟨⟨rfl, rfl, rfl, rfl, rfl, rfl, hplace, by rw [hseen]; exact hs, ?_⟩, rfl, rfl⟩
          rw [hreal, hk]
          show (if (i0.ira && _) = true then _ else _) = _
          rw [hi]; rfl
      · rw [hb, decide_eq_false ht] at hasks hrun ⊢
        rw [if_pos (by omega)] at hreal
        show ∃ s' i' es0, _ ∧ Prog.eval (.tell (.tlb (.get (i.addr s.insnAddr) 0)) <| iraStep9 c (place9 s (some u)) { i0 with msrir := false, ira := true, soft := true, iraAddr := i.addr s.insnAddr &&& 0x3fffffffffffffff, iraSize := 12 }) l = _ ∧ _
        refine main [.tlb (.get (i.addr s.insnAddr) 0)] rfl rfl hasks.symm (hrun _ rfl) (place9 s (some u)) { i0 with msrir := false, ira := true, soft := true, iraAddr := i.addr s.insnAddr &&& 0x3fffffffffffffff, iraSize := 12 } rfl (.inr rfl)
            ⟨⟨rfl, rfl, rfl, rfl, rfl, rfl, hplace, by rw [hseen]; exact hs, ?_⟩, rfl, rfl⟩
        rw [hreal]
        show some ((i.addr s.insnAddr &&& 0x3fffffffffffffff).toNat, 12) = _
        rw [BitVec.toNat_and, show (0x3fffffffffffffff : BitVec 64).toNat = 2 ^ 62 - 1 from by decide, Nat.and_two_pow_sub_one_eq_mod]

end Htm
