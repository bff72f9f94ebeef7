import Verif.Htm.Counts
import Verif.Htm.PropsInsn
/-!
Decoding without a callback: what the counters are told.
-/
namespace Htm
open Spec

theorem logged_append (a b : List Ev) : logged (a ++ b) = logged a ++ logged b := List.filterMap_append ..
theorem places_append (a b : List Ev) : places (a ++ b) = places a ++ places b := List.filterMap_append ..

theorem insnEvents_logged (l : List Ev) : logged (insnEvents l) = logged l ∧ places (insnEvents l) = places l := by
  induction l with
  | nil => exact ⟨rfl, rfl⟩
  | cons e l ih =>
    unfold insnEvents
    cases h : ofInsn e with
    | true =>
      rw [List.filter_cons_of_pos h]
      show logged (e :: insnEvents l) = _ ∧ places (e :: insnEvents l) = _
      obtain ⟨h1, h2⟩ := ih
      unfold logged at h1 ⊢
      unfold places at h2 ⊢
      rw [List.filterMap_cons, List.filterMap_cons, List.filterMap_cons, List.filterMap_cons, h1, h2]
      exact ⟨rfl, rfl⟩
    | false =>
      rw [List.filter_cons_of_neg (by rw [h]; decide)]
      show logged (insnEvents l) = _ ∧ places (insnEvents l) = _
      rw [ih.1, ih.2]
      cases e <;> first | exact ⟨rfl, rfl⟩ | cases h

theorem counting_pure {eof failing : Bool} {bytes : List (BitVec 8)} {fill phantom : BitVec 64}
    (hk : AllKnown (stream bytes failing eof fill phantom)) {s : Dec} {es : List Ev}
    (h : pureLoop { fn := false, private_ := false, junk := {} } ((plain (stream bytes failing eof fill phantom)).length + 1) 0 {}
      (plain (stream bytes failing eof fill phantom)) = .ok (s, es)) :
    counting eof bytes failing fill phantom = some (logged es, places es) := by
  have h1 := decode_pure { fn := false, private_ := false, junk := {} } eof bytes failing fill phantom hk
  rw [h] at h1
  obtain ⟨r, h2, h3⟩ := h1
  unfold counting
  rw [h2]
  show some (logged r.out, places r.out) = _
  rw [← (insnEvents_logged r.out).1, ← (insnEvents_logged r.out).2, h3, (insnEvents_logged es).1, (insnEvents_logged es).2]

/-- Records that are not of instructions are skipped. -/
theorem loop_skip {c : Conf} {s : Dec} (l : List (BitVec 64)) : ∀ (p : List (BitVec 64)) (n e : Nat), (∀ v ∈ p, Other v) → (p ++ l).length < n →
    ∃ n' e', l.length < n' ∧ pureLoop c n e s (p ++ l) = pureLoop c n' e' s l
  | [], n, e, _, hn => ⟨n, e, hn, rfl⟩
  | _ :: _, 0, _, _, hn => absurd hn (by omega)
  | v :: p, n + 1, e, h, hn => by
    obtain ⟨h1, h2⟩ := h v (List.mem_cons_self ..)
    have hp := fun e => loop_skip (c := c) (s := s) l p n e (fun w hw => h w (List.mem_cons_of_mem _ hw)) (by simp at hn ⊢; omega)
    rw [List.cons_append, pureLoop]
    split
    · exact hp e
    · rw [show pureStep c s v (p ++ l) = .ok ((s, true), p ++ l, []) from by
        unfold pureStep
        rw [if_neg (fun h => h1 ((u32_eq (by omega) (by omega) (by omega) _).1 h)), if_neg (fun h => h2 ((u32_eq (by omega) (by omega) (by omega) _).1 h))]]
      dsimp only
      rw [if_neg (by rintro ⟨h, _⟩; cases h), if_pos rfl]
      obtain ⟨n', e', h3, h4⟩ := hp 0
      refine ⟨n', e', h3, ?_⟩
      rw [h4]
      generalize pureLoop c n' e' s l = x
      cases x with
      | error y => rfl
      | ok q => rfl

/-! ### POWER10 -/

theorem finish10_count {c : Conf} (hc : c.full = false) (s : Dec) (x : I10) (l : List (BitVec 64)) :
    ∃ s' w, wordOf x.branch x.opcode (recodeP10 x.opcode (place s x).insnAddr) = some w ∧ s'.insnAddr = (place s x).insnAddr ∧
      (finish10 c s x).eval l = .ok ((s', true), l, [.ea (place s x).insnAddr, .inst (place s x).insnAddr w]) := by
  obtain ⟨w, hw⟩ := wordOf_some (branch := x.branch) (op := x.opcode) (low_p10 x.opcode (place s x).insnAddr)
  refine ⟨{ place s x with insn := w }, w, hw, rfl, ?_⟩
  unfold finish10
  rw [hw]
  dsimp only
  rw [hc]
  rfl

/-- Only the first pair of data addresses is read. -/
theorem data10_count {c : Conf} (hc : c.full = false) {x : I10} {data : List (BitVec 64 × BitVec 64)} (hd : x.dea = data.length) (hr : x.dra = data.length)
    (h2 : data.length ≤ 2) (l : List (BitVec 64)) :
    ∃ x', (data10 c x).eval (data.flatMap (fun p => [p.1, p.2]) ++ l) = .ok (some x', (data.drop 1).flatMap (fun p => [p.1, p.2]) ++ l, []) ∧
      x'.ieara = x.ieara ∧ x'.opcode = x.opcode ∧ x'.branch = x.branch ∧ x'.eabits = x.eabits := by
  cases x with
  | mk ieara opcode branch hasPrefix dea dra esid eabits hv ir dr dea0 dea1 dra0 dra1 dxlates ndxlates ixlate prefixWord =>
    dsimp only at hd hr
    subst hd; subst hr
    match data, h2 with
    | [], _ => exact ⟨_, rfl, rfl, rfl, rfl, rfl⟩
    | [p], _ =>
      obtain ⟨a, b⟩ := p
      refine ⟨⟨ieara, opcode, branch, hasPrefix, 0, 0, esid, eabits, hv, ir, dr, dea0, dea1, dra0, dra1, dxlates, ndxlates, ixlate, prefixWord⟩, ?_, rfl, rfl, rfl, rfl⟩
      simp only [data10, dataStep10, draStep10, List.length_singleton, hc, List.flatMap_cons, List.flatMap_nil, List.cons_append,
        List.nil_append, Prog.bind, Prog.eval]
      simp [Prog.bind, Prog.eval]
    | [p, q], _ =>
      obtain ⟨a, b⟩ := p
      obtain ⟨d, e⟩ := q
      refine ⟨⟨ieara, opcode, branch, hasPrefix, 0, 0, esid, eabits, hv, ir, dr, dea0, dea1, dra0, dra1, dxlates, ndxlates, ixlate, prefixWord⟩, ?_, rfl, rfl, rfl, rfl⟩
      simp only [data10, dataStep10, draStep10, List.length_cons, List.length_nil, hc, List.flatMap_cons, List.flatMap_nil, List.cons_append,
        List.nil_append, Prog.bind, Prog.eval]
      simp [Prog.bind, Prog.eval]

theorem step10_count {c : Conf} (hc : c.full = false) {s : Dec} {i : Item10} (hi : i.Ok s.insnAddr) (rest : List (BitVec 64)) :
    ∃ v l0 s' es, i.words ++ rest = v :: l0 ∧ v ≠ 0 ∧ pureStep c s v l0 = .ok ((s', true), (i.data.drop 1).flatMap (fun p => [p.1, p.2]) ++ rest, es) ∧
      s'.insnAddr = i.addr s.insnAddr ∧ logged es = [⟨i.addr s.insnAddr, word10 i (i.addr s.insnAddr)⟩] ∧ places es = [i.addr s.insnAddr] := by
  obtain ⟨lines, info, msr, pre, data⟩ := i
  have hinfo : recType info = 2 := recType_eq hi.info.1 hi.info.2
  have hlines : ∀ p ∈ lines, recType p.1 = 3 := fun p hp => recType_eq (hi.lines p hp).1 (hi.lines p hp).2
  have hwords : (Item10.words ⟨lines, info, msr, pre, data⟩) ++ rest =
      lines.flatMap (fun p => [p.1, p.2.1, p.2.2]) ++ info :: (msr :: (pre.toList ++ (data.flatMap (fun p => [p.1, p.2]) ++ rest))) := by
    unfold Item10.words
    simp only [List.append_assoc, List.cons_append, List.nil_append]
  have hhead : ∃ v l0, lines.flatMap (fun p => [p.1, p.2.1, p.2.2]) ++ info :: (msr :: (pre.toList ++ (data.flatMap (fun p => [p.1, p.2]) ++ rest))) = v :: l0 ∧
      fld v 36 55 = 0xABCDF := by
    cases lines with
    | nil => exact ⟨_, _, rfl, hi.info.1⟩
    | cons q qs => exact ⟨_, _, rfl, (hi.lines q List.mem_cons_self).1⟩
  obtain ⟨v, l0, hv, htag⟩ := hhead
  have hlen : lines.length < l0.length + 1 := by
    have := congrArg List.length hv
    rw [List.length_append, List.length_flatMap, List.length_cons, List.length_cons, List.length_cons] at this
    have h3 := lines_length lines
    rw [h3] at this
    omega
  have hh := head10_eval (s := s) hinfo (msr :: (pre.toList ++ (data.flatMap (fun p => [p.1, p.2]) ++ rest))) lines none (l0.length + 1) v l0 hlines hlen hv
  have hd2 := hi.data.2
  have hlen2 : data.length = fld info 62 63 := hi.data.1
  have hinf := info10_eval (o := lastLine none lines) hinfo hd2
  generalize hx0 : ({ ieara := lastLine none lines, opcode := u32 info 0 31, branch := bit info 32, hasPrefix := bit info 33, eabits := u32 info 56 61 <<< 2, dea := fld info 62 63, dra := fld info 62 63, esid := false, hv := bit msr 0, ir := bit msr 2, dr := bit msr 3 } : I10) = x0
  have hpre : ∃ x : I10, (prefix10 c s x0).eval (pre.toList ++ (data.flatMap (fun p => [p.1, p.2]) ++ rest)) = (body10 c s x).eval (data.flatMap (fun p => [p.1, p.2]) ++ rest) ∧
      x.ieara = lastLine none lines ∧ x.opcode = u32 info 0 31 ∧ x.branch = bit info 32 ∧ x.eabits = u32 info 56 61 <<< 2 ∧
      x.dea = data.length ∧ x.dra = data.length := by
    have hp := hi.pre
    dsimp only at hp
    have hp0 : x0.hasPrefix = pre.isSome := by rw [← hx0, hp]; exact bit_fld (by omega)
    unfold prefix10
    cases pre with
    | none =>
      refine ⟨x0, by rw [if_neg (by rw [hp0]; decide)]; rfl, ?_⟩
      rw [← hx0, hlen2]
      exact ⟨rfl, rfl, rfl, rfl, rfl, rfl⟩
    | some p =>
      refine ⟨{ x0 with hasPrefix := false }, ?_, ?_⟩
      · rw [if_pos (by rw [hp0]; rfl)]
        show (body10 c s (if c.full then _ else _)).eval _ = _
        rw [hc, if_neg (by decide)]
        rfl
      · rw [← hx0, hlen2]
        exact ⟨rfl, rfl, rfl, rfl, rfl, rfl⟩
  obtain ⟨x, hx, hx1, hx2, hx3, hx5, hx7, hx8⟩ := hpre
  obtain ⟨x', hd, p1, p2, p3, p5⟩ := data10_count hc (x := x) hx7 hx8 (by rw [hlen2]; exact hd2) rest
  obtain ⟨s', w, hw, ha', hf⟩ := finish10_count hc s x' ((data.drop 1).flatMap (fun p => [p.1, p.2]) ++ rest)
  have haddr : (place s x').insnAddr = Item10.addr ⟨lines, info, msr, pre, data⟩ s.insnAddr :=
    place_addr rfl (by rw [p1, hx1]) (by rw [p5, hx5]) hi.half
  have hword : word10 ⟨lines, info, msr, pre, data⟩ (Item10.addr ⟨lines, info, msr, pre, data⟩ s.insnAddr) = w := by
    rw [p3, p2, hx2, hx3, haddr] at hw
    unfold word10
    rw [hw]; rfl
  refine ⟨v, l0, s', .count .recordsProcessed :: .count .instructionsScanned :: .count .instructionsProcessed :: [.ea (place s x').insnAddr, .inst (place s x').insnAddr w], by rw [hwords, hv], ?_, ?_, by rw [ha', haddr], ?_, ?_⟩
  · intro h0; rw [h0] at htag; revert htag; decide
  · unfold pureStep
    rw [if_neg (by rw [u32_eq (by omega) (by omega) (by omega), htag]; decide), if_pos ((u32_eq (by omega) (by omega) (by omega) _).2 htag)]
    unfold insn10
    rw [eval_tell, eval_tell, eval_bind, hh]
    dsimp only
    rw [hinf]
    dsimp only
    rw [eval_tell]
    unfold msr10
    rw [show ∀ (k : Option (BitVec 64) → Prog (Dec × Bool)) a b, (Prog.fetch k).eval (a :: b) = (k (some a)).eval b from fun _ _ _ => rfl]
    dsimp only
    rw [hx0, hx]
    unfold body10
    rw [eval_bind, hd]
    dsimp only
    rw [hf]
    rfl
  · rw [hword, ← haddr]; rfl
  · rw [← haddr]; rfl

/-- What the counters are told of a list of instructions. -/
def counts10 (prev : BitVec 64) : List Item10 → List Stats.Insn
  | [] => []
  | i :: l => ⟨i.addr prev, word10 i (i.addr prev)⟩ :: counts10 (i.addr prev) l

theorem loop10_count {c : Conf} (hc : c.full = false) {tail : List (BitVec 64)} (htail : ∀ v ∈ tail, Other v) : ∀ (items : List Item10) (n e : Nat) (s : Dec), Trace10 s.insnAddr items →
    (∀ i ∈ items, ∀ p ∈ i.data.drop 1, Other p.1 ∧ Other p.2) → (items.flatMap Item10.words ++ tail).length < n →
    ∃ s' es, pureLoop c n e s (items.flatMap Item10.words ++ tail) = .ok (s', es) ∧ logged es = counts10 s.insnAddr items ∧
      places es = (counts10 s.insnAddr items).map (·.ea)
  | _, 0, _, _, _, _, h => absurd h (by omega)
  | [], n + 1, e, s, _, _, hn => ⟨s, [], loop_other (n + 1) e tail htail hn, rfl, rfl⟩
  | i :: items, n + 1, e, s, ht, h2, hn => by
    obtain ⟨hi, ht⟩ := ht
    obtain ⟨v, l0, s1, es1, hw, hv, hstep, ha, hl1, hp1⟩ := step10_count hc hi (items.flatMap Item10.words ++ tail)
    rw [← ha] at ht
    have hlen : ((i.data.drop 1).flatMap (fun p => [p.1, p.2]) ++ (items.flatMap Item10.words ++ tail)).length < n := by
      have h1 := eval_left hstep
      have h2 := congrArg List.length hw
      rw [List.flatMap_cons, List.append_assoc, h2, List.length_cons] at hn
      omega
    obtain ⟨n', e', hn', hskip⟩ := loop_skip (c := c) (s := s1) (items.flatMap Item10.words ++ tail) ((i.data.drop 1).flatMap (fun p => [p.1, p.2])) n 0
      (by
        intro v hv
        obtain ⟨p, hp, hv⟩ := List.mem_flatMap.1 hv
        obtain ⟨o1, o2⟩ := h2 i (List.mem_cons_self ..) p hp
        rcases List.mem_cons.1 hv with rfl | hv
        · exact o1
        · rcases List.mem_singleton.1 hv with rfl; exact o2) hlen
    obtain ⟨s2, es2, hloop, hl2, hp2⟩ := loop10_count hc htail items n' e' s1 ht (fun j hj => h2 j (List.mem_cons_of_mem _ hj)) hn'
    refine ⟨s2, es1 ++ es2, ?_, ?_, ?_⟩
    · rw [List.flatMap_cons, List.append_assoc, hw, pureLoop, if_neg hv, hstep]
      dsimp only
      rw [if_neg (by rintro ⟨h, _⟩; cases h), if_pos rfl, hskip, hloop]
    · rw [logged_append, hl1, hl2, ha]; rfl
    · rw [places_append, hp1, hp2, ha]; rfl
termination_by items => items.length

/-! ### POWER9 -/

theorem finish9_count {c : Conf} (hc : c.full = false) (s : Dec) (i : I9) (l : List (BitVec 64)) :
    ∃ s' w, wordOf i.branch i.opcode (recodeP9 i.opcode s.insnAddr) = some w ∧ s'.insnAddr = s.insnAddr ∧
      (finish9 c s i).eval l = .ok ((s', true), l, [.inst s.insnAddr w]) := by
  obtain ⟨w, hw⟩ := wordOf_some (branch := i.branch) (op := i.opcode) (low_p9 i.opcode s.insnAddr)
  refine ⟨{ s with insn := w }, w, hw, rfl, ?_⟩
  unfold finish9
  rw [hw]
  dsimp only
  rw [hc]
  rfl

theorem dra9_count {c : Conf} (hc : c.full = false) (s : Dec) (i : I9) (l : List (BitVec 64)) (dra : Option (BitVec 64)) (h : i.dra = dra.isSome) :
    ∃ i', (draStep9 c s i).eval (dra.toList ++ l) = (finish9 c s i').eval l ∧ i'.opcode = i.opcode ∧ i'.branch = i.branch := by
  unfold draStep9
  cases dra with
  | none => exact ⟨i, by rw [if_neg (by rw [h]; decide)]; rfl, rfl, rfl⟩
  | some v =>
    refine ⟨{ i with dra := false }, ?_, rfl, rfl⟩
    rw [if_pos (by rw [h]; rfl)]
    show Prog.eval (if (!c.full) = true then _ else _) l = _
    rw [hc, if_pos (show (!false) = true from rfl)]

theorem dea9_count {c : Conf} (hc : c.full = false) (s : Dec) (i : I9) (l : List (BitVec 64)) (dea : Option (BitVec 64)) (h : i.dea = dea.isSome) :
    ∃ i', (deaStep9 c s i).eval (dea.toList ++ l) = (draStep9 c s i').eval l ∧ i'.opcode = i.opcode ∧ i'.branch = i.branch ∧ i'.dra = i.dra := by
  unfold deaStep9
  cases dea with
  | none => exact ⟨i, by rw [if_neg (by rw [h]; decide)]; rfl, rfl, rfl, rfl⟩
  | some v =>
    refine ⟨{ i with dea := false }, ?_, rfl, rfl, rfl⟩
    rw [if_pos (by rw [h]; rfl)]
    show Prog.eval (if (!c.full) = true then _ else _) l = _
    rw [hc, if_pos (show (!false) = true from rfl)]

theorem iea9_count {c : Conf} (hc : c.full = false) (s : Dec) (i : I9) (l : List (BitVec 64)) (iea : Option (BitVec 64))
    (h : i.iea = iea.isSome) (ht : ∀ v, iea = some v → badTag v = false) :
    ∃ i', (ieaStep9 c s i).eval (iea.toList ++ l) = (iraStep9 c (place9 s iea) i').eval l ∧
      i'.opcode = i.opcode ∧ i'.branch = i.branch ∧ i'.dea = i.dea ∧ i'.dra = i.dra ∧ i'.ira = i.ira := by
  unfold ieaStep9
  cases iea with
  | none => exact ⟨i, by rw [if_neg (by rw [h]; decide)]; rfl, rfl, rfl, rfl, rfl, rfl⟩
  | some v =>
    refine ⟨{ i with msrir := bit v 63 }, ?_, rfl, rfl, rfl, rfl, rfl⟩
    rw [if_pos (by rw [h]; rfl)]
    show Prog.eval (if badTag v = true then _ else _) l = _
    rw [if_neg (by rw [ht v rfl]; decide)]
    unfold cached9
    rw [if_neg (by rw [hc]; simp)]
    rfl

theorem step9_count {c : Conf} (hc : c.full = false) {s : Dec} {i : Item9} (hi : i.Ok) (rest : List (BitVec 64)) :
    ∃ l0 s' es, i.words = i.info :: l0 ∧ i.info ≠ 0 ∧ pureStep c s i.info (l0 ++ rest) = .ok ((s', true), rest, es) ∧
      s'.insnAddr = i.addr s.insnAddr ∧ logged es = [⟨i.addr s.insnAddr, word9 i (i.addr s.insnAddr)⟩] ∧ places es = [i.addr s.insnAddr] := by
  obtain ⟨info, iea, dea, dra⟩ := i
  obtain ⟨htag, hval, hira, hesid⟩ := hi.info
  have hword := hi.word
  have h1 := hi.iea
  have h2 := hi.dea
  have h3 := hi.dra
  dsimp only at htag hval hira hesid hword h1 h2 h3
  have hbi : ∀ v, iea = some v → badTag v = false := by
    intro v hv
    subst hv
    exact badTag_false (hi.plain v (by simp [Item9.words])) (hi.tags v (by simp))
  generalize hi0 : ({ opcode := u32 info 0 31, branch := bit info 32, valid := bit info 56, iea := bit info 57, ira := bit info 58, dea := bit info 59, dra := bit info 60, esid := bit info 61 } : I9) = i0
  have hinfo : info9 info = some i0 := by
    unfold info9
    rw [if_neg (fun h => h ((u32_eq (by omega) (by omega) (by omega) _).2 htag)),
      if_neg (by rw [u32_eq (by omega) (by omega) (by omega)]; exact hword), hi0]
  have e1 : i0.iea = iea.isSome := by rw [h1, ← hi0]; exact bit_fld (by omega)
  have e2 : i0.dea = dea.isSome := by rw [h2, ← hi0]; exact bit_fld (by omega)
  have e3 : i0.dra = dra.isSome := by rw [h3, ← hi0]; exact bit_fld (by omega)
  have e4 : i0.ira = false := by rw [← hi0]; show bit info 58 = false; rw [bit_fld (by omega), hira]; rfl
  have e6 : i0.valid = true := by rw [← hi0]; show bit info 56 = true; rw [bit_fld (by omega), hval]; rfl
  have e8 : i0.opcode = u32 info 0 31 := by rw [← hi0]
  have e9 : i0.branch = bit info 32 := by rw [← hi0]
  obtain ⟨i1, f1, a1, a2, a3, a4, a5⟩ := iea9_count hc s i0 (dea.toList ++ (dra.toList ++ rest)) iea e1 hbi
  obtain ⟨i2, f2, b1, b2, b3⟩ := dea9_count hc (place9 s iea) i1 (dra.toList ++ rest) dea (a3.trans e2)
  obtain ⟨i3, f3, d1, d2⟩ := dra9_count hc (place9 s iea) i2 rest dra (b3.trans (a4.trans e3))
  obtain ⟨s', w, g1, g2, g3⟩ := finish9_count hc (place9 s iea) i3 rest
  have haddr : (place9 s iea).insnAddr = Item9.addr ⟨info, iea, dea, dra⟩ s.insnAddr := by
    unfold Item9.addr
    cases iea with
    | none => rfl
    | some v => exact mask_word v
  rw [ira9_eval _ _ _ (Or.inl (a5.trans e4)), f2, f3, g3] at f1
  rw [d1, d2, b1, b2, a1, a2, e8, e9, haddr] at g1
  refine ⟨iea.toList ++ dea.toList ++ dra.toList, s', .count .recordsProcessed :: .count .instructionsScanned :: .count .instructionsProcessed :: .ea (place9 s iea).insnAddr :: .count .withoutIra :: [.inst (place9 s iea).insnAddr w],
    by simp [Item9.words], ?_, ?_, g2.trans haddr, ?_, ?_⟩
  · intro (h0 : info = 0); rw [h0] at htag; revert htag; decide
  · unfold pureStep
    rw [if_pos ((u32_eq (by omega) (by omega) (by omega) _).2 htag)]
    unfold insn9
    rw [hinfo]
    dsimp only
    rw [e6, if_pos rfl, eval_tell, eval_tell, eval_tell, List.append_assoc, List.append_assoc, f1]
  · unfold word9
    rw [g1, ← haddr]; rfl
  · rw [← haddr]; rfl

theorem loop9_count {c : Conf} (hc : c.full = false) {tail : List (BitVec 64)} (htail : ∀ v ∈ tail, Other v) : ∀ (items : List Item9) (n e : Nat) (s : Dec), (∀ i ∈ items, i.Ok) →
    (items.flatMap Item9.words ++ tail).length < n →
    ∃ s' es, pureLoop c n e s (items.flatMap Item9.words ++ tail) = .ok (s', es) ∧ logged es = (told9 s.insnAddr items).map (fun x => ⟨x.1, x.2⟩) ∧
      places es = (told9 s.insnAddr items).map (·.1)
  | _, 0, _, _, _, h => absurd h (by omega)
  | [], n + 1, e, s, _, hn => ⟨s, [], loop_other (n + 1) e tail htail hn, rfl, rfl⟩
  | i :: items, n + 1, e, s, ht, hn => by
    obtain ⟨l0, s1, es1, hw, hv, hstep, ha, hl1, hp1⟩ := step9_count hc (s := s) (ht i (List.mem_cons_self ..)) (items.flatMap Item9.words ++ tail)
    have hlen : (items.flatMap Item9.words ++ tail).length < n := by
      rw [List.flatMap_cons, List.append_assoc, hw, List.length_append, List.length_cons] at hn
      omega
    obtain ⟨s2, es2, hloop, hl2, hp2⟩ := loop9_count hc htail items n 0 s1 (fun j hj => ht j (List.mem_cons_of_mem _ hj)) hlen
    refine ⟨s2, es1 ++ es2, ?_, ?_, ?_⟩
    · rw [List.flatMap_cons, List.append_assoc, hw, List.cons_append, pureLoop, if_neg hv, hstep]
      dsimp only
      rw [if_neg (by rintro ⟨h, _⟩; cases h), if_pos rfl, hloop]
    · rw [logged_append, hl1, hl2, ha]; rfl
    · rw [places_append, hp1, hp2, ha]; rfl

end Htm
