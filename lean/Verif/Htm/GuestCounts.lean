import Verif.Htm.CountsLemmas
import Verif.Htm.PropsGuest
/-!
Decoding the dump of a guest process without a callback.
-/
namespace Htm.Guest
open Htm Htm.Spec Htm.Mmu Htm.Pwc

/-- The first word of an instruction. -/
theorem words_head {P : Space} {c : Ctx} {i : Item} (hi : i.Ok P c) (l : List (BitVec 64)) :
    ∃ v l0, i.walk.toList.flatMap Walked.words ++ (i.line.toList.flatMap (fun p => [p.1, p.2.1, p.2.2]) ++
      ((i.data.filterMap Access.walk).flatMap Walked.words ++ i.info :: l)) = v :: l0 ∧ fld v 36 55 = 0xABCDF ∧
      i.walk.toList.length + i.line.toList.length + (i.data.filterMap Access.walk).length < l0.length + 1 := by
  have hwalkTag : ∀ w ∈ i.data.filterMap Access.walk, fld w.head 36 55 = 0xABCDF := by
    intro w hw
    obtain ⟨d, hd, hdw⟩ := List.mem_filterMap.1 hw
    have : ∀ (l : List Access) (c : Ctx), DataOk P c l → ∀ d ∈ l, ∀ w, d.walk = some w → fld w.head 36 55 = 0xABCDF := by
      intro l
      induction l with
      | nil => intro c _ d hd; cases hd
      | cons e l ih =>
        intro c h d hd w hw
        rcases List.mem_cons.1 hd with rfl | hd
        · exact (h.1.2 w hw).tag.1
        · exact ih _ h.2 d hd w hw
    exact this _ _ hi.data d hd w hdw
  have hhead : ∃ v l0, i.walk.toList.flatMap Walked.words ++ (i.line.toList.flatMap (fun p => [p.1, p.2.1, p.2.2]) ++
      ((i.data.filterMap Access.walk).flatMap Walked.words ++ i.info :: l)) = v :: l0 ∧ fld v 36 55 = 0xABCDF := by
    cases hwk : i.walk with
    | some w =>
      obtain ⟨p, hp⟩ := Option.isSome_iff_exists.1 (hi.line (by rw [hwk]; rfl))
      exact ⟨_, _, rfl, (hi.walk p w hp hwk).tag.1⟩
    | none =>
      cases hli : i.line with
      | some p => exact ⟨_, _, rfl, (hi.base.lines p (by show p ∈ i.line.toList; rw [hli]; exact List.mem_singleton.2 rfl)).1⟩
      | none =>
        cases hws : i.data.filterMap Access.walk with
        | nil => exact ⟨_, _, rfl, hi.base.info.1⟩
        | cons w ws => exact ⟨_, _, rfl, hwalkTag w (by rw [hws]; exact List.mem_cons_self ..)⟩
  obtain ⟨v, l0, hv, htag⟩ := hhead
  refine ⟨v, l0, hv, htag, ?_⟩
  have h1 : ∀ l : List Walked, l.length ≤ (l.flatMap Walked.words).length := by
    intro l
    induction l with
    | nil => exact Nat.le_refl _
    | cons w l ih => rw [List.flatMap_cons, List.length_append, List.length_cons, show w.words.length = (w.steps ++ [w.fin]).length + 1 from rfl]; omega
  have h2 : i.line.toList.length ≤ (i.line.toList.flatMap (fun p => [p.1, p.2.1, p.2.2])).length := by
    cases i.line with
    | none => exact Nat.le_refl _
    | some p => show 1 ≤ 3; omega
  have h3 := congrArg List.length hv
  rw [List.length_append, List.length_append, List.length_append, List.length_cons, List.length_cons] at h3
  have h4 := h1 i.walk.toList
  have h5 := h1 (i.data.filterMap Access.walk)
  omega

theorem step_count {P : Space} {conf : Conf} (hconf : conf.full = false) {c : Ctx} {i : Item} (hi : i.Ok P c) {s : Dec} (hs : s.insnAddr = c.prev)
    (rest : List (BitVec 64)) :
    ∃ v l0 s' es, i.words ++ rest = v :: l0 ∧ v ≠ 0 ∧ pureStep conf s v l0 = .ok ((s', true), (i.base.data.drop 1).flatMap (fun p => [p.1, p.2]) ++ rest, es) ∧
      s'.insnAddr = i.base.addr c.prev ∧ logged es = [⟨i.base.addr c.prev, word10 i.base (i.base.addr c.prev)⟩] ∧ places es = [i.base.addr c.prev] := by
  have hinfo : recType i.info = 2 := recType_eq hi.base.info.1 hi.base.info.2
  have hd2 : fld i.info 62 63 ≤ 2 := hi.base.data.2
  have hlen2 : i.base.data.length = fld i.info 62 63 := hi.base.data.1
  have hlen3 : i.base.data.length = i.data.length := List.length_map ..
  generalize hl1 : i.msr :: (i.pre.toList ++ (i.base.data.flatMap (fun p => [p.1, p.2]) ++ rest)) = l1
  have hwords : i.words ++ rest = i.walk.toList.flatMap Walked.words ++ (i.line.toList.flatMap (fun p => [p.1, p.2.1, p.2.2]) ++
      ((i.data.filterMap Access.walk).flatMap Walked.words ++ i.info :: l1)) := by
    rw [← hl1]
    unfold Item.words
    simp only [List.append_assoc, List.cons_append, List.nil_append]
    rfl
  obtain ⟨v, l0, hv, htag, hlen⟩ := words_head hi l1
  obtain ⟨ix, ds, ys, hh, -, -, -, -, -⟩ := head10_item hi s l1 hlen (by omega) hv
  generalize hb : (s.rpt || (i.walk.isSome || !(i.data.filterMap Access.walk).isEmpty)) = b at hh
  generalize hl : (i.line.map fun p => (bits p.2.1 0 56 <<< 7, frameOf P (i.base.addr c.prev))) = o at hh
  have ho : o = lastLine none i.line.toList := by
    rw [← hl]
    cases hli : i.line with
    | none => rfl
    | some p =>
      show some (_, _) = some (bits p.2.1 0 56 <<< 7, bits p.2.2 0 39 <<< 12)
      congr 2
      apply BitVec.eq_of_toNat_eq
      rw [frameOf_toNat, BitVec.toNat_shiftLeft, bits_fld (by omega) (by omega), Nat.shiftLeft_eq, hi.real p hli]
      have := (P.real (i.base.addr c.prev)).isLt
      omega
  have hinf : info10 { ieara := o, ixlate := ix, dxlates := ds, ndxlates := ys.length } i.info = some { ieara := o, ixlate := ix, dxlates := ds, ndxlates := ys.length, opcode := u32 i.info 0 31, branch := bit i.info 32, hasPrefix := bit i.info 33, eabits := u32 i.info 56 61 <<< 2, dea := fld i.info 62 63, dra := fld i.info 62 63, esid := false } := by
    have h := info10_eval (o := o) hinfo hd2
    unfold info10 at h ⊢
    rw [if_neg (by rw [hinfo]; decide)] at h ⊢
    have h := Option.some.inj h
    simp only [I10.mk.injEq] at h
    dsimp only
    rw [h.2.2.2.2.1, h.2.2.2.2.2.2.1]
  generalize hx0 : ({ ieara := o, ixlate := ix, dxlates := ds, ndxlates := ys.length, opcode := u32 i.info 0 31, branch := bit i.info 32, hasPrefix := bit i.info 33, eabits := u32 i.info 56 61 <<< 2, dea := fld i.info 62 63, dra := fld i.info 62 63, esid := false, hv := bit i.msr 0, ir := bit i.msr 2, dr := bit i.msr 3 } : I10) = x0
  have hpre : ∃ x : I10, (prefix10 conf { s with rpt := b } x0).eval (i.pre.toList ++ (i.base.data.flatMap (fun p => [p.1, p.2]) ++ rest)) =
        (body10 conf { s with rpt := b } x).eval (i.base.data.flatMap (fun p => [p.1, p.2]) ++ rest) ∧
      x.ieara = o ∧ x.opcode = u32 i.info 0 31 ∧ x.branch = bit i.info 32 ∧ x.eabits = u32 i.info 56 61 <<< 2 ∧
      x.dea = i.base.data.length ∧ x.dra = i.base.data.length := by
    have hp := hi.base.pre
    have hp0 : x0.hasPrefix = i.pre.isSome := by rw [← hx0]; show bit i.info 33 = _; rw [bit_fld (by omega)]; exact hp.symm
    unfold prefix10
    cases hpr : i.pre with
    | none =>
      refine ⟨x0, by rw [if_neg (by rw [hp0, hpr]; decide)]; rfl, ?_⟩
      rw [← hx0, hlen2]
      exact ⟨rfl, rfl, rfl, rfl, rfl, rfl⟩
    | some p =>
      refine ⟨{ x0 with hasPrefix := false }, ?_, ?_⟩
      · rw [if_pos (by rw [hp0, hpr]; rfl)]
        show (body10 conf { s with rpt := b } (if conf.full then _ else _)).eval _ = _
        rw [hconf, if_neg (by decide)]
        rfl
      · rw [← hx0, hlen2]
        exact ⟨rfl, rfl, rfl, rfl, rfl, rfl⟩
  obtain ⟨x, hx, hx1, hx2, hx3, hx5, hx7, hx8⟩ := hpre
  obtain ⟨x', hd, p1, p2, p3, p5⟩ := data10_count hconf (x := x) hx7 hx8 (by omega) rest
  obtain ⟨s', w, hw, ha', hf⟩ := finish10_count hconf { s with rpt := b } x' ((i.base.data.drop 1).flatMap (fun p => [p.1, p.2]) ++ rest)
  have haddr : (place { s with rpt := b } x').insnAddr = i.base.addr c.prev :=
    place_addr hs (by rw [p1, hx1, ho]; rfl) (by rw [p5, hx5]; rfl) hi.base.half
  have hword : word10 i.base (i.base.addr c.prev) = w := by
    rw [p3, p2, hx2, hx3, haddr] at hw
    unfold word10
    show (wordOf (bit i.info 32) (u32 i.info 0 31) (recodeP10 (u32 i.info 0 31) (i.base.addr c.prev))).getD 0 = w
    rw [hw]; rfl
  refine ⟨v, l0, s', .count .recordsProcessed :: .count .instructionsScanned :: .count .instructionsProcessed :: [.ea (place { s with rpt := b } x').insnAddr, .inst (place { s with rpt := b } x').insnAddr w], by rw [hwords, hv], ?_, ?_, by rw [ha', haddr], ?_, ?_⟩
  · intro h0; rw [h0] at htag; revert htag; decide
  · unfold pureStep
    rw [if_neg (by rw [u32_eq (by omega) (by omega) (by omega), htag]; decide), if_pos ((u32_eq (by omega) (by omega) (by omega) _).2 htag)]
    unfold insn10
    rw [eval_tell, eval_tell, eval_bind, hh]
    dsimp only
    rw [hinf]
    dsimp only
    rw [eval_tell]
    unfold msr10
    rw [← hl1, fetch_eval]
    dsimp only
    rw [hx0, hx]
    unfold body10
    rw [eval_bind, hd]
    dsimp only
    rw [hf]
    rfl
  · rw [hword, ← haddr]; rfl
  · rw [← haddr]; rfl

theorem loop_count {P : Space} {conf : Conf} (hconf : conf.full = false) {tail : List (BitVec 64)} (htail : ∀ v ∈ tail, Other v) :
    ∀ (items : List Item) (n e : Nat) (c : Ctx) (s : Dec), s.insnAddr = c.prev → Trace P c items →
    (∀ i ∈ items, ∀ d ∈ i.data.drop 1, Other d.ea ∧ Other d.ra) → (items.flatMap Item.words ++ tail).length < n →
    ∃ s' es, pureLoop conf n e s (items.flatMap Item.words ++ tail) = .ok (s', es) ∧ logged es = counts10 c.prev (items.map Item.base) ∧
      places es = (counts10 c.prev (items.map Item.base)).map (·.ea)
  | _, 0, _, _, _, _, _, _, h => absurd h (by omega)
  | [], n + 1, e, _, s, _, _, _, hn => ⟨s, [], loop_other (n + 1) e tail htail hn, rfl, rfl⟩
  | i :: items, n + 1, e, c, s, hs, ht, h2, hn => by
    obtain ⟨hi, ht⟩ := ht
    obtain ⟨v, l0, s1, es1, hw, hv, hstep, ha, hl1, hp1⟩ := step_count hconf hi hs (items.flatMap Item.words ++ tail)
    have hlen : ((i.base.data.drop 1).flatMap (fun p => [p.1, p.2]) ++ (items.flatMap Item.words ++ tail)).length < n := by
      have h1 := eval_left hstep
      have h2 := congrArg List.length hw
      rw [List.flatMap_cons, List.append_assoc, h2, List.length_cons] at hn
      omega
    obtain ⟨n', e', hn', hskip⟩ := loop_skip (c := conf) (s := s1) (items.flatMap Item.words ++ tail) ((i.base.data.drop 1).flatMap (fun p => [p.1, p.2])) n 0
      (by
        intro v hv
        obtain ⟨p, hp, hv⟩ := List.mem_flatMap.1 hv
        have hp : p ∈ (i.data.drop 1).map fun d => (d.ea, d.ra) := by rw [List.map_drop]; exact hp
        obtain ⟨d, hd, rfl⟩ := List.mem_map.1 hp
        obtain ⟨o1, o2⟩ := h2 i (List.mem_cons_self ..) d hd
        rcases List.mem_cons.1 hv with rfl | hv
        · exact o1
        · rcases List.mem_singleton.1 hv with rfl; exact o2) hlen
    obtain ⟨s2, es2, hloop, hl2, hp2⟩ := loop_count hconf htail items n' e' (i.after P c) s1 (ha.trans (after_prev P c i).symm) ht (fun j hj => h2 j (List.mem_cons_of_mem _ hj)) hn'
    refine ⟨s2, es1 ++ es2, ?_, ?_, ?_⟩
    · rw [List.flatMap_cons, List.append_assoc, hw, pureLoop, if_neg hv, hstep]
      dsimp only
      rw [if_neg (by rintro ⟨h, _⟩; cases h), if_pos rfl, hskip, hloop]
    · rw [logged_append, hl1, hl2, after_prev]; rfl
    · rw [places_append, hp1, hp2, after_prev]; rfl
termination_by items => items.length

end Htm.Guest
