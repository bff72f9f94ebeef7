import Verif.Htm.GuestEmit
/-!
C73: dumps of a guest process with page-table walks.
-/
namespace Htm.Guest
open Htm Htm.Spec Htm.Mmu Htm.Pwc
open Htm.Xl (Res St)

/-- The part of a record that is about the translation of the address `a`: it is there if it is known, with the entries of both
stages and both page sizes, and the real address is that of `a`, unless the host's page is larger than the guest's. -/
structure Translated (P : Space) (known : Prop) (a : BitVec 64) (realValid sizeValid guestValid : Bool) (real : BitVec 64) (res : Res) : Prop where
  hasReal : realValid = true ↔ known
  hasSize : sizeValid = true ↔ known
  hasGuest : guestValid = true ↔ known
  walk : known → ∃ t : Translation, t.lpid = P.lpid ∧ t.pid = P.pid ∧ t.address = a ∧ t.Exact P.tables ∧
    t.guest.toNat / 2 ^ P.guestSize a = P.guest.frame a ∧ Decoded P.tables t res
  sizes : known → res.host = P.hostSize a ∧ res.guest = P.guestSize a
  joined : known → P.hostSize a ≤ P.guestSize a → real = P.real a

/-- A record is as expected. -/
structure Appears (P : Space) (r : Qt.Record) (v : View) : Prop where
  addr : r.insnAddr = v.base.addr
  dataAddr : (if r.dataAddrValid then some r.dataAddr else none) = v.base.data
  word : ∀ w, v.base.word = some w → r.insn = w
  nonzero : v.base.nonzero = true → r.insn ≠ 0
  insn : Translated P v.insn v.base.addr r.insnRaValid r.insnPageShiftValid r.guestInsnPageShiftValid r.insnRa
    { ok := true, rcd := r.radixInsn, host := r.insnPageShift, guest := r.guestInsnPageShift }
  data : ∀ a, v.base.data = some a → Translated P v.data a r.dataRaValid r.dataPageShiftValid r.guestDataPageShiftValid r.dataRa
    { ok := true, rcd := r.radixData, host := r.dataPageShift, guest := r.guestDataPageShift }
  nodata : v.base.data = none → r.dataRaValid = false ∧ r.dataPageShiftValid = false ∧ r.guestDataPageShiftValid = false

inductive AllAppear (P : Space) : List Qt.Record → List View → Prop where
  | nil : AllAppear P [] []
  | cons {r v l m} : Appears P r v → AllAppear P l m → AllAppear P (r :: l) (v :: m)

theorem AllAppear.append {P : Space} {a b : List Qt.Record} {m n : List View} (h1 : AllAppear P a m) (h2 : AllAppear P b n) : AllAppear P (a ++ b) (m ++ n) := by
  induction h1 with
  | nil => exact h2
  | cons h _ ih => exact .cons h ih

theorem translated {P : Space} (hS : P.tables.Ok) {known : Prop} {a : BitVec 64} {res : Res} (h : ResOk P known a res) {f : BitVec 64}
    (hf : known → f = frameOf P a) (j1 : BitVec 64) (j3 : Qt.Radix) (j4 j5 : Nat) :
    Translated P known a (decide (res.host ≠ 0)) (decide (res.host ≠ 0)) (decide (res.guest ≠ 0))
      (if decide (res.host ≠ 0) = true then f ||| (a &&& (BitVec.twoPow 64 res.host - 1)) else j1)
      { ok := true, rcd := if decide (res.host ≠ 0) = true then res.rcd else j3, host := if decide (res.host ≠ 0) = true then res.host else j4,
        guest := if res.guest ≠ 0 then res.guest else j5 } := by
  rcases h with ⟨hk, t, hg, rfl, rfl⟩ | ⟨hk, h1, h2⟩
  · obtain ⟨p1, p2, p3, p4⟩ := host_pos hS t
    rw [if_pos (by simpa using p1), if_pos (by simpa using p1), if_pos (by simpa using p1), if_pos p2]
    have e1 : (resOf P.tables t).host = P.hostSize t.address := hg.hostSize hS
    have e2 : (resOf P.tables t).guest = P.guestSize t.address := hg.guestSize
    refine ⟨by simp [p1, hk], by simp [p1, hk], by simp [p2, hk], fun _ => ⟨t, hg.lpid, hg.pid, rfl, hg.exact, hg.guest, ?_⟩, fun _ => ⟨e1, e2⟩, ?_⟩
    · exact decoded_resOf P.tables t
    · intro _ hle
      rw [hf hk, e1]
      exact hg.joined hS hle
  · exact ⟨by simp [h1, hk], by simp [h1, hk], by simp [h2, hk], fun h => absurd h hk, fun h => absurd h hk, fun h => absurd h hk⟩

theorem step_ok {P : Space} (hS : P.tables.Ok) {conf : Conf} (hconf : conf.full = true) {c : Ctx} {i : Item} (hi : i.Ok P c) {s : Dec} (hs : Ready P c s)
    (rest : List (BitVec 64)) :
    ∃ v l0 s' es, i.words ++ rest = v :: l0 ∧ (v ≠ 0 ∧ fld v 36 55 = 0xABCDF) ∧ pureStep conf s v l0 = .ok ((s', true), rest, es) ∧ Ready P (i.after P c) s' ∧
      AllAppear P (instructions es) (i.views P c) ∧ (instructions es).map pairOf = pairs10 i.base (i.base.addr c.prev) ∧
      counters es = [.recordsProcessed, .instructionsScanned, .instructionsProcessed] ++ i.counts P c := by
  have hinfo : recType i.info = 2 := recType_eq hi.base.info.1 hi.base.info.2
  have hd2 : fld i.info 62 63 ≤ 2 := hi.base.data.2
  have hlen2 : i.data.length = fld i.info 62 63 := by have := hi.base.data.1; rwa [show i.base.data.length = i.data.length from List.length_map ..] at this
  generalize hpairs : (i.data.map fun d => (d.ea, d.ra)) = pairs
  have hplen : pairs.length = i.data.length := by rw [← hpairs, List.length_map]
  generalize hl1 : i.msr :: (i.pre.toList ++ (pairs.flatMap (fun p => [p.1, p.2]) ++ rest)) = l1
  have hwords : i.words ++ rest = i.walk.toList.flatMap Walked.words ++ (i.line.toList.flatMap (fun p => [p.1, p.2.1, p.2.2]) ++
      ((i.data.filterMap Access.walk).flatMap Walked.words ++ i.info :: l1)) := by
    rw [← hl1, ← hpairs]
    unfold Item.words
    simp only [List.append_assoc, List.cons_append, List.nil_append]
  have hwalkTag : ∀ w ∈ i.data.filterMap Access.walk, fld w.head 36 55 = 0xABCDF := by
    intro w hw
    obtain ⟨d, hd, hdw⟩ := List.mem_filterMap.1 hw
    have : ∀ (l : List Access) (c : Ctx), DataOk P c l → ∀ d ∈ l, ∀ w, d.walk = some w → fld w.head 36 55 = 0xABCDF := by
      intro l
      induction l with
      | nil => intro c _ d hd; cases hd
      | cons e l ih =>
        intro c h d hd w hw
        rcases List.mem_cons.1 hd with rfl | hd
        · exact (h.1.2 w hw).tag.1
        · exact ih _ h.2 d hd w hw
    exact this _ _ hi.data d hd w hdw
  have hhead : ∃ v l0, i.walk.toList.flatMap Walked.words ++ (i.line.toList.flatMap (fun p => [p.1, p.2.1, p.2.2]) ++
      ((i.data.filterMap Access.walk).flatMap Walked.words ++ i.info :: l1)) = v :: l0 ∧ fld v 36 55 = 0xABCDF := by
    cases hwk : i.walk with
    | some w =>
      obtain ⟨p, hp⟩ := Option.isSome_iff_exists.1 (hi.line (by rw [hwk]; rfl))
      exact ⟨_, _, rfl, (hi.walk p w hp hwk).tag.1⟩
    | none =>
      cases hli : i.line with
      | some p => exact ⟨_, _, rfl, (hi.base.lines p (by show p ∈ i.line.toList; rw [hli]; exact List.mem_singleton.2 rfl)).1⟩
      | none =>
        cases hws : i.data.filterMap Access.walk with
        | nil => exact ⟨_, _, rfl, hi.base.info.1⟩
        | cons w ws => exact ⟨_, _, rfl, hwalkTag w (by rw [hws]; exact List.mem_cons_self ..)⟩
  obtain ⟨v, l0, hv, htag⟩ := hhead
  have hlen : i.walk.toList.length + i.line.toList.length + (i.data.filterMap Access.walk).length < l0.length + 1 := by
    have h1 : ∀ l : List Walked, l.length ≤ (l.flatMap Walked.words).length := by
      intro l
      induction l with
      | nil => exact Nat.le_refl _
      | cons w l ih => rw [List.flatMap_cons, List.length_append, List.length_cons, show w.words.length = (w.steps ++ [w.fin]).length + 1 from rfl]; omega
    have h2 : i.line.toList.length ≤ (i.line.toList.flatMap (fun p => [p.1, p.2.1, p.2.2])).length := by
      cases i.line with
      | none => exact Nat.le_refl _
      | some p => show 1 ≤ 3; omega
    have h3 := congrArg List.length hv
    rw [List.length_append, List.length_append, List.length_append, List.length_cons, List.length_cons] at h3
    have h4 := h1 i.walk.toList
    have h5 := h1 (i.data.filterMap Access.walk)
    omega
  obtain ⟨ix, ds, ys, hh, hw1, hw2, hdw, htake, _⟩ := head10_item hi s l1 hlen (by omega) hv
  generalize hb : (s.rpt || (i.walk.isSome || !(i.data.filterMap Access.walk).isEmpty)) = b at hh
  generalize hl : (i.line.map fun p => (bits p.2.1 0 56 <<< 7, frameOf P (i.base.addr c.prev))) = o at hh
  have hinf : info10 { ieara := o, ixlate := ix, dxlates := ds, ndxlates := ys.length } i.info = some { ieara := o, ixlate := ix, dxlates := ds, ndxlates := ys.length, opcode := u32 i.info 0 31, branch := bit i.info 32, hasPrefix := bit i.info 33, eabits := u32 i.info 56 61 <<< 2, dea := fld i.info 62 63, dra := fld i.info 62 63, esid := false } := by
    have h := info10_eval (o := o) hinfo hd2
    unfold info10 at h ⊢
    rw [if_neg (by rw [hinfo]; decide)] at h ⊢
    have h := Option.some.inj h
    simp only [I10.mk.injEq] at h
    dsimp only
    rw [h.2.2.2.2.1, h.2.2.2.2.2.2.1]
  generalize hx0 : ({ ieara := o, ixlate := ix, dxlates := ds, ndxlates := ys.length, opcode := u32 i.info 0 31, branch := bit i.info 32, hasPrefix := bit i.info 33, eabits := u32 i.info 56 61 <<< 2, dea := fld i.info 62 63, dra := fld i.info 62 63, esid := false, hv := bit i.msr 0, ir := bit i.msr 2, dr := bit i.msr 3 } : I10) = x0
  have hmode := hi.mode
  have hbody : ∀ x : I10, x.dea = i.data.length → x.dra = i.data.length → x.esid = false →
      (body10 conf { s with rpt := b } x).eval (pairs.flatMap (fun p => [p.1, p.2]) ++ rest) = match (finish10 conf { s with rpt := b } (putData x pairs)).eval rest with
        | .error h => .error h
        | .ok (b, l'', es') => .ok (b, l'', es') := by
    intro x h1 h2 h3
    unfold body10
    rw [eval_bind, data10_eval hconf (by rw [hplen]; exact h1) (by rw [hplen]; exact h2) h3 (by omega)]
    dsimp only
    generalize (finish10 conf { s with rpt := b } (putData x pairs)).eval rest = e
    cases e with
    | error h => rfl
    | ok q => rfl
  have hpre : ∃ x : I10, (prefix10 conf { s with rpt := b } x0).eval (i.pre.toList ++ (pairs.flatMap (fun p => [p.1, p.2]) ++ rest)) =
        (body10 conf { s with rpt := b } x).eval (pairs.flatMap (fun p => [p.1, p.2]) ++ rest) ∧
      x.opcode = u32 i.info 0 31 ∧ x.branch = bit i.info 32 ∧ x.hasPrefix = i.pre.isSome ∧ (∀ p, i.pre = some p → x.prefixWord = u32 p 0 31) ∧
      x.ieara = o ∧ x.eabits = u32 i.info 56 61 <<< 2 ∧ x.hv = false ∧ x.ir = true ∧ x.dr = true ∧ x.esid = false ∧ x.dea = i.data.length ∧
      x.dra = i.data.length ∧ x.ixlate = ix ∧ x.dxlates = ds ∧ x.ndxlates = ys.length := by
    have hp := hi.base.pre
    have hbit : bit i.info 33 = i.pre.isSome := by rw [bit_fld (by omega)]; exact hp.symm
    have hp0 : x0.hasPrefix = i.pre.isSome := by rw [← hx0]; exact hbit
    have b1 : bit i.msr 0 = false := by rw [bit_fld (by omega), hmode.1]; rfl
    have b2 : bit i.msr 2 = true := by rw [bit_fld (by omega), hmode.2.1]; rfl
    have b3 : bit i.msr 3 = true := by rw [bit_fld (by omega), hmode.2.2]; rfl
    unfold prefix10
    cases hpr : i.pre with
    | none =>
      refine ⟨x0, by rw [if_neg (by rw [hp0, hpr]; decide)]; rfl, ?_⟩
      rw [← hx0, hlen2, b1, b2, b3]
      exact ⟨rfl, rfl, by rw [← hpr]; exact hbit, fun p hp => (by cases hp), rfl, rfl, rfl, rfl, rfl, rfl, rfl, rfl, rfl, rfl, rfl⟩
    | some p =>
      refine ⟨{ x0 with prefixWord := u32 p 0 31 }, ?_, ?_⟩
      · rw [if_pos (by rw [hp0, hpr]; rfl)]
        show (body10 conf { s with rpt := b } (if conf.full then _ else _)).eval _ = _
        rw [hconf, if_pos rfl]
        rfl
      · rw [← hx0, hlen2, b1, b2, b3]
        exact ⟨rfl, rfl, by rw [← hpr]; exact hbit, fun p hp => (by cases hp; rfl), rfl, rfl, rfl, rfl, rfl, rfl, rfl, rfl, rfl, rfl, rfl⟩
  obtain ⟨x, hx, x1, x2, x3, x4, x5, x6, x7, x8, x9, x10, x11, x12, x13, x14, x15⟩ := hpre
  have hput : (putData x pairs).opcode = x.opcode ∧ (putData x pairs).branch = x.branch ∧ (putData x pairs).hasPrefix = x.hasPrefix ∧
      (putData x pairs).prefixWord = x.prefixWord ∧ Filled P c i (putData x pairs) := by
    have hd := hi.data
    have hfill : ∀ y : I10, y.ieara = x.ieara → y.eabits = x.eabits → y.hv = x.hv → y.ir = x.ir → y.dr = x.dr → y.esid = x.esid → y.dea = x.dea → y.dra = x.dra →
        y.ixlate = x.ixlate → y.dxlates = x.dxlates → y.ndxlates = x.ndxlates →
        (∀ d, i.data.head? = some d → y.dea0 = d.ea ∧ y.dra0 = frameOf P d.ea) → (∀ d e, i.data = [d, e] → y.dea1 = e.ea ∧ y.dra1 = frameOf P e.ea) → Filled P c i y := by
      intro y y1 y2 y3 y4 y5 y6 y7 y8 y9 y10 y11 y12 y13
      refine ⟨by rw [y1, x5, hl], by rw [y2, x6], by rw [y3, x7], by rw [y4, x8], by rw [y5, x9], by rw [y6, x10], by rw [y7, x11], by rw [y8, x12], y12, y13,
        ?_, ?_, ?_⟩
      · rw [y9, x13]; exact hw1
      · rw [y9, x13]; exact hw2
      · rw [y10, y11, x14, x15, htake]; exact hdw
    subst hpairs
    match hdata : i.data, hd with
    | [], _ =>
      exact ⟨rfl, rfl, rfl, rfl, hfill _ rfl rfl rfl rfl rfl rfl rfl rfl rfl rfl rfl (fun d hd => (by rw [hdata] at hd; cases hd)) (fun d e hd => (by rw [hdata] at hd; cases hd))⟩
    | [d], hd =>
      refine ⟨rfl, rfl, rfl, rfl, hfill _ rfl rfl rfl rfl rfl rfl rfl rfl rfl rfl rfl (fun d hd => ?_) (fun d e hd => (by rw [hdata] at hd; cases hd))⟩
      rw [hdata] at hd
      cases hd
      exact ⟨rfl, ra_frame hd.1.1⟩
    | d :: e :: l, hd =>
      refine ⟨rfl, rfl, rfl, rfl, hfill _ rfl rfl rfl rfl rfl rfl rfl rfl rfl rfl rfl (fun d hd => ?_) (fun d e hd => ?_)⟩
      · rw [hdata] at hd
        cases hd
        exact ⟨rfl, ra_frame hd.1.1⟩
      · rw [hdata] at hd
        cases hd
        exact ⟨rfl, ra_frame hd.2.1.1⟩
  obtain ⟨p1, p2, p3, p4, hfil⟩ := hput
  obtain ⟨s', w, es, hw, hf, hs', t, d, ht1, ht2, ht3, hd1, hd0, hcnt, hrec⟩ := finish_ok hS hconf hi hs b hb.symm hfil rest
  have hstored : ∀ k, stored (fld i.info 32 32) (fld i.info 0 31) = some k → w = k := by
    intro k hk
    rw [p2, p1, x1, x2] at hw
    refine wordOf_stored hw ?_
    rw [u32_fld (by omega) (by omega) (by omega), bit_fld (by omega)]
    have h1 := fld_lt i.info 32 32
    have h2 : (if decide (fld i.info 32 32 = 1) = true then 1 else 0) = fld i.info 32 32 := by
      simp only [Nat.reduceSub, Nat.reducePow, Nat.reduceAdd, Nat.sub_self] at h1
      by_cases h : fld i.info 32 32 = 1
      · rw [h]; rfl
      · rw [if_neg (by simpa using h)]; omega
    rw [h2]; exact hk
  have hnz : nonzero10 (fld i.info 32 32) (fld i.info 0 31) = true → w ≠ 0 := by
    intro h
    rw [p2, p1, x1, x2] at hw
    have hop := u32_fld (v := i.info) (a := 0) (b := 31) (by omega) (by omega) (by omega)
    have hb := bit_fld (v := i.info) (n := 32) (by omega)
    unfold nonzero10 at h
    simp only [Bool.and_eq_true, decide_eq_true_eq, Bool.not_eq_true', Bool.and_eq_false_iff, decide_eq_false_iff_not] at h
    refine wordOf_ne hw ?_ ?_
    · intro hbr
      rw [hb, decide_eq_true_eq] at hbr
      apply ne_p10
      rw [hop]
      rintro ⟨k1, k2, k3⟩
      rcases h.2 with ((h | h) | h) | h
      · exact h hbr
      · exact h k1
      · exact h k2
      · exact h k3
    · intro h0
      rw [h0] at hop
      exact h.1 hop.symm
  refine ⟨v, l0, s', .count .recordsProcessed :: .count .instructionsScanned :: .count .instructionsProcessed :: es, by rw [hwords, hv], ⟨?_, htag⟩, ?_, hs', ?_, ?_, by rw [← hcnt]; rfl⟩
  · intro h0; rw [h0] at htag; revert htag; decide
  · unfold pureStep
    rw [if_neg (by rw [u32_eq (by omega) (by omega) (by omega), htag]; decide), if_pos ((u32_eq (by omega) (by omega) (by omega) _).2 htag)]
    unfold insn10
    rw [eval_tell, eval_tell, eval_bind, hh]
    dsimp only
    rw [hinf]
    dsimp only
    rw [eval_tell]
    unfold msr10
    rw [← hl1, show ∀ (k : Option (BitVec 64) → Prog (Dec × Bool)) a b, (Prog.fetch k).eval (a :: b) = (k (some a)).eval b from fun _ _ _ => rfl]
    dsimp only
    rw [hx0, hx, hbody x x11 x12 x10, hf]
    rfl
  · show AllAppear P (instructions es) _
    rw [hrec]
    have hfirst : ∀ (e : Expect), e.addr = i.base.addr c.prev → e.data = i.base.data.head?.map (·.1) → (∀ k, e.word = some k → (if x.hasPrefix then x.prefixWord else w) = k) →
        (e.nonzero = true → (if x.hasPrefix then x.prefixWord else w) ≠ 0) →
        Appears P (record10 conf t (putData x pairs) d)
          { base := e, insn := (i.fetched P c).known, data := match i.data with | [] => False | d :: _ => P.InPages ((i.fetched P c).walk P d.walk).walked d.ea } := by
      intro e he1 he2 hword hnz
      have hesid := hfil.esid
      have hdea := hfil.dea
      have hdra := hfil.dra
      obtain ⟨r, hres, r1, r2, r3⟩ := ht3.res
      refine ⟨by show t.insnAddr = _; rw [ht2, he1], ?_, ?_, ?_, ?_, ?_, ?_⟩
      · show (if (!(putData x pairs).esid && decide ((putData x pairs).dea ≠ 0)) = true then
          some (if (!(putData x pairs).esid && decide ((putData x pairs).dea ≠ 0)) = true then (putData x pairs).dea0 else _) else none) = e.data
        rw [hesid, hdea, he2]
        show _ = Option.map _ (List.map _ i.data).head?
        cases hdata : i.data with
        | nil => rfl
        | cons q qs =>
          rw [(hfil.data0 q (by rw [hdata]; rfl)).1]
          simp
      · intro k hk
        show (if (putData x pairs).hasPrefix = true then (putData x pairs).prefixWord else t.insn) = k
        rw [p3, p4, ht1]
        exact hword k hk
      · intro h
        show (if (putData x pairs).hasPrefix = true then (putData x pairs).prefixWord else t.insn) ≠ 0
        rw [p3, p4, ht1]
        exact hnz h
      · have h := translated hS hres (f := t.realAddr) ht3.real conf.junk.insnRa conf.junk.radixInsn conf.junk.insnPageShift conf.junk.guestInsnPageShift
        rw [← r1, ← r2, ← r3, ← ht2] at h
        show Translated P (i.fetched P c).known e.addr (!(putData x pairs).esid && decide (t.hostShift ≠ 0)) (!(putData x pairs).esid && decide (t.hostShift ≠ 0)) (decide (t.guestShift ≠ 0))
          (if (!(putData x pairs).esid && decide (t.hostShift ≠ 0)) = true then _ else _)
          { ok := true, rcd := if (!(putData x pairs).esid && decide (t.hostShift ≠ 0)) = true then _ else _, host := if (!(putData x pairs).esid && decide (t.hostShift ≠ 0)) = true then _ else _, guest := _ }
        rw [he1, ← ht2, hesid]
        exact h
      · intro a ha
        rw [he2] at ha
        cases hdata : i.data with
        | nil => rw [show i.base.data = i.data.map _ from rfl, hdata] at ha; cases ha
        | cons q qs =>
          rw [show i.base.data = i.data.map _ from rfl, hdata] at ha
          have ha : q.ea = a := Option.some.inj ha
          subst ha
          obtain ⟨q1, q2⟩ := hfil.data0 q (by rw [hdata]; rfl)
          have h := translated hS (hd1 q (by rw [hdata]; rfl)) (f := frameOf P q.ea) (fun _ => rfl) conf.junk.dataRa conf.junk.radixData conf.junk.dataPageShift conf.junk.guestDataPageShift
          rw [hdata] at hdea hdra
          have n1 : decide ((putData x pairs).dea ≠ 0) = true := by rw [hdea]; simp
          have n2 : decide ((putData x pairs).dra ≠ 0) = true := by rw [hdra]; simp
          show Translated P _ q.ea (decide ((putData x pairs).dra ≠ 0) && !(putData x pairs).esid && decide (d.host ≠ 0)) (decide ((putData x pairs).dra ≠ 0) && !(putData x pairs).esid && decide (d.host ≠ 0)) (decide (d.guest ≠ 0))
            (if (decide ((putData x pairs).dra ≠ 0) && !(putData x pairs).esid && decide (d.host ≠ 0)) = true then
              (putData x pairs).dra0 ||| (if (!(putData x pairs).esid && decide ((putData x pairs).dea ≠ 0)) = true then (putData x pairs).dea0 &&& (BitVec.twoPow 64 d.host - 1) else 0) else _)
            { ok := true, rcd := if (decide ((putData x pairs).dra ≠ 0) && !(putData x pairs).esid && decide (d.host ≠ 0)) = true then _ else _, host := if (decide ((putData x pairs).dra ≠ 0) && !(putData x pairs).esid && decide (d.host ≠ 0)) = true then _ else _, guest := _ }
          rw [n1, n2, hesid, q1, q2, show (true && !false && decide (d.host ≠ 0)) = decide (d.host ≠ 0) from rfl, if_pos (show (!false && true) = true from rfl)]
          exact h
      · intro h
        rw [he2] at h
        have hdata : i.data = [] := by
          cases hdata : i.data with
          | nil => rfl
          | cons q qs => rw [show i.base.data = i.data.map _ from rfl, hdata] at h; cases h
        obtain ⟨z1, z2⟩ := hd0 hdata
        show (decide ((putData x pairs).dra ≠ 0) && !(putData x pairs).esid && decide (d.host ≠ 0)) = false ∧ (decide ((putData x pairs).dra ≠ 0) && !(putData x pairs).esid && decide (d.host ≠ 0)) = false ∧ decide (d.guest ≠ 0) = false
        rw [z1, z2]
        simp
    unfold Item.views
    have hexp : i.base.expect c.prev = match i.pre with
      | none => [{ addr := i.base.addr c.prev, data := i.base.data.head?.map (·.1), word := stored (fld i.info 32 32) (fld i.info 0 31), nonzero := nonzero10 (fld i.info 32 32) (fld i.info 0 31) }]
      | some p => [{ addr := i.base.addr c.prev, data := i.base.data.head?.map (·.1), word := some (BitVec.ofNat 32 (fld p 0 31)), nonzero := decide (fld p 0 31 ≠ 0) },
        { addr := i.base.addr c.prev + 4, data := none, word := stored (fld i.info 32 32) (fld i.info 0 31), nonzero := nonzero10 (fld i.info 32 32) (fld i.info 0 31) }] := rfl
    rw [hexp, p3, x3]
    cases hpr : i.pre with
    | none =>
      refine .cons (hfirst _ rfl rfl ?_ ?_) .nil
      · intro k hk
        rw [x3, hpr]
        exact hstored k hk
      · rw [x3, hpr]; exact hnz
    | some p =>
      refine .cons (hfirst _ rfl rfl ?_ ?_) (.cons ⟨rfl, rfl, fun k hk => hstored k hk, fun h => hnz h, ?_, fun a h => (by cases h), fun _ => ⟨rfl, rfl, rfl⟩⟩ .nil)
      · intro k hk
        rw [x3, hpr]
        show x.prefixWord = k
        rw [x4 p hpr]
        cases hk
        rw [← u32_fld (by omega) (by omega) (by omega)]
        simp
      · intro h
        rw [x3, hpr]
        show x.prefixWord ≠ 0
        rw [x4 p hpr]
        intro h0
        have := u32_fld (v := p) (a := 0) (b := 31) (by omega) (by omega) (by omega)
        rw [h0] at this
        exact of_decide_eq_true h this.symm
      · exact ⟨⟨fun h => (by cases h), fun h => h.elim⟩, ⟨fun h => (by cases h), fun h => h.elim⟩, ⟨fun h => (by cases h), fun h => h.elim⟩, fun h => h.elim, fun h => h.elim, fun h => h.elim⟩
  · show (instructions es).map pairOf = _
    have hword : word10 i.base (i.base.addr c.prev) = w := by
      rw [p2, p1, x1, x2] at hw
      unfold word10
      show (wordOf (bit i.info 32) (u32 i.info 0 31) (recodeP10 (u32 i.info 0 31) (i.base.addr c.prev))).getD 0 = w
      rw [hw]; rfl
    have h1 : pairOf (record10 conf t (putData x pairs) d) = (t.insnAddr, if x.hasPrefix then x.prefixWord else w) := by
      show (t.insnAddr, if (putData x pairs).hasPrefix = true then (putData x pairs).prefixWord else t.insn) = _
      rw [p3, p4, ht1]
    rw [hrec, List.map_cons, h1, ht2, p3, x3]
    unfold pairs10
    rw [hword]
    show _ = match i.pre with
      | none => _
      | some p => _
    cases hpr : i.pre with
    | none => rfl
    | some p => rw [x4 p hpr]; rfl

theorem after_prev (P : Space) (c : Ctx) (i : Item) : (i.after P c).prev = i.base.addr c.prev := by
  have : ∀ (l : List Access) (c : Ctx), (l.foldl (fun c d => c.walk P d.walk) c).prev = c.prev := by
    intro l
    induction l with
    | nil => intro c; rfl
    | cons d l ih => intro c; rw [List.foldl_cons, ih]; cases d.walk <;> rfl
  exact this _ _

/-- What is counted for instructions. -/
noncomputable def allCounts (P : Space) : Ctx → List Item → List Counter
  | _, [] => []
  | c, i :: l => ([.recordsProcessed, .instructionsScanned, .instructionsProcessed] ++ i.counts P c) ++ allCounts P (i.after P c) l

theorem loop_ok {P : Space} (hS : P.tables.Ok) {conf : Conf} (hconf : conf.full = true) {tail : List (BitVec 64)} (htail : ∀ v ∈ tail, Other v) :
    ∀ (items : List Item) (n e : Nat) (c : Ctx) (s : Dec), Ready P c s → Trace P c items → (items.flatMap Item.words ++ tail).length < n →
    ∃ s' es, pureLoop conf n e s (items.flatMap Item.words ++ tail) = .ok (s', es) ∧ AllAppear P (instructions es) (views P c items) ∧
      (instructions es).map pairOf = told10 c.prev (items.map Item.base) ∧ counters es = allCounts P c items ∧ lookups es = []
  | _, 0, _, _, _, _, _, h => absurd h (by omega)
  | [], n + 1, e, _, s, _, _, hn => ⟨s, [], loop_other (n + 1) e tail htail hn, .nil, rfl, rfl, rfl⟩
  | i :: items, n + 1, e, c, s, hs, ht, hn => by
    obtain ⟨hi, ht⟩ := ht
    obtain ⟨v, l0, s1, es1, hw, ⟨hv, htag⟩, hstep, hs1, hshow, hp1, hc1⟩ := step_ok hS hconf hi hs (items.flatMap Item.words ++ tail)
    have hlen : (items.flatMap Item.words ++ tail).length < n := by
      have h1 := eval_left (l' := items.flatMap Item.words ++ tail) hstep
      have h2 := congrArg List.length hw
      rw [List.flatMap_cons, List.append_assoc, h2, List.length_cons] at hn
      omega
    obtain ⟨s2, es2, hloop, hshow2, hp2, hc2, hlk2⟩ := loop_ok hS hconf htail items n 0 (i.after P c) s1 hs1 ht hlen
    refine ⟨s2, es1 ++ es2, ?_, ?_, ?_, by rw [counters_append, hc1, hc2]; rfl, by rw [lookups_append, step_still htag hstep, hlk2]; rfl⟩
    · rw [List.flatMap_cons, List.append_assoc, hw, pureLoop, if_neg hv, hstep]
      dsimp only
      rw [if_neg (by rintro ⟨h, _⟩; cases h), if_pos rfl, hloop]
    · rw [instructions_append]
      exact hshow.append hshow2
    · rw [instructions_append, List.map_append, hp1, hp2, after_prev]
      rfl

/-- **C73**: whatever the instructions of the dump of a guest process are, and whatever page tables it has, the callback gets each
instruction, in order, and a record has the translation of an address exactly if the dump had a walk for its page up to then:
with the entries of both stages and the page sizes of both.  The real address is right if the host's page is not the larger one;
`C73_real_refuted` shows that it is not otherwise. -/
theorem C73_guest_partial (P : Space) (hS : P.tables.Ok) (c : Conf) (hc : c.full = true) {eof failing : Bool} {bytes : List (BitVec 8)} {fill phantom : BitVec 64}
    (items : List Item) (tail : List (BitVec 64)) (hk : AllKnown (stream bytes failing eof fill phantom)) (hi : Trace P {} items)
    (hw : plain (stream bytes failing eof fill phantom) = items.flatMap Item.words ++ tail) (htail : ∀ v ∈ tail, Other v) :
    ∃ l, decoded c eof bytes failing fill phantom = some l ∧ AllAppear P l (views P {} items) := by
  obtain ⟨s, es, h1, h2, -⟩ := loop_ok hS hc htail items ((items.flatMap Item.words ++ tail).length + 1) 0 {} {}
    ⟨Caches.init P, rfl, ⟨fun _ => ⟨rfl, fun h => h⟩, fun h => (by cases h)⟩, ⟨⟨{ ok := false }, Or.inr ⟨fun h => h, rfl, rfl⟩, rfl, rfl, rfl⟩, fun h => h.elim⟩⟩ hi (Nat.lt_succ_self _)
  refine ⟨instructions es, decoded_pure hk (s := s) ?_, h2⟩
  rw [hw]; exact h1

/-! ### An example -/

/-- The record of a step. -/
def stepWord (w : Walk) : BitVec 64 :=
  BitVec.ofNat 64 (w.finalRa.toNat * 2 ^ 63 + w.exception.toNat * 2 ^ 62 + w.guestPte.toNat * 2 ^ 61 + w.hostRa.toNat * 2 ^ 60 + w.level.toNat * 2 ^ 57 +
    w.finalRecord.toNat * 2 ^ 56 + w.ra.toNat / 8 * 8)

def stepOk (v : BitVec 64) (w : Walk) : Bool :=
  decide (fld v 0 0 = w.finalRa.toNat) && decide (fld v 1 1 = w.exception.toNat) && decide (fld v 2 2 = w.guestPte.toNat) && decide (fld v 3 3 = w.hostRa.toNat) &&
  decide (fld v 4 6 = w.level.toNat) && decide (fld v 7 7 = w.finalRecord.toNat) && decide (fld v 8 60 * 8 = w.ra.toNat)

def stepsOk : List (BitVec 64) → List Walk → Bool
  | [], [] => true
  | v :: l, w :: m => stepOk v w && stepsOk l m
  | _, _ => false

theorem stepWords_of : ∀ (l : List (BitVec 64)) (m : List Walk), stepsOk l m = true → StepWords l m
  | [], [], _ => .nil
  | v :: l, w :: m, h => by
    unfold stepsOk stepOk at h
    simp only [Bool.and_eq_true, decide_eq_true_eq] at h
    obtain ⟨⟨⟨⟨⟨⟨⟨h1, h2⟩, h3⟩, h4⟩, h5⟩, h6⟩, h7⟩, h8⟩ := h
    exact .cons ⟨h1, h2, h3, h4, h5, h6, h7⟩ (stepWords_of l m h8)
  | [], _ :: _, h => by cases h
  | _ :: _, [], h => by cases h

def exP : Space := ⟨exS, 1, 2⟩

/-- The translation of an instruction in a page of 4 kB of the guest, and of data in one of 2 MB. -/
def exI : Translation :=
  { lpid := 1, pid := 2, address := 0x8234, proc := none, forms := [.full 0, .full 0, .full 0, .full 0]
    guest := 0x7000, guestLevel := 0, real := 0x57000, realLevel := 1, omitted := 0 }
def exD : Translation :=
  { lpid := 1, pid := 2, address := 0x212345, proc := none, forms := [.full 0, .full 0, .full 0]
    guest := 0xe12000, guestLevel := 2, real := 0x52000, realLevel := 1, omitted := 0 }

def exWalk (data : Bool) (t : Translation) : Walked :=
  { head := if data then 0x800800011abcdf00 else 0x000800011abcdf00, steps := (t.records exS).map stepWord, fin := 0x0100000000000000, t := t }

/-- A load with walks for both addresses, an instruction of the same line, and an access to another line of the data. -/
def exItems : List Item :=
  [{ walk := some (exWalk false exI), line := some (0x000000003abcdf00, 0x8200, 0x0000000057000000), info := 0xe86300002abcdf35, msr := 0x3000000000000000
     pre := none, data := [⟨0x212345, 0x0000000029000000, some (exWalk true exD)⟩] },
   { walk := none, line := none, info := 0xe86300002abcdf39, msr := 0x3000000000000000
     pre := none, data := [⟨0x213000, 0x0000000029800000, none⟩] }]

theorem exI_valid (seen : Seen) : exI.Valid exS seen where
  proc := by simp [exI]
  length := by decide +kernel
  forms := ⟨omittable_zero .., fun _ => by simp, omittable_zero .., fun _ => by simp, omittable_zero .., fun _ => by simp,
    omittable_zero .., fun _ => by simp, trivial⟩
  guest := by decide +kernel
  real := by decide +kernel
  omitted := omittable_zero ..
  guestLevel := fun _ => rfl
  notProc := by decide
  smallProc := by simp [exI]
  smallRows := fun _ _ _ _ => rfl
  smallFinal := fun _ => rfl

theorem exD_valid (seen : Seen) : exD.Valid exS seen where
  proc := by simp [exD]
  length := by decide +kernel
  forms := ⟨omittable_zero .., fun _ => by simp, omittable_zero .., fun _ => by simp, omittable_zero .., fun _ => by simp, trivial⟩
  guest := by decide +kernel
  real := by decide +kernel
  omitted := omittable_zero ..
  guestLevel := by intro h; revert h; decide +kernel
  notProc := by decide
  smallProc := by simp [exD]
  smallRows := fun _ _ _ _ => rfl
  smallFinal := fun _ => rfl

theorem exItems_ok : Trace exP {} exItems := by
  have a1 : Item10.addr (Item.base exItems[0]) 0 = 0x8234 := by decide +kernel
  have a2 : Item10.addr (Item.base exItems[1]) 0x8234 = 0x8238 := by decide +kernel
  refine ⟨⟨⟨allOf (by decide +kernel), allOf (by decide +kernel), by decide +kernel, by decide +kernel, by decide +kernel, by decide +kernel⟩,
    by decide +kernel, fun _ => rfl, ?_, ?_, ⟨⟨by decide +kernel, ?_⟩, trivial⟩, fun d e h => (by cases h)⟩,
    ⟨⟨allOf (by decide +kernel), allOf (by decide +kernel), by decide +kernel, by decide +kernel, by decide +kernel, ?_⟩,
    by decide +kernel, fun h => (by cases h), fun p h => (by cases h), fun p w h => (by cases h), ⟨⟨by decide +kernel, fun w h => (by cases h)⟩, trivial⟩, fun d e h => (by cases h)⟩, trivial⟩
  · intro p hp
    cases hp
    decide +kernel
  · intro p w hp hw
    cases hp
    cases hw
    exact ⟨by decide +kernel, by decide +kernel, by decide +kernel, by decide +kernel, stepWords_of _ _ (by decide +kernel), by decide +kernel, by decide +kernel,
      ⟨rfl, rfl⟩, a1.symm, by unfold Translation.Exact; decide +kernel, by decide +kernel, rfl, exI_valid _⟩
  · intro w hw
    cases hw
    exact ⟨by decide +kernel, by decide +kernel, by decide +kernel, by decide +kernel, stepWords_of _ _ (by decide +kernel), by decide +kernel, by decide +kernel,
      ⟨rfl, rfl⟩, rfl, by unfold Translation.Exact; decide +kernel, by decide +kernel, rfl, exD_valid _⟩
  · show fld _ 56 56 = Item10.line _ (Item10.addr (Item.base exItems[0]) 0) % 2
    rw [a1]
    decide +kernel

/-- The bytes of a record. -/
def bytesOf (v : BitVec 64) : List (BitVec 8) := (List.range 8).map fun i => (v >>> (56 - 8 * i)).setWidth 8

def exFile : List (BitVec 8) := (exItems.flatMap Item.words).flatMap bytesOf

example : exP.tables.Ok ∧ Trace exP {} exItems ∧ plain (stream exFile false true 0 0) = exItems.flatMap Item.words ++ [] ∧
    ((stream exFile false true 0 0).all fun v => !isStamp v || (stampOf v).toOption.join.isSome) = true ∧
    exP.hostSize 0x212345 ≤ exP.guestSize 0x212345 ∧ exP.InPages [0x212345] 0x213000 := by
  refine ⟨exS_ok, exItems_ok, by decide +kernel, by decide +kernel, by decide +kernel, 0x212345, List.mem_singleton.2 rfl, by decide +kernel⟩

/-- **C73 needs the condition on the page sizes**: in that dump the real address of the first instruction is wrong, since the
page of the host has 64 kB and the one of the guest 4 kB: the dump has the right page of 4 kB, but bits of the effective address
are mixed into it. -/
theorem C73_real_refuted : ∃ l r, decoded { fn := true, private_ := true, junk := {} } true exFile false 0 0 = some (r :: l) ∧
    r.insnAddr = 0x8234 ∧ r.insnRaValid = true ∧ r.insnRa = 0x5f234 ∧ exP.real r.insnAddr = 0x57234 := by
  have h : (decoded { fn := true, private_ := true, junk := {} } true exFile false 0 0).map (·.map fun r => (r.insnAddr, r.insnRaValid, r.insnRa)) =
      some [(0x8234, true, 0x5f234), (0x8238, true, 0x5f238)] := by decide +kernel
  cases hd : decoded { fn := true, private_ := true, junk := {} } true exFile false 0 0 with
  | none => rw [hd] at h; cases h
  | some l =>
    rw [hd] at h
    cases l with
    | nil => cases h
    | cons r l =>
      have h := (List.cons.inj (Option.some.inj h)).1
      obtain ⟨h1, h2⟩ := Prod.mk.inj h
      obtain ⟨h2, h3⟩ := Prod.mk.inj h2
      exact ⟨l, r, rfl, h1, h2, h3, by rw [h1]; decide +kernel⟩

end Htm.Guest
