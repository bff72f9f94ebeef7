import Verif.Htm.GuestNear
/-!
The record of an instruction with page-table walks, for C73.
-/
namespace Htm.Guest
open Htm Htm.Spec Htm.Mmu Htm.Pwc
open Htm.Xl (Res St)

theorem Has.unknown {P : Space} {known : Prop} {a : BitVec 64} {s : Dec} (h : Has P known a s) (hk : ¬ known) : s.hostShift = 0 ∧ s.guestShift = 0 := by
  obtain ⟨⟨r, hr, _, h2, h3⟩, _⟩ := h
  rcases hr with ⟨h, _⟩ | ⟨_, h4, h5⟩
  · exact absurd h hk
  · rw [h2, h3]; exact ⟨h4, h5⟩

/-- What is counted for the first access to data. -/
noncomputable def firstCounts (P : Space) (c : Ctx) : List Access → List Counter
  | [] => []
  | d :: _ => dataCounts P (P.InPages (c.walk P d.walk).walked d.ea) d.walk d.ea

open Classical in
/-- What is counted for the addresses of an instruction: nothing before the first walk. -/
noncomputable def Item.counts (P : Space) (c : Ctx) (i : Item) : List Counter :=
  if (i.after P c).walked = [] then []
  else lineCounts P (i.fetched P c).known i.walk i.line.isSome (i.base.addr c.prev) ++ firstCounts P (i.fetched P c) i.data

/-- The address of the instruction. -/
theorem iside_ok {P : Space} (hS : P.tables.Ok) {c : Ctx} {i : Item} (hi : i.Ok P c) {s : Dec} {x : I10}
    (hc : Caches P c.seen c.walked s.xl) (hrpt : s.rpt = false → i.walk = none ∧ c.walked = [] ∧ ¬ c.known) (ha : s.insnAddr = i.base.addr c.prev)
    (hl : ∃ r, ResOk P c.known c.prev r ∧ s.radix = r.rcd ∧ s.hostShift = r.host ∧ s.guestShift = r.guest)
    (hline : i.line.isSome → s.realAddr = frameOf P (i.base.addr c.prev)) (hsame : i.line = none → c.known → s.realAddr = frameOf P c.prev)
    (hnear : i.line = none → (i.base.addr c.prev).toNat / 128 = c.prev.toNat / 128)
    (hx : x.ieara.isSome = i.line.isSome) (hv : x.hv = false) (hir : x.ir = true)
    (hw : ∀ w, i.walk = some w → ∃ y, x.ixlate = some y ∧ IsWalk P false (i.base.addr c.prev) w y) (hn : i.walk = none → x.ixlate = none) :
    ∃ xl r es, iside s x = .ok ({ s with xl := xl, radix := r.rcd, hostShift := r.host, guestShift := r.guest }, es) ∧ instructions es = [] ∧
      counters es = (if s.rpt = true then lineCounts P (i.fetched P c).known i.walk i.line.isSome (i.base.addr c.prev) else []) ∧
      Caches P (i.fetched P c).seen (i.fetched P c).walked xl ∧ ResOk P (i.fetched P c).known (i.base.addr c.prev) r ∧
      ((i.fetched P c).known → s.realAddr = frameOf P (i.base.addr c.prev)) := by
  unfold iside
  by_cases hr' : s.rpt = true
  case neg =>
    have hr : s.rpt = false := by simpa using hr'
    obtain ⟨h1, h2, h3⟩ := hrpt hr
    obtain ⟨r, hres, k1, k2, k3⟩ := hl
    have hk : ¬ (i.fetched P c).known := by
      unfold Item.fetched
      dsimp only
      rw [h1]
      split
      · rintro ⟨b, hb, _⟩
        rw [show (c.walk P none).walked = c.walked from rfl, h2] at hb
        cases hb
      · exact h3
    refine ⟨s.xl, r, [], ?_, rfl, (if_neg hr').symm, ?_, ?_, fun h => absurd h hk⟩
    · rw [if_neg hr', ← k1, ← k2, ← k3]
    · unfold Item.fetched; rw [h1]; exact hc
    · rcases hres with ⟨h, _⟩ | ⟨_, h4⟩
      · exact absurd h h3
      · exact Or.inr ⟨hk, h4⟩
  case pos =>
    rw [if_pos hr', if_pos hr']
    cases hli : i.line with
    | some p =>
      rw [if_pos (by rw [hx, hli]; rfl)]
      have hreal := hline (by rw [hli]; rfl)
      obtain ⟨xl, r, es, h1, h2, hcnt, h3, h4⟩ := newLine_ok hS hc ha hreal hv hir (wk := i.walk)
        (fun w hw' => ⟨(hi.walk p w hli hw').valid, hw w hw'⟩) hn
      refine ⟨xl, r, es, h1, h2, ?_, ?_, ?_, fun _ => hreal⟩
      · have : (({ seen := c.seen, walked := c.walked } : Ctx).walk P i.walk).walked = (c.walk P i.walk).walked := by cases i.walk <;> rfl
        rw [this] at hcnt
        rw [hcnt]
        unfold Item.fetched
        dsimp only
        rw [hli, if_pos (by rfl)]
        rfl
      · have : ∀ o : Option Walked, (({ seen := c.seen, walked := c.walked } : Ctx).walk P o).seen = (c.walk P o).seen ∧
            (({ seen := c.seen, walked := c.walked } : Ctx).walk P o).walked = (c.walk P o).walked := by intro o; cases o <;> exact ⟨rfl, rfl⟩
        rw [(this _).1, (this _).2] at h3
        exact h3
      · have : (({ seen := c.seen, walked := c.walked } : Ctx).walk P i.walk).walked = (c.walk P i.walk).walked := by cases i.walk <;> rfl
        rw [this] at h4
        unfold Item.fetched
        dsimp only
        rw [hli, if_pos (by rfl)]
        exact h4
    | none =>
      rw [if_neg (by rw [hx, hli]; decide)]
      have hnw : i.walk = none := by
        cases h : i.walk with
        | none => rfl
        | some w => have := hi.line (by rw [h]; rfl); rw [hli] at this; cases this
      obtain ⟨xl, r, es, h1, h2, hcnt, h3, h4, h5⟩ := sameLine_ok hS (x := x) ⟨hl, hsame hli⟩ ha (hnear hli) hv hir
      subst h3
      refine ⟨s.xl, r, es, h1, h2, ?_, ?_, ?_, ?_⟩
      · rw [hcnt, hnw]; unfold Item.fetched; dsimp only; rw [hli, if_neg (by decide)]; rfl
      · unfold Item.fetched; rw [hnw]; exact hc
      · unfold Item.fetched; dsimp only; rw [hli, if_neg (by decide)]; exact h4
      · unfold Item.fetched; dsimp only; rw [hli, if_neg (by decide)]; exact h5

theorem foldl_none {P : Space} : ∀ (l : List Access) (c : Ctx), (∀ d ∈ l, d.walk = none) → l.foldl (fun c d => c.walk P d.walk) c = c
  | [], _, _ => rfl
  | d :: l, c, h => by
    rw [List.foldl_cons, h d (List.mem_cons_self ..)]
    exact foldl_none l c fun e he => h e (List.mem_cons_of_mem _ he)

theorem foldl_prev {P : Space} : ∀ (l : List Access) (c : Ctx), (l.foldl (fun c d => c.walk P d.walk) c).prev = c.prev ∧
    (l.foldl (fun c d => c.walk P d.walk) c).known = c.known
  | [], _ => ⟨rfl, rfl⟩
  | d :: l, c => by
    rw [List.foldl_cons, (foldl_prev l _).1, (foldl_prev l _).2]
    cases d.walk <;> exact ⟨rfl, rfl⟩

theorem keep_none {P : Space} {seen : Seen} {walked : List (BitVec 64)} {xl : St} (hc : Caches P seen walked xl) (rpt : Bool) (x : I10)
    (h : x.dea = 0 → x.dxlates.take x.ndxlates = []) : keepData rpt xl x = .ok xl := by
  unfold keepData
  split
  · rename_i hb
    simp only [Bool.and_eq_true, decide_eq_true_eq] at hb
    rw [h hb.2, hc.partials]
    have := hc.partials
    cases xl with
    | mk c p e => cases this; rfl
  · rfl

/-- The addresses of the data. -/
theorem data_ok {P : Space} (hS : P.tables.Ok) {c : Ctx} {s : Dec} {x : I10} (hc : Caches P c.seen c.walked s.xl)
    (hv : x.hv = false) (hdr : x.dr = true) {data : List Access} (hdea : x.dea = data.length) (h2 : data.length ≤ 2) (hd : DataOk P c data)
    (h0 : ∀ d, data.head? = some d → x.dea0 = d.ea ∧ x.dra0 = frameOf P d.ea)
    (h1 : ∀ d e, data = [d, e] → x.dea1 = e.ea ∧ x.dra1 = frameOf P e.ea) (hdw : DataWalks P data (x.dxlates.take x.ndxlates))
    (hp : data.Pairwise (Apart P) ∨ ∃ d e, data = [d, e] ∧ d.ea.toNat / 4096 = e.ea.toNat / 4096 ∧ e.walk = none) (hrpt : s.rpt = false → c.walked = [] ∧ ∀ d ∈ data, d.walk = none) :
    ∃ r e2 xl1 xl2 xl3, dside0 s x = .ok (r, e2, xl1, x) ∧ dside1 s.rpt xl1 x = .ok (xl2, x) ∧ keepData s.rpt xl2 x = .ok xl3 ∧ instructions e2 = [] ∧
      counters e2 = (if s.rpt = true then firstCounts P c data else []) ∧
      Caches P (data.foldl (fun c d => c.walk P d.walk) c).seen (data.foldl (fun c d => c.walk P d.walk) c).walked xl3 ∧
      (∀ d, data.head? = some d → ResOk P (P.InPages (c.walk P d.walk).walked d.ea) d.ea r) ∧ (data = [] → r.host = 0 ∧ r.guest = 0) := by
  have hk : x.dea = 0 → x.dxlates.take x.ndxlates = [] := by
    intro h
    rw [h] at hdea
    have := List.length_eq_zero_iff.1 hdea.symm
    subst this
    generalize x.dxlates.take x.ndxlates = ys at hdw
    cases hdw
    rfl
  cases hr : s.rpt with
  | false =>
    obtain ⟨k1, k2⟩ := hrpt hr
    rw [foldl_none _ _ k2]
    have e0 : dside0 s x = .ok ({ ok := true }, [], s.xl, x) := by unfold dside0; rw [hr]; rfl
    have e1 : dside1 false s.xl x = .ok (s.xl, x) := rfl
    refine ⟨_, _, _, _, _, e0, e1, keep_none hc false x hk, rfl, rfl, hc, ?_, fun _ => ⟨rfl, rfl⟩⟩
    intro d hdd
    refine Or.inr ⟨?_, rfl, rfl⟩
    rintro ⟨b, hb, _⟩
    rw [k2 d (List.mem_of_mem_head? hdd), show (c.walk P none).walked = c.walked from rfl, k1] at hb
    cases hb
  | true =>
    have hs0 : (∀ d ∈ data, (∀ w, d.walk = some w → ∃ j y, selectD (x.dxlates.take x.ndxlates) (frameOf P d.ea) = some j ∧ (x.dxlates.take x.ndxlates)[j]? = some y ∧ IsWalk P true d.ea w y) ∧
        (d.walk = none → selectD (x.dxlates.take x.ndxlates) (frameOf P d.ea) = none)) ∨
        ∃ d e w y, data = [d, e] ∧ d.walk = some w ∧ e.walk = none ∧ d.ea.toNat / 4096 = e.ea.toNat / 4096 ∧ x.dxlates.take x.ndxlates = [y] ∧ IsWalk P true d.ea w y := by
      rcases hp with hp | ⟨d, e, rfl, hab, he⟩
      · exact Or.inl (select_mem hdw hp)
      · cases hd' : d.walk with
        | none =>
          refine Or.inl (select_mem hdw (List.pairwise_cons.2 ⟨fun b hb => ?_, List.pairwise_singleton ..⟩))
          rw [List.mem_singleton] at hb
          subst hb
          exact Or.inr ⟨hd', he⟩
        | some w =>
          generalize x.dxlates.take x.ndxlates = ys at hdw
          cases hdw with
          | skip h _ => rw [hd'] at h; cases h
          | take h hy hl =>
            rw [hd'] at h
            cases h
            cases hl with
            | take h _ _ => rw [he] at h; cases h
            | skip _ hl =>
              cases hl
              exact Or.inr ⟨d, e, w, _, rfl, hd', he, hab, rfl, hy⟩
    rcases hs0 with hs | ⟨d, e, w, y, rfl, hdw', he, hab, hys, hy⟩
    case inr =>
      obtain ⟨a0, a1⟩ := h0 d rfl
      obtain ⟨b0, b1⟩ := h1 d e rfl
      have hsel : ∀ r, r = frameOf P d.ea → selectD (x.dxlates.take x.ndxlates) r = some 0 := by
        rintro r rfl
        rw [hys]
        unfold selectD
        rw [List.findIdx?_cons, hy.side, (hy.ends _).2 rfl]
        rfl
      obtain ⟨r, es, xl', k1, k2, hcnt, k3, k4⟩ := dside_ok hS hc hv hdr (d := d) (fun w hw => (hd.1.2 w hw).valid)
        ⟨fun w' hw' => ⟨0, y, hsel _ rfl, by rw [hys]; rfl, by rw [hdw'] at hw'; cases hw'; exact hy⟩, fun h => by rw [hdw'] at h; cases h⟩
      have hwa : w.t.address = d.ea := hy.address
      have hab' : w.t.address.toNat / 4096 = e.ea.toNat / 4096 := by rw [hwa]; exact hab
      have hvalid := (hd.1.2 w hdw').valid
      have hfr : frameOf P e.ea = frameOf P d.ea := by rw [← hwa]; exact same_frame hS hy.good hab'.symm
      have hcw : c.walk P d.walk = { c with seen := c.seen.add P.tables w.t, walked := w.t.address :: c.walked } := by rw [hdw']; rfl
      obtain ⟨r', es', xl2, m1, m2, -, m3, m4⟩ := dside_ok hS k3 hv hdr (d := ⟨e.ea, e.ra, some { w with t := { w.t with address := e.ea } }⟩)
        (fun w' hw' => by
          cases hw'
          rw [hcw]
          exact hvalid.near hS (Seen.sub_add _ _ _) hab')
        ⟨fun w' hw' => ⟨0, y, hsel _ hfr, by rw [hys]; rfl, by cases hw'; exact hy.near hS hab⟩, fun h => by cases h⟩
      have e0 : dside0 s x = .ok (r, es, xl', x) := by
        unfold dside0; rw [hdea, hr, a0, a1]; exact k1
      have e1 : dside1 true xl' x = .ok (xl2, x) := by
        unfold dside1
        rw [hdea, if_pos (by rfl), b0, b1, m1]
      have m3' : Caches P (([d, e] : List Access).foldl (fun c d => c.walk P d.walk) c).seen (([d, e] : List Access).foldl (fun c d => c.walk P d.walk) c).walked xl2 := by
        have e2 : ([d, e] : List Access).foldl (fun c d => c.walk P d.walk) c = c.walk P d.walk := by
          show (c.walk P d.walk).walk P e.walk = _
          rw [he]
          rfl
        rw [e2]
        refine m3.sub (Seen.sub_add _ _ _) fun a => ?_
        rw [hcw]
        exact InPages_near hS hy.good hab' _ a
      exact ⟨_, _, _, _, _, e0, e1, keep_none m3 true x hk, k2, hcnt, m3', fun e he => (by cases he; exact k4), fun h => (by cases h)⟩
    clear hp hdw hrpt
    match data, h2, hdea, hd, h0, h1, hs with
    | [], _, hdea, _, _, _, _ =>
      have e0 : dside0 s x = .ok ({ ok := true }, [], s.xl, x) := by
        unfold dside0; rw [hdea, hr]; rfl
      have e1 : dside1 true s.xl x = .ok (s.xl, x) := by
        unfold dside1; rw [hdea]; rfl
      exact ⟨_, _, _, _, _, e0, e1, keep_none hc true x hk, rfl, rfl, hc, fun d hd => (by cases hd), fun _ => ⟨rfl, rfl⟩⟩
    | [d], _, hdea, hd, h0, _, hs =>
      obtain ⟨a0, a1⟩ := h0 d rfl
      obtain ⟨r, es, xl', k1, k2, hcnt, k3, k4⟩ := dside_ok hS hc hv hdr (d := d) (fun w hw => (hd.1.2 w hw).valid) (hs d (List.mem_cons_self ..))
      have e0 : dside0 s x = .ok (r, es, xl', x) := by
        unfold dside0; rw [hdea, hr, a0, a1]; exact k1
      have e1 : dside1 true xl' x = .ok (xl', x) := by
        unfold dside1; rw [hdea]; rfl
      exact ⟨_, _, _, _, _, e0, e1, keep_none k3 true x hk, k2, hcnt, k3, fun e he => (by cases he; exact k4), fun h => (by cases h)⟩
    | [d, e], _, hdea, hd, h0, h1, hs =>
      obtain ⟨a0, a1⟩ := h0 d rfl
      obtain ⟨b0, b1⟩ := h1 d e rfl
      obtain ⟨r, es, xl', k1, k2, hcnt, k3, k4⟩ := dside_ok hS hc hv hdr (d := d) (fun w hw => (hd.1.2 w hw).valid) (hs d (List.mem_cons_self ..))
      obtain ⟨r', es', xl2, m1, m2, -, m3, m4⟩ := dside_ok hS k3 hv hdr (d := e) (fun w hw => (hd.2.1.2 w hw).valid)
        (hs e (List.mem_cons_of_mem _ (List.mem_cons_self ..)))
      have e0 : dside0 s x = .ok (r, es, xl', x) := by
        unfold dside0; rw [hdea, hr, a0, a1]; exact k1
      have e1 : dside1 true xl' x = .ok (xl2, x) := by
        unfold dside1
        rw [hdea, if_pos (by rfl), b0, b1, m1]
      exact ⟨_, _, _, _, _, e0, e1, keep_none m3 true x hk, k2, hcnt, m3, fun e he => (by cases he; exact k4), fun h => (by cases h)⟩

/-- An instruction with what is known of it when all its records were read. -/
structure Filled (P : Space) (c : Ctx) (i : Item) (x : I10) : Prop where
  ieara : x.ieara = i.line.map fun p => (bits p.2.1 0 56 <<< 7, frameOf P (i.base.addr c.prev))
  eabits : x.eabits = u32 i.info 56 61 <<< 2
  hv : x.hv = false
  ir : x.ir = true
  dr : x.dr = true
  esid : x.esid = false
  dea : x.dea = i.data.length
  dra : x.dra = i.data.length
  data0 : ∀ d, i.data.head? = some d → x.dea0 = d.ea ∧ x.dra0 = frameOf P d.ea
  data1 : ∀ d e, i.data = [d, e] → x.dea1 = e.ea ∧ x.dra1 = frameOf P e.ea
  iwalk : ∀ w, i.walk = some w → ∃ y, x.ixlate = some y ∧ IsWalk P false (i.base.addr c.prev) w y
  inone : i.walk = none → x.ixlate = none
  dwalks : DataWalks P i.data (x.dxlates.take x.ndxlates)

theorem ra_frame {P : Space} {v : BitVec 64} {a : BitVec 64} (h : fld v 0 40 = (P.real a).toNat / 4096) : bits v 0 40 <<< 12 = frameOf P a := by
  apply BitVec.eq_of_toNat_eq
  rw [frameOf_toNat, BitVec.toNat_shiftLeft, bits_fld (by omega) (by omega), Nat.shiftLeft_eq, h]
  have := (P.real a).isLt
  omega

theorem frames_ne {P : Space} {c : Ctx} {i : Item} (hi : i.Ok P c) (h2 : i.data.length ≤ 2) :
    i.data.Pairwise (Apart P) ∨ ∃ d e, i.data = [d, e] ∧ d.ea.toNat / 4096 = e.ea.toNat / 4096 ∧ e.walk = none := by
  have hd := hi.data
  match hdata : i.data, h2, hd with
  | [], _, _ => exact Or.inl List.Pairwise.nil
  | [_], _, _ => exact Or.inl (List.pairwise_singleton ..)
  | [d, e], _, hd =>
    have hap : Apart P d e → [d, e].Pairwise (Apart P) := fun h => List.pairwise_cons.2 ⟨fun b hb => by
      rw [List.mem_singleton] at hb
      subst hb
      exact h, List.pairwise_singleton ..⟩
    rcases hi.two d e hdata with h | h | h
    · refine Or.inl (hap (Or.inl fun heq => h ?_))
      have := congrArg BitVec.toNat heq
      rw [frameOf_toNat, frameOf_toNat] at this
      rw [hd.1.1, hd.2.1.1]
      omega
    · exact Or.inl (hap (Or.inr h))
    · exact Or.inr ⟨d, e, rfl, h⟩

theorem near {i : Item10} {prev : BitVec 64} (hl : i.lines = []) (hh : fld i.info 56 56 = i.line prev % 2) : (i.addr prev).toNat / 128 = prev.toNat / 128 := by
  have h6 := fld_lt i.info 56 61
  have h4 : fld i.info 56 61 / 32 = fld i.info 56 56 := by
    unfold fld
    simp only [Nat.reduceSub, Nat.reducePow, Nat.reduceAdd]
    omega
  have hline : i.line prev = prev.toNat / 128 := by unfold Item10.line; rw [hl]; rfl
  have := prev.isLt
  unfold Item10.addr
  rw [BitVec.toNat_ofNat]
  simp only [Nat.reduceSub, Nat.reducePow, Nat.reduceAdd] at h6
  rw [hline] at hh ⊢
  omega

/-- A walk of the instruction is known afterwards. -/
theorem after_walked {P : Space} {c : Ctx} {i : Item} :
    (i.after P c).walked = [] ↔ c.walked = [] ∧ i.walk = none ∧ ∀ d ∈ i.data, d.walk = none := by
  have h : ∀ (l : List Access) (c : Ctx), (l.foldl (fun c d => c.walk P d.walk) c).walked = [] ↔ c.walked = [] ∧ ∀ d ∈ l, d.walk = none := by
    intro l
    induction l with
    | nil => intro c; simp
    | cons d l ih =>
      intro c
      rw [List.foldl_cons, ih]
      cases hd : d.walk with
      | none => simp [Ctx.walk, hd]
      | some w => simp [Ctx.walk, hd]
  unfold Item.after
  rw [h]
  unfold Item.fetched
  dsimp only
  cases i.walk with
  | none => simp [Ctx.walk]
  | some w => simp [Ctx.walk]

/-- The record for the callback. -/
theorem finish_ok {P : Space} (hS : P.tables.Ok) {conf : Conf} (hconf : conf.full = true) {c : Ctx} {i : Item} (hi : i.Ok P c) {s : Dec} (hs : Ready P c s)
    (b : Bool) (hb : b = (s.rpt || (i.walk.isSome || !(i.data.filterMap Access.walk).isEmpty))) {x : I10} (hx : Filled P c i x) (l : List (BitVec 64)) :
    ∃ s' w es, wordOf x.branch x.opcode (recodeP10 x.opcode (i.base.addr c.prev)) = some w ∧
      (finish10 conf { s with rpt := b } x).eval l = .ok ((s', true), l, es) ∧ Ready P (i.after P c) s' ∧
      ∃ (t : Dec) (d : Res), t.insn = w ∧ t.insnAddr = i.base.addr c.prev ∧ Has P (i.fetched P c).known (i.base.addr c.prev) t ∧
        (∀ a, i.data.head? = some a → ResOk P (P.InPages ((i.fetched P c).walk P a.walk).walked a.ea) a.ea d) ∧ (i.data = [] → d.host = 0 ∧ d.guest = 0) ∧
        counters es = i.counts P c ∧ instructions es = record10 conf t x d :: (if x.hasPrefix then [{ insn := w, insnAddr := i.base.addr c.prev + 4 }] else []) := by
  obtain ⟨w, hw⟩ := wordOf_some (branch := x.branch) (op := x.opcode) (low_p10 x.opcode (i.base.addr c.prev))
  have h2 : i.data.length ≤ 2 := by
    have := hi.base.data
    rw [show i.base.data.length = i.data.length from List.length_map ..] at this
    omega
  generalize hs0 : ({ s with rpt := b } : Dec) = s0
  have hp : (place s0 x).rpt = b ∧ (place s0 x).hostShift = s.hostShift ∧ (place s0 x).guestShift = s.guestShift ∧ (place s0 x).radix = s.radix ∧
      (place s0 x).xl = s.xl := by
    rw [← hs0]
    unfold place
    cases x.ieara <;> exact ⟨rfl, rfl, rfl, rfl, rfl⟩
  have haddr : (place s0 x).insnAddr = i.base.addr c.prev := by
    refine place_addr (by rw [← hs0]; exact hs.addr) ?_ hx.eabits hi.base.half
    rw [hx.ieara]
    show _ = lastLine none i.line.toList
    cases hli : i.line with
    | none => rfl
    | some p =>
      show some (_, _) = some (bits p.2.1 0 56 <<< 7, bits p.2.2 0 39 <<< 12)
      congr 2
      apply BitVec.eq_of_toNat_eq
      rw [frameOf_toNat, BitVec.toNat_shiftLeft, bits_fld (by omega) (by omega), Nat.shiftLeft_eq, hi.real p hli]
      have := (P.real (i.base.addr c.prev)).isLt
      omega
  have hrl : i.line.isSome → (place s0 x).realAddr = frameOf P (i.base.addr c.prev) := by
    intro h
    obtain ⟨p, hp⟩ := Option.isSome_iff_exists.1 h
    unfold place
    rw [hx.ieara, hp]
    rfl
  have hrs : i.line = none → c.known → (place s0 x).realAddr = frameOf P c.prev := by
    intro h hk
    unfold place
    rw [hx.ieara, h, ← hs0]
    exact hs.line.real hk
  have hb' : b = false → s.rpt = false ∧ i.walk = none ∧ ∀ d ∈ i.data, d.walk = none := by
    intro h
    rw [hb] at h
    simp only [Bool.or_eq_false_iff, Option.isSome_eq_false_iff, Option.isNone_iff_eq_none, Bool.not_eq_false', List.isEmpty_iff,
      List.filterMap_eq_nil_iff] at h
    exact h
  generalize hs1 : ({ place s0 x with insn := w, prevAddr := (place s0 x).insnAddr, prevBranch := x.branch || isCall w } : Dec) = s1
  obtain ⟨xl, r, e1, i1, i2, icnt, i3, i4, i5⟩ := iside_ok hS hi (s := s1) (x := x)
    (by rw [← hs1]; show Caches P _ _ (place s0 x).xl; rw [hp.2.2.2.2]; exact hs.caches)
    (by
      intro h
      rw [← hs1] at h
      have h := hb' (hp.1 ▸ h)
      exact ⟨h.2.1, hs.rpt.1 h.1⟩)
    (by rw [← hs1]; exact haddr)
    (by
      obtain ⟨r, j1, j2, j3, j4⟩ := hs.line.res
      refine ⟨r, j1, ?_, ?_, ?_⟩
      · rw [← hs1]; show (place s0 x).radix = _; rw [hp.2.2.2.1]; exact j2
      · rw [← hs1]; show (place s0 x).hostShift = _; rw [hp.2.1]; exact j3
      · rw [← hs1]; show (place s0 x).guestShift = _; rw [hp.2.2.1]; exact j4)
    (by rw [← hs1]; exact hrl) (by rw [← hs1]; exact hrs)
    (fun h => near (by show i.line.toList = []; rw [h]; rfl) hi.base.half)
    (by rw [hx.ieara, Option.isSome_map]) hx.hv hx.ir hx.iwalk hx.inone
  generalize hs2 : ({ s1 with xl := xl, radix := r.rcd, hostShift := r.host, guestShift := r.guest } : Dec) = s2 at i1
  have hr2 : s2.rpt = b := by rw [← hs2, ← hs1]; exact hp.1
  have hx2 : s2.xl = xl := by rw [← hs2]
  obtain ⟨d, e2, xl1, xl2, xl3, d1, d2, d3, d4, dcnt, d5, d6, d7⟩ := data_ok hS (s := s2) (x := x) (c := i.fetched P c) (by rw [hx2]; exact i3) hx.hv hx.dr hx.dea h2 hi.data
    hx.data0 hx.data1 hx.dwalks (frames_ne hi h2)
    (by
      intro h
      have h := hb' (hr2 ▸ h)
      refine ⟨?_, h.2.2⟩
      show (c.walk P i.walk).walked = []
      rw [h.2.1]
      exact (hs.rpt.1 h.1).1)
  have he := emit10_of (c := conf) (s := { place s0 x with insn := w }) l (by rw [show ({ ({ place s0 x with insn := w } : Dec) with prevAddr := _, prevBranch := _ } : Dec) = s1 from hs1]; exact i1) d1 d2 d3
  have hf : (finish10 conf s0 x).eval l = (Prog.tell (.ea (place s0 x).insnAddr) (.tell (.inst (place s0 x).insnAddr w)
      (emit10 conf { place s0 x with insn := w } x))).eval l := by
    unfold finish10
    rw [haddr, hw]
    dsimp only
    rw [hconf, if_pos rfl]
  rw [eval_tell, eval_tell, he] at hf
  have hin : s2.insn = w := by rw [← hs2, ← hs1]
  have had : s2.insnAddr = i.base.addr c.prev := by rw [← hs2, ← hs1]; exact haddr
  have hhas : Has P (i.fetched P c).known (i.base.addr c.prev) s2 := by
    refine ⟨⟨r, i4, ?_, ?_, ?_⟩, fun h => ?_⟩
    · rw [← hs2]
    · rw [← hs2]
    · rw [← hs2]
    · rw [← hs2]; exact i5 h
  have hbw : b = false ↔ (i.after P c).walked = [] := by
    rw [after_walked]
    constructor
    · intro h
      have h := hb' h
      exact ⟨(hs.rpt.1 h.1).1, h.2⟩
    · rintro ⟨h1, h2, h3⟩
      rw [hb]
      have : s.rpt = false := by
        cases h : s.rpt with
        | false => rfl
        | true => exact absurd h1 (hs.rpt.2 h)
      rw [this, h2, List.filterMap_eq_nil_iff.2 h3]
      rfl
  obtain ⟨f1, f2⟩ := foldl_prev (P := P) i.data (i.fetched P c)
  refine ⟨_, w, _, hw, hf, ⟨d5, ?_, ⟨?_, ?_⟩, ?_⟩, s2, d, hin, had, hhas, d6, d7, ?_, ?_⟩
  · show s2.insnAddr = (i.after P c).prev
    unfold Item.after
    rw [f1, had]
    rfl
  · intro h
    have h := hb' (hr2 ▸ (show s2.rpt = false from h))
    have hk := hs.rpt.1 h.1
    unfold Item.after
    rw [f2, foldl_none _ _ h.2.2]
    unfold Item.fetched
    dsimp only
    rw [h.2.1]
    refine ⟨hk.1, ?_⟩
    split
    · rintro ⟨q, hq, _⟩
      rw [show (c.walk P none).walked = c.walked from rfl, hk.1] at hq
      cases hq
    · exact hk.2
  · intro h
    exact fun h' => absurd (hr2 ▸ (show s2.rpt = true from h)) (by rw [hbw.2 h']; decide)
  · unfold Item.after
    rw [f1, f2]
    exact ⟨hhas.res, hhas.real⟩
  · show counters (e1 ++ e2 ++ [_] ++ suffix10 s2 x) = _
    have h0 : counters (suffix10 s2 x) = [] := by unfold suffix10; split <;> rfl
    rw [counters_append, counters_append, counters_append, h0, icnt, dcnt, show s1.rpt = b from by rw [← hs1]; exact hp.1, hr2]
    unfold Item.counts
    cases hbb : b with
    | false => rw [if_pos (hbw.1 hbb)]; rfl
    | true =>
      rw [if_neg (show ¬ (i.after P c).walked = [] from fun h => by rw [hbw.2 h] at hbb; cases hbb), if_pos rfl, if_pos rfl, show counters [Ev.insn _] = [] from rfl, List.append_nil, List.append_nil]
  · show instructions (e1 ++ e2 ++ [_] ++ suffix10 s2 x) = _
    rw [instructions_append, instructions_append, instructions_append, i2, d4]
    unfold suffix10
    rw [hin, had]
    cases x.hasPrefix <;> rfl

end Htm.Guest
