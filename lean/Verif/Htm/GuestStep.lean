import Verif.Htm.GuestRead
/-!
Translating the addresses of an instruction, for C73.
-/
namespace Htm.Guest
open Htm Htm.Spec Htm.Mmu Htm.Pwc
open Htm.Xl (Res St)

/-- The result of a translation that is known, or of one that is not. -/
def ResOk (P : Space) (known : Prop) (a : BitVec 64) (r : Res) : Prop :=
  (known ∧ ∃ t, Good P t ∧ t.address = a ∧ r = resOf P.tables t) ∨ (¬ known ∧ r.host = 0 ∧ r.guest = 0)

/-- The translation of the instruction in the state of the decoder. -/
structure Has (P : Space) (known : Prop) (a : BitVec 64) (s : Dec) : Prop where
  res : ∃ r, ResOk P known a r ∧ s.radix = r.rcd ∧ s.hostShift = r.host ∧ s.guestShift = r.guest
  real : known → s.realAddr = frameOf P a

structure Ready (P : Space) (c : Ctx) (s : Dec) : Prop where
  caches : Caches P c.seen c.walked s.xl
  addr : s.insnAddr = c.prev
  rpt : (s.rpt = false → c.walked = [] ∧ ¬ c.known) ∧ (s.rpt = true → c.walked ≠ [])
  line : Has P c.known c.prev s

theorem pageEvents_none (f : Nat → Counter) (n : Nat) : instructions (pageEvents f n) = [] := by
  unfold pageEvents; split <;> rfl

open Classical in
/-- What is counted for the address of an instruction. -/
noncomputable def lineCounts (P : Space) (known : Prop) (walk : Option Walked) (line : Bool) (a : BitVec 64) : List Counter :=
  match walk with
  | some _ => [.withIXlate, .insnPages (P.hostSize a)]
  | none => if known then [.withIXlate] else if line then [.withoutIXlateErat] else [.withoutIXlateIeara]

open Classical in
/-- What is counted for the address of the data. -/
noncomputable def dataCounts (P : Space) (known : Prop) (walk : Option Walked) (a : BitVec 64) : List Counter :=
  match walk with
  | some _ => [.withDXlate, .dataPages (P.hostSize a)]
  | none => if known then [.withDXlate] else [.withoutDXlateErat]

theorem pageEvents_count {P : Space} (hS : P.tables.Ok) {t : Translation} (h : Good P t) (f : Nat → Counter) :
    counters (pageEvents f (resOf P.tables t).host) = [f (P.hostSize t.address)] := by
  have e : (resOf P.tables t).host = P.hostSize t.address := h.hostSize hS
  have h2 := Table.pageSize_size (hS.1 t.lpid).1 t.guest
  unfold PageSize at h2
  unfold pageEvents
  rw [if_pos (by show (P.tables.host t.lpid).size t.guest = _ ∨ _; unfold resOf; dsimp only; omega), e]
  rfl

theorem orKept_none {xl : St} (h : xl.partials = []) (a r : BitVec 64) : orKept none xl a r = (none, xl) := by
  cases xl with
  | mk c p e =>
    cases h
    rfl

theorem host_pos {P : Space} (hS : P.tables.Ok) (t : Translation) : (resOf P.tables t).host ≠ 0 ∧ (resOf P.tables t).guest ≠ 0 ∧
    (resOf P.tables t).host < 64 ∧ (resOf P.tables t).guest < 64 := by
  have h1 := Table.pageSize_size (hS.1 t.lpid).1 t.guest
  have h2 := Table.pageSize_size (hS.2 t.lpid t.pid).1 t.address
  unfold PageSize at h1 h2
  unfold resOf
  dsimp only
  omega

/-- An instruction with a new line. -/
theorem newLine_ok {P : Space} (hS : P.tables.Ok) {seen : Seen} {walked : List (BitVec 64)} {s : Dec} {x : I10} {a : BitVec 64}
    (hc : Caches P seen walked s.xl) (ha : s.insnAddr = a) (hr : s.realAddr = frameOf P a) (hv : x.hv = false) (hir : x.ir = true)
    {wk : Option Walked} (hw : ∀ w, wk = some w → w.t.Valid P.tables seen ∧ ∃ y, x.ixlate = some y ∧ IsWalk P false a w y) (hn : wk = none → x.ixlate = none) :
    ∃ xl r es, newLine s x = .ok ({ s with xl := xl, radix := r.rcd, hostShift := r.host, guestShift := r.guest }, es) ∧ instructions es = [] ∧
      counters es = lineCounts P (P.InPages (({ seen := seen, walked := walked } : Ctx).walk P wk).walked a) wk true a ∧
      Caches P (({ seen := seen, walked := walked } : Ctx).walk P wk).seen (({ seen := seen, walked := walked } : Ctx).walk P wk).walked xl ∧
      ResOk P (P.InPages (({ seen := seen, walked := walked } : Ctx).walk P wk).walked a) a r := by
  obtain ⟨prevAddr, prevBranch, insnAddr, realAddr, insn, radix, hostShift, guestShift, rpt, tlb, xl0⟩ := s
  dsimp only at ha hr hc
  subst ha; subst hr
  unfold newLine
  dsimp only
  rw [hv, hir]
  cases wk with
  | some w =>
    obtain ⟨hvalid, y, hy, hiw⟩ := hw w rfl
    have e := hiw.address
    rw [hy]
    have hwr := hiw.written
    rw [← e] at hwr ⊢
    unfold orKept
    dsimp only
    obtain ⟨st', h1, h2⟩ := hc.decode hS hiw.good hvalid hwr hiw.fits hiw.taken
    rw [h1]
    refine ⟨st', resOf P.tables w.t, _, rfl, ?_, ?_, h2, Or.inl ⟨⟨_, List.mem_cons_self .., rfl⟩, w.t, hiw.good, rfl, rfl⟩⟩
    · show instructions (pageEvents _ _) = []
      exact pageEvents_none _ _
    · show Counter.withIXlate :: counters (pageEvents _ _) = _
      rw [pageEvents_count hS hiw.good]
      rfl
  | none =>
    rw [hn rfl, orKept_none hc.partials]
    dsimp only
    rcases hc.lookup hS insnAddr with ⟨h1, t, h2, h3, h4⟩ | ⟨h1, h4⟩
    · rw [h4]
      exact ⟨xl0, resOf P.tables t, _, rfl, rfl, (if_pos (show P.InPages _ _ from h1)).symm, hc, Or.inl ⟨h1, t, h2, h3, rfl⟩⟩
    · rw [h4]
      exact ⟨xl0, _, _, rfl, rfl, (if_neg (show ¬ P.InPages _ _ from h1)).symm, hc, Or.inr ⟨h1, rfl, rfl⟩⟩

theorem offsetLast_eq (S : Tables) (t : Translation) (a : BitVec 64) {x : Qt.Radix} (h : Xl.setOffset (eratVal S t) a = .ok x) :
    offsetLast (resOf S t).rcd (resOf S t).guest a = x ∧ ¬ ((resOf S t).rcd.nrWalks = 0 ∨ 5 < (resOf S t).rcd.nrWalks ∨ 64 ≤ (resOf S t).guest) := by
  unfold Xl.setOffset at h
  split at h
  · cases h
  · rename_i hn
    refine ⟨?_, hn⟩
    injection h

theorem div_4k {k : Nat} (h : 12 ≤ k) (f X : Nat) : (f * 2 ^ k + X % 2 ^ k) / 4096 = f * 2 ^ (k - 12) + X / 4096 % 2 ^ (k - 12) := by
  have e : 2 ^ k = 4096 * 2 ^ (k - 12) := by rw [show 4096 = 2 ^ 12 from rfl, ← Nat.pow_add]; congr 1; omega
  rw [e, show f * (4096 * 2 ^ (k - 12)) = f * 2 ^ (k - 12) * 4096 from by rw [Nat.mul_comm 4096, Nat.mul_assoc], Nat.add_comm,
    Nat.add_mul_div_right _ _ (by omega), Nat.mod_mul_right_div_self, Nat.add_comm]

/-- Addresses in the same 4 kB are in the same 4 kB of real memory. -/
theorem same_frame {P : Space} (hS : P.tables.Ok) {t : Translation} (h : Good P t) {a : BitVec 64} (ha : a.toNat / 4096 = t.address.toNat / 4096) :
    frameOf P a = frameOf P t.address := by
  have hpage : a.toNat / 2 ^ t.page P.tables = t.address.toNat / 2 ^ t.page P.tables := by
    have hp := page_ok hS t
    unfold Erat.PageSize at hp
    rcases hp with e | e | e | e <;> rw [e] <;> omega
  obtain ⟨h1, h2, h3, h4⟩ := h
  have hg : t.guest.toNat / 2 ^ (P.tables.guest t.lpid t.pid).size t.address = (P.tables.guest t.lpid t.pid).frame t.address := by
    rw [h1, h2]; exact h4
  obtain ⟨_, hh, hr⟩ := same_of_covers hS hg h3 hpage
  obtain ⟨_, hh', hr'⟩ := same_of_covers hS hg h3 (a := t.address) rfl
  have hho := hS.1 t.lpid
  have e1 : ∀ b, P.real b = (P.tables.host t.lpid).real ((P.tables.guest t.lpid t.pid).real b) := by intro b; rw [h1, h2]; rfl
  have p1 := Table.pageSize_size (hS.2 t.lpid t.pid).1 t.address
  have p2 := Table.pageSize_size hho.1 t.guest
  apply BitVec.eq_of_toNat_eq
  have g1 : 12 ≤ (P.tables.host t.lpid).size t.guest := by unfold PageSize at p2; omega
  have g2 : 12 ≤ (P.tables.guest t.lpid t.pid).size t.address := by unfold PageSize at p1; omega
  rw [frameOf_toNat, frameOf_toNat, e1, e1, hostReal_toNat hho, hostReal_toNat hho, ← Table.size_of_same hho.1 hh, ← Table.size_of_same hho.1 hh',
    ← Table.frame_of_same hho.1 hh, ← Table.frame_of_same hho.1 hh', hr, hr', div_4k g1, div_4k g1, div_4k g2, div_4k g2, ha]

/-- An instruction in the line of the one before. -/
theorem sameLine_ok {P : Space} (hS : P.tables.Ok) {s : Dec} {x : I10} {known : Prop} {a b : BitVec 64} (hl : Has P known b s) (ha : s.insnAddr = a)
    (hab : a.toNat / 128 = b.toNat / 128) (hv : x.hv = false) (hir : x.ir = true) :
    ∃ xl r es, sameLine s x = .ok ({ s with xl := xl, radix := r.rcd, hostShift := r.host, guestShift := r.guest }, es) ∧ instructions es = [] ∧
      counters es = lineCounts P known none false a ∧ xl = s.xl ∧
      ResOk P known a r ∧ (known → s.realAddr = frameOf P a) := by
  obtain ⟨⟨r, hr, h1, h2, h3⟩, hreal⟩ := hl
  unfold sameLine
  rw [hv, hir, if_pos (by rfl), h1, h2, h3]
  rcases hr with ⟨hk, t, hg, hta, rfl⟩ | ⟨hk, h4, h5⟩
  · obtain ⟨p1, p2, p3, p4⟩ := host_pos hS t
    have hp := page_ok hS t
    have hpage : a.toNat / 2 ^ t.page P.tables = t.address.toNat / 2 ^ t.page P.tables := by
      rw [hta]
      unfold Erat.PageSize at hp
      rcases hp with e | e | e | e <;> rw [e] <;> omega
    have hm := hg.move hS hpage
    have hset := setOffset_move hS (by rw [hg.lpid, hg.pid]; exact hg.guest) hg.exact hpage
    obtain ⟨z1, z2⟩ := move_sizes hS (by rw [hg.lpid, hg.pid]; exact hg.guest) hg.exact hpage
    obtain ⟨q1, q2⟩ := offsetLast_eq P.tables t a hset
    rw [if_pos p1, if_neg q2, ha, q1]
    refine ⟨s.xl, resOf P.tables (t.move P.tables a), [.count .withIXlate], ?_, rfl, (if_pos hk).symm, rfl, Or.inl ⟨hk, _, hm, rfl, rfl⟩, ?_⟩
    · rw [show (resOf P.tables (t.move P.tables a)).host = (resOf P.tables t).host from z1,
        show (resOf P.tables (t.move P.tables a)).guest = (resOf P.tables t).guest from z2]
      rfl
    · intro hk
      rw [hreal hk, ← hta]
      exact (same_frame hS hg (by rw [hta]; omega)).symm
  · rw [if_neg (by rw [h4]; simp)]
    refine ⟨s.xl, r, [.count .withoutIXlateIeara], ?_, rfl, (if_neg hk).symm, rfl, Or.inr ⟨hk, h4, h5⟩, fun h => absurd h hk⟩
    rw [← h1, ← h2, ← h3]

/-! ### Data -/

theorem select_none {P : Space} {l : List Access} {ys : List Xlate} (h : DataWalks P l ys) (r : BitVec 64) (hr : ∀ d ∈ l, frameOf P d.ea ≠ r ∨ d.walk = none) :
    selectD ys r = none := by
  induction h with
  | nil => rfl
  | skip _ _ ih => exact ih fun d hd => hr d (List.mem_cons_of_mem _ hd)
  | @take d l ys w y hdw hy _ ih =>
    have hne : frameOf P d.ea ≠ r := (hr d (List.mem_cons_self ..)).resolve_right (by rw [hdw]; simp)
    have h1 : (y.dSide && endsAt y r) = false := by
      cases he : endsAt y r with
      | false => simp
      | true => exact absurd ((hy.ends r).1 he).symm hne
    have h2 : selectD ys r = none := ih fun d hd => hr d (List.mem_cons_of_mem _ hd)
    unfold selectD at h2 ⊢
    rw [List.findIdx?_cons, h1, h2]
    rfl

/-- Two accesses are to different pages, or have no walks. -/
def Apart (P : Space) (a b : Access) : Prop := frameOf P a.ea ≠ frameOf P b.ea ∨ (a.walk = none ∧ b.walk = none)

theorem select_mem {P : Space} {l : List Access} {ys : List Xlate} (h : DataWalks P l ys) (hp : l.Pairwise (Apart P)) :
    ∀ d ∈ l, (∀ w, d.walk = some w → ∃ j y, selectD ys (frameOf P d.ea) = some j ∧ ys[j]? = some y ∧ IsWalk P true d.ea w y) ∧
      (d.walk = none → selectD ys (frameOf P d.ea) = none) := by
  induction h with
  | nil => intro d hd; cases hd
  | @skip e l ys he hl ih =>
    obtain ⟨h1, h2⟩ := List.pairwise_cons.1 hp
    intro d hd
    rcases List.mem_cons.1 hd with rfl | hd
    · refine ⟨fun w hw => (by rw [he] at hw; cases hw), fun _ => select_none hl _ fun d' hd' => (h1 d' hd').imp Ne.symm And.right⟩
    · exact ih h2 d hd
  | @take e l ys w y he hy hl ih =>
    obtain ⟨h1, h2⟩ := List.pairwise_cons.1 hp
    have hew := he
    intro d hd
    rcases List.mem_cons.1 hd with rfl | hd
    · refine ⟨fun w' hw' => ⟨0, y, ?_, rfl, ?_⟩, fun hn => (by rw [he] at hn; cases hn)⟩
      · unfold selectD
        rw [List.findIdx?_cons, hy.side, (hy.ends _).2 rfl]
        rfl
      · rw [he] at hw'; cases hw'; exact hy
    · have h3 : (y.dSide && endsAt y (frameOf P d.ea)) = false := by
        cases he : endsAt y (frameOf P d.ea) with
        | false => simp
        | true => exact absurd ((hy.ends _).1 he).symm ((h1 d hd).resolve_right fun h => by rw [hew] at h; cases h.1)
      have h4 : selectD (y :: ys) (frameOf P d.ea) = (selectD ys (frameOf P d.ea)).map (· + 1) := by
        unfold selectD
        rw [List.findIdx?_cons, h3]
        rfl
      obtain ⟨i1, i2⟩ := ih h2 d hd
      refine ⟨fun w' hw' => ?_, fun hn => by rw [h4, i2 hn]; rfl⟩
      obtain ⟨j, z, k1, k2, k3⟩ := i1 w' hw'
      exact ⟨j + 1, z, by rw [h4, k1]; rfl, by rw [List.getElem?_cons_succ]; exact k2, k3⟩

/-- An access to data. -/
theorem dside_ok {P : Space} (hS : P.tables.Ok) {c : Ctx} {xl : St} {x : I10} (hc : Caches P c.seen c.walked xl)
    (hv : x.hv = false) (hdr : x.dr = true) {d : Access} (hw : ∀ w, d.walk = some w → w.t.Valid P.tables c.seen)
    (hs : (∀ w, d.walk = some w → ∃ j y, selectD (x.dxlates.take x.ndxlates) (frameOf P d.ea) = some j ∧ (x.dxlates.take x.ndxlates)[j]? = some y ∧ IsWalk P true d.ea w y) ∧
      (d.walk = none → selectD (x.dxlates.take x.ndxlates) (frameOf P d.ea) = none)) :
    ∃ r es xl', dside xl x d.ea (frameOf P d.ea) = .ok (r, es, xl', x) ∧ instructions es = [] ∧ counters es = dataCounts P (P.InPages (c.walk P d.walk).walked d.ea) d.walk d.ea ∧
      Caches P (c.walk P d.walk).seen (c.walk P d.walk).walked xl' ∧ ResOk P (P.InPages (c.walk P d.walk).walked d.ea) d.ea r := by
  obtain ⟨ieara, opcode, branch, hasPrefix, dea, dra, esid, eabits, hv', ir, dr', dea0, dea1, dra0, dra1, dxlates, ndxlates, ixlate, prefixWord⟩ := x
  dsimp only at hv hdr hs
  subst hv; subst hdr
  unfold dside
  dsimp only
  cases hd : d.walk with
  | some w =>
    obtain ⟨j, y, h1, h2, hiw⟩ := hs.1 w hd
    have h3 : dxlates[j]? = some y := by
      rw [List.getElem?_take] at h2
      split at h2
      · exact h2
      · cases h2
    have e := hiw.address
    have hwr := hiw.written
    rw [h1]
    dsimp only [Option.bind_some]
    rw [h3]
    unfold orKept
    dsimp only
    rw [← e] at hwr ⊢
    obtain ⟨st', k1, k2⟩ := hc.decode hS hiw.good (hw w hd) hwr hiw.fits hiw.taken
    rw [k1]
    dsimp only
    have hset : dxlates.set j y = dxlates := by
      apply List.ext_getElem?
      intro i
      rw [List.getElem?_set]
      split
      · rename_i hij
        subst hij
        split
        · exact h3.symm
        · rename_i hn; rw [List.getElem?_eq_none (by omega)]
      · rfl
    rw [hset]
    refine ⟨_, _, st', rfl, pageEvents_none _ _, ?_, k2, Or.inl ⟨⟨_, List.mem_cons_self .., rfl⟩, w.t, hiw.good, rfl, rfl⟩⟩
    show Counter.withDXlate :: counters (pageEvents _ _) = _
    rw [pageEvents_count hS hiw.good]
    rfl
  | none =>
    rw [hs.2 hd]
    dsimp only [Option.bind_none]
    rw [orKept_none hc.partials]
    dsimp only
    rcases hc.lookup hS d.ea with ⟨h1, t, h2, h3, h4⟩ | ⟨h1, h4⟩
    · rw [h4]
      exact ⟨_, _, xl, rfl, rfl, (if_pos (show P.InPages _ _ from h1)).symm, hc, Or.inl ⟨h1, t, h2, h3, rfl⟩⟩
    · rw [h4]
      exact ⟨_, _, xl, rfl, rfl, (if_neg (show ¬ P.InPages _ _ from h1)).symm, hc, Or.inr ⟨h1, rfl, rfl⟩⟩

theorem emit10_of {c : Conf} {s s1 : Dec} {x x1 x2 : I10} {e1 e2 : List Ev} {d : Res} {xl1 xl2 xl3 : St} (l : List (BitVec 64))
    (h1 : iside { s with prevAddr := s.insnAddr, prevBranch := x.branch || isCall s.insn } x = .ok (s1, e1)) (h2 : dside0 s1 x = .ok (d, e2, xl1, x1))
    (h3 : dside1 s1.rpt xl1 x1 = .ok (xl2, x2)) (h4 : keepData s1.rpt xl2 x2 = .ok xl3) :
    (emit10 c s x).eval l = .ok (({ s1 with xl := xl3 }, true), l, e1 ++ e2 ++ [.insn (record10 c s1 x2 d)] ++ suffix10 s1 x2) := by
  unfold emit10
  rw [h1]
  dsimp only
  rw [h2]
  dsimp only
  rw [h3]
  dsimp only
  rw [h4]
  dsimp only
  rw [eval_tellAll]
  show Except.ok (_, _, _ ++ []) = _
  rw [List.append_nil]

end Htm.Guest
