import Verif.Htm.GuestPages
import Verif.Htm.PropsInsn
/-!
Reading the records before an instruction, for C73.
-/
namespace Htm.Guest
open Htm Htm.Spec Htm.Mmu Htm.Pwc

theorem bit_toNat {v : BitVec 64} {n : Nat} {b : Bool} (hn : n < 64) (h : fld v n n = b.toNat) : bit v n = b := by
  rw [bit_fld hn, h]; cases b <;> rfl

theorem walkOf_step {v : BitVec 64} {w : Walk} (h : StepWord v w) : walkOf v = w := by
  obtain ⟨h1, h2, h3, h4, h5, h6, h7⟩ := h
  unfold walkOf
  rw [bit_toNat (by omega) h1, bit_toNat (by omega) h2, bit_toNat (by omega) h3, bit_toNat (by omega) h4, bit_toNat (by omega) h6]
  have e1 : u32 v 4 6 = w.level := (u32_eq (by omega) (by omega) (by omega) _).2 h5
  have e2 : bits v 8 60 <<< 3 = w.ra := by
    apply BitVec.eq_of_toNat_eq
    have := w.ra.isLt
    rw [BitVec.toNat_shiftLeft, bits_fld (by omega) (by omega), Nat.shiftLeft_eq, show 2 ^ 3 = 8 from rfl, h7]
    omega
  rw [e1, e2]

theorem steps_map {vs : List (BitVec 64)} {ws : List Walk} (h : StepWords vs ws) : vs.map walkOf = ws := by
  induction h with
  | nil => rfl
  | cons h _ ih => rw [List.map_cons, walkOf_step h, ih]

theorem fetch_eval {α : Type} (k : Option (BitVec 64) → Prog α) (a : BitVec 64) (b : List (BitVec 64)) : (Prog.fetch k).eval (a :: b) = (k (some a)).eval b := rfl

theorem walks10_eval {fin : BitVec 64} (hf : (walkOf fin).finalRecord = true) (l : List (BitVec 64)) : ∀ (vs : List (BitVec 64)) (n i : Nat) (x : Xlate),
    (∀ v ∈ vs, (walkOf v).finalRecord = false) → vs.length < n → i + n ≤ x.walks.length →
    ∃ y, (walks10 x n i).eval (vs ++ fin :: l) = .ok (some y, l, []) ∧ y.dSide = x.dSide ∧ y.lpid = x.lpid ∧ y.pid = x.pid ∧
      y.nwalks = i + vs.length ∧ y.walks.length = x.walks.length ∧ y.walks.take (i + vs.length) = x.walks.take i ++ vs.map walkOf := by
  intro vs
  induction vs with
  | nil =>
    intro n i x _ hn hx
    cases n with
    | zero => exact absurd hn (by simp)
    | succ n =>
      refine ⟨{ x with walks := x.walks.set i (walkOf fin), nwalks := i }, ?_, rfl, rfl, rfl, rfl, by simp, ?_⟩
      · rw [walks10, List.nil_append, fetch_eval]
        dsimp only
        rw [hf, if_pos rfl]
        rfl
      · show (x.walks.set i _).take (i + 0) = _
        rw [Nat.add_zero, List.take_set_of_le (Nat.le_refl _)]
        simp
  | cons v vs ih =>
    intro n i x hv hn hx
    cases n with
    | zero => exact absurd hn (by simp)
    | succ n =>
      obtain ⟨y, h1, h2, h3, h4, h5, h6, h7⟩ := ih n (i + 1) { x with walks := x.walks.set i (walkOf v) } (fun w hw => hv w (List.mem_cons_of_mem _ hw))
        (by simp at hn; omega) (by show i + 1 + n ≤ (x.walks.set i _).length; rw [List.length_set]; omega)
      refine ⟨y, ?_, h2, h3, h4, by rw [h5, List.length_cons]; omega, by rw [h6]; simp, ?_⟩
      · rw [walks10, List.cons_append, fetch_eval]
        dsimp only
        rw [hv v List.mem_cons_self, if_neg (by decide)]
        exact h1
      · rw [show i + (v :: vs).length = i + 1 + vs.length from by rw [List.length_cons]; omega, h7]
        show (x.walks.set i _).take (i + 1) ++ _ = _
        rw [List.take_succ, List.take_set_of_le (Nat.le_refl _), List.getElem?_set_self (by omega)]
        simp

/-- What is read of the records of a walk. -/
structure IsWalk (P : Space) (data : Bool) (a : BitVec 64) (w : Walked) (x : Xlate) : Prop where
  side : x.dSide = data
  address : w.t.address = a
  good : Good P w.t
  written : Written P.tables w.t x (frameOf P a)
  fits : x.nwalks ≤ x.walks.length
  taken : x.walks.take x.nwalks = w.t.records P.tables
  ends : ∀ r, endsAt x r = true ↔ r = frameOf P a

theorem records_plain (S : Tables) {t : Translation} (h : t.finalRecord = false) : ∀ w ∈ t.records S, w.finalRecord = false := by
  have hh : ∀ (T : Table) g k, ∀ w ∈ hostWalk T g k, w.finalRecord = false := by
    intro T g k w hw
    obtain ⟨i, _, rfl⟩ := List.mem_map.1 hw
    rfl
  have hr : ∀ (T G : Table) (a : BitVec 64) (fs : List Form) (i : Nat), ∀ w ∈ rowsRecords T G a i fs, w.finalRecord = false := by
    intro T G a fs
    induction fs with
    | nil => intro i w hw; cases hw
    | cons f fs ih =>
      intro i w hw
      rw [rowsRecords] at hw
      rcases List.mem_append.1 hw with hw | hw
      · cases f with
        | full k =>
          rcases List.mem_cons.1 hw with hw | hw
          · rw [hw]; rfl
          · rcases List.mem_append.1 hw with hw | hw
            · exact hh _ _ _ w hw
            · rw [List.mem_singleton.1 hw]; rfl
        | short => rw [List.mem_singleton.1 hw]; rfl
        | hidden => cases hw
      · exact ih _ w hw
  intro w hw
  unfold Translation.records at hw
  rcases List.mem_append.1 hw with hw | hw
  · unfold procRecords at hw
    split at hw
    · cases hw
    · rcases List.mem_append.1 hw with hw | hw
      · split at hw
        · cases hw
        · rw [List.mem_singleton.1 hw]; rfl
      · rcases List.mem_cons.1 hw with hw | hw
        · rw [hw]; rfl
        · rcases List.mem_append.1 hw with hw | hw
          · exact hh _ _ _ w hw
          · rw [List.mem_singleton.1 hw]; rfl
  · rcases List.mem_append.1 hw with hw | hw
    · exact hr _ _ _ _ _ w hw
    · rcases List.mem_cons.1 hw with hw | hw
      · rw [hw]; rfl
      · rcases List.mem_append.1 hw with hw | hw
        · exact hh _ _ _ w hw
        · rw [List.mem_singleton.1 hw]; exact h

theorem xlate10_eval {P : Space} {c : Ctx} {data : Bool} {a : BitVec 64} {n : Nat} {w : Walked} (h : w.Ok P c data a n)
    (hn : n = (P.real a).toNat / 4096) {x : Xlate} (hx : x.walks.length = 38) (l : List (BitVec 64)) :
    ∃ y, (xlate10 x w.head).eval (w.steps ++ w.fin :: l) = .ok (some y, l, []) ∧ IsWalk P data a w y := by
  have hmap := steps_map h.steps
  have hlen : w.steps.length = (w.t.records P.tables).length := by rw [← hmap, List.length_map]
  have hfin : (walkOf w.fin).finalRecord = true := bit_toNat (by omega) (b := true) h.fin
  have hno : ∀ v ∈ w.steps, (walkOf v).finalRecord = false := by
    intro v hv
    apply records_plain P.tables h.plain
    rw [← hmap]
    exact List.mem_map.2 ⟨v, hv, rfl⟩
  obtain ⟨y, h1, h2, h3, h4, h5, h6, h7⟩ := walks10_eval hfin l w.steps 38 0 { x with dSide := bit w.head 0, lpid := u32 w.head 1 12, pid := u32 w.head 13 32 }
    hno h.count (by show 0 + 38 ≤ x.walks.length; omega)
  rw [Nat.zero_add] at h5 h7
  have htake : y.walks.take y.nwalks = w.t.records P.tables := by
    rw [h5, h7, hmap]; rfl
  have hfits : y.nwalks ≤ y.walks.length := by
    rw [h5, h6]; show _ ≤ x.walks.length; have := h.count; omega
  have hreal : w.t.real = frameOf P a := by
    apply BitVec.eq_of_toNat_eq
    rw [frameOf_toNat, h.real, hn]
  refine ⟨y, h1, ?_, h.address, ⟨h.space.1, h.space.2, h.exact, ?_⟩, ⟨?_, ?_, .full hfits htake, ?_⟩, hfits, htake, ?_⟩
  · rw [h2]; exact bit_toNat (by omega) h.side
  · have := h.valid.guest
    rw [h.space.1, h.space.2] at this
    exact this
  · rw [h3, h.space.1]; exact (u32_eq (by omega) (by omega) (by omega) _).2 h.lpid
  · rw [h4, h.space.2]; exact (u32_eq (by omega) (by omega) (by omega) _).2 h.pid
  · rw [hreal, frameOf_toNat]; omega
  · intro r
    obtain ⟨l', u, e, _⟩ := records_last P.tables w.t
    have hpos : y.nwalks = (l' ++ [u]).length + 1 := by
      rw [h5, hlen, e]; simp
    have hget : y.walks[y.nwalks - 1]? = some w.t.last := by
      have h8 : (y.walks.take y.nwalks)[y.nwalks - 1]? = y.walks[y.nwalks - 1]? := by
        rw [List.getElem?_take, if_pos (by omega)]
      rw [← h8, htake, e, hpos]
      simp
    unfold endsAt
    rw [hget]
    simp only [Bool.and_eq_true, bne_iff_ne, beq_iff_eq]
    rw [show w.t.last.ra = w.t.real from rfl, hreal]
    constructor
    · exact fun x => x.2.symm
    · exact fun x => ⟨by omega, x.symm⟩

/-! ### The records before an instruction -/

theorem except_id {α : Type} (e : Except Halt (α × List (BitVec 64) × List Ev)) :
    (match e with
      | .error h => .error h
      | .ok (b, l, es) => .ok (b, l, [] ++ es)) = e := by
  cases e <;> rfl

theorem withRpt (s : Dec) (b : Bool) : ({ ({ s with rpt := b } : Dec) with rpt := true } : Dec) = { s with rpt := true } := rfl

/-- The walk of an instruction's address. -/
theorem head10_iwalk {P : Space} {c : Ctx} {a : BitVec 64} {m : Nat} {w : Walked} (h : w.Ok P c false a m) (hm : m = (P.real a).toNat / 4096)
    (s : Dec) (n : Nat) (x : I10) (v : BitVec 64) (l : List (BitVec 64)) :
    ∃ y, IsWalk P false a w y ∧ (head10 (n + 1) s [] x w.head).eval (w.steps ++ w.fin :: v :: l) = (head10 n { s with rpt := true } [y] x v).eval l := by
  have ht : recType w.head = 1 := recType_eq h.tag.1 h.tag.2
  obtain ⟨y, h1, h2⟩ := xlate10_eval h hm (x := {}) rfl (v :: l)
  refine ⟨y, h2, ?_⟩
  rw [head10, if_neg (by rw [ht]; decide), if_pos ht, bit_toNat (by omega) h.side, if_neg (by decide), if_pos (by decide), eval_bind, h1]
  dsimp only
  rw [fetch_eval]
  exact except_id _

/-- The walk of data. -/
theorem head10_dwalk {P : Space} {c : Ctx} {a : BitVec 64} {m : Nat} {w : Walked} (h : w.Ok P c true a m) (hm : m = (P.real a).toNat / 4096)
    (s : Dec) (n : Nat) (ix : List Xlate) (x : I10) (hx : x.ndxlates < 2) (hd : ∀ y, x.dxlates[x.ndxlates]? = some y → y.walks.length = 38)
    (v : BitVec 64) (l : List (BitVec 64)) :
    ∃ y, IsWalk P true a w y ∧ (head10 (n + 1) s ix x w.head).eval (w.steps ++ w.fin :: v :: l) =
      (head10 n { s with rpt := true } ix { x with dxlates := x.dxlates.set x.ndxlates y, ndxlates := x.ndxlates + 1 } v).eval l := by
  have ht : recType w.head = 1 := recType_eq h.tag.1 h.tag.2
  obtain ⟨y, h1, h2⟩ := xlate10_eval h hm (x := (x.dxlates[x.ndxlates]?).getD {}) (by
    cases he : x.dxlates[x.ndxlates]? with
    | none => rfl
    | some y => exact hd y he) (v :: l)
  refine ⟨y, h2, ?_⟩
  rw [head10, if_neg (by rw [ht]; decide), if_pos ht, bit_toNat (by omega) h.side, if_pos rfl, if_pos hx, eval_bind, h1]
  dsimp only
  rw [fetch_eval]
  exact except_id _

/-- A new line, with the walk for it or without. -/
theorem head10_newline {P : Space} {a : BitVec 64} {s : Dec} {n : Nat} {t ea ra : BitVec 64} (ht : recType t = 3) {ix : Option Xlate}
    (hi : ∀ y, ix = some y → y.dSide = false ∧ endsAt y (frameOf P a) = true)
    (hr : bits ra 0 39 <<< 12 = frameOf P a) (v : BitVec 64) (l : List (BitVec 64)) :
    (head10 (n + 1) s ix.toList {} t).eval (ea :: ra :: v :: l) =
      (head10 n s ix.toList { ieara := some (bits ea 0 56 <<< 7, frameOf P a), ixlate := ix } v).eval l := by
  rw [head10, if_pos ht, eval_bind]
  rw [show ieara10.eval (ea :: ra :: v :: l) = .ok (some (bits ea 0 56 <<< 7, bits ra 0 39 <<< 12), v :: l, []) from rfl, hr]
  dsimp only
  have hg : gotIeara s ix.toList {} (bits ea 0 56 <<< 7) (frameOf P a) =
      .ok (s, { ieara := some (bits ea 0 56 <<< 7, frameOf P a), ixlate := ix }) := by
    cases ix with
    | none => rfl
    | some y =>
      obtain ⟨h1, h2⟩ := hi y rfl
      unfold gotIeara matchI selectI
      rw [show (some y).toList.find? (fun x => !x.dSide && endsAt x (frameOf P a)) = some y from by
        show List.find? _ [y] = _
        rw [List.find?_cons, h1, h2]; rfl]
      rfl
  rw [hg]
  dsimp only
  rw [fetch_eval]
  exact except_id _

/-- What was read for each access that has a walk. -/
inductive DataWalks (P : Space) : List Access → List Xlate → Prop
  | nil : DataWalks P [] []
  | skip {d l ys} : d.walk = none → DataWalks P l ys → DataWalks P (d :: l) ys
  | take {d l ys w y} : d.walk = some w → IsWalk P true d.ea w y → DataWalks P l ys → DataWalks P (d :: l) (y :: ys)

theorem DataWalks.length {P : Space} {l : List Access} {ys : List Xlate} (h : DataWalks P l ys) : ys.length = (l.filterMap Access.walk).length := by
  induction h with
  | nil => rfl
  | skip h _ ih => rw [List.filterMap_cons, h]; exact ih
  | take h _ _ ih => rw [List.filterMap_cons, h, List.length_cons, List.length_cons, ih]

theorem words_append (w : Walked) (v : BitVec 64) (l : List (BitVec 64)) : w.words ++ v :: l = w.head :: (w.steps ++ w.fin :: v :: l) := by
  unfold Walked.words
  simp only [List.cons_append, List.append_assoc, List.nil_append]

theorem words_start (ws : List Walked) (v : BitVec 64) (l : List (BitVec 64)) : ∃ v' l', ws.flatMap Walked.words ++ v :: l = v' :: l' := by
  cases ws with
  | nil => exact ⟨v, l, rfl⟩
  | cons w ws => exact ⟨_, _, rfl⟩

theorem head10_data {P : Space} {info : BitVec 64} (hinfo : recType info = 2) (l : List (BitVec 64)) : ∀ (data : List Access) (c : Ctx) (x : I10) (n : Nat) (s : Dec)
    (ix : List Xlate) (v0 : BitVec 64) (l0 : List (BitVec 64)), DataOk P c data → (data.filterMap Access.walk).flatMap Walked.words ++ info :: l = v0 :: l0 →
    x.ndxlates + (data.filterMap Access.walk).length ≤ 2 → x.dxlates.length = 2 → (∀ (j : Nat) y, x.ndxlates ≤ j → x.dxlates[j]? = some y → y.walks.length = 38) →
    (data.filterMap Access.walk).length < n →
    ∃ ds ys, (head10 n s ix x v0).eval l0 = .ok (({ s with rpt := s.rpt || !(data.filterMap Access.walk).isEmpty },
        some ({ x with dxlates := ds, ndxlates := x.ndxlates + ys.length }, info)), l, []) ∧ DataWalks P data ys ∧
      ds.take (x.ndxlates + ys.length) = x.dxlates.take x.ndxlates ++ ys ∧ ds.length = 2
  | [], c, x, n, s, ix, v0, l0, _, he, _, h2, _, hn => by
    cases n with
    | zero => exact absurd hn (by simp)
    | succ n =>
      cases he
      refine ⟨x.dxlates, [], ?_, .nil, by simp, h2⟩
      rw [head10, if_neg (by rw [hinfo]; decide), if_neg (by rw [hinfo]; decide)]
      show Except.ok ((s, some (x, info)), l, []) = _
      rw [show ({ s with rpt := s.rpt || !(List.filterMap Access.walk []).isEmpty } : Dec) = s from by
        show ({ s with rpt := s.rpt || false } : Dec) = s
        rw [Bool.or_false]]
      rfl
  | d :: data, c, x, n, s, ix, v0, l0, hd, he, hk, h2, hx, hn => by
    obtain ⟨⟨hreal, hw⟩, hd⟩ := hd
    cases hdw : d.walk with
    | none =>
      rw [List.filterMap_cons, hdw] at he hk hn
      rw [List.filterMap_cons, hdw]
      obtain ⟨ds, ys, h3, h4, h5, h6⟩ := head10_data hinfo l data _ x n s ix v0 l0 hd he hk h2 hx hn
      exact ⟨ds, ys, h3, .skip hdw h4, h5, h6⟩
    | some w =>
      rw [List.filterMap_cons, hdw] at he hk hn
      rw [List.filterMap_cons, hdw]
      dsimp only at he hk hn ⊢
      rw [List.length_cons] at hk hn
      obtain ⟨v1, l1, h1⟩ := words_start (data.filterMap Access.walk) info l
      rw [List.flatMap_cons, List.append_assoc, h1, words_append] at he
      obtain ⟨e1, e2⟩ := List.cons.inj he
      cases n with
      | zero => exact absurd hn (by simp)
      | succ n =>
        obtain ⟨y, hy, h3⟩ := head10_dwalk (hw w hdw) hreal s n ix x (by omega) (fun y hy => hx _ y (Nat.le_refl _) hy) v1 l1
        obtain ⟨ds, ys, h4, h5, h6, h7⟩ := head10_data hinfo l data _ { x with dxlates := x.dxlates.set x.ndxlates y, ndxlates := x.ndxlates + 1 } n
          { s with rpt := true } ix v1 l1 hd h1 (by show x.ndxlates + 1 + _ ≤ 2; omega) (by show (x.dxlates.set x.ndxlates y).length = 2; rw [List.length_set, h2])
          (by
            intro j z hj hz
            have hj' : x.ndxlates + 1 ≤ j := hj
            have hz' : (x.dxlates.set x.ndxlates y)[j]? = some z := hz
            rw [List.getElem?_set_ne (by omega)] at hz'
            exact hx j z (by omega) hz') (by omega)
        refine ⟨ds, y :: ys, ?_, .take hdw hy h5, ?_, h7⟩
        · rw [← e1, ← e2, h3, h4]
          rw [show x.ndxlates + (y :: ys).length = x.ndxlates + 1 + ys.length from by rw [List.length_cons]; omega]
          rw [show (s.rpt || !(w :: data.filterMap Access.walk).isEmpty) = true from by cases s.rpt <;> rfl]
          rfl
        · rw [show x.ndxlates + (y :: ys).length = x.ndxlates + 1 + ys.length from by rw [List.length_cons]; omega]
          have h6' : ds.take (x.ndxlates + 1 + ys.length) = (x.dxlates.set x.ndxlates y).take (x.ndxlates + 1) ++ ys := h6
          rw [h6', List.take_succ, List.take_set_of_le (Nat.le_refl _), List.getElem?_set_self (by omega)]
          simp

/-- All records before the instruction record. -/
theorem head10_item {P : Space} {c : Ctx} {i : Item} (hi : i.Ok P c) (s : Dec) (l : List (BitVec 64)) {n : Nat}
    (hn : i.walk.toList.length + i.line.toList.length + (i.data.filterMap Access.walk).length < n) (h2 : i.data.length ≤ 2)
    {v0 : BitVec 64} {l0 : List (BitVec 64)}
    (he : i.walk.toList.flatMap Walked.words ++ (i.line.toList.flatMap (fun p => [p.1, p.2.1, p.2.2]) ++
      ((i.data.filterMap Access.walk).flatMap Walked.words ++ i.info :: l)) = v0 :: l0) :
    ∃ ix ds ys, (head10 n s [] {} v0).eval l0 = .ok (({ s with rpt := s.rpt || (i.walk.isSome || !(i.data.filterMap Access.walk).isEmpty) },
        some ({ ieara := i.line.map fun p => (bits p.2.1 0 56 <<< 7, frameOf P (i.base.addr c.prev)), ixlate := ix, dxlates := ds, ndxlates := ys.length }, i.info)), l, []) ∧
      (∀ w, i.walk = some w → ∃ y, ix = some y ∧ IsWalk P false (i.base.addr c.prev) w y) ∧ (i.walk = none → ix = none) ∧
      DataWalks P i.data ys ∧ ds.take ys.length = ys ∧ ds.length = 2 := by
  have hinfo : recType i.info = 2 := recType_eq hi.base.info.1 hi.base.info.2
  have hcount : (i.data.filterMap Access.walk).length ≤ 2 := by
    have := List.length_filterMap_le Access.walk i.data
    omega
  have hlen : ∀ (j : Nat) (y : Xlate), 0 ≤ j → ([{}, {}] : List Xlate)[j]? = some y → y.walks.length = 38 := by
    intro j y _ hy
    have := List.mem_of_getElem? hy
    simp at this
    rw [this]; rfl
  have hd := hi.data
  have hreal : ∀ p, i.line = some p → bits p.2.2 0 39 <<< 12 = frameOf P (i.base.addr c.prev) ∧ recType p.1 = 3 := by
    intro p hp
    have ht := hi.base.lines p (by show p ∈ i.line.toList; rw [hp]; simp)
    refine ⟨?_, recType_eq ht.1 ht.2⟩
    apply BitVec.eq_of_toNat_eq
    have := fld_lt p.2.2 0 39
    rw [frameOf_toNat, BitVec.toNat_shiftLeft, bits_fld (by omega) (by omega), Nat.shiftLeft_eq, hi.real p hp]
    have := (P.real (i.base.addr c.prev)).isLt
    omega
  cases hw : i.walk with
  | none =>
    cases hl : i.line with
    | none =>
      rw [hw, hl] at he hn
      obtain ⟨ds, ys, h3, h4, h5, h6⟩ := head10_data hinfo l i.data _ {} n s [] v0 l0 hd he (by show 0 + _ ≤ 2; omega) rfl hlen (by simpa using hn)
      have e : ∀ k : Nat, ({} : I10).ndxlates + k = k := fun k => Nat.zero_add k
      rw [e] at h3 h5
      refine ⟨none, ds, ys, ?_, (fun w hw => by cases hw), fun _ => rfl, h4, h5, h6⟩
      rw [h3]
      rfl
    | some p =>
      obtain ⟨t, ea, ra⟩ := p
      obtain ⟨hr, ht⟩ := hreal _ hl
      rw [hw, hl] at he hn
      obtain ⟨v1, l1, h1⟩ := words_start (i.data.filterMap Access.walk) i.info l
      have he' : t :: ea :: ra :: v1 :: l1 = v0 :: l0 := by rw [← h1]; exact he
      obtain ⟨rfl, rfl⟩ := List.cons.inj he'
      cases n with
      | zero => exact absurd hn (by simp)
      | succ n =>
        have h7 := head10_newline (P := P) (a := i.base.addr c.prev) (s := s) (n := n) (t := t) (ea := ea) (ra := ra) ht (ix := none)
          (fun y hy => by cases hy) hr v1 l1
        obtain ⟨ds, ys, h3, h4, h5, h6⟩ := head10_data hinfo l i.data _ { ieara := some (bits ea 0 56 <<< 7, frameOf P (i.base.addr c.prev)), ixlate := none } n s [] v1 l1
          hd h1 (by show 0 + _ ≤ 2; omega) rfl hlen (by simp at hn; omega)
        dsimp only at h3 h5
        rw [Nat.zero_add] at h3 h5
        refine ⟨none, ds, ys, ?_, (fun w hw => by cases hw), fun _ => rfl, h4, h5, h6⟩
        exact h7.trans h3
  | some w =>
    cases hl : i.line with
    | none =>
      have := hi.line (by rw [hw]; rfl)
      rw [hl] at this
      cases this
    | some p =>
      have hwok := hi.walk p w hl hw
      obtain ⟨t, ea, ra⟩ := p
      obtain ⟨hr, ht⟩ := hreal _ hl
      have hri := hi.real _ hl
      rw [hw, hl] at he hn
      obtain ⟨v1, l1, h1⟩ := words_start (i.data.filterMap Access.walk) i.info l
      have he' : w.head :: (w.steps ++ w.fin :: t :: ea :: ra :: v1 :: l1) = v0 :: l0 := by
        rw [← h1, ← words_append, ← he]
        simp
      obtain ⟨rfl, rfl⟩ := List.cons.inj he'
      match n with
      | 0 => exact absurd hn (by simp)
      | 1 => exact absurd hn (by simp)
      | n + 2 =>
        obtain ⟨y, hy, h8⟩ := head10_iwalk hwok hri s (n + 1) {} t (ea :: ra :: v1 :: l1)
        have h7 := head10_newline (P := P) (a := i.base.addr c.prev) (s := { s with rpt := true }) (n := n) (t := t) (ea := ea) (ra := ra) ht (ix := some y)
          (fun z hz => by cases hz; exact ⟨hy.side, (hy.ends _).2 rfl⟩) hr v1 l1
        obtain ⟨ds, ys, h3, h4, h5, h6⟩ := head10_data hinfo l i.data _ { ieara := some (bits ea 0 56 <<< 7, frameOf P (i.base.addr c.prev)), ixlate := some y } n
          { s with rpt := true } [y] v1 l1 hd h1 (by show 0 + _ ≤ 2; omega) rfl hlen (by simp at hn; omega)
        dsimp only at h3 h5
        rw [Nat.zero_add] at h3 h5
        refine ⟨some y, ds, ys, ?_, (fun w' hw' => by cases hw'; exact ⟨y, rfl, hy⟩), (fun hx => by cases hx), h4, h5, h6⟩
        rw [h8]
        refine h7.trans (h3.trans ?_)
        rw [show (s.rpt || ((some w).isSome || !(i.data.filterMap Access.walk).isEmpty)) = true from by cases s.rpt <;> rfl]
        rfl

end Htm.Guest
