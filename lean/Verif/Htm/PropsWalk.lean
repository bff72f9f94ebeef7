import Verif.Htm.WalkNested
import Verif.Htm.PropsXlate
/-!
C70: the decoder recovers the steps of nested page-table walks that the processor had cached and did not write.

The specification is SpecWalk.lean: page tables, the records a translation writes, and what may be missing of them after
the translations before.
-/
namespace Htm.Mmu
open Htm Htm.Pwc
open Htm.Xl (Res St Call callStep nth arrayMax)

/-- The records of the translation as the decoder gets them from the dump, with the real address of the instruction or
operand. -/
inductive Recorded (S : Tables) (t : Translation) (x : Xlate) (real : BitVec 64) : Prop
  | full : x.nwalks ≤ x.walks.length → x.walks.take x.nwalks = t.records S → Recorded S t x real
  /-- Without the last record: that is the real address, with the level field and flags of the record that ends the walk. -/
  | cut {w : Walk} : x.walks.take x.nwalks ++ [t.last] = t.records S → x.walks[x.nwalks]? = some w → w.level = t.realLevel →
      w.exception = t.exception → w.finalRecord = t.finalRecord → t.real = real → Recorded S t x real

/-- The walk of the translation. -/
structure Written (S : Tables) (t : Translation) (x : Xlate) (real : BitVec 64) : Prop where
  lpid : x.lpid = t.lpid
  pid : x.pid = t.pid
  walks : Recorded S t x real
  real : real.toNat = t.real.toNat / 2 ^ 12 * 2 ^ 12

/-- The result is the walk through the tables. -/
structure Decoded (S : Tables) (t : Translation) (r : Res) : Prop where
  ok : r.ok = true
  walks : r.rcd.nrWalks = (t.guestRas S).length
  /-- The guest real addresses. -/
  guestRas : ∀ i e, (t.guestRas S)[i]? = some e → r.rcd.guestRas i = e
  /-- The host real addresses of the guest's entries. -/
  hostRas : ∀ i e, ((S.guest t.lpid t.pid).path t.address)[i]? = some e → r.rcd.hostRas i = (S.host t.lpid).real e
  /-- The host's entries for each guest real address. -/
  hostPtes : ∀ i e, (t.guestRas S)[i]? = some e → ∀ j, r.rcd.hostPtes i j = (((S.host t.lpid).path e)[j]?).getD 0
  most : ∀ e ∈ t.guestRas S, ((S.host t.lpid).path e).length ≤ r.rcd.nrPtes
  reached : ∃ e ∈ t.guestRas S, ((S.host t.lpid).path e).length = r.rcd.nrPtes
  host : r.host = (S.host t.lpid).size t.guest
  guest : r.guest = (S.guest t.lpid t.pid).size t.address

/-- Calls of the decoder: translations of guest processes, and lookups of earlier ones. -/
inductive Event where
  | translate (t : Translation) (x : Xlate) (real : BitVec 64)
  | lookup (hv reloc : Bool) (address real : BitVec 64)

def Event.call : Event → Call
  | .translate t x real => .decode x false true t.address real
  | .lookup hv reloc a r => .lookup hv reloc a r

/-- A history the processor may write. -/
def ValidFrom (S : Tables) : Seen → List Event → Prop
  | _, [] => True
  | seen, .translate t x real :: l =>
    t.Valid S seen ∧ Written S t x real ∧ ValidFrom S (seen.add S t) l
  | seen, .lookup .. :: l => ValidFrom S seen l

/-! ### Proofs -/

theorem arrayMax_ge (l : List Nat) : ∀ m, m ≤ l.foldl max m ∧ ∀ x ∈ l, x ≤ l.foldl max m := by
  induction l with
  | nil => intro m; simp
  | cons a l ih =>
    intro m
    rw [List.foldl_cons]
    obtain ⟨h1, h2⟩ := ih (max m a)
    refine ⟨by omega, ?_⟩
    intro x hx
    rcases List.mem_cons.1 hx with rfl | hx
    · omega
    · exact h2 x hx

theorem arrayMax_mem (l : List Nat) : ∀ m, l.foldl max m = m ∨ l.foldl max m ∈ l := by
  induction l with
  | nil => intro m; exact Or.inl rfl
  | cons a l ih =>
    intro m
    rw [List.foldl_cons]
    rcases ih (max m a) with h | h
    · rw [h]
      by_cases hm : m ≤ a
      · right; rw [Nat.max_eq_right hm]; exact List.mem_cons_self ..
      · left; omega
    · right; exact List.mem_cons_of_mem _ h

theorem nestedOf_all (S : Tables) (t : Translation) :
    ((nestedOf S t).rows ++ [(nestedOf S t).final]).map (·.guest) = t.guestRas S := by
  unfold nestedOf Translation.guestRas Table.path
  simp [levelOf, Function.comp_def]

theorem nestedOf_ptes (S : Tables) (t : Translation) :
    ((nestedOf S t).rows ++ [(nestedOf S t).final]).map (·.host.ptes) = (t.guestRas S).map (S.host t.lpid).path := by
  unfold nestedOf Translation.guestRas
  have h : ((S.guest t.lpid t.pid).path t.address).map (S.host t.lpid).path =
      (List.range ((S.guest t.lpid t.pid).depth t.address)).map
        ((S.host t.lpid).path ∘ fun i => (S.guest t.lpid t.pid).entry i t.address) := by
    rw [Table.path, List.map_map]
  rw [List.map_append, List.map_append, List.map_map, h]
  rfl

theorem path_length (T : Table) (a : BitVec 64) : (T.path a).length = T.depth a := by simp [Table.path]

theorem decoded_of (S : Tables) (t : Translation) :
    Decoded S t { ok := true, rcd := (nestedOf S t).radix, host := (nestedOf S t).final.host.pageSize, guest := (nestedOf S t).guestPageSize } := by
  have h1 := nestedOf_all S t
  have h2 := nestedOf_ptes S t
  have hn : arrayMax (((nestedOf S t).rows ++ [(nestedOf S t).final]).map (·.host.ptes.length)) =
      arrayMax ((t.guestRas S).map fun e => ((S.host t.lpid).path e).length) := by
    congr 1
    have := congrArg (List.map List.length) h2
    rw [List.map_map, List.map_map] at this
    exact this
  refine ⟨rfl, ?_, ?_, ?_, ?_, ?_, ?_, rfl, rfl⟩
  · show ((nestedOf S t).rows ++ [(nestedOf S t).final]).length = _
    rw [← h1, List.length_map]
  · intro i e he
    show nth (((nestedOf S t).rows ++ [(nestedOf S t).final]).map (·.guest)) i = e
    rw [h1, nth, he]; rfl
  · intro i e he
    show nth ((nestedOf S t).rows.map (·.host.real)) i = _
    unfold nth nestedOf
    rw [Table.path, List.getElem?_map] at he
    rw [List.map_map, List.getElem?_map]
    cases hr : (List.range ((S.guest t.lpid t.pid).depth t.address))[i]? with
    | none => rw [hr] at he; simp at he
    | some k =>
      rw [hr] at he
      simp only [Option.map_some, Option.some.injEq] at he
      simp [levelOf, he]
  · intro i e he j
    show nth (((((nestedOf S t).rows ++ [(nestedOf S t).final])[i]?).map (·.host.ptes)).getD []) j = _
    rw [← List.getElem?_map, h2, List.getElem?_map, he]
    rfl
  · intro e he
    show _ ≤ arrayMax (((nestedOf S t).rows ++ [(nestedOf S t).final]).map (·.host.ptes.length))
    rw [hn]
    exact (arrayMax_ge _ 0).2 _ (List.mem_map.2 ⟨e, he, rfl⟩)
  · show ∃ e ∈ _, _ = arrayMax (((nestedOf S t).rows ++ [(nestedOf S t).final]).map (·.host.ptes.length))
    rw [hn]
    rcases arrayMax_mem ((t.guestRas S).map fun e => ((S.host t.lpid).path e).length) 0 with h | h
    · exfalso
      have h3 := (arrayMax_ge ((t.guestRas S).map fun e => ((S.host t.lpid).path e).length) 0).2 _
        (List.mem_map.2 ⟨t.guest, by simp [Translation.guestRas], rfl⟩)
      have h4 := ((S.host t.lpid).depth_le t.guest).1
      rw [h, path_length] at h3
      omega
    · obtain ⟨e, he, h⟩ := List.mem_map.1 h
      exact ⟨e, he, h⟩

theorem complete_last {x : Xlate} {l : List Walk} {w : Walk} (h : x.nwalks ≤ x.walks.length) (hw : x.walks.take x.nwalks = l ++ [w]) :
    Xl.complete x = .ok (w.finalRa && w.hostRa) := by
  have hlen : x.nwalks = l.length + 1 := by
    have := congrArg List.length hw
    rw [List.length_take, Nat.min_eq_left h] at this
    simpa using this
  unfold Xl.complete
  rw [if_neg (by omega)]
  have hget : x.walks[x.nwalks - 1]? = some w := by
    have h1 : (x.walks.take x.nwalks)[x.nwalks - 1]? = x.walks[x.nwalks - 1]? := by
      rw [List.getElem?_take, if_pos (by omega)]
    rw [← h1, hw, hlen]
    simp
  rw [hget]

theorem records_last (S : Tables) (t : Translation) : ∃ l w, t.records S = l ++ [w] ++ [t.last] ∧ (w.finalRa && w.hostRa) = false := by
  obtain ⟨l, w, e, hw⟩ : ∃ l w, guestFinal t.guestLevel t.guest :: hostWalk (S.host t.lpid) t.guest t.omitted = l ++ [w] ∧
      (w.finalRa && w.hostRa) = false := by
    refine ⟨_, _, (List.dropLast_concat_getLast (List.cons_ne_nil _ _)).symm, ?_⟩
    have hm := List.getLast_mem (List.cons_ne_nil (guestFinal t.guestLevel t.guest) (hostWalk (S.host t.lpid) t.guest t.omitted))
    rcases List.mem_cons.1 hm with h | h
    · rw [h]; rfl
    · obtain ⟨i, _, h⟩ : ∃ i, _ ∧ hostEntry (level i) ((S.host t.lpid).entry i t.guest) = _ := List.mem_map.1 h
      rw [← h]; rfl
  refine ⟨procRecords (S.host t.lpid) t.proc ++
    (rowsRecords (S.host t.lpid) (S.guest t.lpid t.pid) t.address 0 t.forms ++ l), w, ?_, hw⟩
  unfold Translation.records
  rw [← List.cons_append, e]
  simp

/-- The walk that is decoded. -/
theorem fixIncomplete_of {S : Tables} {t : Translation} {x : Xlate} {real : BitVec 64} (h : Recorded S t x real) :
    ∃ y, Xl.fixIncomplete x false true real = .ok y ∧ y.lpid = x.lpid ∧ y.pid = x.pid ∧ y.walks.take y.nwalks = t.records S := by
  obtain ⟨l, w, e, hw⟩ := records_last S t
  unfold Xl.fixIncomplete
  cases h with
  | full h1 h2 =>
    rw [complete_last h1 (h2.trans e)]
    exact ⟨x, rfl, rfl, rfl, h2⟩
  | @cut v h1 h2 h3 h4 h5 h6 =>
    have hlt : x.nwalks < x.walks.length := (List.getElem?_eq_some_iff.1 h2).1
    rw [complete_last (by omega) (List.append_cancel_right (h1.trans e)), hw]
    show ∃ y, Xl.fixup x false true real = _ ∧ _
    unfold Xl.fixup
    rw [h2]
    refine ⟨_, rfl, rfl, rfl, ?_⟩
    show (x.walks.set x.nwalks _).take (x.nwalks + 1) = _
    rw [← h1, List.take_succ, List.take_set_of_le (Nat.le_refl _), List.getElem?_set_self hlt]
    show _ ++ [_] = _
    unfold Translation.last
    rw [← h3, ← h4, ← h5, h6]

theorem and_mask12 {a b : BitVec 64} (h : b.toNat = a.toNat / 2 ^ 12 * 2 ^ 12) : a &&& pageMask 12 = b := by
  apply BitVec.eq_of_toNat_eq
  have := aligned_toNat (s := 12) (by decide) a
  unfold aligned at this
  rw [this, h]
  omega

/-- Decoding the records of a translation whose nested walk is decoded. -/
theorem decode_of_nested {S : Tables} (hS : S.Ok) {t : Translation} {x : Xlate} {real : BitVec 64} {st : St} {c' : Caches}
    (hp : st.partials = []) (hr : Written S t x real)
    (hn : Xl.nestedRadix ⟨0, t.lpid, t.pid, t.address⟩ ⟨t.records S, st.caches⟩ = .ok (some (nestedOf S t), ⟨[], c'⟩)) :
    ∃ res y st', Xl.decode st x false true t.address real = .ok (res, y, st') ∧ Decoded S t res ∧ st'.caches = c' ∧
      st'.partials = [] ∧ Erat.insert st.erat (nestedOf S t).final.host.pageSize t.address real (nestedOf S t).radix
        (nestedOf S t).guestPageSize = some st'.erat := by
  have h1 : partialLookup st.partials x = .ok (none, []) := by rw [hp]; rfl
  obtain ⟨y, h2, hl, hpid, hw⟩ := fixIncomplete_of hr.walks
  have hps : Erat.PageSize (min ((S.host t.lpid).size t.guest) ((S.guest t.lpid t.pid).size t.address)) := by
    have h3 := Table.pageSize_size (hS.1 t.lpid).1 t.guest
    have h4 := Table.pageSize_size (hS.2 t.lpid t.pid).1 t.address
    unfold PageSize at h3 h4
    unfold Erat.PageSize
    omega
  obtain ⟨e, he⟩ : ∃ e, Erat.insert st.erat (nestedOf S t).final.host.pageSize t.address real (nestedOf S t).radix
      (nestedOf S t).guestPageSize = some e := by
    unfold Erat.insert
    show ∃ e, (match Erat.mkKey (min ((S.host t.lpid).size t.guest) ((S.guest t.lpid t.pid).size t.address)) t.address real with
      | none => none | some k => _) = some e
    rw [Erat.mkKey_of hps]
    exact ⟨_, rfl⟩
  unfold Xl.decode
  rw [h1]
  simp only [Option.getD_none]
  rw [h2]
  simp only
  unfold Xl.decodeWalk
  simp only
  unfold Xl.decodeNested
  simp only
  rw [hl, hpid, hr.lpid, hr.pid, hw, hn]
  simp only
  rw [if_neg (by rw [Decidable.not_not]; exact and_mask12 hr.real)]
  unfold Xl.finishDecode
  simp only
  rw [he]
  simp only
  exact ⟨_, _, _, rfl, decoded_of S t, rfl, rfl, rfl⟩

/-! ### C70 -/

theorem run_valid {S : Tables} (hS : S.Ok) : ∀ (es : List Event) (seen : Seen) (st : St), Inv S seen st.caches → Xl.Inv st →
    st.partials = [] → ValidFrom S seen es →
    ∃ rs st', Xl.run st (es.map Event.call) = .ok (rs, st') ∧ rs.length = es.length ∧
      ∀ (i : Nat) t x real, es[i]? = some (Event.translate t x real) → ∃ r, rs[i]? = some r ∧ Decoded S t r := by
  intro es
  induction es with
  | nil => intro seen st _ _ _ _; exact ⟨[], st, rfl, rfl, by simp⟩
  | cons e es ih =>
    intro seen st hI hX hp hV
    cases e with
    | translate t x real =>
      obtain ⟨hv, hr, hV'⟩ := hV
      obtain ⟨c', hn, hI'⟩ := nested_ok hS hI hv
      obtain ⟨res, _, st1, hd, hdec, hc, hp1, _⟩ := decode_of_nested hS hp hr hn
      have hstep : callStep st (Event.call (.translate t x real)) = .ok (some res, st1) := by
        show (match Xl.decode st x false true t.address real with | .error e => _ | .ok (res, _, st) => _) = _
        rw [hd]
      obtain ⟨rs, st', h1, h2, h3⟩ := ih (seen.add S t) st1 (by rw [hc]; exact hI') (Xl.callStep_ok hX hstep).2 hp1 hV'
      refine ⟨res :: rs, st', ?_, by simp [h2], ?_⟩
      · rw [List.map_cons, Xl.run, hstep]
        simp only
        rw [h1]
        rfl
      · intro i t' x' real' hi
        cases i with
        | zero =>
          simp only [List.getElem?_cons_zero, Option.some.injEq, Event.translate.injEq] at hi
          obtain ⟨rfl, rfl, rfl⟩ := hi
          exact ⟨res, rfl, hdec⟩
        | succ i =>
          rw [List.getElem?_cons_succ] at hi ⊢
          exact h3 i t' x' real' hi
    | lookup hv reloc a r =>
      obtain ⟨res, hl, _⟩ := Xl.lookup_ok hX hv reloc a r
      have hstep : callStep st (Event.call (.lookup hv reloc a r)) = .ok (some res, st) := by
        show (match Xl.lookup st hv reloc a r with | .error e => _ | .ok res => _) = _
        rw [hl]
      obtain ⟨rs, st', h1, h2, h3⟩ := ih seen st hI hX hp hV
      refine ⟨res :: rs, st', ?_, by simp [h2], ?_⟩
      · rw [List.map_cons, Xl.run, hstep]
        simp only
        rw [h1]
        rfl
      · intro i t' x' real' hi
        cases i with
        | zero => simp at hi
        | succ i =>
          rw [List.getElem?_cons_succ] at hi ⊢
          exact h3 i t' x' real' hi

/-- For all page tables of all partitions and processes and every history of translations in which the processor leaves out
steps only if an address that uses the same entry was translated before: every translation is decoded, and its result is
the walk through the tables, with the steps that were left out. -/
theorem C70_history_partial {S : Tables} (hS : S.Ok) {es : List Event} (hV : ValidFrom S {} es) :
    ∃ rs st, Xl.run {} (es.map Event.call) = .ok (rs, st) ∧ rs.length = es.length ∧
      ∀ (i : Nat) t x real, es[i]? = some (Event.translate t x real) → ∃ r, rs[i]? = some r ∧ Decoded S t r :=
  run_valid hS es {} {} (inv_init S) Xl.inv_init rfl hV

/-- A translation without omissions is decoded whatever was decoded before. -/
theorem C70_complete {S : Tables} (hS : S.Ok) {t : Translation} (hV : t.Valid S {}) (hC : t.Complete) {x : Xlate} {real : BitVec 64}
    (hr : Written S t x real) (st : St) (hp : st.partials = []) :
    ∃ res y st', Xl.decode st x false true t.address real = .ok (res, y, st') ∧ Decoded S t res := by
  have hlen := hV.length
  have hd := (S.guest t.lpid t.pid).depth_le t.address
  have hn : ∃ c', Xl.nestedRadix ⟨0, t.lpid, t.pid, t.address⟩ ⟨t.records S, st.caches⟩ = .ok (some (nestedOf S t), ⟨[], c'⟩) ∧ True := by
    refine nested_of_rows hS (P := fun _ _ => True) ?_ ?_ ?_
    · obtain ⟨c', e, _⟩ := proc_ok hS (c := st.caches) (by omega) hV.notProc
        (fun p hp i hi => by rw [hC.proc p hp] at hi; omega) (fun p hp h => by rw [hC.proc p hp] at h; omega) hV.smallProc
      exact ⟨c', e, trivial⟩
    · intro i hi c1 _
      have hlt : i < t.forms.length := by omega
      have hf : t.forms[i] = .full 0 := hC.forms _ (List.getElem_mem hlt)
      obtain ⟨c', e, _⟩ := row_full hS (c := c1) (k := 0) (R := restFrom S t (i + 1)) hi (fun j hj => by omega) (fun h => by omega)
        (fun h => hostSize_rest (hV.smallRows i 0 (by rw [List.getElem?_eq_getElem hlt, hf]) h) _)
        (leafRest_of hlen hi (fun f' hf' => ⟨0, hC.forms f' (List.mem_of_mem_drop hf')⟩))
        (fun h3 => by rw [restFrom_end (by omega)]; exact guestSize_tail (hV.guestLevel (by omega)))
      rw [restFrom_step (S := S) (List.getElem?_eq_getElem hlt), hf]
      exact ⟨c', e, trivial⟩
    · intro c1 _
      rw [restFrom_end (by omega)]
      obtain ⟨c', e, _⟩ := final_ok hS (c := c1) hV.real (fun i hi => by rw [hC.omitted] at hi; omega)
        (fun h => by rw [hC.omitted] at h; omega) hV.smallFinal
      exact ⟨c', e, trivial⟩
  obtain ⟨c', hn, _⟩ := hn
  obtain ⟨res, y, st', h1, h2, _⟩ := decode_of_nested hS hp hr hn
  exact ⟨res, y, st', h1, h2⟩

/-! ### An example: two translations of a guest of 4 kB pages on a host of 64 kB pages -/

/-- Tables of the four levels one behind the other; one entry of the third level is of a page of 2 MB. -/
def exTable (b n s : Nat) : Table where
  root := BitVec.ofNat 64 (b + 0x10000)
  next e := BitVec.ofNat 64 (b + if e.toNat < b + 0x20000 then 0x20000 else if e.toNat < b + 0x30000 then 0x30000 else 0x40000)
  leaf e := e == BitVec.ofNat 64 (b + 0x30008)
  page _ := n
  small := s

def exS : Tables := ⟨fun _ => exTable 0 5 16, fun _ p => exTable (0x100000 * p.toNat) 7 12⟩

theorem exS_ok : exS.Ok := by
  refine ⟨fun l => ⟨Or.inr rfl, ?_⟩, fun l p => ⟨Or.inl rfl, ?_⟩⟩
  · intro a
    have hp := Table.pageSize_size (T := exS.host l) (Or.inr rfl) a
    show 5 * 2 ^ (exS.host l).size a < 2 ^ 52
    unfold PageSize at hp
    rcases hp with h | h | h | h <;> rw [h] <;> omega
  · intro a h
    have hl : (exS.guest l p).leaf ((exS.guest l p).entry 1 a) = true := by
      unfold Table.depth at h
      by_cases hl : (exS.guest l p).leaf ((exS.guest l p).entry 1 a) = true
      · exact hl
      · rw [if_neg hl] at h; split at h <;> omega
    have hp := p.isLt
    have h0 : ((exS.guest l p).entry 0 a).toNat < 0x100000 * p.toNat + 0x20000 := by
      show (BitVec.ofNat 64 (0x100000 * p.toNat + 0x10000) + BitVec.ofNat 64 (8 * (a.toNat % 2 ^ 52 / 2 ^ 39))).toNat < _
      rw [BitVec.toNat_add, BitVec.toNat_ofNat, BitVec.toNat_ofNat]
      omega
    have h1 : (exS.guest l p).next ((exS.guest l p).entry 0 a) = BitVec.ofNat 64 (0x100000 * p.toNat + 0x20000) := by
      show BitVec.ofNat 64 (0x100000 * p.toNat + if ((exS.guest l p).entry 0 a).toNat < _ then _ else _) = _
      rw [if_pos h0]
    have h2 : (exS.guest l p).entry 1 a = BitVec.ofNat 64 (0x100000 * p.toNat + 0x20000) + BitVec.ofNat 64 (8 * (a.toNat % 2 ^ 39 / 2 ^ 30)) := by
      show (exS.guest l p).next ((exS.guest l p).entry 0 a) + _ = _
      rw [h1]; rfl
    have h3 : (exS.guest l p).entry 1 a = BitVec.ofNat 64 (0x100000 * p.toNat + 0x30008) := by
      have h3 : ((exS.guest l p).entry 1 a == BitVec.ofNat 64 (0x100000 * p.toNat + 0x30008)) = true := hl
      exact eq_of_beq h3
    rw [h2] at h3
    have h4 := congrArg BitVec.toNat h3
    rw [BitVec.toNat_add, BitVec.toNat_ofNat, BitVec.toNat_ofNat, BitVec.toNat_ofNat] at h4
    omega

/-- A translation with all its records. -/
def ex1 : Translation :=
  { lpid := 1, pid := 2, address := 0x1234, proc := none, forms := [.full 0, .full 0, .full 0, .full 0]
    guest := 0x7234, guestLevel := 0, real := 0x57234, realLevel := 1, omitted := 0 }

/-- One of the next pages: only the entry, its translation and the results. -/
def ex2 : Translation :=
  { lpid := 1, pid := 2, address := 0x5678, proc := none, forms := [.hidden, .hidden, .hidden, .full 3]
    guest := 0x7678, guestLevel := 0, real := 0x57678, realLevel := 1, omitted := 4 }

/-- The records in the array of walks. -/
def exX (t : Translation) : Xlate :=
  { lpid := t.lpid, pid := t.pid, nwalks := (t.records exS).length
    walks := t.records exS ++ List.replicate (38 - (t.records exS).length) {} }

theorem exX_written (t : Translation) {real : BitVec 64} (h : real.toNat = t.real.toNat / 2 ^ 12 * 2 ^ 12) : Written exS t (exX t) real :=
  ⟨rfl, rfl, .full (by simp [exX]) (by simp [exX]), h⟩

theorem omittable_zero (S : Tables) (seen : Seen) (l : BitVec 32) (g : BitVec 64) : Omittable S seen l g 0 :=
  ⟨Nat.zero_le _, fun _ h => absurd h (Nat.not_lt_zero _)⟩

theorem ex1_valid : ex1.Valid exS {} where
  proc := by simp [ex1]
  length := by decide +kernel
  forms := ⟨omittable_zero .., fun _ => by simp, omittable_zero .., fun _ => by simp, omittable_zero .., fun _ => by simp,
    omittable_zero .., fun _ => by simp, trivial⟩
  guest := by decide +kernel
  real := by decide +kernel
  omitted := omittable_zero ..
  guestLevel := fun _ => rfl
  notProc := by decide
  smallProc := by simp [ex1]
  smallRows := fun _ _ _ _ => rfl
  smallFinal := fun _ => rfl

theorem ex1_complete : ex1.Complete := ⟨by simp [ex1], by simp [ex1], rfl⟩

theorem ex2_pageSeen {l : List (BitVec 32 × BitVec 64)} (h : ((1 : BitVec 32), (0x210000 : BitVec 64)) ∈ l) (g : BitVec 64)
    (hg : (exTable 0 5 16).SamePage g 0x210000) : PageSeen exS { host := l } 1 g := ⟨_, h, hg⟩

theorem ex2_valid : ex2.Valid exS (Seen.add {} exS ex1) where
  proc := by simp [ex2]
  length := by decide +kernel
  forms := by
    have hm : ((1 : BitVec 32), (2 : BitVec 32), (0x1234 : BitVec 64)) ∈ (Seen.add {} exS ex1).guest := by decide +kernel
    have hh : ((1 : BitVec 32), (0x210000 : BitVec 64)) ∈ (Seen.add {} exS ex1).host := by decide +kernel
    have hd : (exS.host 1).depth (BitVec.ofNat 64 0x240028) = 3 := by decide +kernel
    refine ⟨⟨⟨0x210000, hh, ?_⟩, ⟨0x1234, hm, ?_⟩⟩, fun h => absurd rfl h, ⟨⟨0x210000, ?_, ?_⟩, ⟨0x1234, hm, ?_⟩⟩, fun h => absurd rfl h,
      ⟨⟨0x210000, ?_, ?_⟩, ⟨0x1234, hm, ?_⟩⟩, fun h => absurd rfl h, ⟨?_, ?_⟩, by simp, trivial⟩
    · show _ = _; decide +kernel
    · show _ = _; decide +kernel
    · exact List.mem_cons_of_mem _ hh
    · show _ = _; decide +kernel
    · show _ = _; decide +kernel
    · exact List.mem_cons_of_mem _ (List.mem_cons_of_mem _ hh)
    · show _ = _; decide +kernel
    · show _ = _; decide +kernel
    · decide +kernel
    · intro i hi
      refine ⟨0x210000, List.mem_cons_of_mem _ (List.mem_cons_of_mem _ (List.mem_cons_of_mem _ hh)), ?_⟩
      have : i = 0 ∨ i = 1 ∨ i = 2 := by omega
      rcases this with rfl | rfl | rfl <;> (show _ = _; decide +kernel)
  guest := by decide +kernel
  real := by decide +kernel
  omitted := by
    refine ⟨by decide +kernel, ?_⟩
    intro i hi
    refine ⟨0x7234, by decide +kernel, ?_⟩
    have : i = 0 ∨ i = 1 ∨ i = 2 ∨ i = 3 := by have : i < 4 := hi; omega
    rcases this with rfl | rfl | rfl | rfl <;> (show _ = _; decide +kernel)
  guestLevel := fun _ => rfl
  notProc := by decide
  smallProc := by simp [ex2]
  smallRows := fun _ _ _ _ => rfl
  smallFinal := fun _ => rfl

/-- The history of both. -/
def exEvents : List Event :=
  [.translate ex1 (exX ex1) 0x57000, .lookup false true 0x1000 0x57000, .translate ex2 (exX ex2) 0x57000, .lookup false true 0x5008 0x57000]

theorem exEvents_valid : ValidFrom exS {} exEvents :=
  ⟨ex1_valid, exX_written _ (by decide +kernel), ex2_valid, exX_written _ (by decide +kernel), trivial⟩

/-- Hypotheses of `C70_history_partial`: of 26 records of a walk like these, four are written of the second. -/
example : exS.Ok ∧ ValidFrom exS {} exEvents ∧ (ex1.records exS).length = 26 ∧ (ex2.records exS).length = 4 :=
  ⟨exS_ok, exEvents_valid, by decide +kernel, by decide +kernel⟩

/-- Hypotheses of `C70_complete`. -/
example : exS.Ok ∧ ex1.Valid exS {} ∧ ex1.Complete ∧ Written exS ex1 (exX ex1) 0x57000 :=
  ⟨exS_ok, ex1_valid, ex1_complete, exX_written _ (by decide +kernel)⟩

/-! ### What is refuted -/

/-- A walk of the same guest without relocation, for an address in a page of 2 MB. -/
def exReal : Xlate :=
  { lpid := 1, pid := 2, nwalks := 4
    walks := hostWalk (exS.host 1) 0x200000 0 ++ ({ finalRa := true, hostRa := true, ra := 0xa00000 } : Walk) :: List.replicate 34 {} }

/-- A translation without relocation between two translations of a process takes the second one its cached entries. -/
theorem C70_guest_real_refuted : ∃ (S : Tables) (t1 t2 : Translation) (x1 x2 y : Xlate) (r1 r2 a r : BitVec 64) (rs : List Res) (st : St) (res : Res),
    S.Ok ∧ ValidFrom S {} [.translate t1 x1 r1, .translate t2 x2 r2] ∧
    (∃ w, y.walks.take y.nwalks = hostWalk (S.host t1.lpid) a 0 ++ [w] ∧ w.finalRa ∧ w.hostRa ∧ w.ra = r ∧
      r.toNat / 2 ^ (S.host t1.lpid).size a = (S.host t1.lpid).frame a) ∧ y.lpid = t1.lpid ∧ y.pid = t1.pid ∧
    Xl.run {} [.decode x1 false true t1.address r1, .decode y false false a r, .decode x2 false true t2.address r2] = .ok (rs, st) ∧
    rs[2]? = some res ∧ ¬ Decoded S t2 res := by
  have hr : ∀ (o : Except Bad (List Res × St)), ((o.toOption.bind fun p => p.1[2]?).map fun r => r.ok) = some false →
      ∃ rs st res, o = .ok (rs, st) ∧ rs[2]? = some res ∧ res.ok = false := by
    intro o h
    match o, h with
    | .ok (rs, st), h =>
      cases h2 : rs[2]? with
      | none => simp [Except.toOption, h2] at h
      | some res => exact ⟨rs, st, res, rfl, h2, by simpa [Except.toOption, h2] using h⟩
  obtain ⟨rs, st, res, h1, h2, h3⟩ := hr (Xl.run {} [.decode (exX ex1) false true ex1.address 0x57000,
    .decode exReal false false 0x200000 0xa00000, .decode (exX ex2) false true ex2.address 0x57000]) (by decide +kernel)
  refine ⟨exS, ex1, ex2, exX ex1, exX ex2, exReal, 0x57000, 0x57000, 0x200000, 0xa00000, rs, st, res, exS_ok,
    ⟨ex1_valid, exX_written _ (by decide +kernel), ex2_valid, exX_written _ (by decide +kernel), trivial⟩,
    ⟨{ finalRa := true, hostRa := true, ra := 0xa00000 }, ?_, ?_, ?_, ?_, ?_⟩, rfl, rfl, h1, h2, ?_⟩
  · decide +kernel
  · rfl
  · rfl
  · rfl
  · decide +kernel
  · intro h
    have := h.ok
    rw [h3] at this
    exact absurd this (by simp)

/-- The walk of the first translation without the last record; the level field of the record that ends it is zero. -/
def exCut : Xlate :=
  { lpid := 1, pid := 2, nwalks := (ex1.records exS).length - 1
    walks := (ex1.records exS).dropLast ++ ({ finalRecord := true } : Walk) :: List.replicate (38 - (ex1.records exS).length) {} }

/-- Without its last record, the walk to a 64 kB page of the host is taken for one to a 4 kB page. -/
theorem C70_cut_refuted : ∃ (S : Tables) (t : Translation) (x : Xlate) (real : BitVec 64) (res : Res) (y : Xlate) (st : St), S.Ok ∧
    t.Valid S {} ∧ t.Complete ∧ x.walks.take x.nwalks ++ [t.last] = t.records S ∧ x.lpid = t.lpid ∧ x.pid = t.pid ∧
    real.toNat = t.real.toNat / 2 ^ 12 * 2 ^ 12 ∧ Xl.decode {} x false true t.address real = .ok (res, y, st) ∧ res.ok = true ∧
    res.host = 12 ∧ (S.host t.lpid).size t.guest = 16 := by
  have hr : ∀ (o : Except Bad (Res × Xlate × St)), (o.toOption.map fun p => (p.1.ok, p.1.host)) = some (true, 12) →
      ∃ res y st, o = .ok (res, y, st) ∧ res.ok = true ∧ res.host = 12 := by
    intro o h
    match o, h with
    | .ok (res, y, st), h =>
      simp only [Except.toOption, Option.map_some, Option.some.injEq, Prod.mk.injEq] at h
      exact ⟨res, y, st, rfl, h⟩
  obtain ⟨res, y, st, h1, h2, h3⟩ := hr (Xl.decode {} exCut false true ex1.address 0x57000) (by decide +kernel)
  exact ⟨exS, ex1, exCut, 0x57000, res, y, st, exS_ok, ex1_valid, ex1_complete, by decide +kernel, rfl, rfl, by decide +kernel, h1, h2, h3,
    by decide +kernel⟩

/-- A guest that maps its first GB with one page. -/
def exHuge : Tables := ⟨fun _ => exTable 0 5 16, fun _ p => { exTable (0x100000 * p.toNat) 0 12 with leaf := fun e => e == BitVec.ofNat 64 (0x100000 * p.toNat + 0x20000) }⟩

/-- The whole walk: two levels of the guest's tables. -/
def exHuge1 : Translation :=
  { lpid := 1, pid := 2, address := 0x7234, proc := none, forms := [.full 0, .full 0]
    guest := 0x7234, guestLevel := 0, real := 0x57234, realLevel := 1, omitted := 0 }

def exHugeX : Xlate :=
  { lpid := 1, pid := 2, nwalks := (exHuge1.records exHuge).length
    walks := exHuge1.records exHuge ++ List.replicate (38 - (exHuge1.records exHuge).length) {} }

theorem exHuge1_valid : exHuge1.Valid exHuge {} where
  proc := by simp [exHuge1]
  length := by decide +kernel
  forms := ⟨omittable_zero .., fun _ => by simp, omittable_zero .., fun _ => by simp, trivial⟩
  guest := by decide +kernel
  real := by decide +kernel
  omitted := omittable_zero ..
  guestLevel := fun _ => rfl
  notProc := by decide
  smallProc := by simp [exHuge1]
  smallRows := fun _ _ _ _ => rfl
  smallFinal := fun _ => rfl

/-- Translations by pages of 1 GB of the guest are not decoded: a third level is expected. -/
theorem C70_huge_refuted : ∃ (S : Tables) (t : Translation) (x : Xlate) (real : BitVec 64) (res : Res) (y : Xlate) (st : St), (∀ l, (S.host l).Ok) ∧
    (S.guest t.lpid t.pid).small = 12 ∧ (S.guest t.lpid t.pid).size t.address = 30 ∧
    t.Valid S {} ∧ t.Complete ∧ Written S t x real ∧ Xl.decode {} x false true t.address real = .ok (res, y, st) ∧ res.ok = false := by
  have hr : ∀ (o : Except Bad (Res × Xlate × St)), (o.toOption.map fun p => p.1.ok) = some false → ∃ res y st, o = .ok (res, y, st) ∧ res.ok = false := by
    intro o h
    match o, h with
    | .ok (res, y, st), h =>
      simp only [Except.toOption, Option.map_some, Option.some.injEq] at h
      exact ⟨res, y, st, rfl, h⟩
  obtain ⟨res, y, st, h1, h2⟩ := hr (Xl.decode {} exHugeX false true exHuge1.address 0x57000) (by decide +kernel)
  exact ⟨exHuge, exHuge1, exHugeX, 0x57000, res, y, st, exS_ok.1, rfl, by decide +kernel, exHuge1_valid, ⟨by simp [exHuge1], by simp [exHuge1], rfl⟩,
    ⟨rfl, rfl, .full (by simp [exHugeX]) (by simp [exHugeX]), by decide +kernel⟩, h1, h2⟩

end Htm.Mmu
