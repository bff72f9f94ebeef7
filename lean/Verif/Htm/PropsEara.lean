import Verif.Htm.PropsWalk
import Verif.Htm.PropsErat
/-!
C71: an address without walk is looked up among the translations decoded before.

For a single process the result is the walk through the page tables for that address; it is found if and only if an address
of the same page was translated before.  For several processes this is refuted.
-/
namespace Htm.Mmu
open Htm Htm.Pwc
open Htm.Xl (Res St Call callStep nth arrayMax)

/-! ### Proofs -/

theorem page_ok {S : Tables} (hS : S.Ok) (t : Translation) : Erat.PageSize (t.page S) := by
  have h3 := Table.pageSize_size (hS.1 t.lpid).1 t.guest
  have h4 := Table.pageSize_size (hS.2 t.lpid t.pid).1 t.address
  unfold PageSize at h3 h4
  unfold Erat.PageSize Translation.page
  omega

theorem Table.depth_pos (T : Table) (a : BitVec 64) : T.depth a - 1 < 4 := by have := T.depth_le a; omega

theorem Table.path_of_same {T : Table} (hs : T.SmallOk) {a b : BitVec 64} (h : T.SamePage a b) : T.path a = T.path b := by
  unfold Table.path
  rw [← Table.depth_of_same hs h]
  apply List.map_congr_left
  intro i hi
  exact Table.entry_of_same hs (T.depth_pos a) (by have := List.mem_range.1 hi; omega) h

theorem Table.size_of_same {T : Table} (hs : T.SmallOk) {a b : BitVec 64} (h : T.SamePage a b) : T.size a = T.size b := by
  unfold Table.size
  rw [Table.depth_of_same hs h]

theorem Table.frame_of_same {T : Table} (hs : T.SmallOk) {a b : BitVec 64} (h : T.SamePage a b) : T.frame a = T.frame b := by
  unfold Table.frame
  rw [← Table.depth_of_same hs h, Table.entry_of_same hs (T.depth_pos a) (Nat.le_refl _) h]

theorem Table.samePage_of {T : Table} (hs : T.SmallOk) {a b : BitVec 64} (h : a.toNat / 2 ^ T.size a = b.toNat / 2 ^ T.size a) :
    T.SamePage a b := by
  have hp := Table.pageSize_size hs a
  unfold Table.SamePage Table.Same
  show _ % _ / 2 ^ T.size a = _ % _ / 2 ^ T.size a
  revert h
  unfold PageSize at hp
  rcases hp with hp | hp | hp | hp <;> rw [hp] <;> omega

/-- The addresses of a page of a translation share its walk. -/
theorem same_of_covers {S : Tables} (hS : S.Ok) {t : Translation}
    (hg : t.guest.toNat / 2 ^ (S.guest t.lpid t.pid).size t.address = (S.guest t.lpid t.pid).frame t.address)
    (hE : t.Exact S) {a : BitVec 64} (h : a.toNat / 2 ^ t.page S = t.address.toNat / 2 ^ t.page S) :
    (S.guest t.lpid t.pid).SamePage t.address a ∧ (S.host t.lpid).SamePage t.guest ((S.guest t.lpid t.pid).real a) ∧
      ((S.guest t.lpid t.pid).real a).toNat = t.guest.toNat / 2 ^ (S.guest t.lpid t.pid).size t.address *
        2 ^ (S.guest t.lpid t.pid).size t.address + a.toNat % 2 ^ (S.guest t.lpid t.pid).size t.address := by
  have hgs := (hS.2 t.lpid t.pid).1
  have hhs := (hS.1 t.lpid).1
  have p1 := Table.pageSize_size hgs t.address
  have p2 := Table.pageSize_size hhs t.guest
  have hsame : (S.guest t.lpid t.pid).SamePage t.address a := by
    apply Table.samePage_of hgs
    unfold Translation.page at h
    revert h
    generalize (S.guest t.lpid t.pid).size t.address = g at *
    generalize (S.host t.lpid).size t.guest = k at *
    unfold PageSize at p1 p2
    rcases p1 with rfl | rfl | rfl | rfl <;> rcases p2 with rfl | rfl | rfl | rfl <;> simp only [Nat.reducePow, Nat.reduceLeDiff, Nat.min_def, if_true, if_false] <;> omega
  have hsz := Table.size_of_same hgs hsame
  have hfr := Table.frame_of_same hgs hsame
  have htg := t.guest.isLt
  have hta := t.address.isLt
  have haa := a.isLt
  have r1 : ((S.guest t.lpid t.pid).real a).toNat = t.guest.toNat / 2 ^ (S.guest t.lpid t.pid).size t.address *
        2 ^ (S.guest t.lpid t.pid).size t.address + a.toNat % 2 ^ (S.guest t.lpid t.pid).size t.address := by
    unfold Table.real
    rw [← hsz, ← hfr, ← hg, BitVec.toNat_ofNat]
    unfold PageSize at p1
    rcases p1 with e | e | e | e <;> rw [e] <;> omega
  have r2 : ((S.guest t.lpid t.pid).real t.address).toNat = t.guest.toNat / 2 ^ (S.guest t.lpid t.pid).size t.address *
        2 ^ (S.guest t.lpid t.pid).size t.address + t.address.toNat % 2 ^ (S.guest t.lpid t.pid).size t.address := by
    unfold Table.real
    rw [← hg, BitVec.toNat_ofNat]
    unfold PageSize at p1
    rcases p1 with e | e | e | e <;> rw [e] <;> omega
  refine ⟨hsame, ?_, r1⟩
  apply Table.samePage_of hhs
  unfold Translation.Exact at hE
  rw [r2] at hE
  rw [r1]
  unfold Translation.page at h
  revert h hE
  generalize (S.guest t.lpid t.pid).size t.address = g at *
  generalize (S.host t.lpid).size t.guest = k at *
  unfold PageSize at p1 p2
  rcases p1 with rfl | rfl | rfl | rfl <;> rcases p2 with rfl | rfl | rfl | rfl <;> simp only [Nat.reducePow, Nat.reduceLeDiff, Nat.min_def, if_true, if_false] <;> omega

theorem or_offset {s : Nat} (hs : s < 64) (x a : BitVec 64) :
    ((x &&& pageMask s) ||| (a &&& ~~~ pageMask s)).toNat = x.toNat / 2 ^ s * 2 ^ s + a.toNat % 2 ^ s := by
  have h1 := aligned_toNat hs x
  have h2 := pageOffset_toNat hs a
  unfold aligned at h1
  unfold pageOffset at h2
  have h3 : (x &&& pageMask s) ||| (a &&& ~~~ pageMask s) = (x &&& pageMask s) + (a &&& ~~~ pageMask s) := by
    rw [BitVec.add_eq_or_of_and_eq_zero]
    generalize pageMask s = m
    ext i hi
    simp
    cases x[i] <;> cases a[i] <;> cases m[i] <;> simp
  rw [h3, BitVec.toNat_add, h1, h2, sub_mod_div, Nat.mul_comm, Nat.mod_eq_of_lt]
  have h4 := x.isLt
  have h5 : a.toNat % 2 ^ s < 2 ^ s := Nat.mod_lt _ (Nat.two_pow_pos s)
  have h6 : x.toNat / 2 ^ s < 2 ^ (64 - s) := by
    rw [Nat.div_lt_iff_lt_mul (Nat.two_pow_pos s), ← Nat.pow_add]
    rw [show 64 - s + s = 64 by omega]
    exact h4
  calc x.toNat / 2 ^ s * 2 ^ s + a.toNat % 2 ^ s < x.toNat / 2 ^ s * 2 ^ s + 2 ^ s := by omega
    _ = (x.toNat / 2 ^ s + 1) * 2 ^ s := by rw [Nat.add_mul, Nat.one_mul]
    _ ≤ 2 ^ (64 - s) * 2 ^ s := Nat.mul_le_mul_right _ h6
    _ = 2 ^ 64 := by rw [← Nat.pow_add, show 64 - s + s = 64 by omega]

/-- What is in the ERAT for a translation. -/
def eratVal (S : Tables) (t : Translation) : Erat.Val Qt.Radix :=
  ⟨(nestedOf S t).radix, (S.host t.lpid).size t.guest, (S.guest t.lpid t.pid).size t.address⟩

def eratKey (S : Tables) (t : Translation) (real : BitVec 64) : Erat.Key :=
  ⟨aligned (t.page S) t.address, aligned (t.page S) real, t.page S⟩

/-- The last row with another guest real address. -/
def setGuest (r : Xl.Row) (g : BitVec 64) : Xl.Row := ⟨g, r.host⟩

theorem nestedOf_move {S : Tables} (hS : S.Ok) {t : Translation}
    (hg : t.guest.toNat / 2 ^ (S.guest t.lpid t.pid).size t.address = (S.guest t.lpid t.pid).frame t.address)
    (hE : t.Exact S) {a : BitVec 64} (h : a.toNat / 2 ^ t.page S = t.address.toNat / 2 ^ t.page S) :
    nestedOf S (t.move S a) =
      ⟨(nestedOf S t).rows, setGuest (nestedOf S t).final ((S.guest t.lpid t.pid).real a), (nestedOf S t).guestPageSize⟩ := by
  obtain ⟨h1, h2, _⟩ := same_of_covers hS hg hE h
  have hgs := (hS.2 t.lpid t.pid).1
  have hhs := (hS.1 t.lpid).1
  unfold nestedOf Translation.move setGuest
  simp only
  rw [← Table.path_of_same hhs h2, ← Table.size_of_same hhs h2, ← Table.size_of_same hgs h1, ← Table.depth_of_same hgs h1]
  congr 1
  apply List.map_congr_left
  intro i hi
  unfold levelOf
  rw [Table.entry_of_same hgs ((S.guest t.lpid t.pid).depth_pos t.address) (by have := List.mem_range.1 hi; omega) h1]

theorem move_sizes {S : Tables} (hS : S.Ok) {t : Translation}
    (hg : t.guest.toNat / 2 ^ (S.guest t.lpid t.pid).size t.address = (S.guest t.lpid t.pid).frame t.address)
    (hE : t.Exact S) {a : BitVec 64} (h : a.toNat / 2 ^ t.page S = t.address.toNat / 2 ^ t.page S) :
    (S.host t.lpid).size ((S.guest t.lpid t.pid).real a) = (S.host t.lpid).size t.guest ∧
      (S.guest t.lpid t.pid).size a = (S.guest t.lpid t.pid).size t.address := by
  obtain ⟨h1, h2, _⟩ := same_of_covers hS hg hE h
  exact ⟨(Table.size_of_same (hS.1 t.lpid).1 h2).symm, (Table.size_of_same (hS.2 t.lpid t.pid).1 h1).symm⟩

theorem nestedOf_rows_length (S : Tables) (t : Translation) :
    (nestedOf S t).rows.length = (S.guest t.lpid t.pid).depth t.address := by simp [nestedOf]

theorem nth_append_last (l : List (BitVec 64)) (x : BitVec 64) (i : Nat) :
    nth (l ++ [x]) i = if i = l.length then x else nth l i := by
  unfold nth
  by_cases h : i = l.length
  · rw [if_pos h, h]; simp
  · rw [if_neg h]
    by_cases h2 : i < l.length
    · rw [List.getElem?_append_left h2]
    · rw [List.getElem?_eq_none (by simp; omega), List.getElem?_eq_none (by omega)]

theorem radix_guest (n : Xl.Nested) (g : BitVec 64) :
    Xl.Nested.radix ⟨n.rows, setGuest n.final g, n.guestPageSize⟩ =
      { n.radix with guestRas := fun i => if i = n.rows.length then g else n.radix.guestRas i } := by
  have e1 : (n.rows ++ [setGuest n.final g]).map (fun r => r.host.ptes.length) = (n.rows ++ [n.final]).map (fun r => r.host.ptes.length) := by
    rw [List.map_append, List.map_append]; rfl
  have e2 : (n.rows ++ [setGuest n.final g]).length = (n.rows ++ [n.final]).length := by
    rw [List.length_append, List.length_append]; rfl
  have e3 : (fun (i j : Nat) => nth (((n.rows ++ [setGuest n.final g])[i]?.map (fun (r : Xl.Row) => r.host.ptes)).getD []) j) =
      (fun (i j : Nat) => nth (((n.rows ++ [n.final])[i]?.map (fun (r : Xl.Row) => r.host.ptes)).getD []) j) := by
    funext i j
    rw [← List.getElem?_map, ← List.getElem?_map, List.map_append, List.map_append]; rfl
  have e4 : nth ((n.rows ++ [setGuest n.final g]).map (fun r => r.guest)) =
      fun i => if i = n.rows.length then g else n.radix.guestRas i := by
    funext i
    show _ = if i = n.rows.length then g else nth ((n.rows ++ [n.final]).map (·.guest)) i
    rw [List.map_append, List.map_append]
    show nth (n.rows.map (·.guest) ++ [g]) i = if i = n.rows.length then g else nth (n.rows.map (·.guest) ++ [n.final.guest]) i
    rw [nth_append_last, nth_append_last, List.length_map]
    split
    · rfl
    · rfl
  rw [← e4]
  unfold Xl.Nested.radix
  simp only
  rw [e1, e2, e3]

/-- The offset of another address put into the result of a translation of the page. -/
theorem setOffset_move {S : Tables} (hS : S.Ok) {t : Translation}
    (hg : t.guest.toNat / 2 ^ (S.guest t.lpid t.pid).size t.address = (S.guest t.lpid t.pid).frame t.address)
    (hE : t.Exact S) {a : BitVec 64} (h : a.toNat / 2 ^ t.page S = t.address.toNat / 2 ^ t.page S) :
    Xl.setOffset (eratVal S t) a = .ok (nestedOf S (t.move S a)).radix := by
  have hm := nestedOf_move hS hg hE h
  obtain ⟨h1, h2, h3⟩ := same_of_covers hS hg hE h
  have hd := (S.guest t.lpid t.pid).depth_le t.address
  have hl := nestedOf_rows_length S t
  have hp := Table.pageSize_size (hS.2 t.lpid t.pid).1 t.address
  have hp64 : (S.guest t.lpid t.pid).size t.address < 64 := by unfold PageSize at hp; omega
  have hn : (eratVal S t).rcd.nrWalks = (nestedOf S t).rows.length + 1 := by
    show ((nestedOf S t).rows ++ [(nestedOf S t).final]).length = _
    simp
  unfold Xl.setOffset
  rw [if_neg (by rw [hn]; show ¬ (_ ∨ _ ∨ 64 ≤ (S.guest t.lpid t.pid).size t.address); omega), hn, hm, radix_guest]
  have key : (fun i => if i = (nestedOf S t).rows.length + 1 - 1 then
          (eratVal S t).rcd.guestRas i &&& pageMask (eratVal S t).guest ||| a &&& ~~~pageMask (eratVal S t).guest
        else (eratVal S t).rcd.guestRas i) = (fun i => if i = (nestedOf S t).rows.length then (S.guest t.lpid t.pid).real a
          else (nestedOf S t).radix.guestRas i) := ?_
  · rw [key]; rfl
  funext i
  rw [Nat.add_sub_cancel]
  by_cases hi : i = (nestedOf S t).rows.length
  · rw [if_pos hi, if_pos hi, hi]
    have : (nestedOf S t).radix.guestRas (nestedOf S t).rows.length = t.guest := by
      show nth (((nestedOf S t).rows ++ [(nestedOf S t).final]).map (·.guest)) _ = _
      rw [List.map_append]
      show nth ((nestedOf S t).rows.map (·.guest) ++ [t.guest]) _ = _
      rw [nth_append_last, List.length_map, if_pos rfl]
    show ((nestedOf S t).radix.guestRas (nestedOf S t).rows.length &&& _) ||| _ = _
    rw [this]
    apply BitVec.eq_of_toNat_eq
    rw [h3]
    exact or_offset hp64 _ _
  · rw [if_neg hi, if_neg hi]
    rfl

/-! ### The ERAT -/

/-- The translations decoded, with their real addresses. -/
abbrev Hist := List (Translation × BitVec 64)

/-- All of one process, with guest real addresses in the page they are translated to. -/
structure HistOk (S : Tables) (l p : BitVec 32) (h : Hist) : Prop where
  lpid : ∀ q ∈ h, q.1.lpid = l
  pid : ∀ q ∈ h, q.1.pid = p
  guest : ∀ q ∈ h, q.1.guest.toNat / 2 ^ (S.guest q.1.lpid q.1.pid).size q.1.address = (S.guest q.1.lpid q.1.pid).frame q.1.address
  exact : ∀ q ∈ h, q.1.Exact S

structure EratInv (S : Tables) (h : Hist) (e : Erat.St Qt.Radix) : Prop where
  has : ∀ q ∈ h, e (eratKey S q.1 q.2) ≠ none
  from_ : ∀ k v, e k = some v → ∃ q ∈ h, k = eratKey S q.1 q.2 ∧ v = eratVal S q.1

theorem eratKey_eq_iff {S : Tables} (hS : S.Ok) (t : Translation) (real a r : BitVec 64) {s : Nat} :
    (⟨aligned s a, aligned s r, s⟩ : Erat.Key) = eratKey S t real ↔ s = t.page S ∧ t.Covers S real a r := by
  have hp := page_ok hS t
  have h64 : t.page S < 64 := by unfold Erat.PageSize at hp; omega
  unfold eratKey Translation.Covers
  rw [Erat.Key.mk.injEq]
  constructor
  · rintro ⟨h1, h2, rfl⟩
    exact ⟨rfl, (aligned_eq_iff h64 _ _).1 h1, (aligned_eq_iff h64 _ _).1 h2⟩
  · rintro ⟨rfl, h1, h2⟩
    exact ⟨(aligned_eq_iff h64 _ _).2 h1, (aligned_eq_iff h64 _ _).2 h2, rfl⟩

theorem EratInv.insert {S : Tables} (hS : S.Ok) {l p : BitVec 32} {h : Hist} {e e' : Erat.St Qt.Radix} {t : Translation} {real : BitVec 64}
    (hI : EratInv S h e) (hH : HistOk S l p ((t, real) :: h))
    (hi : Erat.insert e (nestedOf S t).final.host.pageSize t.address real (nestedOf S t).radix (nestedOf S t).guestPageSize = some e') :
    EratInv S ((t, real) :: h) e' := by
  have he : e' = e.put (eratKey S t real) (Erat.update (nestedOf S t).radix ((S.host t.lpid).size t.guest)
      ((S.guest t.lpid t.pid).size t.address)) := by
    unfold Erat.insert at hi
    have hk : Erat.mkKey (min (nestedOf S t).final.host.pageSize (nestedOf S t).guestPageSize) t.address real = some (eratKey S t real) :=
      Erat.mkKey_of (page_ok hS t) _ _
    rw [hk] at hi
    simp only [Option.some.injEq] at hi
    rw [← hi]; rfl
  rw [he]
  constructor
  · intro q hq
    by_cases hk : eratKey S q.1 q.2 = eratKey S t real
    · rw [hk, Cache.put_self]; simp
    · rw [Cache.put_ne _ _ hk]
      rcases List.mem_cons.1 hq with rfl | hq
      · exact absurd rfl hk
      · exact hI.has q hq
  · intro k v hv
    by_cases hk : k = eratKey S t real
    · refine ⟨(t, real), List.mem_cons_self .., hk, ?_⟩
      rw [hk, Cache.put_self] at hv
      injection hv with hv
      rw [← hv]
      cases ho : e (eratKey S t real) with
      | none => rfl
      | some w =>
        obtain ⟨q, hq, hqk, hw⟩ := hI.from_ _ _ ho
        have hc := ((eratKey_eq_iff hS q.1 q.2 t.address real).1 hqk).2.1
        have hq' := List.mem_cons_of_mem (t, real) hq
        have hs := move_sizes hS (hH.guest q hq') (hH.exact q hq') hc
        have e1 : q.1.lpid = t.lpid := (hH.lpid q hq').trans (hH.lpid _ (List.mem_cons_self ..)).symm
        have e2 : q.1.pid = t.pid := (hH.pid q hq').trans (hH.pid _ (List.mem_cons_self ..)).symm
        have ho : (S.host t.lpid).size t.guest = (S.host t.lpid).size q.1.guest := by
          have h1 := move_sizes hS (hH.guest _ (List.mem_cons_self ..)) (hH.exact _ (List.mem_cons_self ..)) (a := t.address) rfl
          rw [e1, e2] at hs
          exact h1.1.symm.trans hs.1
        rw [hw]
        show Erat.Val.mk _ ((S.host q.1.lpid).size q.1.guest) _ = _
        rw [e1, ← ho]
        rfl
    · rw [Cache.put_ne _ _ hk] at hv
      obtain ⟨q, hq, h1, h2⟩ := hI.from_ k v hv
      exact ⟨q, List.mem_cons_of_mem _ hq, h1, h2⟩

theorem eratSearch_spec (e : Erat.St Qt.Radix) (a r : BitVec 64) : ∀ (ss : List Nat), (∀ s ∈ ss, Erat.PageSize s) →
    ∃ o, Xl.eratSearch e a r ss = .ok o ∧ (∀ v, o = some v → ∃ s, e ⟨aligned s a, aligned s r, s⟩ = some v) ∧
      (o = none → ∀ s ∈ ss, e ⟨aligned s a, aligned s r, s⟩ = none) := by
  intro ss
  induction ss with
  | nil => intro _; exact ⟨none, rfl, by simp, by simp⟩
  | cons s ss ih =>
    intro h
    unfold Xl.eratSearch Erat.get
    rw [Erat.mkKey_of (h s (by simp))]
    simp only
    cases he : e ⟨aligned s a, aligned s r, s⟩ with
    | some v => exact ⟨some v, rfl, fun w hw => ⟨s, by rw [he, hw]⟩, by simp⟩
    | none =>
      obtain ⟨o, h1, h2, h3⟩ := ih fun x hx => h x (List.mem_cons_of_mem _ hx)
      refine ⟨o, h1, h2, ?_⟩
      intro ho x hx
      rcases List.mem_cons.1 hx with rfl | hx
      · exact he
      · exact h3 ho x hx

theorem decoded_congr {S : Tables} {t t' : Translation} {r : Res} (h1 : t.lpid = t'.lpid) (h2 : t.pid = t'.pid)
    (h3 : t.address = t'.address) (h4 : t.guest = t'.guest) (h : Decoded S t r) : Decoded S t' r := by
  have hg : t.guestRas S = t'.guestRas S := by unfold Translation.guestRas; rw [h1, h2, h3, h4]
  obtain ⟨a, b, c, d, e, f, g, i, j⟩ := h
  rw [hg] at b c e f g
  rw [h1] at d e f g i
  rw [h1] at j
  rw [h2, h3] at d j
  rw [h4] at i
  exact ⟨a, b, c, d, e, f, g, i, j⟩

/-- A lookup finds the translations of the page. -/
theorem lookup_spec {S : Tables} (hS : S.Ok) {l p : BitVec 32} {h : Hist} {st : St} (hI : EratInv S h st.erat) (hH : HistOk S l p h)
    (a r : BitVec 64) :
    ∃ res, Xl.lookup st false true a r = .ok res ∧ (res.ok = true ↔ ∃ q ∈ h, q.1.Covers S q.2 a r) ∧
      ∀ q ∈ h, q.1.Covers S q.2 a r → Decoded S (q.1.move S a) res := by
  obtain ⟨o, h1, h2, h3⟩ := eratSearch_spec st.erat a r Xl.hostPageSizes (by unfold Xl.hostPageSizes Erat.PageSize; simp)
  unfold Xl.lookup
  rw [if_neg (by simp), h1]
  cases o with
  | none =>
    have hno : ∀ q ∈ h, ¬ q.1.Covers S q.2 a r := by
      intro q hq hc
      have hp := page_ok hS q.1
      have := h3 rfl (q.1.page S) (by unfold Erat.PageSize at hp; unfold Xl.hostPageSizes; simp; omega)
      rw [(eratKey_eq_iff hS q.1 q.2 a r).2 ⟨rfl, hc⟩] at this
      exact hI.has q hq this
    exact ⟨_, rfl, ⟨fun h => absurd h (by simp), fun ⟨q, hq, hc⟩ => absurd hc (hno q hq)⟩, fun q hq hc => absurd hc (hno q hq)⟩
  | some v =>
    obtain ⟨s, hs⟩ := h2 v rfl
    obtain ⟨q, hq, hk, hv⟩ := hI.from_ _ _ hs
    have hc := ((eratKey_eq_iff hS q.1 q.2 a r).1 hk).2
    have hset := setOffset_move hS (hH.guest q hq) (hH.exact q hq) hc.1
    obtain ⟨z1, z2⟩ := move_sizes hS (hH.guest q hq) (hH.exact q hq) hc.1
    have hdec := decoded_of S (q.1.move S a)
    simp only [if_true]
    rw [hv, hset]
    refine ⟨_, rfl, ⟨fun _ => ⟨q, hq, hc⟩, fun _ => rfl⟩, ?_⟩
    intro q' hq' _
    have e1 : q'.1.lpid = q.1.lpid := (hH.lpid q' hq').trans (hH.lpid q hq).symm
    have e2 : q'.1.pid = q.1.pid := (hH.pid q' hq').trans (hH.pid q hq).symm
    refine decoded_congr (t := q.1.move S a) e1.symm e2.symm rfl (by simp only [Translation.move]; rw [e1, e2]) ?_
    have h1 : (nestedOf S (q.1.move S a)).final.host.pageSize = (S.host q.1.lpid).size q.1.guest := z1
    have h2 : (nestedOf S (q.1.move S a)).guestPageSize = (S.guest q.1.lpid q.1.pid).size q.1.address := z2
    rw [h1, h2] at hdec
    exact hdec

/-! ### C71 -/

/-- The translations of the first events, latest first. -/
def histOf (h : Hist) : List Event → Hist
  | [] => h
  | .translate t _ real :: l => histOf ((t, real) :: h) l
  | .lookup .. :: l => histOf h l

theorem mem_histOf {q : Translation × BitVec 64} : ∀ (l : List Event) (h : Hist),
    q ∈ histOf h l ↔ q ∈ h ∨ ∃ x, Event.translate q.1 x q.2 ∈ l := by
  intro l
  induction l with
  | nil => intro h; simp [histOf]
  | cons e l ih =>
    intro h
    cases e with
    | translate t x real =>
      rw [histOf, ih]
      constructor
      · rintro (hq | ⟨y, hy⟩)
        · rcases List.mem_cons.1 hq with rfl | hq
          · exact Or.inr ⟨x, List.mem_cons_self ..⟩
          · exact Or.inl hq
        · exact Or.inr ⟨y, List.mem_cons_of_mem _ hy⟩
      · rintro (hq | ⟨y, hy⟩)
        · exact Or.inl (List.mem_cons_of_mem _ hq)
        · rcases List.mem_cons.1 hy with hy | hy
          · obtain ⟨h1, _, h2⟩ := Event.translate.inj hy
            exact Or.inl (List.mem_cons.2 (Or.inl (Prod.ext h1 h2)))
          · exact Or.inr ⟨y, hy⟩
    | lookup hv reloc a r =>
      rw [histOf, ih]
      constructor
      · rintro (hq | ⟨y, hy⟩)
        · exact Or.inl hq
        · exact Or.inr ⟨y, List.mem_cons_of_mem _ hy⟩
      · rintro (hq | ⟨y, hy⟩)
        · exact Or.inl hq
        · rcases List.mem_cons.1 hy with hy | hy
          · cases hy
          · exact Or.inr ⟨y, hy⟩

/-- All translations are of one process, with exact addresses. -/
def OneProcess (S : Tables) (l p : BitVec 32) (es : List Event) : Prop :=
  ∀ t x real, Event.translate t x real ∈ es → t.lpid = l ∧ t.pid = p ∧ t.Exact S

theorem run_lookup {S : Tables} (hS : S.Ok) {l p : BitVec 32} : ∀ (es : List Event) (seen : Seen) (h : Hist) (st : St), Inv S seen st.caches →
    Xl.Inv st → st.partials = [] → EratInv S h st.erat → HistOk S l p h → OneProcess S l p es → ValidFrom S seen es →
    ∃ rs st', Xl.run st (es.map Event.call) = .ok (rs, st') ∧ rs.length = es.length ∧
      ∀ (i : Nat) a r, es[i]? = some (Event.lookup false true a r) → ∃ res, rs[i]? = some res ∧
        (res.ok = true ↔ ∃ q ∈ histOf h (es.take i), q.1.Covers S q.2 a r) ∧
        ∀ q ∈ histOf h (es.take i), q.1.Covers S q.2 a r → Decoded S (q.1.move S a) res := by
  intro es
  induction es with
  | nil => intro seen h st _ _ _ _ _ _ _; exact ⟨[], st, rfl, rfl, by simp⟩
  | cons e es ih =>
    intro seen h st hI hX hp hE hH hO hV
    have hO' : OneProcess S l p es := fun t x real hm => hO t x real (List.mem_cons_of_mem _ hm)
    cases e with
    | translate t x real =>
      obtain ⟨hv, hr, hV'⟩ := hV
      obtain ⟨c', hn, hI'⟩ := nested_ok hS hI hv
      obtain ⟨res, _, st1, hd, hdec, hc, hp1, hins⟩ := decode_of_nested hS hp hr hn
      have hstep : callStep st (Event.call (.translate t x real)) = .ok (some res, st1) := by
        show (match Xl.decode st x false true t.address real with | .error e => _ | .ok (res, _, st) => _) = _
        rw [hd]
      obtain ⟨o1, o2, o3⟩ := hO t x real (List.mem_cons_self ..)
      have hH' : HistOk S l p ((t, real) :: h) := by
        refine ⟨?_, ?_, ?_, ?_⟩
        all_goals
          intro q hq
          rcases List.mem_cons.1 hq with rfl | hq
        · exact o1
        · exact hH.lpid q hq
        · exact o2
        · exact hH.pid q hq
        · exact hv.guest
        · exact hH.guest q hq
        · exact o3
        · exact hH.exact q hq
      obtain ⟨rs, st', h1, h2, h3⟩ := ih (seen.add S t) ((t, real) :: h) st1 (by rw [hc]; exact hI') (Xl.callStep_ok hX hstep).2 hp1
        (hE.insert hS hH' hins) hH' hO' hV'
      refine ⟨res :: rs, st', ?_, by simp [h2], ?_⟩
      · rw [List.map_cons, Xl.run, hstep]
        simp only
        rw [h1]
        rfl
      · intro i a r hi
        cases i with
        | zero => simp at hi
        | succ i =>
          rw [List.getElem?_cons_succ] at hi ⊢
          exact h3 i a r hi
    | lookup hv reloc a r =>
      obtain ⟨res, hl, _⟩ := Xl.lookup_ok hX hv reloc a r
      have hstep : callStep st (Event.call (.lookup hv reloc a r)) = .ok (some res, st) := by
        show (match Xl.lookup st hv reloc a r with | .error e => _ | .ok res => _) = _
        rw [hl]
      obtain ⟨rs, st', h1, h2, h3⟩ := ih seen h st hI hX hp hE hH hO' hV
      refine ⟨res :: rs, st', ?_, by simp [h2], ?_⟩
      · rw [List.map_cons, Xl.run, hstep]
        simp only
        rw [h1]
        rfl
      · intro i a' r' hi
        cases i with
        | zero =>
          simp only [List.getElem?_cons_zero, Option.some.injEq] at hi
          obtain ⟨rfl, rfl, rfl, rfl⟩ := Event.lookup.inj hi
          obtain ⟨res', hl', h5, h6⟩ := lookup_spec hS hE hH a r
          rw [hl] at hl'
          injection hl' with hl'
          subst hl'
          exact ⟨res, rfl, h5, h6⟩
        | succ i =>
          rw [List.getElem?_cons_succ] at hi ⊢
          exact h3 i a' r' hi

/-- For all page tables and every history of translations of one process: an effective address is found with a real address
if and only if a translation before was of the same page of both, and the result is the walk through the tables for that
address, with the guest real address it is translated to. -/
theorem C71_lookup_partial {S : Tables} (hS : S.Ok) {l p : BitVec 32} {es : List Event} (hV : ValidFrom S {} es) (hO : OneProcess S l p es) :
    ∃ rs st, Xl.run {} (es.map Event.call) = .ok (rs, st) ∧ rs.length = es.length ∧
      ∀ (i : Nat) a r, es[i]? = some (Event.lookup false true a r) → ∃ res, rs[i]? = some res ∧
        (res.ok = true ↔ ∃ t x real, Event.translate t x real ∈ es.take i ∧ t.Covers S real a r) ∧
        ∀ t x real, Event.translate t x real ∈ es.take i → t.Covers S real a r → Decoded S (t.move S a) res := by
  obtain ⟨rs, st, h1, h2, h3⟩ := run_lookup hS es {} [] {} (inv_init S) Xl.inv_init rfl ⟨by simp, by intro k v h; simp [Erat.init, Cache.empty] at h⟩
    ⟨by simp, by simp, by simp, by simp⟩ hO hV
  refine ⟨rs, st, h1, h2, ?_⟩
  intro i a r hi
  obtain ⟨res, h4, h5, h6⟩ := h3 i a r hi
  have hm : ∀ q : Translation × BitVec 64, q ∈ histOf [] (es.take i) ↔ ∃ x, Event.translate q.1 x q.2 ∈ es.take i := by
    intro q; rw [mem_histOf]; simp
  refine ⟨res, h4, ?_, ?_⟩
  · rw [h5]
    constructor
    · rintro ⟨q, hq, hc⟩
      obtain ⟨x, hx⟩ := (hm q).1 hq
      exact ⟨q.1, x, q.2, hx, hc⟩
    · rintro ⟨t, x, real, hx, hc⟩
      exact ⟨(t, real), (hm _).2 ⟨x, hx⟩, hc⟩
  · intro t x real hx hc
    exact h6 (t, real) ((hm _).2 ⟨x, hx⟩) hc

/-- Hypotheses of `C71_lookup_partial`. -/
example : exS.Ok ∧ ValidFrom exS {} exEvents ∧ OneProcess exS 1 2 exEvents ∧ ex2.Covers exS 0x57000 0x5008 0x57000 := by
  refine ⟨exS_ok, exEvents_valid, ?_, ?_⟩
  · intro t x real h
    simp only [exEvents, List.mem_cons, Event.translate.injEq, reduceCtorEq, List.not_mem_nil, or_false, false_or] at h
    rcases h with ⟨rfl, _⟩ | ⟨rfl, _⟩
    · refine ⟨rfl, rfl, ?_⟩
      show _ = _
      decide +kernel
    · refine ⟨rfl, rfl, ?_⟩
      show _ = _
      decide +kernel
  · show _ = _ ∧ _ = _
    decide +kernel

/-- The same address of another process, in the same real page. -/
def ex3 : Translation := { ex1 with pid := 3 }

theorem ex3_valid (seen : Seen) : ex3.Valid exS seen where
  proc := by simp [ex3, ex1]
  length := by decide +kernel
  forms := ⟨omittable_zero .., fun _ => by simp, omittable_zero .., fun _ => by simp, omittable_zero .., fun _ => by simp,
    omittable_zero .., fun _ => by simp, trivial⟩
  guest := by decide +kernel
  real := by decide +kernel
  omitted := omittable_zero ..
  guestLevel := fun _ => rfl
  notProc := by decide
  smallProc := by simp [ex3, ex1]
  smallRows := fun _ _ _ _ => rfl
  smallFinal := fun _ => rfl

/-- With two processes that share a page, an address of the first is found with the walk of the second. -/
theorem C71_processes_refuted : ∃ (S : Tables) (t1 t2 : Translation) (x1 x2 : Xlate) (r1 r2 : BitVec 64) (rs : List Res) (st : St) (res : Res),
    S.Ok ∧ ValidFrom S {} [.translate t1 x1 r1, .translate t2 x2 r2, .lookup false true t1.address r1] ∧ t1.Exact S ∧ t2.Exact S ∧
    t1.pid ≠ t2.pid ∧ Xl.run {} [.decode x1 false true t1.address r1, .decode x2 false true t2.address r2, .lookup false true t1.address r1] =
      .ok (rs, st) ∧ rs[2]? = some res ∧ res.ok = true ∧ ¬ Decoded S (t1.move S t1.address) res := by
  have hr : ∀ (o : Except Bad (List Res × St)), ((o.toOption.bind fun p => p.1[2]?).map fun r => (r.ok, r.rcd.guestRas 0)) = some (true, 0x310000) →
      ∃ rs st res, o = .ok (rs, st) ∧ rs[2]? = some res ∧ res.ok = true ∧ res.rcd.guestRas 0 = 0x310000 := by
    intro o h
    match o, h with
    | .ok (rs, st), h =>
      cases h2 : rs[2]? with
      | none => simp [Except.toOption, h2] at h
      | some res =>
        refine ⟨rs, st, res, rfl, h2, ?_⟩
        simpa only [Except.toOption, h2, Option.bind_some, Option.map_some, Option.some.injEq, Prod.mk.injEq] using h
  obtain ⟨rs, st, res, h1, h2, h3, h4⟩ := hr (Xl.run {} [.decode (exX ex1) false true ex1.address 0x57000,
    .decode (exX ex3) false true ex3.address 0x57000, .lookup false true ex1.address 0x57000]) (by decide +kernel)
  refine ⟨exS, ex1, ex3, exX ex1, exX ex3, 0x57000, 0x57000, rs, st, res, exS_ok,
    ⟨ex1_valid, exX_written _ (by decide +kernel), ex3_valid _, exX_written _ (by decide +kernel), trivial⟩, ?_, ?_, by decide, h1, h2, h3, ?_⟩
  · show _ = _; decide +kernel
  · show _ = _; decide +kernel
  · intro h
    have := h.guestRas 0 0x210000 (by decide +kernel)
    rw [h4] at this
    exact absurd this (by decide)

end Htm.Mmu
