import Verif.Htm.XlateLemmas
import Verif.Htm.PropsErat
import Verif.Htm.PropsMerge
import Verif.Qt.Writer
/-!
C22: a decoded translation always fits the trace format, and C51: what page-table walks in the trace can do to the decoder.

The specification: `Fit` are the bounds of the trace format, `C22_written` shows that the writer stores records within them.
A history is any sequence of calls of the module on its initial state.
-/
namespace Htm.Xl
open Htm Htm.Pwc

/-- The bounds of the trace format for a page-table walk. -/
structure Fit (x : Qt.Radix) : Prop where
  ptes : x.nrPtes ≤ 4
  walks : x.nrWalks ≤ 5
  typed : x.nrWalks = 1 → x.type ≠ .unspecified
  some : x.nrPtes ≠ 0 → 1 ≤ x.nrWalks

/-- A page size as the decoder reports it: zero for none. -/
def Shift (s : Nat) : Prop := s = 0 ∨ PageSize s

/-- The result of a call: on success within the bounds, on failure cleared. -/
structure Good (r : Res) : Prop where
  success : r.ok = true → Fit r.rcd ∧ Shift r.host ∧ Shift r.guest
  failure : r.ok = false → r.rcd = {} ∧ r.host = 0 ∧ r.guest = 0

/-- The calls of the module. -/
inductive Call where
  | decode (x : Xlate) (hv reloc : Bool) (address real : BitVec 64)
  | lookup (hv reloc : Bool) (address real : BitVec 64)
  | keep (x : Xlate)
  | fetch (address real : BitVec 64)
deriving DecidableEq, Repr

/-- One call: the result, if any, and the state after it. -/
def callStep (st : St) : Call → Except Bad (Option Res × St)
  | .decode x hv reloc a r =>
    match decode st x hv reloc a r with
    | .error e => .error e
    | .ok (res, _, st) => .ok (some res, st)
  | .lookup hv reloc a r =>
    match lookup st hv reloc a r with
    | .error e => .error e
    | .ok res => .ok (some res, st)
  | .keep x =>
    match partialInsert st.partials x with
    | .error e => .error e
    | .ok l => .ok (none, { st with partials := l })
  | .fetch a r => .ok (none, { st with partials := (addressLookup st.partials a r).2 })

/-- A history of calls: the results and the state. -/
def run : St → List Call → Except Bad (List Res × St)
  | st, [] => .ok ([], st)
  | st, c :: cs =>
    match callStep st c with
    | .error e => .error e
    | .ok (r, st) =>
      match run st cs with
      | .error e => .error e
      | .ok (rs, st) => .ok (r.toList ++ rs, st)

/-! ### The writer -/

theorem radixWalk_ok {x : Qt.Radix} (h : Fit x) : ∃ w, Qt.radixWalk x = .ok w := by
  unfold Qt.radixWalk
  by_cases h1 : x.nrPtes ≠ 0 ∧ x.nrWalks = 1
  · rw [if_pos h1]
    have := h.typed h1.2
    cases ht : x.type with
    | unspecified => exact absurd ht this
    | guestReal => exact ⟨_, rfl⟩
    | hostRadix => exact ⟨_, rfl⟩
  · rw [if_neg h1]
    by_cases h2 : x.nrPtes ≠ 0 ∧ x.nrWalks > 1
    · rw [if_pos h2, if_pos ⟨h.ptes, h.walks⟩]; exact ⟨_, rfl⟩
    · rw [if_neg h2]; exact ⟨_, rfl⟩

theorem walkIf_ok {x : Qt.Radix} (h : Fit x) (c : Bool) : ∃ w, Qt.walkIf c x = .ok w := by
  unfold Qt.walkIf
  cases c with
  | false => exact ⟨_, rfl⟩
  | true => exact radixWalk_ok h

theorem putRpnIf_ok {s : Nat} (h : Shift s) (c v : Bool) (ra : BitVec 64) : ∃ b, Qt.putRpnIf c ra v s = .ok b := by
  unfold Qt.putRpnIf
  cases c with
  | false => exact ⟨_, rfl⟩
  | true =>
    unfold Qt.rpnBytes
    simp only [if_true]
    have : s < 64 := by unfold Shift PageSize at h; omega
    have : (if v = true then s % 256 else 16) < 64 := by
      split
      · rw [Nat.mod_eq_of_lt (by omega)]; exact this
      · omega
    rw [if_pos this]; exact ⟨_, rfl⟩

/-- The walks and page sizes of a record are within the bounds. -/
structure RecordFits (r : Qt.Record) : Prop where
  insn : Fit r.radixInsn
  data : Fit r.radixData
  insnShift : Shift r.insnPageShift
  dataShift : Shift r.dataPageShift

/-- The writer stores records whose walks are within the bounds: no assertion fails and no shift is out of range, neither for
the first record nor for a later one. -/
theorem C22_written {prev cur : Qt.Record} (hp : RecordFits prev) (hc : RecordFits cur) (magic version : BitVec 32) :
    (∃ b, Qt.headerBytes magic version cur = .ok b) ∧ ∃ b, Qt.recordBytes prev cur = .ok b := by
  constructor
  · obtain ⟨w, hw⟩ := radixWalk_ok hc.insn
    obtain ⟨b, hb⟩ := putRpnIf_ok hc.insnShift cur.insnRaValid cur.insnPageShiftValid cur.insnRa
    unfold Qt.headerBytes
    rw [hw]
    simp only [bind, Qt.WRes.bind]
    rw [hb]
    exact ⟨_, rfl⟩
  · obtain ⟨w1, hw1⟩ := walkIf_ok hp.data prev.dataRaValid
    obtain ⟨w2, hw2⟩ := walkIf_ok hc.insn (cur.insnRaValid && Qt.iarChange prev cur)
    obtain ⟨b1, hb1⟩ := putRpnIf_ok hp.dataShift prev.dataRaValid prev.dataPageShiftValid prev.dataRa
    obtain ⟨b2, hb2⟩ := putRpnIf_ok hc.insnShift (cur.insnRaValid && Qt.iarChange prev cur) cur.insnPageShiftValid cur.insnRa
    unfold Qt.recordBytes
    simp only [bind, Qt.WRes.bind]
    rw [hw1]; simp only
    rw [hw2]; simp only
    rw [hb1]; simp only
    rw [hb2]
    exact ⟨_, rfl⟩

/-! ### The invariant -/

/-- An entry of the ERAT. -/
structure EntryOk (v : Erat.Val Qt.Radix) : Prop where
  fit : Fit v.rcd
  pos : 1 ≤ v.rcd.nrWalks
  host : PageSize v.host
  guest : PageSize v.guest

def Inv (st : St) : Prop := ∀ k v, st.erat k = some v → EntryOk v

theorem inv_init : Inv {} := by intro k v h; simp [Erat.init, Cache.empty] at h

theorem pageSize_min {a b : Nat} (ha : PageSize a) (hb : PageSize b) : Erat.PageSize (min a b) := by
  unfold PageSize at ha hb; unfold Erat.PageSize; omega

theorem insert_inv {st : St} (hi : Inv st) {host guest : Nat} (hh : PageSize host) (hg : PageSize guest) {rcd : Qt.Radix}
    (hf : Fit rcd) (hp : 1 ≤ rcd.nrWalks) (a r : BitVec 64) :
    ∃ e, Erat.insert st.erat host a r rcd guest = some e ∧ ∀ k v, e k = some v → EntryOk v := by
  unfold Erat.insert
  rw [Erat.mkKey_of (pageSize_min hh hg)]
  refine ⟨_, rfl, ?_⟩
  intro k v hv
  unfold Cache.put at hv
  split at hv
  · injection hv with hv
    subst hv
    cases ho : st.erat k with
    | none => exact ⟨hf, hp, hh, hg⟩
    | some w =>
      have := hi k w ho
      exact ⟨hf, hp, this.host, hg⟩
  · exact hi k v hv

theorem foldl_max_le {l : List Nat} {b : Nat} (h : ∀ x ∈ l, x ≤ b) : ∀ a, a ≤ b → l.foldl max a ≤ b := by
  induction l with
  | nil => intro a ha; exact ha
  | cons x l ih =>
    intro a ha
    rw [List.foldl_cons]
    have := h x (by simp)
    exact ih (fun y hy => h y (List.mem_cons_of_mem _ hy)) _ (by omega)

theorem nested_fit {n : Nested} (h : NestedOk n) : Fit n.radix ∧ 1 ≤ n.radix.nrWalks := by
  have hl : n.radix.nrWalks = n.rows.length + 1 := by simp [Nested.radix]
  refine ⟨⟨?_, ?_, ?_, fun _ => by omega⟩, by omega⟩
  · show arrayMax _ ≤ 4
    apply foldl_max_le _ _ (by omega)
    intro x hx
    rw [List.mem_map] at hx
    obtain ⟨r, hr, rfl⟩ := hx
    rcases List.mem_append.1 hr with hr | hr
    · exact (h.all r hr).2.2
    · rw [List.mem_singleton] at hr; subst hr; exact h.final.2.2
  · rw [hl]; rcases h.rows with e | e <;> omega
  · rw [hl]; rcases h.rows with e | e <;> omega

theorem host_fit {h : Host} (hh : HostOk h) : Fit h.radix ∧ 1 ≤ h.radix.nrWalks := by
  refine ⟨⟨hh.2.2, by show 1 ≤ 5; omega, ?_, fun _ => Nat.le_refl 1⟩, by show 1 ≤ 1; omega⟩
  intro _; show Qt.XlateType.guestReal ≠ _; simp

theorem failed_good : Good { ok := false } := ⟨by simp, fun _ => ⟨rfl, rfl, rfl⟩⟩

theorem finishDecode_ok {st : St} (hi : Inv st) {rcd : Qt.Radix} {host guest ins : Nat} (hh : PageSize host) (hg : Shift guest)
    (hin : PageSize ins) (hf : Fit rcd) (hp : 1 ≤ rcd.nrWalks) (a r : BitVec 64) (left : Bool) :
    ∃ res st', finishDecode st rcd host guest ins a r left = .ok (res, st') ∧ Good res ∧ Inv st' := by
  obtain ⟨e, he, hv⟩ := insert_inv hi hh hin hf hp a r
  unfold finishDecode
  rw [he]
  refine ⟨_, _, rfl, ?_, hv⟩
  cases left with
  | true => exact failed_good
  | false => exact ⟨fun _ => ⟨hf, Or.inr hh, hg⟩, by simp⟩

/-- What decoding a complete walk can do. -/
theorem decodeWalk_ok {st : St} (hi : Inv st) (x : Xlate) (hv reloc : Bool) (a r : BitVec 64) :
    (∃ res st', decodeWalk st x hv reloc a r = .ok (res, st') ∧ Good res ∧ Inv st') ∨
    (decodeWalk st x hv reloc a r = .error .assert ∧ reloc = true ∧
      (hv = true ∨ hv = false ∧ ∃ n s, nestedRadix ⟨0, x.lpid, x.pid, a⟩ ⟨x.walks.take x.nwalks, st.caches⟩ = .ok (some n, s) ∧
        n.final.host.real &&& pageMask 12 ≠ r)) := by
  unfold decodeWalk
  cases hv with
  | true =>
    cases reloc with
    | true => exact Or.inr ⟨rfl, rfl, Or.inl rfl⟩
    | false =>
      left
      refine ⟨_, _, rfl, ?_, hi⟩
      exact Good.mk (fun _ => ⟨⟨by simp, by simp, by simp, by simp⟩, Or.inl rfl, Or.inl rfl⟩) (fun _ => And.intro rfl (And.intro rfl rfl))
  | false =>
    cases reloc with
    | true =>
      simp only
      unfold decodeNested
      obtain ⟨o, s, e, ho⟩ := post_nestedRadix ⟨0, x.lpid, x.pid, a⟩ ⟨x.walks.take x.nwalks, st.caches⟩
      rw [e]
      cases o with
      | none => exact Or.inl ⟨_, _, rfl, failed_good, hi⟩
      | some n =>
        have hn := ho n rfl
        simp only
        by_cases hm : n.final.host.real &&& pageMask 12 ≠ r
        · rw [if_pos hm]; exact Or.inr ⟨rfl, trivial, Or.inr ⟨trivial, n, s, rfl, hm⟩⟩
        · rw [if_neg hm]
          left
          obtain ⟨hf, hp⟩ := nested_fit hn
          exact finishDecode_ok (st := { st with caches := s.caches }) hi hn.final.1 (Or.inr hn.guest) hn.guest hf hp a r _
    | false =>
      left
      simp only
      unfold decodeGuestReal
      obtain ⟨o, s, e, ho⟩ := post_partitionTranslate X_HOST_RA ⟨0, x.lpid, x.pid, a⟩ ⟨x.walks.take x.nwalks, st.caches⟩
      rw [e]
      cases o with
      | none => exact ⟨_, _, rfl, failed_good, hi⟩
      | some h =>
        have hh := ho h rfl
        obtain ⟨hf, hp⟩ := host_fit hh
        exact finishDecode_ok (st := { st with caches := s.caches }) hi hh.1 (Or.inl rfl) hh.1 hf hp a r _

theorem inv_partials {st : St} (hi : Inv st) (l : List Xlate) : Inv { st with partials := l } := hi

theorem decode_ok {st : St} (hi : Inv st) {x : Xlate} {hv reloc : Bool} {a r : BitVec 64} {res : Res} {y : Xlate} {st' : St}
    (h : decode st x hv reloc a r = .ok (res, y, st')) : Good res ∧ Inv st' := by
  unfold decode at h
  cases h1 : partialLookup st.partials x with
  | error e => rw [h1] at h; simp at h
  | ok p =>
    obtain ⟨m, l⟩ := p
    rw [h1] at h
    simp only at h
    cases h2 : fixIncomplete (m.getD x) hv reloc r with
    | error e => rw [h2] at h; simp at h
    | ok z =>
      rw [h2] at h
      simp only at h
      rcases decodeWalk_ok (inv_partials hi l) z hv reloc a r with ⟨res', st'', e, hg, hi'⟩ | ⟨e, -⟩
      · rw [e] at h
        simp only [Except.ok.injEq, Prod.mk.injEq] at h
        obtain ⟨rfl, -, rfl⟩ := h
        exact ⟨hg, hi'⟩
      · rw [e] at h; simp at h

theorem eratGet_entry {st : St} (hi : Inv st) {s : Nat} {a r : BitVec 64} {v : Erat.Val Qt.Radix}
    (h : Erat.get st.erat s a r = some (some v)) : EntryOk v := by
  unfold Erat.get at h
  cases hk : Erat.mkKey s a r with
  | none => rw [hk] at h; simp at h
  | some k => rw [hk] at h; simp only [Option.some.injEq] at h; exact hi k v h

theorem eratSearch_ok {st : St} (hi : Inv st) (a r : BitVec 64) : ∀ (ss : List Nat), (∀ s ∈ ss, PageSize s) →
    ∃ o, eratSearch st.erat a r ss = .ok o ∧ ∀ v, o = some v → EntryOk v := by
  intro ss
  induction ss with
  | nil => intro _; exact ⟨none, rfl, by simp⟩
  | cons s ss ih =>
    intro h
    unfold eratSearch
    have hg : (Erat.get st.erat s a r).isSome := ((Erat.C19_total (R := Qt.Radix) []).2 st.erat s a r).2 (h s (by simp))
    cases he : Erat.get st.erat s a r with
    | none => rw [he] at hg; simp at hg
    | some o =>
      cases o with
      | none => exact ih fun x hx => h x (List.mem_cons_of_mem _ hx)
      | some v =>
        refine ⟨some v, rfl, ?_⟩
        intro w hw
        injection hw with hw
        rw [← hw]
        exact eratGet_entry hi he

theorem lookup_ok {st : St} (hi : Inv st) (hv reloc : Bool) (a r : BitVec 64) :
    ∃ res, lookup st hv reloc a r = .ok res ∧ Good res := by
  unfold lookup
  cases hv with
  | true =>
    exact ⟨_, rfl, fun _ => ⟨⟨by simp, by simp, by simp, by simp⟩, Or.inl rfl, Or.inl rfl⟩, by simp⟩
  | false =>
    rw [if_neg (by simp)]
    obtain ⟨o, e, ho⟩ := eratSearch_ok hi a r hostPageSizes hostPageSizes_ok
    rw [e]
    cases o with
    | none => exact ⟨_, rfl, failed_good⟩
    | some v =>
      have hv := ho v rfl
      simp only
      cases reloc with
      | false => exact ⟨_, rfl, fun _ => ⟨hv.fit, Or.inr hv.host, Or.inl rfl⟩, by simp⟩
      | true =>
        have h1 : v.guest < 64 := by have := hv.guest; unfold PageSize at this; omega
        have h2 := hv.fit.walks
        have h3 := hv.pos
        unfold setOffset
        rw [if_pos rfl, if_neg (by omega)]
        refine ⟨_, rfl, fun _ => ⟨⟨hv.fit.ptes, hv.fit.walks, hv.fit.typed, hv.fit.some⟩, Or.inr hv.host, Or.inr hv.guest⟩, by simp⟩

theorem callStep_ok {st : St} (hi : Inv st) {c : Call} {o : Option Res} {st' : St} (h : callStep st c = .ok (o, st')) :
    (∀ r, o = some r → Good r) ∧ Inv st' := by
  cases c with
  | decode x hv reloc a r =>
    unfold callStep at h
    dsimp only at h
    cases hd : decode st x hv reloc a r with
    | error e => rw [hd] at h; simp at h
    | ok p =>
      obtain ⟨res, y, st2⟩ := p
      rw [hd] at h
      simp only [Except.ok.injEq, Prod.mk.injEq] at h
      obtain ⟨rfl, rfl⟩ := h
      obtain ⟨h1, h2⟩ := decode_ok hi hd
      exact ⟨fun r hr => by injection hr with hr; rw [← hr]; exact h1, h2⟩
  | lookup hv reloc a r =>
    unfold callStep at h
    dsimp only at h
    obtain ⟨res, e, hg⟩ := lookup_ok hi hv reloc a r
    rw [e] at h
    simp only [Except.ok.injEq, Prod.mk.injEq] at h
    obtain ⟨rfl, rfl⟩ := h
    exact ⟨fun r hr => by injection hr with hr; rw [← hr]; exact hg, hi⟩
  | keep x =>
    unfold callStep at h
    dsimp only at h
    cases hk : partialInsert st.partials x with
    | error e => rw [hk] at h; simp at h
    | ok l =>
      rw [hk] at h
      simp only [Except.ok.injEq, Prod.mk.injEq] at h
      obtain ⟨rfl, rfl⟩ := h
      exact ⟨by simp, hi⟩
  | fetch a r =>
    unfold callStep at h
    dsimp only at h
    simp only [Except.ok.injEq, Prod.mk.injEq] at h
    obtain ⟨rfl, rfl⟩ := h
    exact ⟨by simp, hi⟩

theorem run_ok : ∀ (cs : List Call) (st : St) (rs : List Res) (st' : St), Inv st → run st cs = .ok (rs, st') →
    (∀ r ∈ rs, Good r) ∧ Inv st' := by
  intro cs
  induction cs with
  | nil =>
    intro st rs st' hi h
    rw [run] at h
    simp only [Except.ok.injEq, Prod.mk.injEq] at h
    obtain ⟨rfl, rfl⟩ := h
    exact ⟨by simp, hi⟩
  | cons c cs ih =>
    intro st rs st' hi h
    rw [run] at h
    cases hc : callStep st c with
    | error e => rw [hc] at h; simp at h
    | ok p =>
      obtain ⟨o, st1⟩ := p
      rw [hc] at h
      simp only at h
      obtain ⟨h1, h2⟩ := callStep_ok hi hc
      cases hr : run st1 cs with
      | error e => rw [hr] at h; simp at h
      | ok p =>
        obtain ⟨rs1, st2⟩ := p
        rw [hr] at h
        simp only [Except.ok.injEq, Prod.mk.injEq] at h
        obtain ⟨rfl, rfl⟩ := h
        obtain ⟨h3, h4⟩ := ih st1 rs1 st2 h2 hr
        refine ⟨?_, h4⟩
        intro r hr
        rcases List.mem_append.1 hr with hr | hr
        · exact h1 r (by simpa using hr)
        · exact h3 r hr

/-- In every history of calls, with any walks, modes and addresses: every result of decoding or looking up a translation is
within the bounds of the trace format if it succeeded, and cleared if it failed. -/
theorem C22_history {cs : List Call} {rs : List Res} {st : St} (h : run {} cs = .ok (rs, st)) : ∀ r ∈ rs, Good r :=
  (run_ok cs {} rs st inv_init h).1

/-- After every history a lookup ends, without an access outside the arrays of the record. -/
theorem C22_lookup {cs : List Call} {rs : List Res} {st : St} (h : run {} cs = .ok (rs, st)) (hv reloc : Bool) (a r : BitVec 64) :
    ∃ res, lookup st hv reloc a r = .ok res ∧ Good res :=
  lookup_ok (run_ok cs {} rs st inv_init h).2 hv reloc a r

/-! ### What can stop the decoder -/

/-- The stored walks fit their arrays. -/
def PInv (st : St) : Prop := Inv st ∧ ∀ n ∈ st.partials, Fits n

theorem complete_ok {x : Xlate} (h : Fits x) : ∃ b, complete x = .ok b := by
  unfold complete
  by_cases h0 : x.nwalks = 0
  · rw [if_pos h0]; exact ⟨_, rfl⟩
  · rw [if_neg h0]
    have hlt : x.nwalks - 1 < x.walks.length := by have := h.size; have := h.count; omega
    rw [List.getElem?_eq_getElem hlt]
    exact ⟨_, rfl⟩

theorem fixIncomplete_ok {x : Xlate} (h : Fits x) (hv reloc : Bool) (r : BitVec 64) :
    (∃ y, fixIncomplete x hv reloc r = .ok y ∧ Fits y ∧ y.lpid = x.lpid ∧ y.pid = x.pid) ∨
    (fixIncomplete x hv reloc r = .error .overflow ∧ x.nwalks = 38 ∧ hv = false ∧ reloc = true) := by
  obtain ⟨b, hb⟩ := complete_ok h
  unfold fixIncomplete
  rw [hb]
  cases b with
  | true => exact Or.inl ⟨x, rfl, h, rfl, rfl⟩
  | false =>
    simp only
    unfold fixup
    by_cases hc : (!hv && reloc) = true
    · rw [if_pos hc]
      by_cases hn : x.nwalks < 38
      · left
        have hlt : x.nwalks < x.walks.length := by rw [h.size]; exact hn
        rw [List.getElem?_eq_getElem hlt]
        exact ⟨_, rfl, ⟨by simp [h.size], hn⟩, rfl, rfl⟩
      · right
        have := h.count
        have h38 : x.nwalks = 38 := by omega
        rw [List.getElem?_eq_none (by rw [h.size]; omega)]
        simp at hc
        exact ⟨rfl, h38, hc.1, hc.2⟩
    · rw [if_neg hc]; exact Or.inl ⟨x, rfl, h, rfl, rfl⟩

theorem merge_context {o n m : Xlate} (h : merge o n = .ok m) : m.lpid = n.lpid ∧ m.pid = n.pid := by
  unfold merge at h
  split at h
  · simp at h
  · rename_i hc
    rw [not_or, Decidable.not_not, Decidable.not_not] at hc
    split at h
    · simp at h
    · split at h
      · simp at h
      · split at h
        · simp at h
        · split at h
          · simp at h
          · injection h with h; subst h; exact hc

theorem partialLookup_context {x m : Xlate} : ∀ (l l' : List Xlate), partialLookup l x = .ok (some m, l') →
    m.lpid = x.lpid ∧ m.pid = x.pid := by
  intro l
  induction l with
  | nil => intro l' h; simp [partialLookup] at h
  | cons n l ih =>
    intro l' h
    rw [partialLookup] at h
    split at h
    · split at h
      · simp at h
      · rename_i hm
        simp only [Except.ok.injEq, Prod.mk.injEq, Option.some.injEq] at h
        rw [← h.1]; exact merge_context hm
    · split at h
      · simp at h
      · rename_i hm
        simp only [Except.ok.injEq, Prod.mk.injEq] at h
        rw [h.1] at hm
        exact ih _ hm

theorem pinv_run : ∀ (cs : List Call) (st : St) (rs : List Res) (st' : St), (∀ n ∈ st.partials, Fits n) →
    (∀ c ∈ cs, match c with | .decode x _ _ _ _ => Fits x | .keep x => Fits x | _ => True) →
    run st cs = .ok (rs, st') → ∀ n ∈ st'.partials, Fits n := by
  intro cs
  induction cs with
  | nil =>
    intro st rs st' hf _ h
    rw [run] at h
    simp only [Except.ok.injEq, Prod.mk.injEq] at h
    obtain ⟨-, rfl⟩ := h
    exact hf
  | cons c cs ih =>
    intro st rs st' hf hc h
    rw [run] at h
    cases he : callStep st c with
    | error e => rw [he] at h; simp at h
    | ok p =>
      obtain ⟨o, st1⟩ := p
      rw [he] at h
      simp only at h
      cases hr : run st1 cs with
      | error e => rw [hr] at h; simp at h
      | ok p =>
        obtain ⟨rs1, st2⟩ := p
        rw [hr] at h
        simp only [Except.ok.injEq, Prod.mk.injEq] at h
        obtain ⟨-, rfl⟩ := h
        refine ih st1 rs1 st2 ?_ (fun c' hc' => hc c' (List.mem_cons_of_mem _ hc')) hr
        have hself := hc c (by simp)
        have hsrc : ∀ x, Fits x → From [x] x := fun x _ w hw => ⟨x, by simp, hw, rfl, rfl⟩
        cases c with
        | keep x =>
          unfold callStep at he
          dsimp only at he
          cases hk : partialInsert st.partials x with
          | error e => rw [hk] at he; simp at he
          | ok l =>
            rw [hk] at he
            simp only [Except.ok.injEq, Prod.mk.injEq] at he
            obtain ⟨-, rfl⟩ := he
            have := (partialInsert_ok (src := x :: st.partials) (x := x) ⟨hself, fun w hw => ⟨x, by simp, hw, rfl, rfl⟩⟩ st.partials
              (fun n hn => ⟨hf n hn, fun w hw => ⟨n, List.mem_cons_of_mem _ hn, hw, rfl, rfl⟩⟩)).1 l hk
            exact fun n hn => (this n hn).1
        | fetch a r =>
          unfold callStep at he
          dsimp only at he
          simp only [Except.ok.injEq, Prod.mk.injEq] at he
          obtain ⟨-, rfl⟩ := he
          exact fun n hn => hf n ((addressLookup_mem a r st.partials).1 n hn)
        | lookup hv reloc a r =>
          unfold callStep at he
          dsimp only at he
          cases hl : lookup st hv reloc a r with
          | error e => rw [hl] at he; simp at he
          | ok res =>
            rw [hl] at he
            simp only [Except.ok.injEq, Prod.mk.injEq] at he
            obtain ⟨-, rfl⟩ := he
            exact hf
        | decode x hv reloc a r =>
          unfold callStep at he
          dsimp only at he
          cases hd : decode st x hv reloc a r with
          | error e => rw [hd] at he; simp at he
          | ok p =>
            obtain ⟨res, y, st3⟩ := p
            rw [hd] at he
            simp only [Except.ok.injEq, Prod.mk.injEq] at he
            obtain ⟨-, rfl⟩ := he
            unfold decode at hd
            cases h1 : partialLookup st.partials x with
            | error e => rw [h1] at hd; simp at hd
            | ok p =>
              obtain ⟨m, l⟩ := p
              rw [h1] at hd
              simp only at hd
              have hl := ((partialLookup_ok (src := x :: st.partials) (x := x) ⟨hself, fun w hw => ⟨x, by simp, hw, rfl, rfl⟩⟩ st.partials
                (fun n hn => ⟨hf n hn, fun w hw => ⟨n, List.mem_cons_of_mem _ hn, hw, rfl, rfl⟩⟩)).1 m l h1).1
              cases h2 : fixIncomplete (m.getD x) hv reloc r with
              | error e => rw [h2] at hd; simp at hd
              | ok z =>
                rw [h2] at hd
                simp only at hd
                have hpart : ∀ res st4, decodeWalk { st with partials := l } z hv reloc a r = .ok (res, st4) → st4.partials = l := by
                  intro res st4 hw
                  unfold decodeWalk at hw
                  split at hw
                  · simp at hw
                  · unfold decodeNested at hw
                    split at hw
                    · simp at hw
                    · simp only [Except.ok.injEq, Prod.mk.injEq] at hw; rw [← hw.2]
                    · split at hw
                      · simp at hw
                      · unfold finishDecode at hw
                        split at hw
                        · simp at hw
                        · simp only [Except.ok.injEq, Prod.mk.injEq] at hw; rw [← hw.2]
                  · simp only [Except.ok.injEq, Prod.mk.injEq] at hw; rw [← hw.2]
                  · unfold decodeGuestReal at hw
                    split at hw
                    · simp at hw
                    · simp only [Except.ok.injEq, Prod.mk.injEq] at hw; rw [← hw.2]
                    · unfold finishDecode at hw
                      split at hw
                      · simp at hw
                      · simp only [Except.ok.injEq, Prod.mk.injEq] at hw; rw [← hw.2]
                cases h3 : decodeWalk { st with partials := l } z hv reloc a r with
                | error e => rw [h3] at hd; simp at hd
                | ok p =>
                  obtain ⟨res2, st5⟩ := p
                  rw [h3] at hd
                  simp only [Except.ok.injEq, Prod.mk.injEq] at hd
                  rw [← hd.2.2, hpart res2 st5 h3]
                  exact fun n hn => hf n (hl n hn)

/-- The walk passed to a call fits the array. -/
def ArgFits : Call → Prop
  | .decode x _ _ _ _ => Fits x
  | .keep x => Fits x
  | _ => True

/-- What decoding can do after a history of calls with walks that fit: return a result, overflow the array of walks, or fail
an assertion, the latter only for a relocated access, either by the hypervisor or with a real address that differs from that
of the walk. -/
theorem C51_outcomes_partial {cs : List Call} {rs : List Res} {st : St} (h : run {} cs = .ok (rs, st)) (hc : ∀ c ∈ cs, ArgFits c)
    {x : Xlate} (hx : Fits x) (hv reloc : Bool) (a r : BitVec 64) :
    (∃ res y st', decode st x hv reloc a r = .ok (res, y, st') ∧ Good res) ∨
    decode st x hv reloc a r = .error .overflow ∨
    (decode st x hv reloc a r = .error .assert ∧ reloc = true ∧
      (hv = true ∨ ∃ y c n s, nestedRadix ⟨0, y.lpid, y.pid, a⟩ ⟨steps y, c⟩ = .ok (some n, s) ∧
        y.lpid = x.lpid ∧ y.pid = x.pid ∧ n.final.host.real &&& pageMask 12 ≠ r)) := by
  have hi := (run_ok cs {} rs st inv_init h).2
  have hf := pinv_run cs {} rs st (by simp) (fun c hcc => by have := hc c hcc; cases c <;> exact this) h
  unfold decode
  obtain ⟨p1, p2⟩ := partialLookup_ok (src := x :: st.partials) (x := x) ⟨hx, fun w hw => ⟨x, by simp, hw, rfl, rfl⟩⟩ st.partials
    (fun n hn => ⟨hf n hn, fun w hw => ⟨n, List.mem_cons_of_mem _ hn, hw, rfl, rfl⟩⟩)
  cases h1 : partialLookup st.partials x with
  | error e => right; left; rw [p2 e h1]
  | ok p =>
    obtain ⟨m, l⟩ := p
    simp only
    have hm : Fits (m.getD x) := by
      cases m with
      | none => exact hx
      | some m => exact ((p1 _ l h1).2 m rfl).1
    have hmc : (m.getD x).lpid = x.lpid ∧ (m.getD x).pid = x.pid := by
      cases m with
      | none => exact ⟨rfl, rfl⟩
      | some m => exact partialLookup_context st.partials l h1
    rcases fixIncomplete_ok hm hv reloc r with ⟨y, e, hy, hlp, hpi⟩ | ⟨e, -⟩
    · rw [e]
      simp only
      rcases decodeWalk_ok (inv_partials hi l) y hv reloc a r with ⟨res, st', e2, hg, -⟩ | ⟨e2, hre, hw⟩
      · rw [e2]; exact Or.inl ⟨_, _, _, rfl, hg⟩
      · rw [e2]
        right; right
        refine ⟨rfl, hre, ?_⟩
        rcases hw with hw | ⟨-, n, s, hn, hne⟩
        · exact Or.inl hw
        · exact Or.inr ⟨y, _, n, s, hn, by rw [hlp, hmc.1], by rw [hpi, hmc.2], hne⟩
    · rw [e]; exact Or.inr (Or.inl rfl)

/-! ### Concrete walks -/

def gw (l : BitVec 32) (ra : BitVec 64) : Walk := { guestPte := true, level := l, ra := ra }
def pw (l : BitVec 32) (ra : BitVec 64) : Walk := { hostRa := true, level := l, ra := ra }
def nw (l : BitVec 32) (ra : BitVec 64) : Walk := { hostRa := true, guestPte := true, level := l, ra := ra }
def fg (ra : BitVec 64) : Walk := { finalRa := true, guestPte := true, ra := ra }
def fh (ra : BitVec 64) : Walk := { finalRa := true, hostRa := true, guestPte := true, ra := ra }

def walkOf (ws : List Walk) : Xlate :=
  { dSide := false, lpid := 1, pid := 2, nwalks := ws.length, walks := ws ++ List.replicate (38 - ws.length) {} }

/-- Three levels of the process table, each reached through three levels of the partition table, with pages of 2 MB. -/
def exSteps (host : BitVec 64) : List Walk :=
  [gw 6 0x10000, pw 6 0x900000, pw 4 0x901000, pw 2 0x902000, nw 6 0x8010000] ++
  [gw 4 0x20000, pw 6 0x900000, pw 4 0x901000, pw 2 0x902000, nw 4 0x8020000] ++
  [gw 2 0x30000, pw 6 0x900000, pw 4 0x901000, pw 2 0x902000, nw 2 0x8030000] ++
  [fg 0x400000, pw 6 0x900000, pw 4 0x901000, pw 2 0x902008, fh host]

/-- The same with a fourth level of the process table: a page of 4 KB. -/
def exSmall (host : BitVec 64) : List Walk :=
  [gw 6 0x11000, pw 6 0x900000, pw 4 0x901000, pw 2 0x902000, nw 6 0x8011000] ++
  [gw 4 0x21000, pw 6 0x900000, pw 4 0x901000, pw 2 0x902000, nw 4 0x8021000] ++
  [gw 2 0x31000, pw 6 0x900000, pw 4 0x901000, pw 2 0x902000, nw 2 0x8031000] ++
  [gw 0 0x41000, pw 6 0x900000, pw 4 0x901000, pw 2 0x902000, nw 0 0x8041000] ++
  [fg 0x400000, pw 6 0x900000, pw 4 0x901000, pw 2 0x902008, fh host]

/-- What a test can see of a result. -/
structure Seen where
  ok : Bool
  host : Nat
  guest : Nat
  walks : Nat
  ptes : Nat
  guestRas : List (BitVec 64)
deriving DecidableEq

def seen (r : Res) : Seen :=
  ⟨r.ok, r.host, r.guest, r.rcd.nrWalks, r.rcd.nrPtes, (List.range r.rcd.nrWalks).map r.rcd.guestRas⟩

def results (cs : List Call) : Option (List Seen) :=
  (run {} cs).toOption.map fun p => p.1.map seen

/-- A case for the theorems: a nested walk is decoded, then found by a lookup in the same page, and not found for a page
without a translation. -/
example : results [.decode (walkOf (exSteps 0x6000000)) false true 0x12345678 0x6000000,
      .lookup false true 0x12345999 0x6000000, .lookup false true 0x99999999 0x6000000] =
    some [⟨true, 21, 21, 4, 3, [0x10000, 0x20000, 0x30000, 0x400000]⟩,
      ⟨true, 21, 21, 4, 3, [0x10000, 0x20000, 0x30000, 0x545999]⟩, ⟨false, 0, 0, 0, 0, []⟩] := by decide +kernel

example : Fits (walkOf (exSteps 0x6000000)) := ⟨by decide, by decide⟩

/-- Decoding stops the program for a relocated access by the hypervisor, for a walk that ends at another address than that
of the instruction, and for an unfinished walk that fills the array. -/
theorem C51_refuted :
    decode {} (walkOf []) true true 0 0 = .error .assert ∧
    decode {} (walkOf (exSteps 0x6000000)) false true 0x12345678 0x7000000 = .error .assert ∧
    decode {} (walkOf (List.replicate 38 (pw 6 0))) false true 0 0 = .error .overflow := by
  refine ⟨rfl, ?_, ?_⟩
  · have : (match decode {} (walkOf (exSteps 0x6000000)) false true 0x12345678 0x7000000 with
      | .error .assert => true | _ => false) = true := by decide +kernel
    revert this
    generalize decode {} (walkOf (exSteps 0x6000000)) false true 0x12345678 0x7000000 = o
    cases o with
    | error e => cases e <;> simp
    | ok p => simp
  · have : (match decode {} (walkOf (List.replicate 38 (pw 6 0))) false true 0 0 with
      | .error .overflow => true | _ => false) = true := by decide +kernel
    revert this
    generalize decode {} (walkOf (List.replicate 38 (pw 6 0))) false true 0 0 = o
    cases o with
    | error e => cases e <;> simp
    | ok p => simp

/-! ### C52: a lookup after a decode -/

/-- The parts of a decoded walk that do not depend on the offset in the page. -/
def sameTables (a b : Qt.Radix) : Prop :=
  a.type = b.type ∧ a.nrPtes = b.nrPtes ∧ a.nrWalks = b.nrWalks ∧ a.hostPtes = b.hostPtes ∧ a.hostRas = b.hostRas ∧
  ∀ i, i + 1 ≠ a.nrWalks → a.guestRas i = b.guestRas i

theorem eratSearch_first {e : Erat.St Qt.Radix} {a r : BitVec 64} {v : Erat.Val Qt.Radix} {s : Nat} :
    ∀ (pre post : List Nat), (∀ t ∈ pre, Erat.get e t a r = some none) → Erat.get e s a r = some (some v) →
    eratSearch e a r (pre ++ s :: post) = .ok (some v) := by
  intro pre
  induction pre with
  | nil => intro post _ h; simp only [List.nil_append]; rw [eratSearch, h]
  | cons t pre ih =>
    intro post hp h
    rw [List.cons_append, eratSearch, hp t (by simp)]
    exact ih post (fun x hx => hp x (List.mem_cons_of_mem _ hx)) h

theorem split_sizes {s : Nat} (hs : PageSize s) : ∃ pre post, hostPageSizes = pre ++ s :: post ∧ ∀ t ∈ pre, PageSize t ∧ s < t := by
  unfold PageSize
  rcases hs with h | h | h | h <;> subst h
  · exact ⟨[30, 21, 16], [], rfl, by decide⟩
  · exact ⟨[30, 21], [12], rfl, by decide⟩
  · exact ⟨[30], [16, 12], rfl, by decide⟩
  · exact ⟨[], [21, 16, 12], rfl, by decide⟩

theorem get_insert {e e' : Erat.St Qt.Radix} {host guest : Nat} {a r : BitVec 64} {rcd : Qt.Radix}
    (hs : Erat.PageSize (min host guest)) (h : Erat.insert e host a r rcd guest = some e') {t : Nat} (ht : Erat.PageSize t)
    (b q : BitVec 64) :
    Erat.get e' t b q = some (if (⟨aligned t b, aligned t q, t⟩ : Erat.Key) = ⟨aligned (min host guest) a, aligned (min host guest) r, min host guest⟩
      then some (Erat.update rcd host guest (e ⟨aligned (min host guest) a, aligned (min host guest) r, min host guest⟩))
      else e ⟨aligned t b, aligned t q, t⟩) := by
  unfold Erat.insert at h
  rw [Erat.mkKey_of hs] at h
  injection h with h
  subst h
  unfold Erat.get
  rw [Erat.mkKey_of ht]
  unfold Cache.put
  simp only
  by_cases hk : (⟨aligned t b, aligned t q, t⟩ : Erat.Key) = ⟨aligned (min host guest) a, aligned (min host guest) r, min host guest⟩
  · rw [if_pos hk, if_pos hk, hk]
  · rw [if_neg hk, if_neg hk]

theorem setOffset_mod {s : Nat} (hs : s < 64) (g a : BitVec 64) :
    ((g &&& pageMask s) ||| (a &&& ~~~ (pageMask s))).toNat % 2 ^ s = a.toNat % 2 ^ s := by
  rw [← pageOffset_toNat hs, ← pageOffset_toNat hs]
  congr 1
  unfold pageOffset
  generalize pageMask s = m
  ext i hi
  simp only [BitVec.getElem_and, BitVec.getElem_or, BitVec.getElem_not]
  generalize m[i] = x
  generalize g[i] = y
  generalize a[i] = z
  revert x y z
  decide

theorem setOffset_div {s : Nat} (hs : s < 64) (g a : BitVec 64) :
    ((g &&& pageMask s) ||| (a &&& ~~~ (pageMask s))).toNat / 2 ^ s = g.toNat / 2 ^ s := by
  rw [← aligned_eq_iff hs]
  unfold aligned
  generalize pageMask s = m
  ext i hi
  simp only [BitVec.getElem_and, BitVec.getElem_or, BitVec.getElem_not]
  generalize m[i] = x
  generalize g[i] = y
  generalize a[i] = z
  revert x y z
  decide

/-- A relocated guest access is decoded with success, and the page of the translation (the smaller of the two page sizes) and
the larger pages around it were not translated before.  Then a lookup anywhere in the page succeeds and gives the same
tables, page sizes and type, and the offset of the last guest address is that of the address looked up. -/
theorem C52_lookup_partial {cs : List Call} {rs : List Res} {st : St} (h : run {} cs = .ok (rs, st)) {x y : Xlate} {a r : BitVec 64}
    {res : Res} {st' : St} (hd : decode st x false true a r = .ok (res, y, st')) (hok : res.ok = true)
    {b q : BitVec 64} (hb : b.toNat / 2 ^ (min res.host res.guest) = a.toNat / 2 ^ (min res.host res.guest))
    (hq : q.toNat / 2 ^ (min res.host res.guest) = r.toNat / 2 ^ (min res.host res.guest))
    (hnew : ∀ s, PageSize s → min res.host res.guest ≤ s → Erat.get st.erat s b q = some none) :
    ∃ found, lookup st' false true b q = .ok found ∧ found.ok = true ∧ found.host = res.host ∧ found.guest = res.guest ∧
      sameTables found.rcd res.rcd ∧
      (found.rcd.guestRas (res.rcd.nrWalks - 1)).toNat % 2 ^ res.guest = b.toNat % 2 ^ res.guest ∧
      (found.rcd.guestRas (res.rcd.nrWalks - 1)).toNat / 2 ^ res.guest =
        (res.rcd.guestRas (res.rcd.nrWalks - 1)).toNat / 2 ^ res.guest := by
  have hi := (run_ok cs {} rs st inv_init h).2
  unfold decode at hd
  cases h1 : partialLookup st.partials x with
  | error e => rw [h1] at hd; simp at hd
  | ok p =>
    obtain ⟨m, l⟩ := p
    rw [h1] at hd
    simp only at hd
    cases h2 : fixIncomplete (m.getD x) false true r with
    | error e => rw [h2] at hd; simp at hd
    | ok z =>
      rw [h2] at hd
      simp only at hd
      cases h3 : decodeWalk { st with partials := l } z false true a r with
      | error e => rw [h3] at hd; simp at hd
      | ok p =>
        obtain ⟨res2, st2⟩ := p
        rw [h3] at hd
        simp only [Except.ok.injEq, Prod.mk.injEq] at hd
        obtain ⟨rfl, -, rfl⟩ := hd
        unfold decodeWalk decodeNested at h3
        simp only at h3
        obtain ⟨o, s, e, ho⟩ := post_nestedRadix ⟨0, z.lpid, z.pid, a⟩ ⟨z.walks.take z.nwalks, st.caches⟩
        rw [e] at h3
        cases o with
        | none =>
          simp only [Except.ok.injEq, Prod.mk.injEq] at h3
          rw [← h3.1] at hok; simp at hok
        | some n =>
          have hn := ho n rfl
          simp only at h3
          split at h3
          · simp at h3
          · unfold finishDecode at h3
            simp only at h3
            cases h4 : Erat.insert st.erat n.final.host.pageSize a r n.radix n.guestPageSize with
            | none => rw [h4] at h3; simp at h3
            | some e4 =>
              rw [h4] at h3
              simp only [Except.ok.injEq, Prod.mk.injEq] at h3
              obtain ⟨hres, rfl⟩ := h3
              cases hl : (!s.rest.isEmpty) with
              | true => rw [hl, if_pos rfl] at hres; rw [← hres] at hok; simp at hok
              | false =>
                rw [hl, if_neg (by simp)] at hres
                subst hres
                simp only at hb hq hnew hok ⊢
                have hps := hn.final.1
                have hgs := hn.guest
                have hmin := pageSize_min hps hgs
                have hlt : min n.final.host.pageSize n.guestPageSize < 64 := hmin.lt
                have ea : aligned (min n.final.host.pageSize n.guestPageSize) b = aligned (min n.final.host.pageSize n.guestPageSize) a :=
                  (aligned_eq_iff hlt b a).2 hb
                have er : aligned (min n.final.host.pageSize n.guestPageSize) q = aligned (min n.final.host.pageSize n.guestPageSize) r :=
                  (aligned_eq_iff hlt q r).2 hq
                have hold := hnew _ hmin (Nat.le_refl _)
                unfold Erat.get at hold
                rw [Erat.mkKey_of hmin] at hold
                simp only [Option.some.injEq] at hold
                rw [ea, er] at hold
                have hget : Erat.get e4 (min n.final.host.pageSize n.guestPageSize) b q =
                    some (some ⟨n.radix, n.final.host.pageSize, n.guestPageSize⟩) := by
                  rw [get_insert hmin h4 hmin b q, ea, er, if_pos rfl, hold]; rfl
                obtain ⟨pre, post, hsz, hpre⟩ := split_sizes hmin
                have hfind : eratSearch e4 b q hostPageSizes = .ok (some ⟨n.radix, n.final.host.pageSize, n.guestPageSize⟩) := by
                  rw [hsz]
                  apply eratSearch_first pre post _ hget
                  intro t ht
                  obtain ⟨ht1, ht2⟩ := hpre t ht
                  have hne := hnew t ht1 (by omega)
                  rw [get_insert hmin h4 ht1 b q, if_neg]
                  · unfold Erat.get at hne
                    rw [Erat.mkKey_of ht1] at hne
                    exact hne
                  · intro hk
                    injection hk with _ _ hk
                    omega
                obtain ⟨hf, hp⟩ := nested_fit hn
                have hg64 : n.guestPageSize < 64 := by have := hn.guest; unfold PageSize at this; omega
                have hw := hf.walks
                unfold lookup
                simp only [Bool.false_eq_true, if_false]
                rw [hfind]
                simp only [if_true]
                unfold setOffset
                simp only
                rw [if_neg (by omega)]
                refine ⟨_, rfl, rfl, rfl, rfl, ⟨rfl, rfl, rfl, rfl, rfl, ?_⟩, ?_, ?_⟩
                · intro i hi
                  simp only at hi ⊢
                  rw [if_neg (by omega)]
                · simp only [if_true]
                  exact setOffset_mod hg64 _ _
                · simp only [if_true]
                  exact setOffset_div hg64 _ _

/-- Without the condition: after a page of 2 MB was remapped as pages of 4 KB at the same real address, the decoded
translation is not the one found; and a failed decode leaves a translation that a lookup returns. -/
theorem C52_refuted :
    results [.decode (walkOf (exSteps 0x6000000)) false true 0x12345678 0x6000000,
        .decode (walkOf (exSmall 0x6000000)) false true 0x12345678 0x6000000, .lookup false true 0x12345678 0x6000000] =
      some [⟨true, 21, 21, 4, 3, [0x10000, 0x20000, 0x30000, 0x400000]⟩,
        ⟨true, 21, 12, 5, 3, [0x11000, 0x21000, 0x31000, 0x41000, 0x400000]⟩,
        ⟨true, 21, 21, 4, 3, [0x10000, 0x20000, 0x30000, 0x545678]⟩] ∧
    results [.decode (walkOf (exSteps 0x6000000 ++ [fh 0x5000000])) false true 0x12345678 0x6000000,
        .lookup false true 0x12345678 0x6000000] =
      some [⟨false, 0, 0, 0, 0, []⟩, ⟨true, 21, 21, 4, 3, [0x10000, 0x20000, 0x30000, 0x545678]⟩] := by
  constructor <;> decide +kernel

end Htm.Xl
