import Verif.Htm.SpecGuestFile
import Verif.Htm.PropsGuest
import Verif.Htm.PropsConvert
import Verif.Qt.WalkCarried
import Verif.Qt.Refill
/-!
C83: the trace that the dump of a guest process is converted to has the translations of the walks in the dump.
-/
namespace Htm.Guest
open Htm Htm.Spec Htm.Mmu Htm.Pwc
open Htm.Xl (Res St)

theorem allAppear_length {P : Space} {l : List Qt.Record} {m : List View} (h : AllAppear P l m) : l.length = m.length := by
  induction h with
  | nil => rfl
  | cons _ _ ih => rw [List.length_cons, List.length_cons, ih]

theorem allAppear_get {P : Space} {l : List Qt.Record} {m : List View} (h : AllAppear P l m) : ∀ (i : Nat) (v : View), m[i]? = some v →
    ∃ r, l[i]? = some r ∧ Appears P r v := by
  induction h with
  | nil => intro i v hi; cases hi
  | @cons r v l m h _ ih =>
    intro i v' hi
    cases i with
    | zero => cases hi; exact ⟨r, rfl, h⟩
    | succ i => exact ih i v' hi

theorem allAppear_mem {P : Space} {l : List Qt.Record} {m : List View} (h : AllAppear P l m) : ∀ r ∈ l, ∃ v ∈ m, Appears P r v := by
  induction h with
  | nil => intro r hr; cases hr
  | @cons r v l m h _ ih =>
    intro r' hr
    rcases List.mem_cons.1 hr with rfl | hr
    · exact ⟨v, List.mem_cons_self .., h⟩
    · obtain ⟨v', hv, h'⟩ := ih r' hr
      exact ⟨v', List.mem_cons_of_mem _ hv, h'⟩

theorem allAppear_chain {P : Space} {R : View → View → Prop} {Q : Qt.Record → Qt.Record → Prop} {F : View → Prop}
    (hq : ∀ r v s w, Appears P r v → Appears P s w → F v → F w → R v w → Q r s) :
    ∀ {l : List Qt.Record} {m : List View}, AllAppear P l m → (∀ v ∈ m, F v) → Qt.Spec.Chain R m → Qt.Spec.Chain Q l
  | _, _, .nil, _, _ => trivial
  | _, _, .cons _ .nil, _, _ => trivial
  | _, _, .cons h1 (.cons h2 h), hf, hc =>
    ⟨hq _ _ _ _ h1 h2 (hf _ (by simp)) (hf _ (by simp)) hc.1, allAppear_chain hq (.cons h2 h) (fun v hv => hf v (List.mem_cons_of_mem _ hv)) hc.2⟩

/-! ### One record -/

theorem path_length (T : Table) (a : BitVec 64) : (T.path a).length = T.depth a := by simp [Table.path]

theorem nested_of {P : Space} {t : Translation} {res : Res} (h : Decoded P.tables t res) :
    2 ≤ res.rcd.nrWalks ∧ res.rcd.nrWalks ≤ 5 ∧ 1 ≤ res.rcd.nrPtes ∧ res.rcd.nrPtes ≤ 4 := by
  have h1 := h.walks
  unfold Translation.guestRas at h1
  rw [List.length_append, path_length, List.length_singleton] at h1
  have h2 := (P.tables.guest t.lpid t.pid).depth_le t.address
  obtain ⟨e, _, h3⟩ := h.reached
  rw [path_length] at h3
  have h4 := (P.tables.host t.lpid).depth_le e
  omega

theorem entries_of {S : Tables} {t : Translation} {res : Res} (h : Decoded S t res) : Entries S t res.rcd :=
  ⟨h.walks, h.guestRas, h.hostRas, fun i e he j _ => h.hostPtes i e he j, h.most⟩

/-- Entries are kept by the format. -/
theorem Entries.same {S : Tables} {t : Translation} {x y : Qt.Radix} (h : Entries S t x) (hs : Qt.Spec.SameWalk x y) : Entries S t y := by
  obtain ⟨s1, s2, s3, s4, s5⟩ := hs
  have hw := h.walks
  have hl : (t.guestRas S).length = ((S.guest t.lpid t.pid).path t.address).length + 1 := by
    unfold Translation.guestRas; rw [List.length_append, List.length_singleton]
  have hd := (S.guest t.lpid t.pid).depth_le t.address
  rw [← path_length] at hd
  refine ⟨by rw [s2]; exact hw, ?_, ?_, ?_, ?_⟩
  · intro i e he
    have hi := (List.getElem?_eq_some_iff.1 he).1
    rw [s5 i (by omega) (by omega)]; exact h.guestRas i e he
  · intro i e he
    have hi := (List.getElem?_eq_some_iff.1 he).1
    rw [s4 i (by omega) (by omega)]; exact h.hostRas i e he
  · intro i e he j hj
    have hi := (List.getElem?_eq_some_iff.1 he).1
    rw [s1] at hj
    rw [s3 i j (by omega) hj]; exact h.hostPtes i e he j hj
  · intro e he; rw [s1]; exact h.most e he

theorem HasWalk.same {P : Space} {near : BitVec 64 → Prop} {x y : Qt.Radix} (h : P.HasWalk near x) (hs : Qt.Spec.SameWalk x y) : P.HasWalk near y := by
  obtain ⟨t, h1, h2, h3, h4, h5, h6⟩ := h
  exact ⟨t, h1, h2, h3, h4, h5, h6.same hs⟩

/-- Addresses of one page have the same sizes, and their real addresses are in one page. -/
theorem together {P : Space} (hS : P.tables.Ok) {t : Translation} (hg : Good P t) {b : BitVec 64} (h : P.Together t.address b) :
    P.hostSize b = P.hostSize t.address ∧ P.guestSize b = P.guestSize t.address ∧
    (P.real b).toNat / 2 ^ min (P.hostSize t.address) (P.guestSize t.address) =
      (P.real t.address).toNat / 2 ^ min (P.hostSize t.address) (P.guestSize t.address) := by
  unfold Space.Together at h
  rw [← hg.page hS] at h
  have hm := hg.move hS h
  have h1 := hm.hostSize hS
  have h2 := hm.guestSize
  have e : (t.move P.tables b).address = b := rfl
  rw [e] at h1 h2
  have hg' : t.guest.toNat / 2 ^ (P.tables.guest t.lpid t.pid).size t.address = (P.tables.guest t.lpid t.pid).frame t.address := by
    rw [hg.lpid, hg.pid]; exact hg.guest
  obtain ⟨m1, m2⟩ := move_sizes hS hg' hg.exact h
  refine ⟨?_, ?_, ?_⟩
  · rw [← h1, ← hg.hostSize hS, ← m1]; rfl
  · rw [← h2, ← hg.guestSize, ← m2]; rfl
  · rw [← hg.page hS]; exact (hg.real_div hS h).1

/-- The part of a record that is about an address. -/
theorem part {P : Space} (hS : P.tables.Ok) {known : Prop} {a : BitVec 64} {v1 v2 v3 : Bool} {real : BitVec 64} {res : Res}
    (h : Translated P known a v1 v2 v3 real res) (hk : known) (hf : P.Fits a) :
    v1 = true ∧ v2 = true ∧ v3 = true ∧ real = P.real a ∧ res.host = P.hostSize a ∧ res.guest = P.guestSize a ∧
    P.HasWalk (· = a) res.rcd ∧ Qt.Spec.Nested res.rcd ∧ Qt.Spec.RaOk real a res.host ∧ ∃ t, Good P t ∧ t.address = a := by
  obtain ⟨t, h1, h2, h3, h4, h5, h6⟩ := h.walk hk
  have hn := nested_of h6
  subst h3
  have hg : Good P t := ⟨h1, h2, h4, h5⟩
  have hr := h.joined hk hf.1
  refine ⟨h.hasReal.2 hk, h.hasSize.2 hk, h.hasGuest.2 hk, hr, (h.sizes hk).1, (h.sizes hk).2, ⟨t, h1, h2, rfl, h4, h5, entries_of h6⟩,
    ⟨by omega, by omega⟩, ?_, t, hg, rfl⟩
  rw [(h.sizes hk).1, hr]
  exact ⟨hf.2, (hg.real_div hS rfl).2 hf.1⟩

/-! ### Instructions that are reached from the one before -/

/-- With its walk known. -/
def View.known (v : View) : View := { v with insn := True }

theorem known_of {v : View} (h : v.insn) : v.known = v := by
  unfold View.known
  rw [← eq_true h]

/-- A record with the translation of its page, given a translation for the page. -/
theorem fill_one {P : Space} (hS : P.tables.Ok) {t : Translation} (hg : Good P t) {s : Qt.Record} {w : View} (ht : P.Together t.address w.base.addr)
    (hs : Storable s) (ha : Appears P s w) : ∃ s', Qt.SameButInsn s s' ∧ Storable s' ∧ Appears P s' w.known := by
  unfold Space.Together at ht
  rw [← hg.page hS] at ht
  have hm := hg.move hS ht
  have hd := decoded_resOf P.tables (t.move P.tables w.base.addr)
  have hsz : (resOf P.tables (t.move P.tables w.base.addr)).host = P.hostSize w.base.addr ∧
      (resOf P.tables (t.move P.tables w.base.addr)).guest = P.guestSize w.base.addr := ⟨hm.hostSize hS, hm.guestSize⟩
  generalize resOf P.tables (t.move P.tables w.base.addr) = res at hd hsz
  have hn := nested_of hd
  have p1 := Table.pageSize_size (hS.1 P.lpid).1 (P.guest.real w.base.addr)
  have p2 := Table.pageSize_size (hS.2 P.lpid P.pid).1 w.base.addr
  have q1 : res.host < 64 := by
    rw [hsz.1]; show (P.tables.host P.lpid).size _ < 64
    unfold PageSize at p1; omega
  have q2 : res.guest < 64 := by
    rw [hsz.2]; show (P.tables.guest P.lpid P.pid).size _ < 64
    unfold PageSize at p2; omega
  refine ⟨{ s with insnRaValid := true, insnRa := P.real w.base.addr, insnPageShiftValid := true, insnPageShift := res.host,
                   guestInsnPageShiftValid := true, guestInsnPageShift := res.guest, radixInsn := res.rcd }, rfl, ⟨⟨⟨fun _ => q1, fun _ => q2, ?_, ?_⟩, ?_, ?_⟩, fun _ => rfl⟩, ?_⟩
  · exact hs.1.1.2.2.1
  · exact hs.1.1.2.2.2
  · exact fun _ => Or.inr (Or.inr hn)
  · exact hs.1.2.2
  · refine ⟨ha.addr, ha.dataAddr, ha.word, ha.nonzero, ?_, ha.data, ha.nodata⟩
    refine ⟨⟨fun _ => trivial, fun _ => rfl⟩, ⟨fun _ => trivial, fun _ => rfl⟩, ⟨fun _ => trivial, fun _ => rfl⟩, fun _ => ?_, fun _ => hsz, fun _ _ => rfl⟩
    have hok : res.ok = true := hd.ok
    refine ⟨t.move P.tables w.base.addr, hm.lpid, hm.pid, rfl, hm.exact, hm.guest, ?_⟩
    dsimp only
    rw [← hok]
    exact hd

theorem good_of {P : Space} {r : Qt.Record} {v : View} (ha : Appears P r v) (hk : v.insn) : ∃ t, Good P t ∧ t.address = v.base.addr := by
  obtain ⟨t, h1, h2, h3, h4, h5, _⟩ := ha.insn.walk hk
  rw [← h3] at h5
  exact ⟨t, ⟨h1, h2, h4, h5⟩, h3⟩

/-- All records with the translations of their pages. -/
theorem fill_all {P : Space} (hS : P.tables.Ok) {l : List Qt.Record} {vs : List View} (hl : AllAppear P l vs) : ∀ {v : View} {t : Translation},
    Good P t → t.address = v.base.addr → (∀ r ∈ l, Storable r) → Qt.Spec.Chain (View.Follows P) (v :: vs) →
    ∃ l', Qt.Refilled v.base.addr l l' ∧ AllAppear P l' (vs.map View.known) ∧ ∀ r ∈ l', Storable r := by
  induction hl with
  | nil => intro v t _ _ _ _; exact ⟨[], .nil, .nil, fun r hr => (by cases hr)⟩
  | @cons s w l vs h _ ih =>
    intro v t hg hta hs hc
    have hs0 := hs s (List.mem_cons_self ..)
    have hs' : ∀ r ∈ l, Storable r := fun r hr => hs r (List.mem_cons_of_mem _ hr)
    by_cases hn : w.base.addr = v.base.addr + 4
    · have ht := hc.1.1 hn
      rw [← hta] at ht
      obtain ⟨s', e1, e2, e3⟩ := fill_one hS hg ht hs0 h
      obtain ⟨t', hg', hta'⟩ := good_of e3 trivial
      obtain ⟨l', i1, i2, i3⟩ := ih (v := w) hg' hta' hs' hc.2
      refine ⟨s' :: l', .next (by rw [h.addr, hn]) e1 (by rw [h.addr]; exact i1), .cons e3 i2, fun r hr => ?_⟩
      rcases List.mem_cons.1 hr with rfl | hr
      · exact e2
      · exact i3 r hr
    · have hk := (hc.1.2 hn).1
      obtain ⟨t', hg', hta'⟩ := good_of h hk
      obtain ⟨l', i1, i2, i3⟩ := ih (v := w) hg' hta' hs' hc.2
      refine ⟨s :: l', .same (by rw [h.addr]; exact i1), .cons ?_ i2, fun r hr => ?_⟩
      · rw [known_of hk]; exact h
      · rcases List.mem_cons.1 hr with rfl | hr
        · exact hs0
        · exact i3 r hr

theorem chain_known {P : Space} : ∀ {vs : List View}, Qt.Spec.Chain (View.Follows P) vs → Qt.Spec.Chain (View.Follows P) (vs.map View.known)
  | [], _ => trivial
  | [_], _ => trivial
  | _ :: _ :: _, h => ⟨⟨h.1.1, fun hn => ⟨trivial, (h.1.2 hn).2⟩⟩, chain_known h.2⟩

/-! ### The file -/

/-- Records whose walks are all known can be stored. -/
theorem expressible_known (P : Space) (hS : P.tables.Ok) {l : List Qt.Record} {vs : List View} (hl : AllAppear P l vs) (hstor : ∀ r ∈ l, Storable r)
    (hfits : ∀ v ∈ vs, v.insn ∧ v.Fits P) (hfol : Qt.Spec.Chain (View.Follows P) vs) : Qt.Spec.Expressible l := by
  have hinsn : ∀ r v, Appears P r v → v.insn ∧ v.Fits P → _ := fun r v ha hf => part hS ha.insn hf.1 hf.2.fits
  have hdata : ∀ r v a, Appears P r v → v.insn ∧ v.Fits P → v.base.data = some a → _ :=
    fun r v a ha hf hda => part hS (ha.data a hda) (hf.2.data a hda).1 (hf.2.data a hda).2
  have hdv : ∀ r v, Appears P r v → r.dataRaValid = true ∨ r.dataPageShiftValid = true → ∃ a, v.base.data = some a ∧ r.dataAddrValid = true ∧ r.dataAddr = a := by
    intro r v ha hv
    cases hda : v.base.data with
    | none => obtain ⟨n1, n2, _⟩ := ha.nodata hda; rw [n1, n2] at hv; rcases hv with hv | hv <;> cases hv
    | some a =>
      have := ha.dataAddr
      rw [hda] at this
      split at this
      · rename_i hva; exact ⟨a, rfl, hva, Option.some.inj this⟩
      · cases this
  have hfit : ∀ r ∈ l, ∃ v, Appears P r v ∧ v.insn ∧ v.Fits P := by
    intro r hr
    obtain ⟨v, hv, ha⟩ := allAppear_mem hl r hr
    exact ⟨v, ha, hfits v hv⟩
  refine ⟨fun r hr => (hstor r hr).1, ?_, ?_⟩
  · refine allAppear_chain (F := fun v => v.insn ∧ v.Fits P) ?_ hl hfits hfol
    intro r v s w h1 h2 f1 f2 _
    refine ⟨fun h0 => absurd h0 (h2.nonzero f2.2.word), fun _ hv _ => Or.inr ?_⟩
    obtain ⟨a, hda, _, _⟩ := hdv r v h1 (Or.inl hv)
    obtain ⟨-, -, -, -, -, -, -, n1, -⟩ := hdata r v a h1 f1 hda
    obtain ⟨-, -, -, -, -, -, -, n2, -⟩ := hinsn s w h2 f2
    exact ⟨n1.1, n2.1, fun hh => absurd n2.2 (by rw [hh.2.2]; omega)⟩
  · intro r hr
    have hm : r ∈ l := List.mem_of_mem_head? hr
    obtain ⟨v, ha, hf⟩ := hfit r hm
    exact ⟨ha.nonzero hf.2.word, (hstor r hm).2⟩

/-- The file for records whose walks are all known. -/
theorem file_known (P : Space) (hS : P.tables.Ok) {l : List Qt.Record} {vs : List View} (hl : AllAppear P l vs) (hstor : ∀ r ∈ l, Storable r)
    (hfits : ∀ v ∈ vs, v.insn ∧ v.Fits P) (hfol : Qt.Spec.Chain (View.Follows P) vs) :
    ∃ file, Qt.writeTrace 0 l = .ok file ∧
      Contains file (vs.map fun v => { v.base with real := some (P.real v.base.addr) }) ∧
      ∀ (beyond : Nat → BitVec 8) (i : Nat) (v : View), vs[i]? = some v →
        ∃ o, (Qt.readTrace { bytes := file, beyond := beyond } false false).records[i]? = some o ∧ InFile P v o := by
  have hinsn : ∀ r v, Appears P r v → v.insn ∧ v.Fits P → _ := fun r v ha hf => part hS ha.insn hf.1 hf.2.fits
  have hdata : ∀ r v a, Appears P r v → v.insn ∧ v.Fits P → v.base.data = some a → _ :=
    fun r v a ha hf hda => part hS (ha.data a hda) (hf.2.data a hda).1 (hf.2.data a hda).2
  have hdv : ∀ r v, Appears P r v → r.dataRaValid = true ∨ r.dataPageShiftValid = true → ∃ a, v.base.data = some a ∧ r.dataAddrValid = true ∧ r.dataAddr = a := by
    intro r v ha hv
    cases hda : v.base.data with
    | none => obtain ⟨n1, n2, _⟩ := ha.nodata hda; rw [n1, n2] at hv; rcases hv with hv | hv <;> cases hv
    | some a =>
      have := ha.dataAddr
      rw [hda] at this
      split at this
      · rename_i hva; exact ⟨a, rfl, hva, Option.some.inj this⟩
      · cases this
  have hfit : ∀ r ∈ l, ∃ v, Appears P r v ∧ v.insn ∧ v.Fits P := by
    intro r hr
    obtain ⟨v, hv, ha⟩ := allAppear_mem hl r hr
    exact ⟨v, ha, hfits v hv⟩
  have hx : Qt.Spec.Expressible l := expressible_known P hS hl hstor hfits hfol
  have hshow : AllShow l (vs.map fun v => { v.base with real := some (P.real v.base.addr) }) := by
    clear hfit hx hstor hfol
    induction hl with
    | nil => exact .nil
    | @cons r v l m h _ ih =>
      obtain ⟨q1, -, -, q4, -⟩ := hinsn r v h (hfits v (List.mem_cons_self ..))
      refine .cons ⟨h.addr, h.dataAddr, h.word, ?_, h.nonzero⟩ (ih fun v hv => hfits v (List.mem_cons_of_mem _ hv))
      rw [if_pos q1, q4]
  obtain ⟨file, e1, h1⟩ := contains_of hshow hx
  have htok : ∀ r ∈ l, Qt.Spec.TranslationOk r := by
    intro r hr
    obtain ⟨v, ha, hf⟩ := hfit r hr
    refine ⟨fun _ => ?_, fun hv => ?_⟩
    · obtain ⟨-, q2, -, -, -, -, -, -, q, -⟩ := hinsn r v ha hf
      rw [q2, ha.addr]; exact q
    · obtain ⟨a, hda, d1, d2⟩ := hdv r v ha (Or.inl hv)
      obtain ⟨-, q2, -, -, -, -, -, -, q, -⟩ := hdata r v a ha hf hda
      rw [q2, d1, if_pos rfl, d2]; exact q
  have hsame : ∀ r v s w, Appears P r v → Appears P s w → (v.insn ∧ v.Fits P) → (w.insn ∧ w.Fits P) → View.Follows P v w → ¬ Qt.Spec.Jumps r s →
      P.Together v.base.addr w.base.addr ∧ P.hostSize w.base.addr = P.hostSize v.base.addr ∧ P.guestSize w.base.addr = P.guestSize v.base.addr ∧
      (P.real w.base.addr).toNat / 2 ^ P.hostSize v.base.addr = (P.real v.base.addr).toNat / 2 ^ P.hostSize v.base.addr := by
    intro r v s w h1 h2 f1 f2 hf hj
    have hnext : w.base.addr = v.base.addr + 4 := by
      rw [← h1.addr, ← h2.addr]; exact Classical.byContradiction hj
    have ht := hf.1 hnext
    obtain ⟨-, -, -, -, -, -, -, -, -, t, hg, hta⟩ := hinsn r v h1 f1
    rw [← hta] at ht ⊢
    obtain ⟨s1, s2, s3⟩ := together hS hg ht
    have hle : P.hostSize t.address ≤ P.guestSize t.address := by rw [hta]; exact f1.2.fits.1
    rw [Nat.min_eq_left hle] at s3
    exact ⟨ht, s1, s2, s3⟩
  have htstep : Qt.Spec.Chain Qt.Spec.TranslationStep l := by
    refine allAppear_chain (F := fun v => v.insn ∧ v.Fits P) ?_ hl hfits hfol
    intro r v s w h1 h2 f1 f2 hf
    obtain ⟨a1, a2, a3, a4, a5, a6, -⟩ := hinsn r v h1 f1
    obtain ⟨b1, b2, b3, b4, b5, b6, -⟩ := hinsn s w h2 f2
    dsimp only at a5 a6 b5 b6
    refine ⟨fun hj => ?_, fun _ => b1, fun _ => b2, fun _ => b3, fun hj hv _ => ?_⟩
    · obtain ⟨-, s1, s2, s3⟩ := hsame r v s w h1 h2 f1 f2 hf hj
      refine ⟨by rw [a1, b1], by rw [a2, b2], fun _ => by rw [a5, b5, s1], by rw [a3, b3], fun _ => by rw [a6, b6, s2], fun _ => ?_⟩
      rw [a2, b2, a4, b4]
      unfold Qt.Spec.pageShift
      rw [if_pos rfl, if_pos rfl, a5, b5, s1, s3]
    · obtain ⟨a, hda, d1, d2⟩ := hdv r v h1 (Or.inr hv)
      obtain ⟨-, -, -, -, q5, -⟩ := hdata r v a h1 f1 hda
      dsimp only at q5
      rw [b6, q5]
      refine (hf.2 ?_).2 a hda
      rw [← h1.addr, ← h2.addr]; exact hj
  obtain ⟨f2, e2, h2⟩ := Qt.C03_translations_partial 0 l hx htok htstep
  obtain rfl : file = f2 := Qt.WRes.ok.inj (e1.symm.trans e2)
  have hfour : ∀ r ∈ l, Qt.Spec.FourIfSingle r.radixInsn ∧ (r.dataRaValid = true → Qt.Spec.FourIfSingle r.radixData) := by
    intro r hr
    obtain ⟨v, ha, hf⟩ := hfit r hr
    refine ⟨fun hs => ?_, fun hv hs => ?_⟩
    · obtain ⟨-, -, -, -, -, -, -, n, -⟩ := hinsn r v ha hf
      exact absurd hs.2 (by have := n.2; dsimp only at this; omega)
    · obtain ⟨a, hda, d1, d2⟩ := hdv r v ha (Or.inl hv)
      obtain ⟨-, -, -, -, -, -, -, n, -⟩ := hdata r v a ha hf hda
      exact absurd hs.2 (by have := n.2; dsimp only at this; omega)
  have hcarry := Qt.walks_carried 0 l hx hfour (fun r x => P.HasWalk (fun b => P.Together b r.insnAddr) x) (by
      intro r hr _
      obtain ⟨v, ha, hf⟩ := hfit r hr
      obtain ⟨-, -, -, -, -, -, q, n, -⟩ := hinsn r v ha hf
      refine ⟨n.1, ?_⟩
      obtain ⟨t, t1, t2, t3, t4⟩ := q
      exact ⟨t, t1, t2, by rw [t3, ha.addr]; exact rfl, t4⟩) (by
      refine allAppear_chain (F := fun v => v.insn ∧ v.Fits P) ?_ hl hfits hfol
      intro r v s w h1 h2 f1 f2 hf hj _
      refine ⟨(hinsn r v h1 f1).1, ?_⟩
      rintro x ⟨t, t1, t2, t3, t4, t5, t6⟩
      refine ⟨t, t1, t2, ?_, t4, t5, t6⟩
      obtain ⟨s0, -⟩ := hsame r v s w h1 h2 f1 f2 hf hj
      have hg : Good P t := ⟨t1, t2, t4, t5⟩
      obtain ⟨z1, z2, -⟩ := together hS hg t3
      rw [h1.addr] at t3 z1 z2
      unfold Space.Together at s0 t3 ⊢
      rw [z1, z2] at s0
      rw [h2.addr, s0, t3])
  obtain ⟨f3, e3, h3⟩ := hcarry
  obtain rfl : file = f3 := Qt.WRes.ok.inj (e1.symm.trans e3)
  refine ⟨file, e1, h1, ?_⟩
  intro beyond i v hv
  obtain ⟨r, hr, ha⟩ := allAppear_get hl i v hv
  have hf := hfits v (List.mem_of_getElem? hv)
  obtain ⟨o, ho, o1, o2, o3, o4, o5, o6, o7, o8, o9, o10, o11, o12⟩ := h2 beyond i r hr
  obtain ⟨o', ho', w1, w2⟩ := h3 beyond i r hr
  obtain rfl : o = o' := Option.some.inj (ho.symm.trans ho')
  obtain ⟨a1, a2, a3, a4, a5, a6, -⟩ := hinsn r v ha hf
  dsimp only at a5 a6
  refine ⟨o, ho, ⟨o1.trans a1, (o2 a1).trans a4⟩, ⟨o3.trans a2, (o4 a2).trans a5⟩, ⟨o5.trans a3, (o6 a3).trans a6⟩, ?_, ?_, ?_⟩
  · obtain ⟨x, hx, hs⟩ := w2 a1
    rw [← ha.addr]
    exact HasWalk.same hx hs
  · intro a hda
    obtain ⟨b1, b2, b3, b4, b5, b6, q, n, -⟩ := hdata r v a ha hf hda
    dsimp only at b5 b6
    exact ⟨⟨o7.trans b1, (o8 b1).trans b4⟩, ⟨o9.trans b2, (o10 b2).trans b5⟩, ⟨o11.trans b3, (o12 b3).trans b6⟩, HasWalk.same q (w1 b1 n.1)⟩
  · intro hda
    obtain ⟨n1, n2, n3⟩ := ha.nodata hda
    exact ⟨o7.trans n1, o9.trans n2, o11.trans n3⟩

theorem refilled_pairs {a : BitVec 64} {l l' : List Qt.Record} (h : Qt.Refilled a l l') : l'.map pairOf = l.map pairOf := by
  induction h with
  | nil => rfl
  | same _ ih => rw [List.map_cons, List.map_cons, ih]
  | next _ h _ ih =>
    rw [List.map_cons, List.map_cons, ih]
    congr 1
    unfold Qt.SameButInsn at h
    rw [h]; rfl

/-- With the translations of all pages the same file is written. -/
theorem filled {P : Space} (hS : P.tables.Ok) {l : List Qt.Record} {vs : List View} (hl : AllAppear P l vs) (hstor : ∀ r ∈ l, Storable r)
    (hstart : Starts vs) (hfol : Qt.Spec.Chain (View.Follows P) vs) :
    ∃ l', Qt.writeTrace 0 l' = Qt.writeTrace 0 l ∧ AllAppear P l' (vs.map View.known) ∧ (∀ r ∈ l', Storable r) ∧ l'.map pairOf = l.map pairOf := by
  cases hl with
  | nil => exact ⟨[], rfl, .nil, hstor, rfl⟩
  | @cons r v l vs h hl =>
    have hk := hstart v rfl
    obtain ⟨t, hg, hta⟩ := good_of h hk
    obtain ⟨l', i1, i2, i3⟩ := fill_all hS hl hg hta (fun r hr => hstor r (List.mem_cons_of_mem _ hr)) hfol
    refine ⟨r :: l', Qt.writeTrace_refilled 0 r (by rw [h.addr]; exact i1), .cons (by rw [known_of hk]; exact h) i2, fun r' hr => ?_, ?_⟩
    · rcases List.mem_cons.1 hr with rfl | hr
      · exact hstor r' (List.mem_cons_self ..)
      · exact i3 r' hr
    · rw [List.map_cons, List.map_cons, refilled_pairs i1]

/-- **C83**: converting the dump of a guest process gives a trace that, when read, has each instruction of the dump with the real address, the
sizes of the guest's and the host's page and the walk of its page, and the same for its data, if the dump had walks for the page of the first
instruction, those of all data and those that are jumped to, and the format can express them: real page numbers have 32 bits, no instruction that is reached from the one before it is in another page, and the guest
page of an instruction that is jumped to has the size of the host page of the data accessed before. -/
theorem C83_guest_partial (P : Space) (hS : P.tables.Ok) {junk : Qt.Record} (hq : QuietJunk junk) {eof failing : Bool} {bytes : List (BitVec 8)}
    {fill phantom : BitVec 64} (items : List Item) (tail : List (BitVec 64)) (hk : AllKnown (stream bytes failing eof fill phantom)) (hi : Trace P {} items)
    (hw : plain (stream bytes failing eof fill phantom) = items.flatMap Item.words ++ tail) (htail : ∀ v ∈ tail, Other v)
    (hstart : Starts (views P {} items)) (hfits : ∀ v ∈ views P {} items, v.Fits P)
    (hfol : Qt.Spec.Chain (View.Follows P) (views P {} items)) :
    ∃ file, convert junk eof bytes failing fill phantom = .file file ∧
      Contains file ((views P {} items).map fun v => { v.base with real := some (P.real v.base.addr) }) ∧
      ∀ (beyond : Nat → BitVec 8) (i : Nat) (v : View), (views P {} items)[i]? = some v →
        ∃ o, (Qt.readTrace { bytes := file, beyond := beyond } false false).records[i]? = some o ∧ InFile P v o := by
  obtain ⟨l, hd, hl⟩ := C73_guest_partial P hS { fn := true, private_ := true, junk := junk } rfl items tail hk hi hw htail
  generalize views P {} items = vs at hl hstart hfits hfol
  have hstor := decoded_storable hq hd
  obtain ⟨l', hw', hl', hs', -⟩ := filled hS hl hstor hstart hfol
  obtain ⟨file, e1, h1, h2⟩ := file_known P hS hl' hs' (by
    intro v hv
    obtain ⟨w, hw, rfl⟩ := List.mem_map.1 hv
    have := hfits w hw
    exact ⟨trivial, this.word, this.fits, this.data⟩) (chain_known hfol)
  refine ⟨file, convert_decoded hd (hw' ▸ e1), by rw [List.map_map] at h1; exact h1, ?_⟩
  intro beyond i v hv
  obtain ⟨o, ho, q⟩ := h2 beyond i v.known (by rw [List.getElem?_map, hv]; rfl)
  exact ⟨o, ho, q.real, q.size, q.guest, q.walk, q.data, q.nodata⟩

/-! ### An example -/

/-- A translation in the page of 2 MB of the guest. -/
def exT (a : BitVec 64) : Translation :=
  { lpid := 1, pid := 2, address := a, proc := none, forms := [.full 0, .full 0, .full 0]
    guest := BitVec.ofNat 64 ((exP.guest.real a).toNat / 4096 * 4096), guestLevel := 2
    real := BitVec.ofNat 64 ((exP.real a).toNat / 4096 * 4096), realLevel := 1, omitted := 0 }

/-- The records for a new line. -/
def exLine (a : BitVec 64) : BitVec 64 × BitVec 64 × BitVec 64 :=
  (0x000000003abcdf00, BitVec.ofNat 64 (a.toNat / 128 * 128), BitVec.ofNat 64 ((exP.real a).toNat / 4096 * 2 ^ 24))

def exAccess (a : BitVec 64) : Access := ⟨a, BitVec.ofNat 64 ((exP.real a).toNat / 4096 * 2 ^ 23), some (exWalk true (exT a))⟩

/-- An instruction of a new line at `a`. -/
def exEnter (a : BitVec 64) (data : List Access) : Item :=
  { walk := some (exWalk false (exT a)), line := some (exLine a), info := BitVec.ofNat 64 (0xe86300002abcdf00 + a.toNat % 256 + data.length)
    msr := 0x3000000000000000, pre := none, data := data }

/-- The next instruction. -/
def exNext (a : BitVec 64) (data : List Access) : Item :=
  { walk := none, line := none, info := BitVec.ofNat 64 (0xe86300002abcdf00 + a.toNat % 256 + data.length)
    msr := 0x3000000000000000, pre := none, data := data }

/-- The next instruction, of two words. -/
def exPrefixed (a : BitVec 64) : Item :=
  { walk := none, line := none, info := BitVec.ofNat 64 (0xe86300006abcdf00 + a.toNat % 256)
    msr := 0x3000000000000000, pre := some 0x0410000000000000, data := [] }

/-- A load, the next instruction, of two words, and one that is jumped to in another page. -/
def exItems2 : List Item := [exEnter 0x212200 [exAccess 0x213000], exPrefixed 0x212204, exEnter 0x222200 []]

def exFile2 : List (BitVec 8) := (exItems2.flatMap Item.words).flatMap bytesOf

/-- What is needed of an address for its translation to be valid. -/
def exOk (a : BitVec 64) : Bool :=
  decide ((exT a).forms.length = (exS.guest 1 2).depth a) && decide ((exT a).guest.toNat / 2 ^ (exS.guest 1 2).size a = (exS.guest 1 2).frame a) &&
  decide ((exT a).real.toNat / 2 ^ (exS.host 1).size (exT a).guest = (exS.host 1).frame (exT a).guest)

theorem exT_valid {a : BitVec 64} (h : exOk a = true) (seen : Seen) : (exT a).Valid exS seen := by
  unfold exOk at h
  simp only [Bool.and_eq_true, decide_eq_true_eq] at h
  obtain ⟨⟨h1, h2⟩, h3⟩ := h
  exact {
    proc := by simp [exT]
    length := h1
    forms := ⟨omittable_zero .., fun _ => by simp, omittable_zero .., fun _ => by simp, omittable_zero .., fun _ => by simp, trivial⟩
    guest := h2
    real := h3
    omitted := omittable_zero ..
    guestLevel := by
      intro h
      have h1 : 3 = (exS.guest 1 2).depth a := h1
      have h : (exS.guest 1 2).depth a = 4 := h
      omega
    notProc := by show (2 : BitVec 32) ≠ 7; decide
    smallProc := by simp [exT]
    smallRows := fun _ _ _ _ => rfl
    smallFinal := fun _ => rfl }

/-- The rest of what is needed for its walk. -/
def exWalkOk (data : Bool) (a : BitVec 64) : Bool :=
  exOk a && stepsOk (exWalk data (exT a)).steps ((exT a).records exS) && decide ((exWalk data (exT a)).steps.length < 38) &&
  decide ((exT a).guest.toNat / 2 ^ 12 = ((exS.guest 1 2).real a).toNat / 2 ^ 12)

theorem exWalk_ok {data : Bool} {a : BitVec 64} (h : exWalkOk data a = true) (c : Ctx) {n : Nat} (hn : (exT a).real.toNat = n * 4096) :
    (exWalk data (exT a)).Ok exP c data a n := by
  unfold exWalkOk at h
  simp only [Bool.and_eq_true, decide_eq_true_eq] at h
  obtain ⟨⟨⟨h1, h2⟩, h3⟩, h4⟩ := h
  have hh : (exWalk data (exT a)).head = if data then 0x800800011abcdf00 else 0x000800011abcdf00 := rfl
  refine ⟨?_, ?_, ?_, ?_, stepWords_of _ _ h2, h3, (by decide : fld 0x0100000000000000 7 7 = 1), ⟨rfl, rfl⟩, rfl, h4, hn, rfl, exT_valid h1 _⟩ <;>
    rw [hh] <;> clear hh h2 h3 h4 hn h1 <;> revert data <;> decide +kernel

theorem exItems2_ok : Trace exP {} exItems2 := by
  have a1 : Item10.addr (Item.base exItems2[0]) 0 = 0x212200 := by decide +kernel
  have a2 : Item10.addr (Item.base exItems2[1]) 0x212200 = 0x212204 := by decide +kernel
  have a3 : Item10.addr (Item.base exItems2[2]) 0x212204 = 0x222200 := by decide +kernel
  refine ⟨⟨⟨allOf (by decide +kernel), allOf (by decide +kernel), by decide +kernel, by decide +kernel, by decide +kernel, by decide +kernel⟩,
    by decide +kernel, fun _ => rfl, ?_, ?_, ⟨⟨by decide +kernel, ?_⟩, trivial⟩, fun d e h => (by cases h)⟩,
    ⟨⟨allOf (by decide +kernel), allOf (by decide +kernel), by decide +kernel, by decide +kernel, by decide +kernel, ?_⟩,
      by decide +kernel, fun h => (by cases h), fun p h => (by cases h), fun p w h => (by cases h), trivial, fun d e h => (by cases h)⟩,
    ⟨⟨allOf (by decide +kernel), allOf (by decide +kernel), by decide +kernel, by decide +kernel, by decide +kernel, ?_⟩,
      by decide +kernel, fun _ => rfl, ?_, ?_, trivial, fun d e h => (by cases h)⟩, trivial⟩
  · intro p hp; cases hp; decide +kernel
  · intro p w hp hw; cases hp; cases hw
    show (exWalk false (exT 0x212200)).Ok exP _ false (Item10.addr (Item.base exItems2[0]) 0) _
    rw [a1]
    exact exWalk_ok (by decide +kernel) _ (by decide +kernel)
  · intro w hw; cases hw
    exact exWalk_ok (by decide +kernel) _ (by decide +kernel)
  · show fld _ 56 56 = Item10.line _ (Item10.addr (Item.base exItems2[0]) 0) % 2
    rw [a1]; decide +kernel
  · decide +kernel
  · intro p hp; cases hp; decide +kernel
  · intro p w hp hw; cases hp; cases hw
    show (exWalk false (exT 0x222200)).Ok exP _ false (Item10.addr (Item.base exItems2[2]) (Item10.addr (Item.base exItems2[1]) (Item10.addr (Item.base exItems2[0]) 0))) _
    rw [a1, a2, a3]
    exact exWalk_ok (by decide +kernel) _ (by decide +kernel)

theorem exViews : views exP {} exItems2 =
    [{ base := { addr := 0x212200, data := some 0x213000, word := some 0xe8630000, nonzero := true }
       insn := exP.InPages [0x212200] 0x212200, data := exP.InPages [0x213000, 0x212200] 0x213000 },
     { base := { addr := 0x212204, data := none, word := some 0x04100000, nonzero := true }, insn := exP.InPages [0x212200] 0x212200, data := False },
     { base := { addr := 0x212208, data := none, word := some 0xe8630000, nonzero := true }, insn := False, data := False },
     { base := { addr := 0x222200, data := none, word := some 0xe8630000, nonzero := true }
       insn := exP.InPages [0x222200, 0x213000, 0x212200] 0x222200, data := False }] := by
  rfl

instance (P : Space) (a b : BitVec 64) : Decidable (P.Together a b) := inferInstanceAs (Decidable (_ = _))
instance (P : Space) (a : BitVec 64) : Decidable (P.Fits a) := inferInstanceAs (Decidable (_ ∧ _))

/-- All that C83 needs. -/
example : exP.tables.Ok ∧ QuietJunk {} ∧ Trace exP {} exItems2 ∧ plain (stream exFile2 false true 0 0) = exItems2.flatMap Item.words ++ [] ∧
    ((stream exFile2 false true 0 0).all fun v => !isStamp v || (stampOf v).toOption.join.isSome) = true ∧
    Starts (views exP {} exItems2) ∧ (∀ v ∈ views exP {} exItems2, v.Fits exP) ∧ Qt.Spec.Chain (View.Follows exP) (views exP {} exItems2) := by
  have hin : ∀ (l : List (BitVec 64)) a, a ∈ l → exP.InPages l a := fun l a h => ⟨a, h, rfl⟩
  refine ⟨exS_ok, ⟨rfl, rfl, rfl, rfl⟩, exItems2_ok, by decide +kernel, by decide +kernel, ?_, ?_, ?_⟩
  · rw [exViews]
    intro v hv
    cases hv
    exact hin _ _ (by simp)
  · rw [exViews]
    intro v hv
    simp only [List.mem_cons, List.not_mem_nil, or_false] at hv
    rcases hv with rfl | rfl | rfl | rfl
    · refine ⟨rfl, (by decide +kernel : exP.Fits 0x212200), fun a ha => ?_⟩
      cases ha
      exact ⟨hin _ _ (by simp), by decide +kernel⟩
    · exact ⟨rfl, (by decide +kernel : exP.Fits 0x212204), fun a ha => (by cases ha)⟩
    · exact ⟨rfl, (by decide +kernel : exP.Fits 0x212208), fun a ha => (by cases ha)⟩
    · exact ⟨rfl, (by decide +kernel : exP.Fits 0x222200), fun a ha => (by cases ha)⟩
  · rw [exViews]
    refine ⟨⟨fun _ => (by decide +kernel : exP.Together 0x212200 0x212204), fun h => absurd rfl h⟩,
      ⟨fun _ => (by decide +kernel : exP.Together 0x212204 0x212208), fun h => absurd rfl h⟩,
      ⟨fun h => ?_, fun _ => ⟨hin _ _ (by simp), fun d h => (by cases h)⟩⟩, trivial⟩
    exact absurd h (by show ¬ (0x222200 : BitVec 64) = 0x212208 + 4; decide)

/-! ### The conditions -/

/-- What the reader finds about translations: real addresses, page sizes, and the guest real address of the walk of the instruction. -/
def translations (items : List Item) : Option (List (List (BitVec 64) × List Nat)) :=
  match convert {} true ((items.flatMap Item.words).flatMap bytesOf) false 0 0 with
  | .file f => some ((Qt.readTrace { bytes := f, beyond := fun _ => 0 } false false).records.map fun (r : Qt.Record) =>
      ([r.insnAddr, r.insnRa, r.radixInsn.guestRas 3, r.dataAddr, r.dataRa], [r.insnPageShift, r.guestInsnPageShift, r.dataPageShift, r.guestDataPageShift]))
  | _ => none

/-- **C83 needs the condition on the sizes**: a load from 0x213000, followed by an instruction that is jumped to.  The size of the host
page of the data and that of the guest page of the second instruction, 64 kB and 2 MB, come back exchanged, and the real address of the data is
0xa13000 instead of 0x53000. -/
theorem C83_sizes_refuted : ∃ items, Trace exP {} items ∧ (∀ v ∈ views exP {} items, v.insn ∧ v.Fits exP) ∧
    translations items = some [([0x212200, 0x52200, 0xe12000, 0x213000, 0xa13000], [16, 21, 21, 21]), ([0x222200, 0x52200, 0xe22000, 0, 0], [16, 16, 0, 0])] ∧
    exP.real 0x213000 = 0x53000 ∧ exP.hostSize 0x213000 = 16 ∧ exP.guestSize 0x222200 = 21 := by
  refine ⟨[exEnter 0x212200 [exAccess 0x213000], exEnter 0x222200 []], ?_, ?_, by decide +kernel, by decide +kernel, by decide +kernel, by decide +kernel⟩
  · have a1 : Item10.addr (Item.base (exEnter 0x212200 [exAccess 0x213000])) 0 = 0x212200 := by decide +kernel
    have a2 : Item10.addr (Item.base (exEnter 0x222200 [])) 0x212200 = 0x222200 := by decide +kernel
    refine ⟨⟨⟨allOf (by decide +kernel), allOf (by decide +kernel), by decide +kernel, by decide +kernel, by decide +kernel, by decide +kernel⟩,
      by decide +kernel, fun _ => rfl, ?_, ?_, ⟨⟨by decide +kernel, ?_⟩, trivial⟩, fun d e h => (by cases h)⟩,
      ⟨⟨allOf (by decide +kernel), allOf (by decide +kernel), by decide +kernel, by decide +kernel, by decide +kernel, ?_⟩,
        by decide +kernel, fun _ => rfl, ?_, ?_, trivial, fun d e h => (by cases h)⟩, trivial⟩
    · intro p hp; cases hp; decide +kernel
    · intro p w hp hw; cases hp; cases hw
      show (exWalk false (exT 0x212200)).Ok exP _ false (Item10.addr (Item.base (exEnter 0x212200 [exAccess 0x213000])) 0) _
      rw [a1]
      exact exWalk_ok (by decide +kernel) _ (by decide +kernel)
    · intro w hw; cases hw
      exact exWalk_ok (by decide +kernel) _ (by decide +kernel)
    · decide +kernel
    · intro p hp; cases hp; decide +kernel
    · intro p w hp hw; cases hp; cases hw
      show (exWalk false (exT 0x222200)).Ok exP _ false (Item10.addr (Item.base (exEnter 0x222200 [])) (Item10.addr (Item.base (exEnter 0x212200 [exAccess 0x213000])) 0)) _
      rw [a1, a2]
      exact exWalk_ok (by decide +kernel) _ (by decide +kernel)
  · intro v hv
    have hin : ∀ (l : List (BitVec 64)) a, a ∈ l → exP.InPages l a := fun l a h => ⟨a, h, rfl⟩
    rcases List.mem_cons.1 hv with rfl | hv
    · refine ⟨hin [0x212200] 0x212200 (by simp), by decide +kernel, (by decide +kernel : exP.Fits 0x212200), fun a ha => ?_⟩
      cases ha
      exact ⟨hin [0x213000, 0x212200] 0x213000 (by simp), by decide +kernel⟩
    · rcases List.mem_cons.1 hv with rfl | hv
      · exact ⟨hin [0x222200, 0x213000, 0x212200] 0x222200 (by simp), by decide +kernel, (by decide +kernel : exP.Fits 0x222200), fun a ha => (by cases ha)⟩
      · cases hv

/-- **C83 needs the condition on the next instruction**: two instructions, the second one in the next page of the host, both with walks.  The trace has
the walk of the first page for both: that the second one is at 0xe20000 in the guest's real memory is lost. -/
theorem C83_next_page_refuted : ∃ items, Trace exP {} items ∧ (∀ v ∈ views exP {} items, v.insn ∧ v.Fits exP) ∧
    translations items = some [([0x21fffc, 0x5fffc, 0xe1f000, 0, 0], [16, 21, 0, 0]), ([0x220000, 0x50000, 0xe1f000, 0, 0], [16, 21, 0, 0])] ∧
    exP.guest.real 0x220000 = 0xe20000 := by
  refine ⟨[exEnter 0x21fffc [], exEnter 0x220000 []], ?_, ?_, by decide +kernel, by decide +kernel⟩
  · have a1 : Item10.addr (Item.base (exEnter 0x21fffc [])) 0 = 0x21fffc := by decide +kernel
    have a2 : Item10.addr (Item.base (exEnter 0x220000 [])) 0x21fffc = 0x220000 := by decide +kernel
    refine ⟨⟨⟨allOf (by decide +kernel), allOf (by decide +kernel), by decide +kernel, by decide +kernel, by decide +kernel, by decide +kernel⟩,
      by decide +kernel, fun _ => rfl, ?_, ?_, trivial, fun d e h => (by cases h)⟩,
      ⟨⟨allOf (by decide +kernel), allOf (by decide +kernel), by decide +kernel, by decide +kernel, by decide +kernel, ?_⟩,
        by decide +kernel, fun _ => rfl, ?_, ?_, trivial, fun d e h => (by cases h)⟩, trivial⟩
    · intro p hp; cases hp; decide +kernel
    · intro p w hp hw; cases hp; cases hw
      show (exWalk false (exT 0x21fffc)).Ok exP _ false (Item10.addr (Item.base (exEnter 0x21fffc [])) 0) _
      rw [a1]
      exact exWalk_ok (by decide +kernel) _ (by decide +kernel)
    · decide +kernel
    · intro p hp; cases hp; decide +kernel
    · intro p w hp hw; cases hp; cases hw
      show (exWalk false (exT 0x220000)).Ok exP _ false (Item10.addr (Item.base (exEnter 0x220000 [])) (Item10.addr (Item.base (exEnter 0x21fffc [])) 0)) _
      rw [a1, a2]
      exact exWalk_ok (by decide +kernel) _ (by decide +kernel)
  · intro v hv
    have hin : ∀ (l : List (BitVec 64)) a, a ∈ l → exP.InPages l a := fun l a h => ⟨a, h, rfl⟩
    rcases List.mem_cons.1 hv with rfl | hv
    · exact ⟨hin [0x21fffc] 0x21fffc (by simp), by decide +kernel, (by decide +kernel : exP.Fits 0x21fffc), fun a ha => (by cases ha)⟩
    · rcases List.mem_cons.1 hv with rfl | hv
      · exact ⟨hin [0x220000, 0x21fffc] 0x220000 (by simp), by decide +kernel, (by decide +kernel : exP.Fits 0x220000), fun a ha => (by cases ha)⟩
      · cases hv

end Htm.Guest
