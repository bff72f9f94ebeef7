import Verif.Htm.GuestStep
/-!
A second access to the 4 kB of the first, which the walk of the first is used for again, for C73.
-/
namespace Htm.Mmu.Table
variable {T : Table}

theorem shift_ge (hs : T.SmallOk) (i : Nat) : T.shift i = 39 ∨ T.shift i = 30 ∨ T.shift i = 21 ∨ T.shift i = 16 ∨ T.shift i = 12 := by
  unfold SmallOk at hs
  unfold shift
  split <;> omega

theorem top_cases (i : Nat) : Table.top i = 52 ∨ Table.top i = 39 ∨ Table.top i = 30 ∨ Table.top i = 21 := by
  unfold top
  split <;> simp

/-- Addresses in the same 4 kB use the same entries. -/
theorem entry_near (hs : T.SmallOk) {a b : BitVec 64} (h : a.toNat / 4096 = b.toNat / 4096) (i : Nat) : T.entry i a = T.entry i b := by
  refine entry_of_index fun j _ => ?_
  unfold index
  rcases shift_ge hs j with e | e | e | e | e <;> rcases top_cases j with e' | e' | e' | e' <;> rw [e, e'] <;> omega

theorem depth_near (hs : T.SmallOk) {a b : BitVec 64} (h : a.toNat / 4096 = b.toNat / 4096) : T.depth a = T.depth b := by
  unfold depth; rw [entry_near hs h, entry_near hs h]

theorem path_near (hs : T.SmallOk) {a b : BitVec 64} (h : a.toNat / 4096 = b.toNat / 4096) : T.path a = T.path b := by
  unfold path
  rw [depth_near hs h]
  exact List.map_congr_left fun i _ => entry_near hs h i

theorem size_near (hs : T.SmallOk) {a b : BitVec 64} (h : a.toNat / 4096 = b.toNat / 4096) : T.size a = T.size b := by
  unfold size; rw [depth_near hs h]

theorem frame_near (hs : T.SmallOk) {a b : BitVec 64} (h : a.toNat / 4096 = b.toNat / 4096) : T.frame a = T.frame b := by
  unfold frame; rw [depth_near hs h, entry_near hs h]

theorem Same.near (hs : T.SmallOk) {a b c : BitVec 64} {i : Nat} (h : a.toNat / 4096 = b.toNat / 4096) (hc : T.Same i a c) : T.Same i b c := by
  unfold Same at hc ⊢
  rw [← hc]
  rcases shift_ge hs i with e | e | e | e | e <;> rw [e] <;> omega

theorem SameTable.near (hs : T.SmallOk) {a b c : BitVec 64} {i : Nat} (h : a.toNat / 4096 = b.toNat / 4096) (hc : T.SameTable i a c) :
    T.SameTable i b c := fun j hj => (hc j hj).near hs h

theorem real_near (hs : T.SmallOk) {a b : BitVec 64} (h : a.toNat / 4096 = b.toNat / 4096) : (T.real a).toNat / 4096 = (T.real b).toNat / 4096 := by
  unfold real
  rw [size_near hs h, frame_near hs h, BitVec.toNat_ofNat, BitVec.toNat_ofNat]
  unfold size
  generalize T.frame b = f
  rcases shift_ge hs (T.depth b - 1) with e | e | e | e | e <;> rw [e] <;> omega

end Htm.Mmu.Table

namespace Htm.Mmu

/-- Everything in the one has been seen in the other. -/
structure Seen.Sub (s s' : Seen) : Prop where
  host : ∀ x ∈ s.host, x ∈ s'.host
  guest : ∀ x ∈ s.guest, x ∈ s'.guest

theorem Seen.Sub.addHost {s s' : Seen} (h : s.Sub s') (l : BitVec 32) (g : BitVec 64) : (s.addHost l g).Sub (s'.addHost l g) :=
  ⟨fun x hx => (List.mem_cons.1 hx).elim (fun e => e ▸ List.mem_cons_self ..) fun hx => List.mem_cons_of_mem _ (h.host x hx), h.guest⟩

theorem Seen.Sub.addProc {s s' : Seen} (h : s.Sub s') (l : BitVec 32) (p : Option Proc) : (s.addProc l p).Sub (s'.addProc l p) := by
  cases p with
  | none => exact h
  | some p => exact h.addHost l p.entry

theorem Omittable.sub {S : Tables} {s s' : Seen} (h : s.Sub s') {l : BitVec 32} {g : BitVec 64} {k : Nat} (ho : Omittable S s l g k) :
    Omittable S s' l g k :=
  ⟨ho.1, fun i hi => let ⟨g', h1, h2⟩ := ho.2 i hi; ⟨g', h.host _ h1, h2⟩⟩

theorem PageSeen.sub {S : Tables} {s s' : Seen} (h : s.Sub s') {l : BitVec 32} {g : BitVec 64} (ho : PageSeen S s l g) : PageSeen S s' l g :=
  let ⟨g', h1, h2⟩ := ho; ⟨g', h.host _ h1, h2⟩

theorem FormOk.near {S : Tables} {l p : BitVec 32} (hs : (S.guest l p).SmallOk) {s s' : Seen} (h : s.Sub s') {a b : BitVec 64} (hab : a.toNat / 4096 = b.toNat / 4096) {i : Nat} {f : Form}
    (ho : FormOk S s l p a i f) : FormOk S s' l p b i f := by
  have e := Table.entry_near hs hab i
  cases f with
  | full k => show Omittable _ _ _ _ _; rw [← e]; exact Omittable.sub h ho
  | short =>
    obtain ⟨h1, a', h2, h3⟩ := ho
    exact ⟨by rw [← e]; exact h1.sub h, a', h.guest _ h2, h3.near hs hab⟩
  | hidden =>
    obtain ⟨h1, a', h2, h3⟩ := ho
    exact ⟨by rw [← e]; exact h1.sub h, a', h.guest _ h2, h3.near hs hab⟩

theorem FormsOk.near {S : Tables} {l p : BitVec 32} (hs : (S.guest l p).SmallOk) {a b : BitVec 64} (hab : a.toNat / 4096 = b.toNat / 4096) :
    ∀ (fs : List Form) {i : Nat} {s s' : Seen}, s.Sub s' → FormsOk S l p a i s fs → FormsOk S l p b i s' fs
  | [], _, _, _, _, _ => trivial
  | f :: fs, i, s, s', h, ho => by
    obtain ⟨h1, h2, h3⟩ := ho
    refine ⟨h1.near hs h hab, h2, ?_⟩
    rw [← Table.entry_near hs hab i]
    exact FormsOk.near hs hab fs (h.addHost l _) h3

theorem rows_near {S : Tables} {l p : BitVec 32} (hs : (S.guest l p).SmallOk) {a b : BitVec 64} (hab : a.toNat / 4096 = b.toNat / 4096) (T : Table) :
    ∀ (fs : List Form) (i : Nat), rowsRecords T (S.guest l p) a i fs = rowsRecords T (S.guest l p) b i fs
  | [], _ => rfl
  | f :: fs, i => by rw [rowsRecords, rowsRecords, Table.entry_near hs hab i, rows_near hs hab T fs]

/-- The records of a translation are those of one of another address in the same 4 kB. -/
theorem Translation.records_near {S : Tables} (hS : S.Ok) (t : Translation) {b : BitVec 64} (hab : t.address.toNat / 4096 = b.toNat / 4096) :
    ({ t with address := b } : Translation).records S = t.records S := by
  unfold Translation.records
  dsimp only
  rw [rows_near (hS.2 _ _).1 hab]
  rfl

/-- The processor may write the translation also for that address, and when it has seen more. -/
theorem Translation.Valid.near {S : Tables} (hS : S.Ok) {s s' : Seen} (h : s.Sub s') {t : Translation} (ht : t.Valid S s) {b : BitVec 64}
    (hab : t.address.toNat / 4096 = b.toNat / 4096) : ({ t with address := b } : Translation).Valid S s' := by
  have hs := (hS.2 t.lpid t.pid).1
  obtain ⟨h1, h2, h3, h4, h5, h6, h7, h8, h9, h10, h11⟩ := ht
  have hd := Table.depth_near hs hab
  refine ⟨fun p hp => (h1 p hp).sub h, h2.trans hd, h3.near hs hab _ (h.addProc _ _), ?_, h5, ?_, fun e => h7 (hd.trans e), h8, h9, ?_, h11⟩
  · dsimp only
    rw [← Table.size_near hs hab, ← Table.frame_near hs hab]; exact h4
  · refine Omittable.sub ?_ h6
    refine ⟨?_, (h.addProc _ _).guest⟩
    intro x hx
    unfold Seen.addRows at hx ⊢
    dsimp only at hx ⊢
    rw [← Table.path_near hs hab]
    rcases List.mem_append.1 hx with hx | hx
    · exact List.mem_append_left _ hx
    · exact List.mem_append_right _ ((h.addProc _ _).host x hx)
  · intro i k hi hw
    dsimp only at hw
    rw [← Table.entry_near hs hab] at hw
    exact h10 i k hi hw

end Htm.Mmu

namespace Htm.Guest
open Htm Htm.Spec Htm.Mmu Htm.Pwc
open Htm.Xl (Res St)

theorem Good.near {P : Space} (hS : P.tables.Ok) {t : Translation} (h : Good P t) {b : BitVec 64} (hab : t.address.toNat / 4096 = b.toNat / 4096) :
    Good P { t with address := b } := by
  obtain ⟨h1, h2, h3, h4⟩ := h
  refine ⟨h1, h2, ?_, ?_⟩
  · exact Eq.trans h3 (Table.real_near (hS.2 t.lpid t.pid).1 hab)
  · have hs := (hS.2 P.lpid P.pid).1
    show t.guest.toNat / 2 ^ P.guest.size b = P.guest.frame b
    rw [show P.guest.size b = P.guest.size t.address from (Table.size_near hs hab).symm,
      show P.guest.frame b = P.guest.frame t.address from (Table.frame_near hs hab).symm]
    exact h4

theorem Seen.sub_add (s : Seen) (S : Tables) (t : Translation) : s.Sub (s.add S t) := by
  refine ⟨fun x hx => ?_, fun x hx => List.mem_cons_of_mem _ hx⟩
  refine List.mem_cons_of_mem _ (List.mem_append_right _ ?_)
  cases t.proc with
  | none => exact hx
  | some p => exact List.mem_cons_of_mem _ hx

/-- Less may be said. -/
theorem Caches.sub {P : Space} {s s' : Seen} (h : s'.Sub s) {l l' : List (BitVec 64)} (hl : ∀ a, P.InPages l a ↔ P.InPages l' a) {st : St}
    (hc : Caches P s l st) : Caches P s' l' st := by
  obtain ⟨h1, h2, hist, h3, h4, h5⟩ := hc
  exact ⟨h1, ⟨h2.agree, fun l g hm => h2.host l g (h.host _ hm), fun l p a hm => h2.guest l p a (h.guest _ hm)⟩, hist, h3, fun a => (h4 a).trans (hl a), h5⟩

theorem IsWalk.near {P : Space} (hS : P.tables.Ok) {data : Bool} {a b : BitVec 64} {w : Walked} {y : Xlate} (h : IsWalk P data a w y)
    (hab : a.toNat / 4096 = b.toNat / 4096) : IsWalk P data b { w with t := { w.t with address := b } } y := by
  obtain ⟨h1, h2, h3, h4, h5, h6, h7⟩ := h
  subst h2
  have hr := Translation.records_near hS w.t hab
  have hf := same_frame hS h3 hab.symm
  refine ⟨h1, rfl, h3.near hS hab, ⟨h4.lpid, h4.pid, .full h5 ?_, ?_⟩, h5, ?_, ?_⟩
  · rw [hr]; exact h6
  · rw [hf]; exact h4.real
  · rw [hr]; exact h6
  · rw [hf]; exact h7

theorem InPages_near {P : Space} (hS : P.tables.Ok) {t : Translation} (h : Good P t) {b : BitVec 64} (hab : t.address.toNat / 4096 = b.toNat / 4096)
    (l : List (BitVec 64)) (a : BitVec 64) : P.InPages (b :: t.address :: l) a ↔ P.InPages (t.address :: l) a := by
  constructor
  · rintro ⟨x, hx, hxa⟩
    rcases List.mem_cons.1 hx with rfl | hx
    · refine ⟨t.address, List.mem_cons_self .., ?_⟩
      have hg := h.near hS hab
      have e1 : P.hostSize x = P.hostSize t.address := by
        rw [show P.hostSize x = (resOf P.tables { t with address := x }).host from (hg.hostSize hS).symm, ← h.hostSize hS]
        rfl
      have e2 : P.guestSize x = P.guestSize t.address := (Table.size_near (hS.2 P.lpid P.pid).1 hab).symm
      rw [e1, e2] at hxa
      rw [hxa]
      have p1 := Table.pageSize_size (hS.1 P.lpid).1 (P.guest.real t.address)
      have p2 := Table.pageSize_size (hS.2 P.lpid P.pid).1 t.address
      have p := Xl.pageSize_min p1 p2
      change Erat.PageSize (min (P.hostSize t.address) (P.guestSize t.address)) at p
      unfold Erat.PageSize at p
      rcases p with e | e | e | e <;> rw [e] <;> omega
    · exact ⟨x, hx, hxa⟩
  · rintro ⟨x, hx, hxa⟩
    exact ⟨x, List.mem_cons_of_mem _ hx, hxa⟩

end Htm.Guest
