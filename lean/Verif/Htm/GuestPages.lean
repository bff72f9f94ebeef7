import Verif.Htm.PropsEara
import Verif.Htm.SpecGuest
/-!
Translations of a process for C73: pages, real addresses, and what decoding and lookups return.
-/
namespace Htm.Guest
open Htm Htm.Spec Htm.Mmu Htm.Pwc
open Htm.Xl (Res St)

/-- A translation of the process with the guest real address it is translated to. -/
structure Good (P : Space) (t : Translation) : Prop where
  lpid : t.lpid = P.lpid
  pid : t.pid = P.pid
  exact : t.Exact P.tables
  guest : t.guest.toNat / 2 ^ P.guest.size t.address = P.guest.frame t.address

/-- The result for a translation. -/
def resOf (S : Tables) (t : Translation) : Res :=
  { ok := true, rcd := (nestedOf S t).radix, host := (S.host t.lpid).size t.guest, guest := (S.guest t.lpid t.pid).size t.address }

theorem decoded_resOf (S : Tables) (t : Translation) : Decoded S t (resOf S t) := decoded_of S t

/-- The real address, without the offset in 4 kB. -/
def frameOf (P : Space) (a : BitVec 64) : BitVec 64 := BitVec.ofNat 64 ((P.real a).toNat / 4096 * 4096)

theorem frameOf_toNat (P : Space) (a : BitVec 64) : (frameOf P a).toNat = (P.real a).toNat / 4096 * 4096 := by
  have := (P.real a).isLt
  unfold frameOf
  rw [BitVec.toNat_ofNat, Nat.mod_eq_of_lt]
  omega

theorem Good.move {P : Space} (hS : P.tables.Ok) {t : Translation} (h : Good P t) {a : BitVec 64}
    (ha : a.toNat / 2 ^ t.page P.tables = t.address.toNat / 2 ^ t.page P.tables) : Good P (t.move P.tables a) := by
  obtain ⟨h1, h2, h3, h4⟩ := h
  have hg : t.guest.toNat / 2 ^ (P.tables.guest t.lpid t.pid).size t.address = (P.tables.guest t.lpid t.pid).frame t.address := by
    rw [h1, h2]; exact h4
  obtain ⟨hp, _, hr⟩ := same_of_covers hS hg h3 ha
  have hgs := (hS.2 t.lpid t.pid).1
  refine ⟨h1, h2, rfl, ?_⟩
  show ((P.tables.guest t.lpid t.pid).real a).toNat / 2 ^ P.guest.size a = P.guest.frame a
  have e : P.guest = P.tables.guest t.lpid t.pid := by rw [h1, h2]; rfl
  rw [e, hr, ← Table.size_of_same hgs hp, ← Table.frame_of_same hgs hp, ← hg, Nat.add_comm, Nat.add_mul_div_right _ _ (Nat.two_pow_pos _),
    Nat.div_eq_of_lt (Nat.mod_lt _ (Nat.two_pow_pos _)), Nat.zero_add]

/-- The size of the host's page is that for the address translated to. -/
theorem Good.hostSize {P : Space} (hS : P.tables.Ok) {t : Translation} (h : Good P t) :
    (P.tables.host t.lpid).size t.guest = P.hostSize t.address := by
  have hg : t.guest.toNat / 2 ^ (P.tables.guest t.lpid t.pid).size t.address = (P.tables.guest t.lpid t.pid).frame t.address := by
    rw [h.lpid, h.pid]; exact h.guest
  have := (move_sizes hS hg h.exact (a := t.address) rfl).1
  rw [← this, h.lpid, h.pid]; rfl

theorem Good.guestSize {P : Space} {t : Translation} (h : Good P t) : (P.tables.guest t.lpid t.pid).size t.address = P.guestSize t.address := by
  rw [h.lpid, h.pid]; rfl

theorem Good.page {P : Space} (hS : P.tables.Ok) {t : Translation} (h : Good P t) :
    t.page P.tables = min (P.hostSize t.address) (P.guestSize t.address) := by
  unfold Translation.page; rw [h.hostSize hS, h.guestSize]

theorem hostReal_toNat {T : Table} (hT : T.Ok) (g : BitVec 64) : (T.real g).toNat = T.frame g * 2 ^ T.size g + g.toNat % 2 ^ T.size g := by
  have hp := Table.pageSize_size hT.1 g
  have h := hT.2 g
  unfold Table.real
  rw [BitVec.toNat_ofNat, Nat.mod_eq_of_lt]
  revert h
  unfold PageSize at hp
  rcases hp with e | e | e | e <;> rw [e] <;> omega

theorem div_page {g k : Nat} (h : g ≤ k) (f G r : Nat) :
    (f * 2 ^ k + (G * 2 ^ g + r % 2 ^ g) % 2 ^ k) / 2 ^ g = f * 2 ^ (k - g) + G % 2 ^ (k - g) := by
  have e : 2 ^ k = 2 ^ g * 2 ^ (k - g) := by rw [← Nat.pow_add]; congr 1; omega
  rw [e, show f * (2 ^ g * 2 ^ (k - g)) = f * 2 ^ (k - g) * 2 ^ g from by rw [Nat.mul_comm (2 ^ g), Nat.mul_assoc], Nat.add_comm,
    Nat.add_mul_div_right _ _ (Nat.two_pow_pos _), Nat.mod_mul_right_div_self, Nat.add_comm (G * 2 ^ g), Nat.add_mul_div_right _ _ (Nat.two_pow_pos _),
    Nat.div_eq_of_lt (Nat.mod_lt _ (Nat.two_pow_pos _)), Nat.zero_add, Nat.add_comm]

/-- Within the page, real addresses are in one page. -/
theorem Good.real_div {P : Space} (hS : P.tables.Ok) {t : Translation} (h : Good P t) {a : BitVec 64}
    (ha : a.toNat / 2 ^ t.page P.tables = t.address.toNat / 2 ^ t.page P.tables) :
    (P.real a).toNat / 2 ^ t.page P.tables = (P.real t.address).toNat / 2 ^ t.page P.tables ∧
      (P.hostSize t.address ≤ P.guestSize t.address → (P.real a).toNat % 2 ^ P.hostSize t.address = a.toNat % 2 ^ P.hostSize t.address) := by
  obtain ⟨h1, h2, h3, h4⟩ := h
  have hg : t.guest.toNat / 2 ^ (P.tables.guest t.lpid t.pid).size t.address = (P.tables.guest t.lpid t.pid).frame t.address := by
    rw [h1, h2]; exact h4
  obtain ⟨_, hh, hr⟩ := same_of_covers hS hg h3 ha
  obtain ⟨_, hh', hr'⟩ := same_of_covers hS hg h3 (a := t.address) rfl
  have hho := hS.1 t.lpid
  have e1 : ∀ b, P.real b = (P.tables.host t.lpid).real ((P.tables.guest t.lpid t.pid).real b) := by intro b; rw [h1, h2]; rfl
  have e2 : P.hostSize t.address = (P.tables.host t.lpid).size t.guest := (Good.hostSize hS ⟨h1, h2, h3, h4⟩).symm
  have e3 : P.guestSize t.address = (P.tables.guest t.lpid t.pid).size t.address := by rw [h1, h2]; rfl
  have p1 := Table.pageSize_size (hS.2 t.lpid t.pid).1 t.address
  have p2 := Table.pageSize_size hho.1 t.guest
  rw [e1, e1, hostReal_toNat hho, hostReal_toNat hho, ← Table.size_of_same hho.1 hh, ← Table.size_of_same hho.1 hh',
    ← Table.frame_of_same hho.1 hh, ← Table.frame_of_same hho.1 hh', hr, hr', e2, e3]
  unfold Translation.page at ha ⊢
  revert ha
  generalize (P.tables.guest t.lpid t.pid).size t.address = g at *
  generalize (P.tables.host t.lpid).size t.guest = k at *
  generalize (P.tables.host t.lpid).frame t.guest = f
  generalize t.guest.toNat / 2 ^ g = G
  by_cases hle : g ≤ k
  · rw [Nat.min_eq_right hle]
    intro ha
    refine ⟨by rw [div_page hle, div_page hle], ?_⟩
    intro hk
    have : g = k := by omega
    subst this
    rw [Nat.mul_add_mod_self_right, Nat.mul_add_mod_self_right, Nat.mod_mod, Nat.mod_mod]
  · unfold PageSize at p1 p2
    rcases p1 with rfl | rfl | rfl | rfl <;> rcases p2 with rfl | rfl | rfl | rfl <;>
      simp only [Nat.reducePow, Nat.reduceLeDiff, Nat.min_def, if_true, if_false] <;> omega

/-- With the right real addresses, an address is in the page of a translation if its effective address is. -/
theorem Good.covers {P : Space} (hS : P.tables.Ok) {t : Translation} (h : Good P t) (a : BitVec 64) :
    t.Covers P.tables (frameOf P t.address) a (frameOf P a) ↔
      a.toNat / 2 ^ min (P.hostSize t.address) (P.guestSize t.address) = t.address.toNat / 2 ^ min (P.hostSize t.address) (P.guestSize t.address) := by
  rw [← h.page hS]
  constructor
  · exact fun x => x.1
  · intro ha
    refine ⟨ha, ?_⟩
    have h1 := (h.real_div hS ha).1
    have hp := page_ok hS t
    rw [frameOf_toNat, frameOf_toNat]
    revert h1
    unfold Erat.PageSize at hp
    rcases hp with e | e | e | e <;> rw [e] <;> omega

theorem or_page {x y s : Nat} (hs : 12 ≤ s) (h : x % 2 ^ s = y % 2 ^ s) : x / 4096 * 4096 ||| y % 2 ^ s = x := by
  rw [← h]
  apply Nat.eq_of_testBit_eq
  intro i
  rw [Nat.testBit_or, Nat.testBit_mod_two_pow, show (4096 : Nat) = 2 ^ 12 from rfl, Nat.testBit_mul_two_pow, Nat.testBit_div_two_pow]
  by_cases hi : i < 12
  · rw [decide_eq_false (by omega), decide_eq_true (show i < s by omega)]; simp
  · rw [show i - 12 + 12 = i from by omega]
    rw [decide_eq_true (show 12 ≤ i by omega)]
    cases x.testBit i <;> simp

theorem low_toNat {s : Nat} (hs : s < 64) (a : BitVec 64) : (a &&& (BitVec.twoPow 64 s - 1)).toNat = a.toNat % 2 ^ s := by
  have h2 : 2 ^ s < 2 ^ 64 := Nat.pow_lt_pow_right (by omega) hs
  have h3 := Nat.two_pow_pos s
  rw [BitVec.toNat_and, BitVec.toNat_sub, BitVec.toNat_twoPow, Nat.mod_eq_of_lt h2]
  rw [show (2 ^ 64 - (1 : BitVec 64).toNat + 2 ^ s) % 2 ^ 64 = 2 ^ s - 1 from ?_, Nat.and_two_pow_sub_one_eq_mod]
  rw [show (1 : BitVec 64).toNat = 1 from rfl]
  omega

/-- The real address that is put together from the 4 kB page and the offset in the host's page. -/
theorem Good.joined {P : Space} (hS : P.tables.Ok) {t : Translation} (h : Good P t) (hle : P.hostSize t.address ≤ P.guestSize t.address) :
    frameOf P t.address ||| (t.address &&& (BitVec.twoPow 64 (P.hostSize t.address) - 1)) = P.real t.address := by
  have hs : P.hostSize t.address < 64 ∧ 12 ≤ P.hostSize t.address := by
    have := Table.pageSize_size (hS.1 P.lpid).1 (P.guest.real t.address)
    unfold PageSize at this
    show (P.tables.host P.lpid).size _ < 64 ∧ 12 ≤ (P.tables.host P.lpid).size _
    omega
  apply BitVec.eq_of_toNat_eq
  rw [BitVec.toNat_or, frameOf_toNat, low_toNat hs.1]
  exact or_page hs.2 ((h.real_div hS rfl).2 hle)

/-! ### Decoding -/

theorem inPages_cons (P : Space) (b : BitVec 64) (l : List (BitVec 64)) (a : BitVec 64) :
    P.InPages (b :: l) a ↔ a.toNat / 2 ^ min (P.hostSize b) (P.guestSize b) = b.toNat / 2 ^ min (P.hostSize b) (P.guestSize b) ∨ P.InPages l a := by
  unfold Space.InPages
  simp only [List.mem_cons, exists_eq_or_imp]

/-- What is in the caches. -/
structure Caches (P : Space) (seen : Seen) (walked : List (BitVec 64)) (st : St) : Prop where
  partials : st.partials = []
  inv : Inv P.tables seen st.caches
  erat : ∃ h : Hist, EratInv P.tables h st.erat ∧ (∀ a, P.InPages (h.map fun q => q.1.address) a ↔ P.InPages walked a) ∧
    ∀ q ∈ h, Good P q.1 ∧ q.2 = frameOf P q.1.address

theorem Caches.init (P : Space) : Caches P {} [] {} :=
  ⟨rfl, inv_init _, [], ⟨by simp, by intro k v h; simp [Erat.init, Cache.empty] at h⟩, fun _ => Iff.rfl, by simp⟩

theorem histOk {P : Space} {h : Hist} (hh : ∀ q ∈ h, Good P q.1 ∧ q.2 = frameOf P q.1.address) : HistOk P.tables P.lpid P.pid h :=
  ⟨fun q hq => (hh q hq).1.lpid, fun q hq => (hh q hq).1.pid,
   fun q hq => by rw [(hh q hq).1.lpid, (hh q hq).1.pid]; exact (hh q hq).1.guest, fun q hq => (hh q hq).1.exact⟩

/-- A walk of the dump. -/
theorem Caches.decode {P : Space} (hS : P.tables.Ok) {seen : Seen} {walked : List (BitVec 64)} {st : St} (h : Caches P seen walked st)
    {t : Translation} (hg : Good P t) (hv : t.Valid P.tables seen) {x : Xlate} (hw : Written P.tables t x (frameOf P t.address))
    (hn : x.nwalks ≤ x.walks.length) (hx : x.walks.take x.nwalks = t.records P.tables) :
    ∃ st', Xl.decode st x false true t.address (frameOf P t.address) = .ok (resOf P.tables t, x, st') ∧
      Caches P (seen.add P.tables t) (t.address :: walked) st' := by
  obtain ⟨hp, hI, hist, hE, hwalked, hgood⟩ := h
  obtain ⟨c', hn', hI'⟩ := nested_ok hS hI hv
  obtain ⟨l, w, e, hwl⟩ := records_last P.tables t
  have h1 : partialLookup st.partials x = .ok (none, []) := by rw [hp]; rfl
  have h2 : Xl.fixIncomplete x false true (frameOf P t.address) = .ok x := by
    unfold Xl.fixIncomplete
    rw [complete_last hn (hx.trans e)]
    rfl
  obtain ⟨e', he⟩ : ∃ e', Erat.insert st.erat (nestedOf P.tables t).final.host.pageSize t.address (frameOf P t.address) (nestedOf P.tables t).radix
      (nestedOf P.tables t).guestPageSize = some e' := by
    unfold Erat.insert
    show ∃ e, (match Erat.mkKey (t.page P.tables) t.address (frameOf P t.address) with
      | none => none | some k => _) = some e
    rw [Erat.mkKey_of (page_ok hS t)]
    exact ⟨_, rfl⟩
  have hgood' : ∀ q ∈ (t, frameOf P t.address) :: hist, Good P q.1 ∧ q.2 = frameOf P q.1.address := by
    intro q hq
    rcases List.mem_cons.1 hq with rfl | hq
    · exact ⟨hg, rfl⟩
    · exact hgood q hq
  refine ⟨⟨c', [], e'⟩, ?_, rfl, hI', (t, frameOf P t.address) :: hist, hE.insert hS (histOk hgood') he, ?_, hgood'⟩
  · unfold Xl.decode
    rw [h1]
    simp only [Option.getD_none]
    rw [h2]
    simp only
    unfold Xl.decodeWalk
    simp only
    unfold Xl.decodeNested
    simp only
    rw [hw.lpid, hw.pid, hx, hn']
    simp only
    rw [if_neg (by rw [Decidable.not_not]; exact and_mask12 hw.real)]
    unfold Xl.finishDecode
    simp only
    rw [he]
    rfl
  · intro a
    rw [List.map_cons, inPages_cons, inPages_cons, hwalked]

/-- An address without walk. -/
theorem Caches.lookup {P : Space} (hS : P.tables.Ok) {seen : Seen} {walked : List (BitVec 64)} {st : St} (h : Caches P seen walked st)
    (a : BitVec 64) :
    (P.InPages walked a ∧ ∃ t, Good P t ∧ t.address = a ∧ Xl.lookup st false true a (frameOf P a) = .ok (resOf P.tables t)) ∨
    (¬ P.InPages walked a ∧ Xl.lookup st false true a (frameOf P a) = .ok { ok := false }) := by
  obtain ⟨hp, hI, hist, hE, hwalked, hgood⟩ := h
  have hH := histOk hgood
  have hin : P.InPages walked a ↔ ∃ q ∈ hist, q.1.Covers P.tables q.2 a (frameOf P a) := by
    rw [← hwalked]
    unfold Space.InPages
    constructor
    · rintro ⟨b, hb, hab⟩
      obtain ⟨q, hq, rfl⟩ := List.mem_map.1 hb
      refine ⟨q, hq, ?_⟩
      rw [(hgood q hq).2]
      exact ((hgood q hq).1.covers hS a).2 hab
    · rintro ⟨q, hq, hc⟩
      rw [(hgood q hq).2] at hc
      exact ⟨_, List.mem_map.2 ⟨q, hq, rfl⟩, ((hgood q hq).1.covers hS a).1 hc⟩
  obtain ⟨o, h1, h2, h3⟩ := eratSearch_spec st.erat a (frameOf P a) Xl.hostPageSizes (by unfold Xl.hostPageSizes Erat.PageSize; simp)
  unfold Xl.lookup
  rw [if_neg (by simp), h1]
  cases o with
  | none =>
    refine Or.inr ⟨?_, rfl⟩
    rw [hin]
    rintro ⟨q, hq, hc⟩
    have hp := page_ok hS q.1
    have := h3 rfl (q.1.page P.tables) (by unfold Erat.PageSize at hp; unfold Xl.hostPageSizes; simp; omega)
    rw [(eratKey_eq_iff hS q.1 q.2 a (frameOf P a)).2 ⟨rfl, hc⟩] at this
    exact hE.has q hq this
  | some v =>
    obtain ⟨s, hs⟩ := h2 v rfl
    obtain ⟨q, hq, hk, hv⟩ := hE.from_ _ _ hs
    have hc := ((eratKey_eq_iff hS q.1 q.2 a (frameOf P a)).1 hk).2
    have hset := setOffset_move hS (hH.guest q hq) (hH.exact q hq) hc.1
    obtain ⟨z1, z2⟩ := move_sizes hS (hH.guest q hq) (hH.exact q hq) hc.1
    refine Or.inl ⟨hin.2 ⟨q, hq, hc⟩, q.1.move P.tables a, (hgood q hq).1.move hS hc.1, rfl, ?_⟩
    simp only [if_true]
    rw [hv, hset]
    simp only
    unfold resOf
    rw [show (P.tables.host (q.1.move P.tables a).lpid).size (q.1.move P.tables a).guest = (P.tables.host q.1.lpid).size q.1.guest from z1,
      show (P.tables.guest (q.1.move P.tables a).lpid (q.1.move P.tables a).pid).size (q.1.move P.tables a).address = (P.tables.guest q.1.lpid q.1.pid).size q.1.address from z2]
    rfl

end Htm.Guest
