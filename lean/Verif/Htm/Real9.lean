import Verif.Htm.SpecReal9
import Verif.Htm.PropsInsn
import Verif.Htm.TlbStep
/-! Real addresses of instructions in POWER9 traces: lemmas. -/
namespace Htm
open Htm.Spec
open Htm.TlbSpec (Page pageOf PageSize)

/-! ### The cache and the table -/

/-- The page that an address is in, if it is at a frame. -/
def pageAt (t : Layout) (a frame : Nat) : Page := { ea := a / 2 ^ t.size a * 2 ^ t.size a, ra := frame, size := 2 ^ t.size a }

theorem pageAt_covers (t : Layout) (a f b : Nat) : (pageAt t a f).Covers b ↔ t.SamePage a b := by
  unfold Page.Covers pageAt Layout.SamePage
  dsimp only
  have hp := Nat.two_pow_pos (t.size a)
  generalize 2 ^ t.size a = n at hp ⊢
  constructor
  · rintro ⟨h1, h2⟩
    apply Nat.div_eq_of_lt_le h1
    rw [Nat.add_mul, Nat.one_mul]; exact h2
  · intro h
    rw [← h]
    have := Nat.div_add_mod b n
    have hm := Nat.mod_lt b hp
    rw [Nat.mul_comm] at this
    omega

theorem pageAt_same {t : Layout} {a b : Nat} (h : t.SamePage a b) (f : Nat) : pageAt t b f = pageAt t a f := by
  have h1 := t.same a b h
  unfold pageAt
  rw [h1, show b / 2 ^ t.size a = a / 2 ^ t.size a from h]

theorem samePage_symm {t : Layout} {a b : Nat} (h : t.SamePage a b) : t.SamePage b a := by
  unfold Layout.SamePage
  rw [t.same a b h]; exact (show b / 2 ^ t.size a = a / 2 ^ t.size a from h).symm

theorem samePage_trans {t : Layout} {a b c : Nat} (h : t.SamePage a b) (g : t.SamePage b c) : t.SamePage a c := by
  unfold Layout.SamePage at g ⊢
  rw [t.same a b h] at g
  exact g.trans h

theorem latest_same {t : Layout} {a b : Nat} (h : t.SamePage a b) : ∀ seen : List (Nat × Nat), t.latest b seen = t.latest a seen
  | [] => rfl
  | p :: l => by
    unfold Layout.latest
    rw [latest_same h l]
    by_cases g : t.SamePage a p.1
    · rw [if_pos g, if_pos (samePage_trans (samePage_symm h) g)]
    · rw [if_neg g, if_neg (fun g' => g (samePage_trans h g'))]

/-- The page that is not the last one. -/
def NotLast (t : Layout) (a : Nat) : Prop := (a / 2 ^ t.size a + 1) * 2 ^ t.size a < 2 ^ 64

theorem NotLast.same {t : Layout} {a b : Nat} (h : t.SamePage a b) (g : NotLast t a) : NotLast t b := by
  unfold NotLast at g ⊢
  rw [t.same a b h, show b / 2 ^ t.size a = a / 2 ^ t.size a from h]
  exact g

/-- The cache has the pages of the addresses that were seen, where they were last. -/
structure Cached (t : Layout) (seen : List (Nat × Nat)) (c : Tlb.Cache) : Prop where
  rel : ∃ s : List Page, Tlb.Rel c s ∧ (∀ p ∈ s, ∃ b f, t.latest b seen = some f ∧ p = pageAt t b f) ∧ (∀ b f, t.latest b seen = some f → pageAt t b f ∈ s)
  last : ∀ b f, t.latest b seen = some f → NotLast t b

theorem Cached.empty (t : Layout) : Cached t [] {} := ⟨⟨[], Tlb.Rel.empty, (by intro p hp; cases hp), (by intro b f hp; cases hp)⟩, by intro b f hp; cases hp⟩

theorem Cached.miss {t : Layout} {seen : List (Nat × Nat)} {c : Tlb.Cache} (h : Cached t seen c) {a : BitVec 64}
    (hn : t.latest a.toNat seen = none) : Tlb.raGet c a 1 = some none := by
  obtain ⟨⟨s, hr, h1, h2⟩, hl⟩ := h
  refine Tlb.raGet_miss hr fun p hp hc => ?_
  obtain ⟨b, f, hb, rfl⟩ := h1 p hp
  rw [latest_same ((pageAt_covers t b f _).1 hc), hb] at hn
  cases hn

theorem pow_size {n : Nat} (h : n = 12 ∨ n = 16 ∨ n = 24) : PageSize (2 ^ n) := by
  rcases h with rfl | rfl | rfl
  · exact .inl rfl
  · exact .inr (.inl rfl)
  · exact .inr (.inr rfl)

theorem shiftOf_pow {n : Nat} (h : n = 12 ∨ n = 16 ∨ n = 24) {s : BitVec 64} (hs : s.toNat = 2 ^ n) : shiftOf s = n := by
  have : s = BitVec.ofNat 64 (2 ^ n) := by
    apply BitVec.eq_of_toNat_eq
    rw [hs, BitVec.toNat_ofNat, Nat.mod_eq_of_lt]
    exact Nat.pow_lt_pow_right (by decide) (by omega)
  subst this
  rcases h with rfl | rfl | rfl <;> decide

theorem Cached.hit {t : Layout} {seen : List (Nat × Nat)} {c : Tlb.Cache} (h : Cached t seen c) {a : BitVec 64} {f : Nat}
    (hn : t.latest a.toNat seen = some f) : ∃ ra size : BitVec 64, Tlb.raGet c a 1 = some (some (ra, size)) ∧
      ra.toNat = f + a.toNat % 2 ^ t.size a.toNat ∧ shiftOf size = t.size a.toNat := by
  obtain ⟨⟨s, hr, h1, h2⟩, hl⟩ := h
  have hlast := hl _ f hn
  obtain ⟨ra, size, e1, e2, e3⟩ := Tlb.raGet_hit hr (h2 _ f hn) (a := a) ((pageAt_covers t _ _ _).2 rfl)
    (by unfold NotLast at hlast; rw [Nat.add_mul, Nat.one_mul] at hlast; exact hlast)
  refine ⟨ra, size, e1, ?_, ?_⟩
  · rw [e2]
    unfold Page.translate pageAt
    dsimp only
    have := Nat.div_add_mod a.toNat (2 ^ t.size a.toNat)
    rw [Nat.mul_comm] at this
    omega
  · exact shiftOf_pow (t.sizes _) e3

theorem Cached.set {t : Layout} {seen : List (Nat × Nat)} {c : Tlb.Cache} (h : Cached t seen c) {a ra size : BitVec 64} {f : Nat}
    (hra : ra.toNat = f + a.toNat % 2 ^ t.size a.toNat) (hal : f % 2 ^ t.size a.toNat = 0)
    (hsize : size.toNat = 2 ^ t.size a.toNat) (hlast : NotLast t a.toNat) :
    ∃ c', Tlb.raSet c a 1 ra size = some c' ∧ Cached t ((a.toNat, f) :: seen) c' := by
  obtain ⟨⟨s, hr, h1, h2⟩, hl⟩ := h
  have hpage : pageOf a.toNat ra.toNat size.toNat = pageAt t a.toNat f := by
    unfold pageOf pageAt
    rw [hra, hsize]
    have hp := Nat.two_pow_pos (t.size a.toNat)
    have hm : (f + a.toNat % 2 ^ t.size a.toNat) % 2 ^ t.size a.toNat = a.toNat % 2 ^ t.size a.toNat := by
      rw [Nat.add_mod, hal, Nat.zero_add, Nat.mod_mod, Nat.mod_mod]
    rw [hm]
    have hd := Nat.div_add_mod a.toNat (2 ^ t.size a.toNat)
    rw [Nat.mul_comm] at hd
    have e1 : a.toNat - a.toNat % 2 ^ t.size a.toNat = a.toNat / 2 ^ t.size a.toNat * 2 ^ t.size a.toNat := by omega
    rw [e1, Nat.add_sub_cancel]
  obtain ⟨c', e, r⟩ := Tlb.raSet_proper hr (ea := a) (ra := ra) (size := size) (by rw [hsize]; exact pow_size (t.sizes _)) (by
    intro p hp ho
    rw [hpage] at ho
    obtain ⟨x, hx1, hx2⟩ := ho
    obtain ⟨b, g, hb, rfl⟩ := h1 p hp
    have e1 := (pageAt_covers t b g x).1 hx1
    have e2 := (pageAt_covers t _ f x).1 hx2
    exact (pageAt_covers t _ _ _).2 (samePage_trans e1 (samePage_symm e2)))
  have hnew : ∀ b, t.SamePage b a.toNat → t.latest b ((a.toNat, f) :: seen) = some f := fun b hb => if_pos hb
  have hold : ∀ b, ¬ t.SamePage b a.toNat → t.latest b ((a.toNat, f) :: seen) = t.latest b seen := fun b hb => if_neg hb
  refine ⟨c', e, ⟨_, r, ?_, ?_⟩, ?_⟩
  · intro p hp
    unfold TlbSpec.insert at hp
    rcases List.mem_cons.1 hp with rfl | hp
    · exact ⟨_, f, hnew _ rfl, hpage⟩
    · obtain ⟨hp, hc⟩ := List.mem_filter.1 hp
      obtain ⟨b, g, hb, rfl⟩ := h1 p hp
      refine ⟨b, g, ?_, rfl⟩
      rw [hold, hb]
      intro hs
      simp [(pageAt_covers t b g _).2 hs] at hc
  · intro b g hb
    unfold TlbSpec.insert
    rw [hpage]
    by_cases hs : t.SamePage b a.toNat
    · rw [hnew b hs] at hb
      obtain rfl := Option.some.inj hb
      rw [pageAt_same hs]
      exact List.mem_cons_self ..
    · rw [hold b hs] at hb
      exact List.mem_cons_of_mem _ (List.mem_filter.2 ⟨h2 b g hb, by simpa using fun hc => hs ((pageAt_covers t b g _).1 hc)⟩)
  · intro b g hb
    by_cases hs : t.SamePage b a.toNat
    · exact hlast.same (samePage_symm hs)
    · rw [hold b hs] at hb
      exact hl b g hb

/-! ### The records with real pages -/

theorem or_page {f n : Nat} (hf : f % 2 ^ n = 0) (x : Nat) : f ||| x % 2 ^ n = f + x % 2 ^ n := by
  obtain ⟨q, rfl⟩ := Nat.dvd_of_mod_eq_zero hf
  exact (Nat.two_pow_add_eq_or_of_lt (Nat.mod_lt _ (Nat.two_pow_pos n)) q).symm

theorem and_low (x : BitVec 64) {n : Nat} (hn : n < 64) : (x &&& (BitVec.twoPow 64 n - 1)).toNat = x.toNat % 2 ^ n := by
  have h1 : 2 ^ n < 2 ^ 64 := Nat.pow_lt_pow_right (by decide) hn
  have h2 : 0 < 2 ^ n := Nat.two_pow_pos n
  have : (BitVec.twoPow 64 n - 1).toNat = 2 ^ n - 1 := by
    rw [BitVec.toNat_sub, BitVec.toNat_twoPow, Nat.mod_eq_of_lt h1, show (1 : BitVec 64).toNat = 1 from rfl]
    omega
  rw [BitVec.toNat_and, this, Nat.and_two_pow_sub_one_eq_mod]

theorem frame_bits {v : BitVec 64} {a b : Nat} (hb : b < 64) (hab : a ≤ b) (hw : b - a < 51) : (bits v a b <<< 12).toNat = fld v a b * 4096 := by
  rw [BitVec.toNat_shiftLeft, bits_fld hb hab, Nat.shiftLeft_eq, Nat.mod_eq_of_lt]
  have h1 := fld_lt v a b
  have h2 : (2 : Nat) ^ (b - a + 1) ≤ 2 ^ 51 := Nat.pow_le_pow_right (by decide) (by omega)
  omega

theorem irSize_cases (v : BitVec 64) : irSize v = 12 ∨ irSize v = 16 ∨ irSize v = 24 := by unfold irSize; split <;> (try split) <;> simp

theorem drSize_cases (v : BitVec 64) : drSize v = 12 ∨ drSize v = 16 ∨ drSize v = 24 := by unfold drSize; split <;> (try split) <;> simp

theorem irFrame_lt (v : BitVec 64) : irFrame v < 2 ^ 50 := by
  have : fld v 0 37 < 2 ^ 38 := fld_lt v 0 37
  unfold irFrame; omega

theorem drFrame_lt (v : BitVec 64) : drFrame v < 2 ^ 50 := by
  have : fld v 2 39 < 2 ^ 38 := fld_lt v 2 39
  unfold drFrame; omega

theorem ira9_value {v : BitVec 64} (hs : ¬ IsStamp v) (h : fld v 41 63 = 0 ∧ fld v 38 39 ≠ 0 ∧ irFrame v % 2 ^ irSize v = 0) (addr : BitVec 64) :
    ∃ a, ira9 v addr = some (a, irSize v) ∧ a.toNat = irFrame v + addr.toNat % 2 ^ irSize v := by
  obtain ⟨h1, h2, h3⟩ := h
  have htag : badTag v = false := by
    refine badTag_false hs ?_
    intro ht
    unfold fld at h1 ht
    simp only [Nat.reduceSub, Nat.reducePow, Nat.reduceAdd] at h1 ht
    omega
  have e1 : u32 v 41 63 = 0 := (u32_eq (by omega) (by omega) (by omega) _).2 h1
  have h4 : fld v 38 39 < 4 := fld_lt v 38 39
  have e2 : (if u32 v 38 39 = 1 then 12 else if u32 v 38 39 = 2 then 16 else if u32 v 38 39 = 3 then 24 else 0) = irSize v := by
    simp only [u32_eq (v := v) (a := 38) (b := 39) (by omega) (by omega) (by omega)]
    show (if fld v 38 39 = 1 then 12 else if fld v 38 39 = 2 then 16 else if fld v 38 39 = 3 then 24 else 0) = _
    unfold irSize
    by_cases g1 : fld v 38 39 = 1
    · rw [if_pos g1, if_pos g1]
    · rw [if_neg g1, if_neg g1]
      by_cases g2 : fld v 38 39 = 2
      · rw [if_pos g2, if_pos g2]
      · rw [if_neg g2, if_neg g2, if_pos (by omega)]
  have e3 : irSize v ≠ 0 := by have := irSize_cases v; omega
  refine ⟨(bits v 0 37 <<< 12) ||| (addr &&& (BitVec.twoPow 64 (irSize v) - 1)), ?_, ?_⟩
  · unfold ira9
    rw [htag, if_neg (by decide), if_neg (fun h => h e1)]
    dsimp only
    rw [e2, if_neg e3]
  · rw [BitVec.toNat_or, and_low _ (by have := irSize_cases v; omega), frame_bits (by omega) (by omega) (by omega)]
    exact or_page h3 _

theorem dra9_value {v : BitVec 64} (hs : badTag v = false) (h : fld v 0 1 ≠ 2 ∧ drFrame v % 2 ^ drSize v = 0) :
    ∃ a, dra9 v = some (a, drSize v) ∧ a.toNat = drFrame v := by
  obtain ⟨h1, h2⟩ := h
  have h4 : fld v 0 1 < 4 := fld_lt v 0 1
  refine ⟨bits v 2 39 <<< 12, ?_, frame_bits (by omega) (by omega) (by omega)⟩
  have e : dra9 v = if fld v 0 1 = 0 then some (bits v 2 39 <<< 12, 12) else if fld v 0 1 = 1 then some (bits v 2 39 <<< 12, 16)
      else if fld v 0 1 = 3 then some (bits v 2 39 <<< 12, 24) else none := by
    unfold dra9
    rw [hs, if_neg (by decide)]
    simp only [u32_eq (v := v) (a := 0) (b := 1) (by omega) (by omega) (by omega)]
    rfl
  rw [e]
  unfold drSize
  by_cases g1 : fld v 0 1 = 0
  · rw [if_pos g1, if_pos g1]
  · rw [if_neg g1, if_neg g1]
    by_cases g2 : fld v 0 1 = 1
    · rw [if_pos g2, if_pos g2]
    · rw [if_neg g2, if_neg g2, if_pos (by omega)]

end Htm
