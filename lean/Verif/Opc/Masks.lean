import Verif.Opc.Signed

/-! Operands that stand for a mask or a scaled byte. -/
namespace Opc

variable {i x d w : W} {v inv : Int} {e : Bool}

theorem sci8_0 (hi : i &&& 0x7ff#64 = 0#64) (hx : x &&& 0xffffff00#64 = 0#64) (h : i ||| 0#64 ||| (x &&& 0xff#64) = w) :
    (extractSci8 w d inv).1 &&& 0xffffffff#64 = x &&& 0xffffffff#64 ∧ (extractSci8 w d inv).2 = inv := by
  have e1 : w &&& 0x400#64 = 0x0#64 := by
    rw [← h]; exact lin_eq_any (i := i) (v := x) 0x7ff#64 (by decide +kernel) hi
  have e2 : (w &&& 0x300#64) >>> 5 = 0#64 := by
    rw [← h]; exact lin_eq_any (i := i) (v := x) 0x7ff#64 (by decide +kernel) hi
  have e3 : ((w &&& 0xff#64) <<< 0) &&& 0xffffffff#64 = x &&& (0xff#64 <<< 0) := by
    rw [← h]; exact lin_eq_any (i := i) (v := x) 0x7ff#64 (by decide +kernel) hi
  have e4 : x &&& 0xffffffff#64 = (x &&& (0xff#64 <<< 0)) ||| (x &&& 0xffffff00#64) := lin_eq_all (i := i) (v := x) (by decide +kernel)
  have es : BitVec.toNat 0#64 = 0 := by decide
  simp only [extractSci8, e1, e2, es, and_true]
  rw [if_neg (by decide), e3, e4, hx, BitVec.or_zero]

theorem sci8_1 (hi : i &&& 0x7ff#64 = 0#64) (hx : x &&& 0xffffff00#64 = 0xffffff00#64) (h : i ||| 0x400#64 ||| (x &&& 0xff#64) = w) :
    (extractSci8 w d inv).1 &&& 0xffffffff#64 = x &&& 0xffffffff#64 ∧ (extractSci8 w d inv).2 = inv := by
  have e1 : w &&& 0x400#64 = 0x400#64 := by
    rw [← h]; exact lin_eq_any (i := i) (v := x) 0x7ff#64 (by decide +kernel) hi
  have e2 : (w &&& 0x300#64) >>> 5 = 0#64 := by
    rw [← h]; exact lin_eq_any (i := i) (v := x) 0x7ff#64 (by decide +kernel) hi
  have e3 : ((w &&& 0xff#64) <<< 0) &&& 0xffffffff#64 = x &&& (0xff#64 <<< 0) := by
    rw [← h]; exact lin_eq_any (i := i) (v := x) 0x7ff#64 (by decide +kernel) hi
  have e4 : x &&& 0xffffffff#64 = (x &&& (0xff#64 <<< 0)) ||| (x &&& 0xffffff00#64) := lin_eq_all (i := i) (v := x) (by decide +kernel)
  have es : BitVec.toNat 0#64 = 0 := by decide
  simp only [extractSci8, e1, e2, es, and_true]
  have en : ~~~(0xff#64 <<< 0) = 0xffffffffffffff00#64 := by decide
  rw [if_pos (by decide), e4, hx, ← e3, en]
  exact lin_eq_all (i := w) (v := x) (by decide +kernel)

theorem sci8_2 (hi : i &&& 0x7ff#64 = 0#64) (hx : x &&& 0xffff00ff#64 = 0#64) (h : i ||| (1#64 <<< 8) ||| ((x >>> 8) &&& 0xff#64) = w) :
    (extractSci8 w d inv).1 &&& 0xffffffff#64 = x &&& 0xffffffff#64 ∧ (extractSci8 w d inv).2 = inv := by
  have e1 : w &&& 0x400#64 = 0x0#64 := by
    rw [← h]; exact lin_eq_any (i := i) (v := x) 0x7ff#64 (by decide +kernel) hi
  have e2 : (w &&& 0x300#64) >>> 5 = 8#64 := by
    rw [← h]; exact lin_eq_any (i := i) (v := x) 0x7ff#64 (by decide +kernel) hi
  have e3 : ((w &&& 0xff#64) <<< 8) &&& 0xffffffff#64 = x &&& (0xff#64 <<< 8) := by
    rw [← h]; exact lin_eq_any (i := i) (v := x) 0x7ff#64 (by decide +kernel) hi
  have e4 : x &&& 0xffffffff#64 = (x &&& (0xff#64 <<< 8)) ||| (x &&& 0xffff00ff#64) := lin_eq_all (i := i) (v := x) (by decide +kernel)
  have es : BitVec.toNat 8#64 = 8 := by decide
  simp only [extractSci8, e1, e2, es, and_true]
  rw [if_neg (by decide), e3, e4, hx, BitVec.or_zero]

theorem sci8_3 (hi : i &&& 0x7ff#64 = 0#64) (hx : x &&& 0xffff00ff#64 = 0xffff00ff#64) (h : i ||| (0x400#64 ||| (1#64 <<< 8)) ||| ((x >>> 8) &&& 0xff#64) = w) :
    (extractSci8 w d inv).1 &&& 0xffffffff#64 = x &&& 0xffffffff#64 ∧ (extractSci8 w d inv).2 = inv := by
  have e1 : w &&& 0x400#64 = 0x400#64 := by
    rw [← h]; exact lin_eq_any (i := i) (v := x) 0x7ff#64 (by decide +kernel) hi
  have e2 : (w &&& 0x300#64) >>> 5 = 8#64 := by
    rw [← h]; exact lin_eq_any (i := i) (v := x) 0x7ff#64 (by decide +kernel) hi
  have e3 : ((w &&& 0xff#64) <<< 8) &&& 0xffffffff#64 = x &&& (0xff#64 <<< 8) := by
    rw [← h]; exact lin_eq_any (i := i) (v := x) 0x7ff#64 (by decide +kernel) hi
  have e4 : x &&& 0xffffffff#64 = (x &&& (0xff#64 <<< 8)) ||| (x &&& 0xffff00ff#64) := lin_eq_all (i := i) (v := x) (by decide +kernel)
  have es : BitVec.toNat 8#64 = 8 := by decide
  simp only [extractSci8, e1, e2, es, and_true]
  have en : ~~~(0xff#64 <<< 8) = 0xffffffffffff00ff#64 := by decide
  rw [if_pos (by decide), e4, hx, ← e3, en]
  exact lin_eq_all (i := w) (v := x) (by decide +kernel)

theorem sci8_4 (hi : i &&& 0x7ff#64 = 0#64) (hx : x &&& 0xff00ffff#64 = 0#64) (h : i ||| (2#64 <<< 8) ||| ((x >>> 16) &&& 0xff#64) = w) :
    (extractSci8 w d inv).1 &&& 0xffffffff#64 = x &&& 0xffffffff#64 ∧ (extractSci8 w d inv).2 = inv := by
  have e1 : w &&& 0x400#64 = 0x0#64 := by
    rw [← h]; exact lin_eq_any (i := i) (v := x) 0x7ff#64 (by decide +kernel) hi
  have e2 : (w &&& 0x300#64) >>> 5 = 16#64 := by
    rw [← h]; exact lin_eq_any (i := i) (v := x) 0x7ff#64 (by decide +kernel) hi
  have e3 : ((w &&& 0xff#64) <<< 16) &&& 0xffffffff#64 = x &&& (0xff#64 <<< 16) := by
    rw [← h]; exact lin_eq_any (i := i) (v := x) 0x7ff#64 (by decide +kernel) hi
  have e4 : x &&& 0xffffffff#64 = (x &&& (0xff#64 <<< 16)) ||| (x &&& 0xff00ffff#64) := lin_eq_all (i := i) (v := x) (by decide +kernel)
  have es : BitVec.toNat 16#64 = 16 := by decide
  simp only [extractSci8, e1, e2, es, and_true]
  rw [if_neg (by decide), e3, e4, hx, BitVec.or_zero]

theorem sci8_5 (hi : i &&& 0x7ff#64 = 0#64) (hx : x &&& 0xff00ffff#64 = 0xff00ffff#64) (h : i ||| (0x400#64 ||| (2#64 <<< 8)) ||| ((x >>> 16) &&& 0xff#64) = w) :
    (extractSci8 w d inv).1 &&& 0xffffffff#64 = x &&& 0xffffffff#64 ∧ (extractSci8 w d inv).2 = inv := by
  have e1 : w &&& 0x400#64 = 0x400#64 := by
    rw [← h]; exact lin_eq_any (i := i) (v := x) 0x7ff#64 (by decide +kernel) hi
  have e2 : (w &&& 0x300#64) >>> 5 = 16#64 := by
    rw [← h]; exact lin_eq_any (i := i) (v := x) 0x7ff#64 (by decide +kernel) hi
  have e3 : ((w &&& 0xff#64) <<< 16) &&& 0xffffffff#64 = x &&& (0xff#64 <<< 16) := by
    rw [← h]; exact lin_eq_any (i := i) (v := x) 0x7ff#64 (by decide +kernel) hi
  have e4 : x &&& 0xffffffff#64 = (x &&& (0xff#64 <<< 16)) ||| (x &&& 0xff00ffff#64) := lin_eq_all (i := i) (v := x) (by decide +kernel)
  have es : BitVec.toNat 16#64 = 16 := by decide
  simp only [extractSci8, e1, e2, es, and_true]
  have en : ~~~(0xff#64 <<< 16) = 0xffffffffff00ffff#64 := by decide
  rw [if_pos (by decide), e4, hx, ← e3, en]
  exact lin_eq_all (i := w) (v := x) (by decide +kernel)

theorem sci8_6 (hi : i &&& 0x7ff#64 = 0#64) (hx : x &&& 0xffffff#64 = 0#64) (h : i ||| (3#64 <<< 8) ||| ((x >>> 24) &&& 0xff#64) = w) :
    (extractSci8 w d inv).1 &&& 0xffffffff#64 = x &&& 0xffffffff#64 ∧ (extractSci8 w d inv).2 = inv := by
  have e1 : w &&& 0x400#64 = 0x0#64 := by
    rw [← h]; exact lin_eq_any (i := i) (v := x) 0x7ff#64 (by decide +kernel) hi
  have e2 : (w &&& 0x300#64) >>> 5 = 24#64 := by
    rw [← h]; exact lin_eq_any (i := i) (v := x) 0x7ff#64 (by decide +kernel) hi
  have e3 : ((w &&& 0xff#64) <<< 24) &&& 0xffffffff#64 = x &&& (0xff#64 <<< 24) := by
    rw [← h]; exact lin_eq_any (i := i) (v := x) 0x7ff#64 (by decide +kernel) hi
  have e4 : x &&& 0xffffffff#64 = (x &&& (0xff#64 <<< 24)) ||| (x &&& 0xffffff#64) := lin_eq_all (i := i) (v := x) (by decide +kernel)
  have es : BitVec.toNat 24#64 = 24 := by decide
  simp only [extractSci8, e1, e2, es, and_true]
  rw [if_neg (by decide), e3, e4, hx, BitVec.or_zero]

theorem sci8_7 (hi : i &&& 0x7ff#64 = 0#64) (hx : x &&& 0xffffff#64 = 0xffffff#64) (h : i ||| (0x400#64 ||| (3#64 <<< 8)) ||| ((x >>> 24) &&& 0xff#64) = w) :
    (extractSci8 w d inv).1 &&& 0xffffffff#64 = x &&& 0xffffffff#64 ∧ (extractSci8 w d inv).2 = inv := by
  have e1 : w &&& 0x400#64 = 0x400#64 := by
    rw [← h]; exact lin_eq_any (i := i) (v := x) 0x7ff#64 (by decide +kernel) hi
  have e2 : (w &&& 0x300#64) >>> 5 = 24#64 := by
    rw [← h]; exact lin_eq_any (i := i) (v := x) 0x7ff#64 (by decide +kernel) hi
  have e3 : ((w &&& 0xff#64) <<< 24) &&& 0xffffffff#64 = x &&& (0xff#64 <<< 24) := by
    rw [← h]; exact lin_eq_any (i := i) (v := x) 0x7ff#64 (by decide +kernel) hi
  have e4 : x &&& 0xffffffff#64 = (x &&& (0xff#64 <<< 24)) ||| (x &&& 0xffffff#64) := lin_eq_all (i := i) (v := x) (by decide +kernel)
  have es : BitVec.toNat 24#64 = 24 := by decide
  simp only [extractSci8, e1, e2, es, and_true]
  have en : ~~~(0xff#64 <<< 24) = 0xffffffff00ffffff#64 := by decide
  rw [if_pos (by decide), e4, hx, ← e3, en]
  exact lin_eq_all (i := w) (v := x) (by decide +kernel)

theorem rtSci8 (hi : i &&& 0x7ff#64 = 0#64) (h : insertSci8 i x d = some (w, false)) :
    (extractSci8 w d inv).1 &&& 0xffffffff#64 = x &&& 0xffffffff#64 ∧ (extractSci8 w d inv).2 = inv := by
  unfold insertSci8 at h
  simp only at h
  split at h
  · next hx => simp only [Option.some.injEq, Prod.mk.injEq, and_true] at h; exact sci8_0 hi hx h
  split at h
  · next hx => simp only [Option.some.injEq, Prod.mk.injEq, and_true] at h; exact sci8_1 hi hx h
  split at h
  · next hx => simp only [Option.some.injEq, Prod.mk.injEq, and_true] at h; exact sci8_2 hi hx h
  split at h
  · next hx => simp only [Option.some.injEq, Prod.mk.injEq, and_true] at h; exact sci8_3 hi hx h
  split at h
  · next hx => simp only [Option.some.injEq, Prod.mk.injEq, and_true] at h; exact sci8_4 hi hx h
  split at h
  · next hx => simp only [Option.some.injEq, Prod.mk.injEq, and_true] at h; exact sci8_5 hi hx h
  split at h
  · next hx => simp only [Option.some.injEq, Prod.mk.injEq, and_true] at h; exact sci8_6 hi hx h
  split at h
  · next hx => simp only [Option.some.injEq, Prod.mk.injEq, and_true] at h; exact sci8_7 hi hx h
  · simp at h

theorem frSci8 (h : insertSci8 i x d = some (w, e)) : w &&& ~~~0x7ff#64 = i &&& ~~~0x7ff#64 ∧ i &&& ~~~w = 0#64 := by
  unfold insertSci8 at h
  simp only at h
  split at h
  · simp only [Option.some.injEq, Prod.mk.injEq] at h; rw [← h.1]
    exact ⟨lin_eq_all (i := i) (v := x) (by decide +kernel), by rw [BitVec.or_assoc]; exact and_not_or _ _⟩
  split at h
  · simp only [Option.some.injEq, Prod.mk.injEq] at h; rw [← h.1]
    exact ⟨lin_eq_all (i := i) (v := x) (by decide +kernel), by rw [BitVec.or_assoc]; exact and_not_or _ _⟩
  split at h
  · simp only [Option.some.injEq, Prod.mk.injEq] at h; rw [← h.1]
    exact ⟨lin_eq_all (i := i) (v := x) (by decide +kernel), by rw [BitVec.or_assoc]; exact and_not_or _ _⟩
  split at h
  · simp only [Option.some.injEq, Prod.mk.injEq] at h; rw [← h.1]
    exact ⟨lin_eq_all (i := i) (v := x) (by decide +kernel), by rw [BitVec.or_assoc]; exact and_not_or _ _⟩
  split at h
  · simp only [Option.some.injEq, Prod.mk.injEq] at h; rw [← h.1]
    exact ⟨lin_eq_all (i := i) (v := x) (by decide +kernel), by rw [BitVec.or_assoc]; exact and_not_or _ _⟩
  split at h
  · simp only [Option.some.injEq, Prod.mk.injEq] at h; rw [← h.1]
    exact ⟨lin_eq_all (i := i) (v := x) (by decide +kernel), by rw [BitVec.or_assoc]; exact and_not_or _ _⟩
  split at h
  · simp only [Option.some.injEq, Prod.mk.injEq] at h; rw [← h.1]
    exact ⟨lin_eq_all (i := i) (v := x) (by decide +kernel), by rw [BitVec.or_assoc]; exact and_not_or _ _⟩
  split at h
  · simp only [Option.some.injEq, Prod.mk.injEq] at h; rw [← h.1]
    exact ⟨lin_eq_all (i := i) (v := x) (by decide +kernel), by rw [BitVec.or_assoc]; exact and_not_or _ _⟩
  · simp only [Option.some.injEq, Prod.mk.injEq] at h; rw [← h.1]
    exact ⟨lin_eq_all (i := i) (v := x) (by decide +kernel), by rw [BitVec.or_assoc]; exact and_not_or _ _⟩

theorem frSci8n (h : insertSci8n i x d = some (w, e)) : w &&& ~~~0x7ff#64 = i &&& ~~~0x7ff#64 ∧ i &&& ~~~w = 0#64 := by
  unfold insertSci8n at h
  split at h
  · cases h
  · exact frSci8 h

theorem low32 {a b : W} : a &&& 0xffffffff#64 = b &&& 0xffffffff#64 ↔ a.toNat % 2 ^ 32 = b.toNat % 2 ^ 32 := by
  have h1 := and_low a (t := 32) (by omega)
  have h2 := and_low b (t := 32) (by omega)
  constructor
  · intro h
    rw [← h1, ← h2]; exact congrArg BitVec.toNat h
  · intro h
    apply BitVec.eq_of_toNat_eq
    rw [← h1, ← h2] at h; exact h

theorem neg_low {a b : W} (h : a &&& 0xffffffff#64 = b &&& 0xffffffff#64) : (-a) &&& 0xffffffff#64 = (-b) &&& 0xffffffff#64 := by
  rw [low32] at h ⊢
  rw [BitVec.toNat_neg, BitVec.toNat_neg]
  omega

theorem rtSci8n (hi : i &&& 0x7ff#64 = 0#64) (h : insertSci8n i x d = some (w, false)) :
    (extractSci8n w d inv).1 &&& 0xffffffff#64 = x &&& 0xffffffff#64 ∧ (extractSci8n w d inv).2 = inv := by
  unfold insertSci8n at h
  split at h
  · cases h
  · next y hy =>
    unfold minus at hy
    split at hy
    · cases hy
    · simp only [Option.some.injEq] at hy
      have hr := rtSci8 (inv := inv) hi h
      refine ⟨?_, hr.2⟩
      have := neg_low hr.1
      rw [← hy, BitVec.neg_neg] at this
      exact this

/-! insert_mbe -/

theorem mbe_bound (l : List Nat) (hl : ∀ k ∈ l, k < 32) (s : Mbe) (h : s.mb < 32 ∧ s.me ≤ 32) :
    (l.foldl (mbeRound x) s).mb < 32 ∧ (l.foldl (mbeRound x) s).me ≤ 32 := by
  induction l generalizing s with
  | nil => exact h
  | cons k l ih =>
    have hk := hl k List.mem_cons_self
    apply ih (fun j hj => hl j (List.mem_cons_of_mem _ hj))
    unfold mbeRound
    split
    · exact ⟨hk, h.2⟩
    · split
      · exact ⟨h.1, by simp only; omega⟩
      · exact h

theorem ofNat_five {n : Nat} (h : n < 32) : BitVec.ofNat 64 n &&& ~~~0x1f#64 = 0#64 := by
  have : (BitVec.ofNat 64 n).toNat = n := by rw [BitVec.toNat_ofNat]; omega
  exact toNat_bits (t := 5) (by omega) (by omega)

theorem frMbe (h : insertMbe i x d = some (w, e)) : w &&& ~~~0x7fe#64 = i &&& ~~~0x7fe#64 ∧ i &&& ~~~w = 0#64 := by
  unfold insertMbe at h
  split at h
  · simp only [Option.some.injEq, Prod.mk.injEq] at h
    rw [← h.1]; simp
  · simp only [Option.some.injEq, Prod.mk.injEq] at h
    have hb := mbe_bound (x := x) (List.range 32) (by simp) { mb := 0, me := 32, count := 0, last := x &&& 1#64 ≠ 0#64 } (by simp)
    have h1 := ofNat_five hb.1
    have h2 := ofNat_five (n := (if (mbeLoop x).me = 0 then 32 else (mbeLoop x).me) - 1) (by
      have : (mbeLoop x).me ≤ 32 := hb.2
      split <;> omega)
    rw [← h.1]
    change BitVec.ofNat 64 (mbeLoop x).mb &&& _ = _ at h1
    generalize BitVec.ofNat 64 (mbeLoop x).mb = a at h1
    generalize BitVec.ofNat 64 ((if (mbeLoop x).me = 0 then 32 else (mbeLoop x).me) - 1) = b at h2
    refine ⟨?_, by rw [BitVec.or_assoc]; exact and_not_or _ _⟩
    have e1 : (i ||| (a <<< 6) ||| (b <<< 1)) &&& ~~~0x7fe#64 = (i ||| (a <<< 6)) &&& ~~~0x7fe#64 :=
      lin_eq (i := i ||| (a <<< 6)) (v := b) 0#64 0x1f#64 (by decide +kernel) (by simp) h2
    rw [e1]
    exact lin_eq (i := i) (v := a) 0#64 0x1f#64 (by decide +kernel) (by simp) h1

/-- What insert_mbe knows about the bits 0, …, n - 1, counted from the left of a 32-bit word, after n rounds; the first `last` is bit 31. -/
structure MbeAt (x : W) (n : Nat) (s : Mbe) : Prop where
  last : s.last = if n = 0 then x.getLsbD 0 else x.getLsbD (32 - n)
  none : s.count = 0 → s.mb = 0 ∧ s.me = 32 ∧ s.last = x.getLsbD 0 ∧ ∀ k, k < n → x.getLsbD (31 - k) = x.getLsbD 0
  rise : s.count = 1 → x.getLsbD 0 = false → s.last = true ∧ s.mb < n ∧ s.me = 32 ∧ ∀ k, k < n → (x.getLsbD (31 - k) = true ↔ s.mb ≤ k)
  fall : s.count = 1 → x.getLsbD 0 = true → s.last = false ∧ s.mb = 0 ∧ s.me < n ∧ ∀ k, k < n → (x.getLsbD (31 - k) = true ↔ k < s.me)
  one : s.count = 2 → x.getLsbD 0 = false → s.last = false ∧ s.mb < s.me ∧ s.me < n ∧ ∀ k, k < n → (x.getLsbD (31 - k) = true ↔ s.mb ≤ k ∧ k < s.me)
  two : s.count = 2 → x.getLsbD 0 = true → s.last = true ∧ s.me < s.mb ∧ s.mb < n ∧ ∀ k, k < n → (x.getLsbD (31 - k) = true ↔ k < s.me ∨ s.mb ≤ k)

theorem mbe_step {n : Nat} {s : Mbe} (hn : n < 32) (h : MbeAt x n s) : MbeAt x (n + 1) (mbeRound x s n) := by
  have e31 : 32 - (n + 1) = 31 - n := by omega
  obtain ⟨h1, h2, h3, h4, h5, h6⟩ := h
  by_cases a : x.getLsbD (31 - n) = true
  · by_cases b : s.last = true
    · have e : mbeRound x s n = s := by simp [mbeRound, a, b]
      rw [e]
      refine ⟨by rw [b, if_neg (by omega), e31, a], fun hc => ?_, fun hc hz => ?_, fun hc hz => ?_, fun hc hz => ?_, fun hc hz => ?_⟩
      · obtain ⟨c1, c2, c3, c4⟩ := h2 hc
        refine ⟨c1, c2, c3, fun k hk => ?_⟩
        by_cases hkn : k = n
        · rw [hkn, a, ← c3, b]
        · exact c4 k (by omega)
      · obtain ⟨c1, c2, c3, c4⟩ := h3 hc hz
        refine ⟨c1, by omega, c3, fun k hk => ?_⟩
        by_cases hkn : k = n
        · rw [hkn, a]; simp; omega
        · exact c4 k (by omega)
      · have := (h4 hc hz).1; rw [b] at this; cases this
      · have := (h5 hc hz).1; rw [b] at this; cases this
      · obtain ⟨c1, c2, c3, c4⟩ := h6 hc hz
        refine ⟨c1, c2, by omega, fun k hk => ?_⟩
        by_cases hkn : k = n
        · rw [hkn, a]; simp; omega
        · exact c4 k (by omega)
    · have e : mbeRound x s n = { s with count := s.count + 1, mb := n, last := true } := by simp [mbeRound, a, b]
      have b' : s.last = false := by simpa using b
      rw [e]
      refine ⟨by rw [if_neg (by omega), e31, a], fun hc => absurd hc (by simp), fun hc hz => ?_, fun hc hz => ?_, fun hc hz => ?_, fun hc hz => ?_⟩
      · obtain ⟨c1, c2, c3, c4⟩ := h2 (by simpa using hc)
        refine ⟨rfl, by simp, c2, fun k hk => ?_⟩
        by_cases hkn : k = n
        · rw [hkn, a]; simp
        · rw [c4 k (by omega), hz]; simp; omega
      · obtain ⟨c1, c2, c3, c4⟩ := h2 (by simpa using hc)
        rw [b', hz] at c3; cases c3
      · have := (h3 (by simpa using hc) hz).1; rw [b'] at this; cases this
      · obtain ⟨c1, c2, c3, c4⟩ := h4 (by simpa using hc) hz
        refine ⟨rfl, c3, by simp, fun k hk => ?_⟩
        by_cases hkn : k = n
        · rw [hkn, a]; simp
        · rw [c4 k (by omega)]; simp only; omega
  · have a' : x.getLsbD (31 - n) = false := by simpa using a
    by_cases b : s.last = true
    · have e : mbeRound x s n = { s with count := s.count + 1, me := n, last := false } := by simp [mbeRound, a', b]
      rw [e]
      refine ⟨by rw [if_neg (by omega), e31, a'], fun hc => absurd hc (by simp), fun hc hz => ?_, fun hc hz => ?_, fun hc hz => ?_, fun hc hz => ?_⟩
      · obtain ⟨c1, c2, c3, c4⟩ := h2 (by simpa using hc)
        rw [b, hz] at c3; cases c3
      · obtain ⟨c1, c2, c3, c4⟩ := h2 (by simpa using hc)
        refine ⟨rfl, c1, by simp, fun k hk => ?_⟩
        by_cases hkn : k = n
        · rw [hkn, a']; simp
        · rw [c4 k (by omega), hz]; simp; omega
      · obtain ⟨c1, c2, c3, c4⟩ := h3 (by simpa using hc) hz
        refine ⟨rfl, c2, by simp, fun k hk => ?_⟩
        by_cases hkn : k = n
        · rw [hkn, a']; simp
        · rw [c4 k (by omega)]; simp only; omega
      · have := (h4 (by simpa using hc) hz).1; rw [b] at this; cases this
    · have e : mbeRound x s n = s := by simp [mbeRound, a', b]
      have b' : s.last = false := by simpa using b
      rw [e]
      refine ⟨by rw [b', if_neg (by omega), e31, a'], fun hc => ?_, fun hc hz => ?_, fun hc hz => ?_, fun hc hz => ?_, fun hc hz => ?_⟩
      · obtain ⟨c1, c2, c3, c4⟩ := h2 hc
        refine ⟨c1, c2, c3, fun k hk => ?_⟩
        by_cases hkn : k = n
        · rw [hkn, a', ← c3, b']
        · exact c4 k (by omega)
      · have := (h3 hc hz).1; rw [b'] at this; cases this
      · obtain ⟨c1, c2, c3, c4⟩ := h4 hc hz
        refine ⟨c1, c2, by omega, fun k hk => ?_⟩
        by_cases hkn : k = n
        · rw [hkn, a']; simp; omega
        · exact c4 k (by omega)
      · obtain ⟨c1, c2, c3, c4⟩ := h5 hc hz
        refine ⟨c1, c2, by omega, fun k hk => ?_⟩
        by_cases hkn : k = n
        · rw [hkn, a']; simp; omega
        · exact c4 k (by omega)
      · have := (h6 hc hz).1; rw [b'] at this; cases this

theorem mbe_at : MbeAt x 32 (mbeLoop x) := by
  have key : ∀ n, n ≤ 32 → MbeAt x n ((List.range n).foldl (mbeRound x) { mb := 0, me := 32, count := 0, last := x &&& 1#64 ≠ 0#64 }) := by
    intro n
    induction n with
    | zero =>
      intro _
      have hl : decide (x &&& 1#64 ≠ 0#64) = x.getLsbD 0 := by
        have h1 := and_low x (t := 1) (by omega)
        simp only [Nat.pow_one, Nat.add_one_sub_one] at h1
        have h2 : x.getLsbD 0 = decide (x.toNat % 2 = 1) := by
          rw [← BitVec.testBit_toNat, Nat.testBit_zero]
        rw [h2]
        apply decide_eq_decide.mpr
        constructor
        · intro h
          have : (x &&& 1#64).toNat ≠ 0 := fun hh => h (BitVec.eq_of_toNat_eq hh)
          change (x &&& 1#64).toNat = _ at h1
          omega
        · intro h hh
          change (x &&& 1#64).toNat = _ at h1
          rw [hh] at h1
          simp at h1
          omega
      exact ⟨by simp only [List.range_zero, List.foldl_nil, if_pos]; exact hl, fun _ => ⟨rfl, rfl, hl, fun k hk => absurd hk (by omega)⟩,
        fun hc => absurd hc (by simp), fun hc => absurd hc (by simp), fun hc => absurd hc (by simp), fun hc => absurd hc (by simp)⟩
    | succ n ih =>
      intro hn
      rw [List.range_succ, List.foldl_append, List.foldl_cons, List.foldl_nil]
      exact mbe_step (by omega) (ih (by omega))
  exact key 32 (by omega)

theorem or_fold (l : List Nat) (r : W) (j : Nat) (hj : j < 32) (hl : ∀ k ∈ l, k < 32) :
    (l.foldl (fun r i => r ||| (1#64 <<< (31 - i))) r).getLsbD j = (r.getLsbD j || decide (31 - j ∈ l)) := by
  induction l generalizing r with
  | nil => simp
  | cons k l ih =>
    have hk := hl k List.mem_cons_self
    rw [List.foldl_cons, ih _ (fun j hj => hl j (List.mem_cons_of_mem _ hj))]
    by_cases a : 31 - j = k
    · have e1 : j = 31 - k := by omega
      have h2 : (1#64 <<< (31 - k)).getLsbD j = true := by
        rw [e1, BitVec.getLsbD_shiftLeft]; simp; omega
      rw [BitVec.getLsbD_or, h2]; simp [a]
    · have : ¬j = 31 - k := by omega
      have h2 : (1#64 <<< (31 - k)).getLsbD j = false := by
        rw [BitVec.getLsbD_shiftLeft]
        by_cases hlt : j < 31 - k
        · simp [hlt]
        · rw [BitVec.getLsbD_one]; simp; omega
      rw [BitVec.getLsbD_or, h2]; simp [a]

theorem and_fold (l : List Nat) (r : W) (j : Nat) (hj : j < 32) (hl : ∀ k ∈ l, k < 32) :
    (l.foldl (fun r i => r &&& ~~~(1#64 <<< (31 - i))) r).getLsbD j = (r.getLsbD j && !decide (31 - j ∈ l)) := by
  induction l generalizing r with
  | nil => simp
  | cons k l ih =>
    have hk := hl k List.mem_cons_self
    rw [List.foldl_cons, ih _ (fun j hj => hl j (List.mem_cons_of_mem _ hj))]
    by_cases a : 31 - j = k
    · have e1 : j = 31 - k := by omega
      have h2 : (1#64 <<< (31 - k)).getLsbD j = true := by
        rw [e1, BitVec.getLsbD_shiftLeft]; simp; omega
      rw [BitVec.getLsbD_and, BitVec.getLsbD_not, h2]; simp [a]
    · have : ¬j = 31 - k := by omega
      have h2 : (1#64 <<< (31 - k)).getLsbD j = false := by
        rw [BitVec.getLsbD_shiftLeft]
        by_cases hlt : j < 31 - k
        · simp [hlt]
        · rw [BitVec.getLsbD_one]; simp; omega
      rw [BitVec.getLsbD_and, BitVec.getLsbD_not, h2]; simp [a, show j < 64 by omega]

/-- The bits of the extracted mask. -/
theorem extractMbe_bit {mb me : Nat} (hmb : mb < 32) (hme : me < 32) (h1 : ((w >>> 6) &&& 0x1f#64).toNat = mb) (h2 : ((w >>> 1) &&& 0x1f#64).toNat = me)
    (k : Nat) (hk : k < 32) : (extractMbe w d inv).1.getLsbD (31 - k) = true ↔ if mb < me + 1 then mb ≤ k ∧ k ≤ me else ¬(me < k ∧ k < mb) := by
  unfold extractMbe
  simp only [h1, h2]
  by_cases a : mb < me + 1
  · rw [if_pos a, if_pos a, or_fold _ _ _ (by omega) (by intro j; rw [List.mem_range'_1]; omega)]
    simp only [BitVec.getLsbD_zero, Bool.false_or, decide_eq_true_eq, List.mem_range'_1]
    omega
  · rw [if_neg a, if_neg a]
    by_cases b : mb = me + 1
    · rw [if_pos b]
      have : 31 - k < 64 := by omega
      simp only [BitVec.getLsbD_not, this, decide_true, BitVec.getLsbD_zero, Bool.not_false, Bool.and_self, true_iff]; omega
    · rw [if_neg b, and_fold _ _ _ (by omega) (by intro j; rw [List.mem_range'_1]; omega)]
      have : 31 - k < 64 := by omega
      simp only [BitVec.getLsbD_not, this, decide_true, BitVec.getLsbD_zero, Bool.not_false, Bool.true_and, Bool.not_eq_true', decide_eq_false_iff_not, List.mem_range'_1]
      omega

theorem rtMbe (hi : i &&& 0x7fe#64 = 0#64) (h : insertMbe i x d = some (w, false)) :
    (extractMbe w d inv).1 &&& 0xffffffff#64 = x &&& 0xffffffff#64 ∧ (extractMbe w d inv).2 = 1 := by
  refine ⟨?_, by unfold extractMbe; simp only; split; rfl; split <;> rfl⟩
  unfold insertMbe at h
  split at h
  · simp at h
  · simp only [Option.some.injEq, Prod.mk.injEq] at h
    obtain ⟨hw, hc⟩ := h
    have hm := mbe_at (x := x)
    have hb := mbe_bound (x := x) (List.range 32) (by simp) { mb := 0, me := 32, count := 0, last := x &&& 1#64 ≠ 0#64 } (by simp)
    change (mbeLoop x).mb < 32 ∧ (mbeLoop x).me ≤ 32 at hb
    generalize mbeLoop x = s at hw hc hm hb
    have hme : (if s.me = 0 then 32 else s.me) - 1 < 32 := by split <;> omega
    have h1 := ofNat_five hb.1
    have h2 := ofNat_five hme
    have f1 : ((w >>> 6) &&& 0x1f#64).toNat = s.mb := by
      have : (w >>> 6) &&& 0x1f#64 = BitVec.ofNat 64 s.mb := by
        rw [← hw]
        generalize BitVec.ofNat 64 s.mb = a at h1
        generalize BitVec.ofNat 64 ((if s.me = 0 then 32 else s.me) - 1) = b at h2
        have : ((i ||| (a <<< 6) ||| (b <<< 1)) >>> 6) &&& 0x1f#64 = ((i ||| (a <<< 6)) >>> 6) &&& 0x1f#64 :=
          lin_eq (i := i ||| (a <<< 6)) (v := b) 0#64 0x1f#64 (by decide +kernel) (by simp) h2
        rw [this]
        exact lin_eq (i := i) (v := a) 0x7fe#64 0x1f#64 (by decide +kernel) hi h1
      rw [this, BitVec.toNat_ofNat]; omega
    have f2 : ((w >>> 1) &&& 0x1f#64).toNat = (if s.me = 0 then 32 else s.me) - 1 := by
      have : (w >>> 1) &&& 0x1f#64 = BitVec.ofNat 64 ((if s.me = 0 then 32 else s.me) - 1) := by
        rw [← hw]
        generalize BitVec.ofNat 64 s.mb = a at h1
        generalize BitVec.ofNat 64 ((if s.me = 0 then 32 else s.me) - 1) = b at h2
        have hz : (i ||| (a <<< 6)) &&& 0x3e#64 = 0#64 := by
          have : (i ||| (a <<< 6)) &&& 0x3e#64 = (i &&& 0x7fe#64) &&& 0x3e#64 := lin_eq (i := i) (v := a) 0#64 0x1f#64 (by decide +kernel) (by simp) h1
          rw [this, hi]; decide
        exact lin_eq (i := i ||| (a <<< 6)) (v := b) 0x3e#64 0x1f#64 (by decide +kernel) hz h2
      rw [this, BitVec.toNat_ofNat]; omega
    have hbit := fun k hk => extractMbe_bit (d := d) (inv := inv) hb.1 hme f1 f2 k hk
    have same : ∀ k, k < 32 → ((extractMbe w d inv).1.getLsbD (31 - k) = true ↔ x.getLsbD (31 - k) = true) := by
      intro k hk
      rw [hbit k hk]
      have hlast : s.last = x.getLsbD 0 := by rw [hm.last, if_neg (by omega)]
      have hc' : s.count = 2 ∨ (s.count = 0 ∧ s.last = true) := by
        by_cases c2 : s.count = 2
        · exact .inl c2
        · by_cases c0 : s.count = 0
          · cases hl : s.last
            · simp [c0, hl] at hc
            · exact .inr ⟨c0, rfl⟩
          · simp [c2, c0] at hc
      rcases hc' with c2 | ⟨c0, hl⟩
      · cases hz : x.getLsbD 0
        · obtain ⟨c1, c2', c3, c4⟩ := hm.one c2 hz
          rw [c4 k hk]
          simp only [if_neg (show ¬s.me = 0 by omega)]
          split <;> omega
        · obtain ⟨c1, c2', c3, c4⟩ := hm.two c2 hz
          rw [c4 k hk]
          by_cases m0 : s.me = 0
          · simp only [if_pos m0]; split <;> omega
          · simp only [if_neg m0]; split <;> omega
      · obtain ⟨c1, c2, c3, c4⟩ := hm.none c0
        rw [c4 k hk, ← c3, hl, c1, c2]
        simp; omega
    apply BitVec.eq_of_getLsbD_eq
    intro j hj
    rw [BitVec.getLsbD_and, BitVec.getLsbD_and]
    by_cases hj2 : j < 32
    · have := same (31 - j) (by omega)
      rw [show 31 - (31 - j) = j by omega] at this
      rw [Bool.eq_iff_iff.mpr this]
    · have : (0xffffffff#64).getLsbD j = false := by
        have hm : (0xffffffff#64).toNat < 2 ^ j := Nat.lt_of_lt_of_le (by decide) (Nat.pow_le_pow_right (by omega) (show 32 ≤ j by omega))
        rw [← BitVec.testBit_toNat]
        exact Nat.testBit_lt_two_pow hm
      rw [this, Bool.and_false, Bool.and_false]

end Opc
