import Verif.Text.Model
import Verif.Text.Spec

/-! # Helper lemmas for the text encodings -/

namespace Text
open TextSpec

/-! ## Hexadecimal -/

theorem charToHex_iff (c : Byte) (v : Nat) : charToHex c = some v ↔ HexDigit c v := by
  have hc := c.isLt
  constructor
  · intro h
    have hall : ∀ n : Fin 256, ∀ v, charToHex (BitVec.ofFin n) = some v →
        ∃ p ∈ [('0', 0), ('1', 1), ('2', 2), ('3', 3), ('4', 4), ('5', 5), ('6', 6), ('7', 7), ('8', 8), ('9', 9),
          ('a', 10), ('b', 11), ('c', 12), ('d', 13), ('e', 14), ('f', 15),
          ('A', 10), ('B', 11), ('C', 12), ('D', 13), ('E', 14), ('F', 15)], n.val = (p.1 : Char).toNat ∧ p.2 = v := by
      intro n v h
      have key : ∀ n : Fin 256, (match charToHex (BitVec.ofFin n) with
          | none => true
          | some v => [('0', 0), ('1', 1), ('2', 2), ('3', 3), ('4', 4), ('5', 5), ('6', 6), ('7', 7), ('8', 8), ('9', 9),
            ('a', 10), ('b', 11), ('c', 12), ('d', 13), ('e', 14), ('f', 15),
            ('A', 10), ('B', 11), ('C', 12), ('D', 13), ('E', 14), ('F', 15)].any
              (fun p : Char × Nat => n.val == p.1.toNat && p.2 == v)) = true := by decide +kernel
      have := key n
      rw [h] at this
      dsimp only at this
      obtain ⟨p, hp, e⟩ := List.any_eq_true.mp this
      rw [Bool.and_eq_true, beq_iff_eq, beq_iff_eq] at e
      exact ⟨p, hp, e.1, e.2⟩
    obtain ⟨⟨ch, v'⟩, hp, e1, e2⟩ := hall c.toFin v h
    dsimp only at e1 e2
    subst e2
    exact ⟨ch, e1, hp⟩
  · rintro ⟨ch, e, h⟩
    simp only [List.mem_cons, Prod.mk.injEq, List.not_mem_nil, or_false] at h
    have : ∀ (k : Nat), c.toNat = k → k < 256 → c = BitVec.ofNat 8 k := by
      intro k h1 h2
      apply BitVec.eq_of_toNat_eq
      rw [BitVec.toNat_ofNat, h1, Nat.mod_eq_of_lt h2]
    rcases h with ⟨rfl, rfl⟩ | ⟨rfl, rfl⟩ | ⟨rfl, rfl⟩ | ⟨rfl, rfl⟩ | ⟨rfl, rfl⟩ | ⟨rfl, rfl⟩ | ⟨rfl, rfl⟩ | ⟨rfl, rfl⟩ |
      ⟨rfl, rfl⟩ | ⟨rfl, rfl⟩ | ⟨rfl, rfl⟩ | ⟨rfl, rfl⟩ | ⟨rfl, rfl⟩ | ⟨rfl, rfl⟩ | ⟨rfl, rfl⟩ | ⟨rfl, rfl⟩ | ⟨rfl, rfl⟩ |
      ⟨rfl, rfl⟩ | ⟨rfl, rfl⟩ | ⟨rfl, rfl⟩ | ⟨rfl, rfl⟩ | ⟨rfl, rfl⟩ <;> (rw [this _ e (by decide)]; decide)

theorem charToHex_lt {c : Byte} {v : Nat} (h : charToHex c = some v) : v < 16 := by
  unfold charToHex at h
  repeat' split at h
  all_goals first | (cases h; done) | (cases h; omega)

theorem hexDecode_iff : ∀ (n : Nat) (str : List Byte), str.length ≤ n → ∀ (size : Nat) (bytes : List Byte),
    hexDecode str size = some bytes ↔ Hex str bytes ∧ bytes.length = size
  | _, [], _, size, bytes => by
    rw [hexDecode]
    by_cases hs : size = 0
    · rw [if_pos hs]
      constructor
      · intro h; cases h; exact ⟨.nil, hs.symm⟩
      · rintro ⟨h, -⟩; cases h; rfl
    · rw [if_neg hs]
      constructor
      · intro h; cases h
      · rintro ⟨h, e⟩; cases h; exact absurd e.symm hs
  | _, [_], _, size, bytes => by
    rw [hexDecode]
    constructor
    · intro h; cases h
    · rintro ⟨h, -⟩; cases h
  | n + 1, a :: b :: str, hl, size, bytes => by
    rw [hexDecode]
    have ih := hexDecode_iff n str (by simp at hl; omega)
    constructor
    · intro h
      cases ha : charToHex a with
      | none => rw [ha] at h; cases h
      | some v1 =>
        cases hb : charToHex b with
        | none => rw [ha, hb] at h; cases h
        | some v2 =>
          rw [ha, hb] at h
          dsimp only at h
          by_cases hs : size = 0
          · rw [if_pos hs] at h; cases h
          · rw [if_neg hs] at h
            cases hr : hexDecode str (size - 1) with
            | none => rw [hr] at h; cases h
            | some r =>
              rw [hr] at h
              cases h
              obtain ⟨h1, h2⟩ := (ih _ _).mp hr
              have l1 := charToHex_lt ha
              have l2 := charToHex_lt hb
              refine ⟨.cons ((charToHex_iff a v1).mp ha) ((charToHex_iff b v2).mp hb) ?_ h1, ?_⟩
              · rw [BitVec.toNat_ofNat, Nat.mod_eq_of_lt (by omega)]; omega
              · simp only [List.length_cons]; omega
    · rintro ⟨h, e⟩
      cases h with
      | @cons _ _ hh l _ bs x d1 d2 ex ht =>
        rw [(charToHex_iff a hh).mpr d1, (charToHex_iff b l).mpr d2]
        dsimp only
        simp only [List.length_cons] at e
        rw [if_neg (by omega), (ih (size - 1) bs).mpr ⟨ht, by omega⟩]
        have : BitVec.ofNat 8 (hh * 16 + l) = x := by
          apply BitVec.eq_of_toNat_eq
          rw [BitVec.toNat_ofNat, ex]
          have := x.isLt
          omega
        rw [this]
        rfl

theorem hexchar_digit (v : Nat) (h : v < 16) : ∃ c, hexchar v = some c ∧ HexDigit c v := by
  have : ∀ v : Fin 16, (match hexchar v.val with | some c => charToHex c == some v.val | none => false) = true := by decide
  have := this ⟨v, h⟩
  dsimp only at this
  cases hc : hexchar v with
  | none => rw [hc] at this; cases this
  | some c =>
    rw [hc] at this
    exact ⟨c, rfl, (charToHex_iff c v).mp (by simpa using this)⟩

theorem hexChars_hex : ∀ (buf : List Byte), ∃ t, hexChars buf = some t ∧ Hex t buf ∧ t.length = 2 * buf.length
  | [] => ⟨[], rfl, .nil, rfl⟩
  | c :: l => by
    obtain ⟨t, h1, h2, h3⟩ := hexChars_hex l
    have hc := c.isLt
    obtain ⟨a, ha, da⟩ := hexchar_digit (c.toNat / 16) (by omega)
    obtain ⟨b, hb, db⟩ := hexchar_digit (c.toNat % 16) (by omega)
    refine ⟨a :: b :: t, ?_, .cons da db (by omega) h2, by simp only [List.length_cons]; omega⟩
    rw [hexChars, ha, hb, h1]

/-! ## Base 32 -/

/-- The digit of a value. -/
def dig (v : Nat) : Byte := digits.getD v 0

theorem idx_dig (v : Nat) (h : v < 32) : digits.idxOf? (dig v) = some v := by
  have : ∀ v : Fin 32, digits.idxOf? (dig v.val) = some v.val := by decide
  exact this ⟨v, h⟩

theorem decodeChars_digits : ∀ (vs : List Nat), (∀ v ∈ vs, v < 32) → ∀ (rest : List Byte) (acc : Nat),
    decodeChars (vs.map dig ++ rest) acc 0 = decodeChars rest (vs.foldl (fun a v => a * 32 + v) acc) 0
  | [], _, _, _ => rfl
  | v :: vs, h, rest, acc => by
    rw [List.map_cons, List.cons_append, decodeChars, idx_dig v (h v (by simp))]
    dsimp only
    rw [if_neg (by simp), decodeChars_digits vs fun x hx => h x (by simp [hx])]
    rfl

theorem decodeChars_pads : ∀ (n acc pads : Nat), decodeChars (List.replicate n pad) acc pads = some (acc * 32 ^ n, pads + n)
  | 0, acc, pads => by simp [decodeChars]
  | n + 1, acc, pads => by
    rw [List.replicate_succ, decodeChars, show digits.idxOf? pad = none by decide]
    dsimp only
    rw [if_pos rfl, decodeChars_pads n]
    simp only [Option.some.injEq, Prod.mk.injEq]
    refine ⟨?_, by omega⟩
    rw [Nat.pow_succ, Nat.mul_assoc, Nat.mul_comm 32]

/-- The digits of a 40-bit number. -/
def digitsOf (V : Nat) : List Nat :=
  [V / 2 ^ 35 % 32, V / 2 ^ 30 % 32, V / 2 ^ 25 % 32, V / 2 ^ 20 % 32, V / 2 ^ 15 % 32, V / 2 ^ 10 % 32, V / 2 ^ 5 % 32,
   V % 32]

theorem digitsOf_lt (V : Nat) : ∀ v ∈ digitsOf V, v < 32 := by
  intro v hv
  simp only [digitsOf, List.mem_cons, List.not_mem_nil, or_false] at hv
  rcases hv with rfl | rfl | rfl | rfl | rfl | rfl | rfl | rfl <;> exact Nat.mod_lt _ (by decide)

theorem encodeDigits_eq (V : Nat) (h : V < 2 ^ 40) (n : Nat) (h1 : 1 ≤ n) (h5 : n ≤ 5) :
    encodeDigits 8 V ((n : Nat) * 8 : Int) = ((digitsOf V).take ((n * 8 + 4) / 5)).map dig := by
  have g : ∀ x, x % 2 ^ 64 / 2 ^ 35 % 32 = x / 2 ^ 35 % 32 := by intro x; omega
  have q : ∀ c d, 0 < c → d * c = 2 ^ 35 → V * c / 2 ^ 35 = V / d := by
    intro c d hc h
    rw [← h, Nat.mul_div_mul_right _ _ hc]
  have r : ∀ c c', c * 32 = c' → (V * c % 2 ^ 64) * 32 % 2 ^ 64 = V * c' % 2 ^ 64 := by
    intro c c' h
    rw [Nat.mod_mul_mod, Nat.mul_assoc, h]
  have m1 : V * 32 % 2 ^ 64 / 2 ^ 35 % 32 = V / 2 ^ 30 % 32 := by rw [g, q 32 (2 ^ 30) (by decide) (by decide)]
  have m2 : V * 1024 % 2 ^ 64 / 2 ^ 35 % 32 = V / 2 ^ 25 % 32 := by rw [g, q 1024 (2 ^ 25) (by decide) (by decide)]
  have m3 : V * 32768 % 2 ^ 64 / 2 ^ 35 % 32 = V / 2 ^ 20 % 32 := by rw [g, q 32768 (2 ^ 20) (by decide) (by decide)]
  have m4 : V * 1048576 % 2 ^ 64 / 2 ^ 35 % 32 = V / 2 ^ 15 % 32 := by rw [g, q 1048576 (2 ^ 15) (by decide) (by decide)]
  have m5 : V * 33554432 % 2 ^ 64 / 2 ^ 35 % 32 = V / 2 ^ 10 % 32 := by rw [g, q 33554432 (2 ^ 10) (by decide) (by decide)]
  have m6 : V * 1073741824 % 2 ^ 64 / 2 ^ 35 % 32 = V / 2 ^ 5 % 32 := by rw [g, q 1073741824 (2 ^ 5) (by decide) (by decide)]
  have m7 : V * 34359738368 % 2 ^ 64 / 2 ^ 35 % 32 = V % 32 := by rw [g, q 34359738368 1 (by decide) (by decide)]; rw [Nat.div_one]
  have r2 := r 32 1024 (by decide)
  have r3 := r 1024 32768 (by decide)
  have r4 := r 32768 1048576 (by decide)
  have r5 := r 1048576 33554432 (by decide)
  have r6 := r 33554432 1073741824 (by decide)
  have r7 := r 1073741824 34359738368 (by decide)
  have step : ∀ fuel res (bits : Int), 0 < bits → encodeDigits (fuel + 1) res bits =
      dig (res / 2 ^ 35 % 32) :: encodeDigits fuel (res * 32 % 2 ^ 64) (bits - 5) := by
    intro fuel res bits hb
    rw [encodeDigits, if_pos hb]
    rfl
  have stop : ∀ fuel res (bits : Int), ¬ 0 < bits → encodeDigits fuel res bits = [] := by
    intro fuel res bits hb
    cases fuel with
    | zero => rfl
    | succ f => rw [encodeDigits, if_neg hb]
  obtain rfl | rfl | rfl | rfl | rfl : n = 1 ∨ n = 2 ∨ n = 3 ∨ n = 4 ∨ n = 5 := by omega
  · rw [step _ _ _ (by decide), step _ _ _ (by decide), stop _ _ _ (by decide)]
    rw [m1, show (1 * 8 + 4) / 5 = 2 from rfl]
    simp only [digitsOf, List.take_succ_cons, List.take_zero, List.map_cons, List.map_nil, dig]
  · rw [step _ _ _ (by decide), step _ _ _ (by decide), step _ _ _ (by decide), step _ _ _ (by decide), stop _ _ _ (by decide)]
    rw [r2, r3, m1, m2, m3, show (2 * 8 + 4) / 5 = 4 from rfl]
    simp only [digitsOf, List.take_succ_cons, List.take_zero, List.map_cons, List.map_nil, dig]
  · rw [step _ _ _ (by decide), step _ _ _ (by decide), step _ _ _ (by decide), step _ _ _ (by decide), step _ _ _ (by decide), stop _ _ _ (by decide)]
    rw [r2, r3, r4, m1, m2, m3, m4, show (3 * 8 + 4) / 5 = 5 from rfl]
    simp only [digitsOf, List.take_succ_cons, List.take_zero, List.map_cons, List.map_nil, dig]
  · rw [step _ _ _ (by decide), step _ _ _ (by decide), step _ _ _ (by decide), step _ _ _ (by decide), step _ _ _ (by decide), step _ _ _ (by decide), step _ _ _ (by decide), stop _ _ _ (by decide)]
    rw [r2, r3, r4, r5, r6, m1, m2, m3, m4, m5, m6, show (4 * 8 + 4) / 5 = 7 from rfl]
    simp only [digitsOf, List.take_succ_cons, List.take_zero, List.map_cons, List.map_nil, dig]
  · rw [step _ _ _ (by decide), step _ _ _ (by decide), step _ _ _ (by decide), step _ _ _ (by decide), step _ _ _ (by decide), step _ _ _ (by decide), step _ _ _ (by decide), step _ _ _ (by decide), stop _ _ _ (by decide)]
    rw [r2, r3, r4, r5, r6, r7, m1, m2, m3, m4, m5, m6, m7, show (5 * 8 + 4) / 5 = 8 from rfl]
    simp only [digitsOf, List.take_succ_cons, List.take_zero, List.map_cons, List.map_nil, dig]

theorem ofNat_eq (b : Byte) (n : Nat) (h : n % 256 = b.toNat) : BitVec.ofNat 8 n = b := by
  apply BitVec.eq_of_toNat_eq
  rw [BitVec.toNat_ofNat]
  exact h

theorem fold2 (V : Nat) (h : V < 2 ^ 40) :
    ((digitsOf V).take 2).foldl (fun a v => a * 32 + v) 0 = V / 2 ^ 30 := by
  simp only [digitsOf, List.take_succ_cons, List.take_zero, List.foldl_cons, List.foldl_nil]
  have h0 : 0 * 32 + V / 2 ^ 35 % 32 = V / 2 ^ 35 := by omega
  have h2 : V / 2 ^ 35 * 32 + V / 2 ^ 30 % 32 = V / 2 ^ 30 := by omega
  rw [h0, h2]

theorem fold4 (V : Nat) (h : V < 2 ^ 40) :
    ((digitsOf V).take 4).foldl (fun a v => a * 32 + v) 0 = V / 2 ^ 20 := by
  simp only [digitsOf, List.take_succ_cons, List.take_zero, List.foldl_cons, List.foldl_nil]
  have h0 : 0 * 32 + V / 2 ^ 35 % 32 = V / 2 ^ 35 := by omega
  have h2 : V / 2 ^ 35 * 32 + V / 2 ^ 30 % 32 = V / 2 ^ 30 := by omega
  have h3 : V / 2 ^ 30 * 32 + V / 2 ^ 25 % 32 = V / 2 ^ 25 := by omega
  have h4 : V / 2 ^ 25 * 32 + V / 2 ^ 20 % 32 = V / 2 ^ 20 := by omega
  rw [h0, h2, h3, h4]

theorem fold5 (V : Nat) (h : V < 2 ^ 40) :
    ((digitsOf V).take 5).foldl (fun a v => a * 32 + v) 0 = V / 2 ^ 15 := by
  simp only [digitsOf, List.take_succ_cons, List.take_zero, List.foldl_cons, List.foldl_nil]
  have h0 : 0 * 32 + V / 2 ^ 35 % 32 = V / 2 ^ 35 := by omega
  have h2 : V / 2 ^ 35 * 32 + V / 2 ^ 30 % 32 = V / 2 ^ 30 := by omega
  have h3 : V / 2 ^ 30 * 32 + V / 2 ^ 25 % 32 = V / 2 ^ 25 := by omega
  have h4 : V / 2 ^ 25 * 32 + V / 2 ^ 20 % 32 = V / 2 ^ 20 := by omega
  have h5 : V / 2 ^ 20 * 32 + V / 2 ^ 15 % 32 = V / 2 ^ 15 := by omega
  rw [h0, h2, h3, h4, h5]

theorem fold7 (V : Nat) (h : V < 2 ^ 40) :
    ((digitsOf V).take 7).foldl (fun a v => a * 32 + v) 0 = V / 2 ^ 5 := by
  simp only [digitsOf, List.take_succ_cons, List.take_zero, List.foldl_cons, List.foldl_nil]
  have h0 : 0 * 32 + V / 2 ^ 35 % 32 = V / 2 ^ 35 := by omega
  have h2 : V / 2 ^ 35 * 32 + V / 2 ^ 30 % 32 = V / 2 ^ 30 := by omega
  have h3 : V / 2 ^ 30 * 32 + V / 2 ^ 25 % 32 = V / 2 ^ 25 := by omega
  have h4 : V / 2 ^ 25 * 32 + V / 2 ^ 20 % 32 = V / 2 ^ 20 := by omega
  have h5 : V / 2 ^ 20 * 32 + V / 2 ^ 15 % 32 = V / 2 ^ 15 := by omega
  have h6 : V / 2 ^ 15 * 32 + V / 2 ^ 10 % 32 = V / 2 ^ 10 := by omega
  have h7 : V / 2 ^ 10 * 32 + V / 2 ^ 5 % 32 = V / 2 ^ 5 := by omega
  rw [h0, h2, h3, h4, h5, h6, h7]

theorem fold8 (V : Nat) (h : V < 2 ^ 40) :
    ((digitsOf V).take 8).foldl (fun a v => a * 32 + v) 0 = V / 2 ^ 0 := by
  simp only [digitsOf, List.take_succ_cons, List.take_zero, List.foldl_cons, List.foldl_nil]
  have h0 : 0 * 32 + V / 2 ^ 35 % 32 = V / 2 ^ 35 := by omega
  have h2 : V / 2 ^ 35 * 32 + V / 2 ^ 30 % 32 = V / 2 ^ 30 := by omega
  have h3 : V / 2 ^ 30 * 32 + V / 2 ^ 25 % 32 = V / 2 ^ 25 := by omega
  have h4 : V / 2 ^ 25 * 32 + V / 2 ^ 20 % 32 = V / 2 ^ 20 := by omega
  have h5 : V / 2 ^ 20 * 32 + V / 2 ^ 15 % 32 = V / 2 ^ 15 := by omega
  have h6 : V / 2 ^ 15 * 32 + V / 2 ^ 10 % 32 = V / 2 ^ 10 := by omega
  have h7 : V / 2 ^ 10 * 32 + V / 2 ^ 5 % 32 = V / 2 ^ 5 := by omega
  have h8 : V / 2 ^ 5 * 32 + V % 32 = V := by omega
  rw [h0, h2, h3, h4, h5, h6, h7, h8]
  exact (Nat.div_one V).symm

/-- One group there and back. -/
theorem group (buf : List Byte) (h1 : 0 < buf.length) (h5 : buf.length ≤ 5) :
    ∃ t, encode8 buf = some t ∧ t.length = 8 ∧ decode8 t = some buf := by
  have hval : value40 buf < 2 ^ 40 := by
    rcases buf with _ | ⟨a, _ | ⟨b, _ | ⟨c, _ | ⟨d, _ | ⟨e, _ | ⟨f, l⟩⟩⟩⟩⟩⟩ <;>
      simp [value40] at h1 h5 ⊢ <;> omega
  have hd := encodeDigits_eq (value40 buf) hval buf.length h1 h5
  have lt := digitsOf_lt (value40 buf)
  have key : ∀ n, buf.length = n → ∀ k p, (8 * n + 4) / 5 = k → k + p = 8 → ¬ (p = 5 ∨ p = 2) → (40 - p * 5) / 8 = n →
      (lowFive (((digitsOf (value40 buf)).take k).foldl (fun a v => a * 32 + v) 0 * 32 ^ p)).take n = buf →
      encode8 buf = some ((((digitsOf (value40 buf)).take k).map dig) ++ List.replicate p pad) →
      ∃ t, encode8 buf = some t ∧ t.length = 8 ∧ decode8 t = some buf := by
    intro n hn k p hk hkp hp hb hv he
    refine ⟨_, he, ?_, ?_⟩
    · simp only [List.length_append, List.length_map, List.length_take, List.length_replicate, digitsOf,
        List.length_cons, List.length_nil]
      omega
    · unfold decode8
      rw [decodeChars_digits _ (fun v hv => lt v (List.mem_of_mem_take hv)), decodeChars_pads]
      dsimp only
      rw [Nat.zero_add, if_neg hp, hb, hv]
  unfold encode8 at key ⊢
  rw [if_pos ⟨h1, h5⟩] at key ⊢
  dsimp only at key ⊢
  rw [hd] at key ⊢
  rcases buf with _ | ⟨a, _ | ⟨b, _ | ⟨c, _ | ⟨d, _ | ⟨e, _ | ⟨f, l⟩⟩⟩⟩⟩⟩
  · simp at h1
  · refine key 1 rfl 2 6 (by decide) (by decide) (by decide) (by decide) ?_ (by simp [padlen])
    rw [fold2 _ hval]
    have := a.isLt
    simp only [value40, lowFive, List.take_succ_cons, List.take_zero, List.foldl_cons, List.foldl_nil, List.cons_append, List.nil_append,
      show (0 : Byte).toNat = 0 from rfl]
    rw [ofNat_eq a] <;> omega
  · refine key 2 rfl 4 4 (by decide) (by decide) (by decide) (by decide) ?_ (by simp [padlen])
    rw [fold4 _ hval]
    have := a.isLt
    have := b.isLt
    simp only [value40, lowFive, List.take_succ_cons, List.take_zero, List.foldl_cons, List.foldl_nil, List.cons_append, List.nil_append,
      show (0 : Byte).toNat = 0 from rfl]
    rw [ofNat_eq a, ofNat_eq b] <;> omega
  · refine key 3 rfl 5 3 (by decide) (by decide) (by decide) (by decide) ?_ (by simp [padlen])
    rw [fold5 _ hval]
    have := a.isLt
    have := b.isLt
    have := c.isLt
    simp only [value40, lowFive, List.take_succ_cons, List.take_zero, List.foldl_cons, List.foldl_nil, List.cons_append, List.nil_append,
      show (0 : Byte).toNat = 0 from rfl]
    rw [ofNat_eq a, ofNat_eq b, ofNat_eq c] <;> omega
  · refine key 4 rfl 7 1 (by decide) (by decide) (by decide) (by decide) ?_ (by simp [padlen])
    rw [fold7 _ hval]
    have := a.isLt
    have := b.isLt
    have := c.isLt
    have := d.isLt
    simp only [value40, lowFive, List.take_succ_cons, List.take_zero, List.foldl_cons, List.foldl_nil, List.cons_append, List.nil_append,
      show (0 : Byte).toNat = 0 from rfl]
    rw [ofNat_eq a, ofNat_eq b, ofNat_eq c, ofNat_eq d] <;> omega
  · refine key 5 rfl 8 0 (by decide) (by decide) (by decide) (by decide) ?_ (by simp)
    rw [fold8 _ hval]
    have := a.isLt
    have := b.isLt
    have := c.isLt
    have := d.isLt
    have := e.isLt
    simp only [value40, lowFive, List.take_succ_cons, List.take_zero, List.foldl_cons, List.foldl_nil, List.cons_append, List.nil_append,
      show (0 : Byte).toNat = 0 from rfl]
    rw [ofNat_eq a, ofNat_eq b, ofNat_eq c, ofNat_eq d, ofNat_eq e] <;> omega
  · simp at h5

theorem base32_inv : ∀ (fuel : Nat) (buf : List Byte), buf.length ≤ fuel → ∀ destsize,
    (destsize = base32StrSize buf.length ∧ ∃ t, encodeLoop fuel buf destsize = .ok (t ++ [0]) ∧
      t.length + 1 = destsize ∧ ∀ f, t.length ≤ f → decodeLoop f t buf.length = some buf) ∨
    (destsize ≠ base32StrSize buf.length ∧ encodeLoop fuel buf destsize = .refused)
  | 0, buf, h, destsize => by
    have : buf = [] := List.length_eq_zero_iff.mp (by omega)
    subst this
    rw [encodeLoop]
    by_cases hd : destsize = 1
    · refine Or.inl ⟨hd, [], by rw [if_neg (by simpa using hd)]; rfl, by simp [hd], fun f _ => ?_⟩
      cases f <;> simp [decodeLoop]
    · exact Or.inr ⟨hd, by rw [if_pos hd]⟩
  | fuel + 1, buf, h, destsize => by
    by_cases hb : buf.length = 0
    · have : buf = [] := List.length_eq_zero_iff.mp hb
      subst this
      rw [encodeLoop, if_neg (by simp)]
      by_cases hd : destsize = 1
      · refine Or.inl ⟨hd, [], by rw [if_neg (by simpa using hd)]; rfl, by simp [hd], fun f _ => ?_⟩
        cases f <;> simp [decodeLoop]
      · exact Or.inr ⟨hd, by rw [if_pos hd]⟩
    · rw [encodeLoop, if_pos hb]
      have hsz : base32StrSize buf.length = base32StrSize (buf.drop 5).length + 8 := by
        unfold base32StrSize
        rw [List.length_drop]
        omega
      by_cases hd : destsize < 8
      · rw [if_pos hd]
        exact Or.inr ⟨by omega, rfl⟩
      · rw [if_neg hd]
        have htl : (buf.take 5).length = min 5 buf.length := List.length_take
        obtain ⟨t, e1, e2, e3⟩ := group (buf.take 5) (by omega) (by omega)
        rw [e1]
        dsimp only
        rcases base32_inv fuel (buf.drop 5) (by rw [List.length_drop]; omega) (destsize - 8) with ⟨i1, t', i2, i3, i4⟩ | ⟨i1, i2⟩
        · rw [i2]
          refine Or.inl ⟨by omega, t ++ t', by simp [List.append_assoc], by simp only [List.length_append]; omega, ?_⟩
          intro f hf
          simp only [List.length_append] at hf
          obtain ⟨f', rfl⟩ : ∃ f', f = f' + 1 := ⟨f - 1, by omega⟩
          rw [decodeLoop, if_pos (by simp only [List.length_append]; omega),
            List.take_left' e2, e3, List.drop_left' e2]
          dsimp only
          rw [if_neg (by omega)]
          have hl : buf.length - (buf.take 5).length = (buf.drop 5).length := by rw [List.length_drop]; omega
          rw [hl, i4 f' (by omega), Option.map_some, List.take_append_drop]
        · rw [i2]
          exact Or.inr ⟨by omega, rfl⟩

/-! ## The size announced for the data -/

theorem countPad_le : ∀ (l : List Byte) (p : Nat), p ≤ 6 → countPad l p ≤ 6
  | [], _, h => h
  | c :: l, p, h => by
    rw [countPad]
    split
    · next hc => exact countPad_le l (p + 1) (by omega)
    · exact h

theorem countPad_append : ∀ (l m : List Byte) (p : Nat), 6 ≤ p + l.length → countPad (l ++ m) p = countPad l p
  | [], m, p, h => by
    have : ¬ p < 6 := by simp at h; omega
    cases m with
    | nil => rfl
    | cons c m =>
      show (if c = pad ∧ p < 6 then countPad m (p + 1) else p) = p
      rw [if_neg (fun h => this h.2)]
  | c :: l, m, p, h => by
    rw [List.cons_append, countPad, countPad]
    split
    · exact countPad_append l m (p + 1) (by simp only [List.length_cons] at h; omega)
    · rfl

theorem countPad_pads (d : List Byte) (hd : ∀ c ∈ d, c ≠ pad) : ∀ (n p : Nat), p ≤ 6 → countPad (List.replicate n pad ++ d) p = min 6 (p + n)
  | 0, p, h => by
    cases d with
    | nil => rw [List.replicate_zero, List.nil_append, countPad]; omega
    | cons c d =>
      rw [List.replicate_zero, List.nil_append, countPad, if_neg (fun h => hd c (by simp) h.1)]; omega
  | n + 1, p, h => by
    rw [List.replicate_succ, List.cons_append, countPad]
    by_cases h6 : p < 6
    · rw [if_pos ⟨rfl, h6⟩, countPad_pads d hd n (p + 1) (by omega)]; omega
    · rw [if_neg (fun h => h6 h.2)]; omega

theorem digit_ne_pad {c : Byte} {v : Nat} (h : digits.idxOf? c = some v) : c ≠ pad := by
  rintro rfl
  rw [show digits.idxOf? pad = none by decide] at h
  cases h

/-- What is decoded is digits and then padding. -/
theorem decodeChars_shape : ∀ (l : List Byte) (acc pads a p : Nat), decodeChars l acc pads = some (a, p) →
    ∃ d n, l = d ++ List.replicate n pad ∧ p = pads + n ∧ (∀ c ∈ d, c ≠ pad) ∧ (pads ≠ 0 → d = [])
  | [], acc, pads, a, p, h => by
    rw [decodeChars] at h
    injection h with h
    injection h with h1 h2
    exact ⟨[], 0, rfl, h2.symm, by simp, fun _ => rfl⟩
  | c :: l, acc, pads, a, p, h => by
    rw [decodeChars] at h
    cases hi : digits.idxOf? c with
    | none =>
      rw [hi] at h
      dsimp only at h
      by_cases hp : c = pad
      · rw [if_pos hp] at h
        obtain ⟨d, n, e1, e2, e3, e4⟩ := decodeChars_shape l _ _ _ _ h
        rw [e4 (by omega), List.nil_append] at e1
        exact ⟨[], n + 1, by rw [e1, hp]; rfl, by omega, by simp, fun _ => rfl⟩
      · rw [if_neg hp] at h; cases h
    | some v =>
      rw [hi] at h
      dsimp only at h
      by_cases hp : pads ≠ 0
      · rw [if_pos hp] at h; cases h
      · rw [if_neg hp] at h
        obtain ⟨d, n, e1, e2, e3, e4⟩ := decodeChars_shape l _ _ _ _ h
        refine ⟨c :: d, n, by rw [e1]; rfl, e2, ?_, fun h => absurd h hp⟩
        intro x hx
        rcases List.mem_cons.1 hx with rfl | hx
        · exact digit_ne_pad hi
        · exact e3 x hx

/-- The size of one group: at least what it decodes to, and exactly if that is not nothing. -/
theorem dataSize_group (g b : List Byte) (hg : g.length = 8) (h : decode8 g = some b) :
    b.length ≤ base32DataSize g ∧ (b ≠ [] → base32DataSize g = b.length) ∧ b.length ≤ 5 := by
  unfold decode8 at h
  cases hd : decodeChars g 0 0 with
  | none => rw [hd] at h; cases h
  | some x =>
    obtain ⟨acc, p⟩ := x
    rw [hd] at h
    dsimp only at h
    by_cases hp : p = 5 ∨ p = 2
    · rw [if_pos hp] at h; cases h
    · rw [if_neg hp] at h
      injection h with h
      obtain ⟨d, n, e1, e2, e3, _⟩ := decodeChars_shape _ _ _ _ _ hd
      have hc : countPad g.reverse 0 = min 6 p := by
        rw [e1, List.reverse_append, List.reverse_replicate, countPad_pads _ (fun c hc => e3 c (List.mem_reverse.1 hc)) n 0 (by omega)]
        omega
      have hl : b.length = min ((40 - p * 5) / 8) 5 := by rw [← h, List.length_take]; rfl
      have hn : p ≤ 8 := by
        have := congrArg List.length e1
        simp only [List.length_append, List.length_replicate] at this
        omega
      unfold base32DataSize
      rw [hg, hc, hl]
      refine ⟨by omega, fun hb => ?_, by omega⟩
      have : 0 < b.length := List.length_pos_iff.2 hb
      omega

/-- A group in front of whole groups. -/
theorem dataSize_append (g t : List Byte) (hg : g.length = 8) (ht : 8 ≤ t.length) : base32DataSize (g ++ t) = 5 + base32DataSize t := by
  unfold base32DataSize
  rw [List.reverse_append, countPad_append _ _ _ (by rw [List.length_reverse]; omega), List.length_append, hg]
  have := countPad_le t.reverse 0 (by omega)
  omega

theorem dataSize_decode : ∀ (fuel : Nat) (t : List Byte) (size : Nat) (b : List Byte), decodeLoop fuel t size = some b → b.length ≤ base32DataSize t
  | 0, t, size, b, h => by
    rw [decodeLoop] at h
    split at h
    · injection h with h; subst h; simp
    · cases h
  | fuel + 1, t, size, b, h => by
    rw [decodeLoop] at h
    by_cases h8 : 8 ≤ t.length
    · rw [if_pos h8] at h
      cases hd : decode8 (t.take 8) with
      | none => rw [hd] at h; cases h
      | some g =>
        rw [hd] at h
        dsimp only at h
        by_cases hs : size < g.length
        · rw [if_pos hs] at h; cases h
        · rw [if_neg hs] at h
          cases hr : decodeLoop fuel (t.drop 8) (size - g.length) with
          | none => rw [hr] at h; cases h
          | some r =>
            rw [hr, Option.map_some] at h
            injection h with h
            have hg : (t.take 8).length = 8 := by rw [List.length_take]; omega
            have h1 := dataSize_group _ _ hg hd
            have h2 := dataSize_decode fuel _ _ _ hr
            rw [← h, List.length_append]
            by_cases hlast : 8 ≤ (t.drop 8).length
            · have e := dataSize_append (t.take 8) (t.drop 8) hg hlast
              rw [List.take_append_drop] at e
              omega
            · -- nothing is left, for a part of a group is refused
              have hz : t.drop 8 = [] ∧ r = [] := by
                cases fuel with
                | zero =>
                  rw [decodeLoop] at hr
                  split at hr
                  · next hc => injection hr with hr; exact ⟨List.length_eq_zero_iff.1 hc.1, hr.symm⟩
                  · cases hr
                | succ f =>
                  rw [decodeLoop, if_neg hlast] at hr
                  split at hr
                  · next hc => injection hr with hr; exact ⟨List.length_eq_zero_iff.1 hc.1, hr.symm⟩
                  · cases hr
              have e : t.take 8 = t := by
                have := List.take_append_drop 8 t
                rw [hz.1, List.append_nil] at this
                exact this
              rw [e] at h1
              rw [hz.2, List.length_nil]
              exact h1.1
    · rw [if_neg h8] at h
      split at h
      · injection h with h; subst h; simp
      · cases h

theorem dataSize_encode : ∀ (fuel : Nat) (buf : List Byte) (destsize : Nat) (t : List Byte), buf.length ≤ fuel →
    encodeLoop fuel buf destsize = .ok (t ++ [0]) → base32DataSize t = buf.length ∧ (buf ≠ [] → 8 ≤ t.length)
  | 0, buf, destsize, t, hf, h => by
    have : buf = [] := List.length_eq_zero_iff.mp (by omega)
    subst this
    rw [encodeLoop] at h
    split at h
    · cases h
    · injection h with h
      have : t = [] := by cases t with
        | nil => rfl
        | cons c t => simp at h
      subst this
      exact ⟨rfl, fun h => absurd rfl h⟩
  | fuel + 1, buf, destsize, t, hf, h => by
    rw [encodeLoop] at h
    by_cases hb : buf.length = 0
    · rw [if_neg (by simpa using hb)] at h
      have : buf = [] := List.length_eq_zero_iff.mp hb
      subst this
      split at h
      · cases h
      · injection h with h
        have : t = [] := by cases t with
          | nil => rfl
          | cons c t => simp at h
        subst this
        exact ⟨rfl, fun h => absurd rfl h⟩
    · rw [if_pos hb] at h
      split at h
      · cases h
      · have htl : (buf.take 5).length = min 5 buf.length := List.length_take
        obtain ⟨g, e1, e2, e3⟩ := group (buf.take 5) (by omega) (by omega)
        rw [e1] at h
        dsimp only at h
        have hdl : (buf.drop 5).length = buf.length - 5 := List.length_drop
        rcases base32_inv fuel (buf.drop 5) (by omega) (destsize - 8) with ⟨_, t', i2, _, _⟩ | ⟨_, i2⟩
        · rw [i2] at h
          injection h with h
          rw [← List.append_assoc] at h
          have ht : g ++ t' = t := (List.append_inj' h rfl).1
          have ih := dataSize_encode fuel (buf.drop 5) (destsize - 8) t' (by omega) i2
          have hg := dataSize_group g _ e2 e3
          refine ⟨?_, fun _ => by rw [← ht, List.length_append]; omega⟩
          by_cases hr : buf.drop 5 = []
          · rw [hr] at ih i2
            have ht' : t' = [] := by
              cases fuel with
              | zero =>
                rw [encodeLoop] at i2
                split at i2
                · cases i2
                · injection i2 with i2
                  cases t' with
                  | nil => rfl
                  | cons c t => simp at i2
              | succ f =>
                rw [encodeLoop, if_neg (by simp)] at i2
                split at i2
                · cases i2
                · injection i2 with i2
                  cases t' with
                  | nil => rfl
                  | cons c t => simp at i2
            rw [hr, List.length_nil] at hdl
            rw [← ht, ht', List.append_nil, hg.2.1 (fun e => by rw [e] at htl; simp at htl; omega)]
            omega
          · have h8 := ih.2 hr
            have : 0 < (buf.drop 5).length := List.length_pos_iff.2 hr
            rw [← ht, dataSize_append g t' e2 h8, ih.1]
            omega
        · rw [i2] at h; cases h

end Text
