import Verif.Hash.Lemmas

namespace Hash

/-! ## Numbers and their bytes -/

theorem bytes4 (v : Nat) : Spec.bytes 4 v = [BitVec.ofNat 8 v, BitVec.ofNat 8 (v / 2 ^ 8), BitVec.ofNat 8 (v / 2 ^ 16), BitVec.ofNat 8 (v / 2 ^ 24)] := by
  simp [Spec.bytes, List.range, List.range.loop]

theorem bytes2 (v : Nat) : Spec.bytes 2 v = [BitVec.ofNat 8 v, BitVec.ofNat 8 (v / 2 ^ 8)] := by
  simp [Spec.bytes, List.range, List.range.loop]

theorem bytes8 (v : Nat) : Spec.bytes 8 v = Spec.bytes 4 v ++ Spec.bytes 4 (v / 2 ^ 32) := by
  simp [Spec.bytes, List.range, List.range.loop, Nat.div_div_eq_div_mul]

theorem le32_bytes (k : W) : le32 (BitVec.ofNat 8 k.toNat) (BitVec.ofNat 8 (k.toNat / 2 ^ 8)) (BitVec.ofNat 8 (k.toNat / 2 ^ 16))
    (BitVec.ofNat 8 (k.toNat / 2 ^ 24)) = k := by
  unfold le32
  apply BitVec.eq_of_toNat_eq
  have := k.isLt
  simp only [BitVec.toNat_ofNat]
  omega

theorem be32_bytes (k : W) : be32 (BitVec.ofNat 8 (k.toNat / 2 ^ 24)) (BitVec.ofNat 8 (k.toNat / 2 ^ 16)) (BitVec.ofNat 8 (k.toNat / 2 ^ 8))
    (BitVec.ofNat 8 k.toNat) = k := le32_bytes k

theorem le16_bytes (k : BitVec 16) : le16 (BitVec.ofNat 8 k.toNat) (BitVec.ofNat 8 (k.toNat / 2 ^ 8)) = sh16 k 0 := by
  unfold le16 sh16
  apply BitVec.eq_of_toNat_eq
  have := k.isLt
  simp only [BitVec.toNat_ofNat, BitVec.shiftLeft_zero, BitVec.toNat_setWidth]
  omega

theorem sh16_shift (k : BitVec 16) : sh16 k 0 <<< 16 = sh16 k 16 := by simp [sh16]

/-! ## Words -/

/-- The word path on words: the state in front of the last block, and with it. -/
def wrun : St → List W → St × Option St
  | s, k0 :: k1 :: k2 :: k3 :: r => wrun (mix ⟨s.a + k0, s.b + k1, s.c + k2⟩) (k3 :: r)
  | s, [k0, k1, k2] => (s, some ⟨s.a + k0, s.b + k1, s.c + k2⟩)
  | s, [k0, k1] => (s, some ⟨s.a + k0, s.b + k1, s.c⟩)
  | s, [k0] => (s, some ⟨s.a + k0, s.b, s.c⟩)
  | s, [] => (s, none)

theorem array_cons (n v : Nat) (l : List Nat) : Spec.array n (v :: l) = Spec.bytes n v ++ Spec.array n l := rfl
theorem arrayBig_cons (n v : Nat) (l : List Nat) : Spec.arrayBig n (v :: l) = (Spec.bytes n v).reverse ++ Spec.arrayBig n l := rfl

theorem array_nil (n : Nat) : Spec.array n [] = [] := rfl
theorem arrayBig_nil (n : Nat) : Spec.arrayBig n [] = [] := rfl

theorem array_length (n : Nat) (l : List Nat) : (Spec.array n l).length = l.length * n := by
  induction l with
  | nil => simp [Spec.array]
  | cons v l ih => rw [array_cons, List.length_append, ih, List.length_cons, Nat.succ_mul, Nat.add_comm]; simp [Spec.bytes]

theorem arrayBig_length (n : Nat) (l : List Nat) : (Spec.arrayBig n l).length = l.length * n := by
  induction l with
  | nil => simp [Spec.arrayBig]
  | cons v l ih => rw [arrayBig_cons, List.length_append, ih, List.length_cons, Nat.succ_mul, Nat.add_comm]; simp [Spec.bytes]

theorem wrun_little (s : St) (ks : List W) :
    (let r := blocks (bodyWords true) s (Spec.array 4 (ks.map (·.toNat))); (r.1, lastWords true r.1 r.2)) = wrun s ks := by
  fun_induction wrun s ks with
  | case1 s k0 k1 k2 k3 r ih =>
    simp only [List.map_cons, array_cons, bytes4, List.cons_append, List.nil_append] at ih ⊢
    rw [blocks, bodyWords, load32_little, load32_little, load32_little, le32_bytes, le32_bytes, le32_bytes]
    exact ih
  | case2 s k0 k1 k2 =>
    simp only [List.map_cons, List.map_nil, array_cons, bytes4, List.cons_append, List.nil_append, array_nil]
    simp only [blocks, lastWords, load32_little, le32_bytes]
  | case3 s k0 k1 =>
    simp only [List.map_cons, List.map_nil, array_cons, bytes4, List.cons_append, List.nil_append, array_nil]
    simp only [blocks, lastWords, load32_little, le32_bytes]
  | case4 s k0 =>
    simp only [List.map_cons, List.map_nil, array_cons, bytes4, List.cons_append, List.nil_append, array_nil]
    simp only [blocks, lastWords, load32_little, le32_bytes]
  | case5 s => rfl

theorem bytes4_rev (v : Nat) :
    (Spec.bytes 4 v).reverse = [BitVec.ofNat 8 (v / 2 ^ 24), BitVec.ofNat 8 (v / 2 ^ 16), BitVec.ofNat 8 (v / 2 ^ 8), BitVec.ofNat 8 v] := by
  rw [bytes4]; rfl

theorem wrun_big (s : St) (ks : List W) :
    (let r := blocks (bodyWordsBe false) s (Spec.arrayBig 4 (ks.map (·.toNat))); (r.1, lastWordsBe false r.1 r.2)) = wrun s ks := by
  fun_induction wrun s ks with
  | case1 s k0 k1 k2 k3 r ih =>
    simp only [List.map_cons, arrayBig_cons, bytes4_rev, List.cons_append, List.nil_append] at ih ⊢
    rw [blocks, bodyWordsBe, load32_big, load32_big, load32_big, be32_bytes, be32_bytes, be32_bytes]
    exact ih
  | case2 s k0 k1 k2 =>
    simp only [List.map_cons, List.map_nil, arrayBig_cons, bytes4_rev, List.cons_append, List.nil_append, arrayBig_nil]
    simp only [blocks, lastWordsBe, load32_big, be32_bytes]
  | case3 s k0 k1 =>
    simp only [List.map_cons, List.map_nil, arrayBig_cons, bytes4_rev, List.cons_append, List.nil_append, arrayBig_nil]
    simp only [blocks, lastWordsBe, load32_big, be32_bytes]
  | case4 s k0 =>
    simp only [List.map_cons, List.map_nil, arrayBig_cons, bytes4_rev, List.cons_append, List.nil_append, arrayBig_nil]
    simp only [blocks, lastWordsBe, load32_big, be32_bytes]
  | case5 s => rfl

/-- `lookup3` of words on a little-endian machine. -/
theorem lookup_words (ks : List W) (v : W) :
    Spec.lookup3 Spec.little (Spec.array 4 (ks.map (·.toNat))) v =
      finish v (wrun (start (ks.length * 4) v) ks).1 (wrun (start (ks.length * 4) v) ks).2 := by
  have h := wrun_little (start (ks.length * 4) v) ks
  have hp := path_spec Spec.little (bodyWords true) (lastWords true) bodyWords_ok lastWords_ok (Spec.array 4 (ks.map (·.toNat))) v
  rw [array_length, List.length_map] at hp
  rw [← hp, ← h]

theorem lookup_words_big (ks : List W) (v : W) :
    Spec.lookup3 Spec.big (Spec.arrayBig 4 (ks.map (·.toNat))) v =
      finish v (wrun (start (ks.length * 4) v) ks).1 (wrun (start (ks.length * 4) v) ks).2 := by
  have h := wrun_big (start (ks.length * 4) v) ks
  have hp := path_spec Spec.big (bodyWordsBe false) (lastWordsBe false) bodyWordsBe_ok lastWordsBe_ok (Spec.arrayBig 4 (ks.map (·.toNat))) v
  rw [arrayBig_length, List.length_map] at hp
  rw [← hp, ← h]

theorem u32Rest_eq (s : St) (ks : List W) (v : W) : u32Rest s ks = (finish v (wrun s ks).1 (wrun s ks).2).1 := by
  fun_induction wrun s ks with
  | case1 s k0 k1 k2 k3 r ih => rw [u32Rest]; exact ih
  | case2 => rfl
  | case3 => rfl
  | case4 => rfl
  | case5 => rfl

theorem shl2 (n : Nat) : BitVec.ofNat 32 n <<< 2 = BitVec.ofNat 32 (n * 4) := by
  apply BitVec.eq_of_toNat_eq
  simp only [BitVec.toNat_shiftLeft, BitVec.toNat_ofNat, Nat.shiftLeft_eq]
  omega

/-! ## The two halves of a 64-bit value -/

theorem join64_eq (h l : W) : join64 h l = Spec.pair (l, h) := by
  unfold join64 Spec.pair
  apply BitVec.eq_of_toNat_eq
  have := h.isLt
  have := l.isLt
  rw [BitVec.toNat_or, BitVec.toNat_shiftLeft, BitVec.toNat_setWidth, BitVec.toNat_setWidth, BitVec.toNat_ofNat, Nat.mod_eq_of_lt (a := h.toNat) (by omega),
    Nat.mod_eq_of_lt (a := l.toNat) (by omega), Nat.shiftLeft_eq, Nat.mod_eq_of_lt (a := h.toNat * 2 ^ 32) (by omega), ← Nat.shiftLeft_eq,
    ← Nat.shiftLeft_add_eq_or_of_lt (by omega), Nat.shiftLeft_eq]
  show _ = (h.toNat * 2 ^ 32 + l.toNat) % 2 ^ 64
  omega

theorem fold64_eq (base : BitVec 64) : fold64 base = Spec.previous base := by
  unfold fold64 Spec.previous
  apply BitVec.eq_of_toNat_eq
  have := base.isLt
  simp only [BitVec.toNat_setWidth, BitVec.toNat_add, BitVec.toNat_ushiftRight, Nat.shiftRight_eq_div_pow, BitVec.toNat_ofNat]
  omega

theorem stableStart_eq (n size : Nat) (base : BitVec 64) : stableStart n size base = start (n * size) (Spec.previous base) := by
  have : ((0xdeadbeef : BitVec 64) + (BitVec.ofNat 32 n * BitVec.ofNat 32 size).setWidth 64 + base >>> 32 + base).setWidth 32
      = (0xdeadbeef : W) + BitVec.ofNat 32 (n * size) + Spec.previous base := by
    rw [← fold64_eq, ← BitVec.ofNat_mul, fold64, BitVec.setWidth_add _ _ (by decide), BitVec.setWidth_add _ _ (by decide),
      BitVec.setWidth_add _ _ (by decide), BitVec.setWidth_add _ _ (by decide), BitVec.setWidth_setWidth_of_le _ (by decide), BitVec.setWidth_eq,
      BitVec.add_assoc _ ((base >>> 32).setWidth 32), BitVec.add_comm ((base >>> 32).setWidth 32)]
    rfl
  unfold stableStart start
  simp only [this]

/-! ## The functions on arrays -/

theorem mod3 {α : Type} (k0 k1 k2 : α) (l : List α) (h : (k0 :: k1 :: k2 :: l).length % 3 ≠ 0) : l.length % 3 ≠ 0 := by
  have e : (k0 :: k1 :: k2 :: l).length = l.length + 3 := rfl
  rw [e] at h
  omega

theorem mod6 {α : Type} (k0 k1 k2 k3 k4 k5 : α) (l : List α) (h : (k0 :: k1 :: k2 :: k3 :: k4 :: k5 :: l).length % 6 ≠ 0) : l.length % 6 ≠ 0 := by
  have e : (k0 :: k1 :: k2 :: k3 :: k4 :: k5 :: l).length = l.length + 6 := rfl
  rw [e] at h
  omega

theorem stable32Rest_eq (s : St) (ks : List W) (h : ks.length % 3 ≠ 0) : stable32Rest s ks = ((wrun s ks).1.c, (wrun s ks).2) := by
  fun_induction wrun s ks with
  | case1 s k0 k1 k2 k3 r ih => rw [stable32Rest]; exact ih (mod3 k0 k1 k2 _ h)
  | case2 => simp at h
  | case3 => rfl
  | case4 => rfl
  | case5 => simp at h

theorem wrun_some (s : St) (ks : List W) (h : ks ≠ []) : ∃ t, (wrun s ks).2 = some t := by
  fun_induction wrun s ks with
  | case1 s k0 k1 k2 k3 r ih => exact ih (by simp)
  | case2 => exact ⟨_, rfl⟩
  | case3 => exact ⟨_, rfl⟩
  | case4 => exact ⟨_, rfl⟩
  | case5 => exact absurd rfl h

theorem stableEnd_eq (v c : W) (s t : St) : stableEnd (c, some t) = Spec.pair (finish v s (some t)) := by
  rw [stableEnd, join64_eq]; rfl

/-- Elements of 64 bits as words, the low one first. -/
def words64 (ks : List (BitVec 64)) : List W := ks.flatMap fun k => [lo k, hi k]

theorem lo_toNat (k : BitVec 64) : (lo k).toNat = k.toNat % 2 ^ 32 := by simp [lo]
theorem hi_toNat (k : BitVec 64) : (hi k).toNat = k.toNat / 2 ^ 32 := by
  have := k.isLt
  simp only [hi, BitVec.toNat_setWidth, BitVec.toNat_ushiftRight, Nat.shiftRight_eq_div_pow]
  omega

theorem bytes4_mod (v : Nat) : Spec.bytes 4 (v % 2 ^ 32) = Spec.bytes 4 v := by
  rw [bytes4, bytes4]
  simp only [List.cons.injEq, and_true]
  refine ⟨?_, ?_, ?_, ?_⟩ <;> (apply BitVec.eq_of_toNat_eq; simp only [BitVec.toNat_ofNat]; omega)

theorem array_words64 (ks : List (BitVec 64)) : Spec.array 8 (ks.map (·.toNat)) = Spec.array 4 ((words64 ks).map (·.toNat)) := by
  induction ks with
  | nil => rfl
  | cons k ks ih =>
    have e : words64 (k :: ks) = lo k :: hi k :: words64 ks := rfl
    rw [e, List.map_cons, List.map_cons, List.map_cons, array_cons, array_cons, array_cons, ih, bytes8, lo_toNat, hi_toNat, bytes4_mod, List.append_assoc]

theorem words64_length (ks : List (BitVec 64)) : (words64 ks).length = ks.length * 2 := by
  induction ks with
  | nil => rfl
  | cons k ks ih =>
    have e : words64 (k :: ks) = lo k :: hi k :: words64 ks := rfl
    rw [e, List.length_cons, List.length_cons, List.length_cons, ih]; omega

theorem stable64Rest_eq (s : St) (ks : List (BitVec 64)) (h : ks.length % 3 ≠ 0) :
    (stable64Rest s ks).2 = (wrun s (words64 ks)).2 := by
  fun_induction stable64Rest s ks with
  | case1 s k0 k1 k2 k3 r s1 ih =>
    rw [ih (mod3 k0 k1 k2 _ h)]
    rfl
  | case2 => rfl
  | case3 => rfl
  | case4 => simp at h
  | case5 => simp at h

/-- The half word path on half words. -/
def hrun : St → List (BitVec 16) → St × Option St
  | s, k0 :: k1 :: k2 :: k3 :: k4 :: k5 :: k6 :: r =>
    hrun (mix ⟨s.a + (sh16 k0 0 + sh16 k1 16), s.b + (sh16 k2 0 + sh16 k3 16), s.c + (sh16 k4 0 + sh16 k5 16)⟩) (k6 :: r)
  | s, [k0, k1, k2, k3, k4, k5] => (s, some ⟨s.a + (sh16 k0 0 + sh16 k1 16), s.b + (sh16 k2 0 + sh16 k3 16), s.c + (sh16 k4 0 + sh16 k5 16)⟩)
  | s, [k0, k1, k2, k3, k4] => (s, some ⟨s.a + (sh16 k0 0 + sh16 k1 16), s.b + (sh16 k2 0 + sh16 k3 16), s.c + sh16 k4 0⟩)
  | s, [k0, k1, k2, k3] => (s, some ⟨s.a + (sh16 k0 0 + sh16 k1 16), s.b + (sh16 k2 0 + sh16 k3 16), s.c⟩)
  | s, [k0, k1, k2] => (s, some ⟨s.a + (sh16 k0 0 + sh16 k1 16), s.b + sh16 k2 0, s.c⟩)
  | s, [k0, k1] => (s, some ⟨s.a + (sh16 k0 0 + sh16 k1 16), s.b, s.c⟩)
  | s, [k0] => (s, some ⟨s.a + sh16 k0 0, s.b, s.c⟩)
  | s, [] => (s, none)

theorem halves_bytes (k0 k1 : BitVec 16) : halves true (BitVec.ofNat 8 k0.toNat) (BitVec.ofNat 8 (k0.toNat / 2 ^ 8)) (BitVec.ofNat 8 k1.toNat)
    (BitVec.ofNat 8 (k1.toNat / 2 ^ 8)) = sh16 k0 0 + sh16 k1 16 := by
  unfold halves
  rw [load16_little, load16_little, le16_bytes, le16_bytes, sh16_shift]

theorem hrun_eq (s : St) (ks : List (BitVec 16)) :
    (let r := blocks (bodyHalves true) s (Spec.array 2 (ks.map (·.toNat))); (r.1, lastHalves true r.1 r.2)) = hrun s ks := by
  fun_induction hrun s ks with
  | case1 s k0 k1 k2 k3 k4 k5 k6 r ih =>
    simp only [List.map_cons, array_cons, bytes2, List.cons_append, List.nil_append] at ih ⊢
    rw [blocks, bodyHalves, halves_bytes, halves_bytes, halves_bytes]
    exact ih
  | case8 => rfl
  | _ =>
    simp only [List.map_cons, List.map_nil, array_cons, bytes2, List.cons_append, List.nil_append, array_nil]
    simp only [blocks, lastHalves, halves_bytes, load16_little, le16_bytes]

theorem lookup_halves (ks : List (BitVec 16)) (v : W) :
    Spec.lookup3 Spec.little (Spec.array 2 (ks.map (·.toNat))) v =
      finish v (hrun (start (ks.length * 2) v) ks).1 (hrun (start (ks.length * 2) v) ks).2 := by
  have h := hrun_eq (start (ks.length * 2) v) ks
  have hp := path_spec Spec.little (bodyHalves true) (lastHalves true) bodyHalves_ok lastHalves_ok (Spec.array 2 (ks.map (·.toNat))) v
  rw [array_length, List.length_map] at hp
  rw [← hp, ← h]

theorem swap_add (s x y : W) : s + y + x = s + (x + y) := by rw [BitVec.add_comm x y, BitVec.add_assoc]

theorem stable16Rest_eq (s : St) (ks : List (BitVec 16)) (h : ks.length % 6 ≠ 0) : (stable16Rest s ks).2 = (hrun s ks).2 := by
  fun_induction hrun s ks with
  | case1 s k0 k1 k2 k3 k4 k5 k6 r ih => rw [stable16Rest]; exact ih (mod6 k0 k1 k2 k3 k4 k5 _ h)
  | case2 => simp at h
  | case8 => simp at h
  | _ => simp only [stable16Rest, swap_add]

theorem hrun_some (s : St) (ks : List (BitVec 16)) (h : ks ≠ []) : ∃ t, (hrun s ks).2 = some t := by
  fun_induction hrun s ks with
  | case1 s k0 k1 k2 k3 k4 k5 k6 r ih => exact ih (by simp)
  | case8 => exact absurd rfl h
  | _ => exact ⟨_, rfl⟩

/-! ## Elements that do not count -/

theorem stable32_skip (s : St) (p : List W) (hp : p.length % 3 = 0) (x y z : W) :
    stable32Rest s (p ++ [x, y, z]) = stable32Rest s (p ++ [0, 0, 0]) := by
  match p, hp with
  | [], _ => rfl
  | [_], h => simp at h
  | [_, _], h => simp at h
  | k0 :: k1 :: k2 :: r, h =>
    have hr : r.length % 3 = 0 := by simp only [List.length_cons] at h; omega
    have ih := fun s => stable32_skip s r hr x y z
    rcases r with _ | ⟨k3, r⟩
    · exact ih _
    · exact ih _
  termination_by p.length

theorem stable64_skip (s : St) (p : List (BitVec 64)) (hp : p.length % 3 = 0) (x y z : BitVec 64) :
    stable64Rest s (p ++ [x, y, z]) = stable64Rest s (p ++ [0, 0, 0]) := by
  match p, hp with
  | [], _ => rfl
  | [_], h => simp at h
  | [_, _], h => simp at h
  | k0 :: k1 :: k2 :: r, h =>
    have hr : r.length % 3 = 0 := by simp only [List.length_cons] at h; omega
    have ih := fun s => stable64_skip s r hr x y z
    rcases r with _ | ⟨k3, r⟩
    · exact ih _
    · exact ih _
  termination_by p.length

theorem stable16_skip (s : St) (p : List (BitVec 16)) (hp : p.length % 6 = 0) (x0 x1 x2 x3 x4 x5 : BitVec 16) :
    stable16Rest s (p ++ [x0, x1, x2, x3, x4, x5]) = stable16Rest s (p ++ [0, 0, 0, 0, 0, 0]) := by
  match p, hp with
  | [], _ => rfl
  | [_], h => simp at h
  | [_, _], h => simp at h
  | [_, _, _], h => simp at h
  | [_, _, _, _], h => simp at h
  | [_, _, _, _, _], h => simp at h
  | k0 :: k1 :: k2 :: k3 :: k4 :: k5 :: r, h =>
    have hr : r.length % 6 = 0 := by simp only [List.length_cons] at h; omega
    have ih := fun s => stable16_skip s r hr x0 x1 x2 x3 x4 x5
    rcases r with _ | ⟨k6, r⟩
    · simp only [List.nil_append] at ih
      simp only [List.cons_append, List.nil_append, stable16Rest]
    · simp only [List.cons_append] at ih ⊢
      simp only [stable16Rest]
      exact ih _
  termination_by p.length

end Hash
