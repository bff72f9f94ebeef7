import Verif.Hash.ArrayLemmas

namespace Hash

/-! ## C81 -/

/-- C81.  `hashlittle` and `hashbig` are `lookup3`, of words in the one and in the other byte order: wherever the key is and whatever machine it is. -/
theorem C81_lookup (order : Bool) (addr : Nat) (key : List Byte) (v : W) :
    hashlittle order addr key v = Spec.lookup3 Spec.little key v ∧ hashbig order addr key v = Spec.lookup3 Spec.big key v := by
  refine ⟨?_, ?_⟩
  · unfold hashlittle
    split
    · rename_i h
      rw [h.1]
      exact path_spec _ _ _ bodyWords_ok lastWords_ok key v
    · split
      · rename_i h
        rw [h.1]
        exact path_spec _ _ _ bodyHalves_ok lastHalves_ok key v
      · exact path_spec _ _ _ bodyBytes_ok lastBytes_ok key v
  · unfold hashbig
    split
    · rename_i h
      rw [h.1]
      exact path_spec _ _ _ bodyWordsBe_ok lastWordsBe_ok key v
    · exact path_spec _ _ _ bodyBytesBe_ok lastBytesBe_ok key v

/-- The test value its author gives: "Four score and seven years ago" (at an odd address), and with the previous value 1. -/
def fourScore : List Byte := "Four score and seven years ago".toList.map fun c => BitVec.ofNat 8 c.toNat

example : (hashlittle true 3 fourScore 0).1 = 0x17770551 ∧ (hashlittle true 2 fourScore 1).1 = 0xcd628161 := by decide +kernel

/-- C81.  What the tables are searched with: the hash of a key on a given machine is a function of its bytes and of the previous value alone, not of its
address.  Of its 64 bits the low ones are the first word, the high ones the second. -/
theorem C81_any (le : Bool) (addr : Nat) (key : List Byte) (base : BitVec 64) (b : W) :
    hash64Any le addr key base = Spec.pair (Spec.lookup3 (if le = true then Spec.little else Spec.big) key (Spec.previous base)) ∧
      hashAny le addr key b = (Spec.lookup3 (if le = true then Spec.little else Spec.big) key b).1 ∧
      hash64Stable8 le addr key base = Spec.pair (Spec.lookup3 Spec.little key (Spec.previous base)) ∧
      hashStable8 le addr key b = (Spec.lookup3 Spec.little key b).1 := by
  unfold hash64Any hashAny hash64Stable8 hashStable8
  rw [fold64_eq, join64_eq, join64_eq, (C81_lookup le addr key _).1, (C81_lookup true addr key _).2, (C81_lookup le addr key b).1,
    (C81_lookup true addr key b).2]
  cases le <;> simp

/-- C81.  `hash_u32` of an array of words is the hash of its memory, on machines of both byte orders. -/
theorem C81_u32 (ks : List W) (v : W) (le : Bool) (addr : Nat) :
    hashU32 ks v = hashAny le addr ((if le = true then Spec.array 4 else Spec.arrayBig 4) (ks.map (·.toNat))) v := by
  rw [(C81_any le addr _ 0 v).2.1]
  have hu : hashU32 ks v = (finish v (wrun (start (ks.length * 4) v) ks).1 (wrun (start (ks.length * 4) v) ks).2).1 := by
    rw [← u32Rest_eq]
    unfold hashU32 start
    rw [shl2]
  cases le
  · simp only [Bool.false_eq_true, if_false]
    rw [lookup_words_big, hu]
  · simp only [if_true]
    rw [lookup_words, hu]

/-! ## C82 -/

/-- One line of `mix` backwards. -/
def unline (x y z : W) (k : Nat) : W × W := ((x ^^^ rot (y - z) k) + (y - z), y - z)

theorem unline_mixLine (x y z : W) (k : Nat) : unline (mixLine x y z k).1 (mixLine x y z k).2 z k = (x, y) := by
  simp [unline, mixLine, BitVec.xor_assoc, BitVec.add_sub_cancel, BitVec.sub_add_cancel]

theorem mixLine_unline (x y z : W) (k : Nat) : mixLine (unline x y z k).1 (unline x y z k).2 z k = (x, y) := by
  simp [unline, mixLine, BitVec.xor_assoc, BitVec.add_sub_cancel, BitVec.sub_add_cancel]

/-- `mix` backwards. -/
def unmix (s : St) : St :=
  let (c, b) := unline s.c s.b s.a 4
  let (b, a) := unline b s.a c 19
  let (a, c) := unline a c b 16
  let (c, b) := unline c b a 8
  let (b, a) := unline b a c 6
  let (a, c) := unline a c b 4
  ⟨a, b, c⟩

/-- C82.  Mixing loses nothing, as its comment has it. -/
theorem C82_mix (s : St) : unmix (mix s) = s ∧ mix (unmix s) = s := by
  refine ⟨?_, ?_⟩
  · simp only [unmix, mix, unline_mixLine]
  · simp only [unmix, mix, mixLine_unline]

/-- One line of `final` backwards. -/
def unfinalLine (x y : W) (k : Nat) : W := (x + rot y k) ^^^ y

/-- `final` backwards. -/
def unfinal (s : St) : St :=
  let c := unfinalLine s.c s.b 24
  let b := unfinalLine s.b s.a 14
  let a := unfinalLine s.a c 4
  let c := unfinalLine c b 16
  let b := unfinalLine b a 25
  let a := unfinalLine a c 11
  let c := unfinalLine c b 14
  ⟨a, b, c⟩

theorem unfinal_finalLine (x y : W) (k : Nat) : unfinalLine (finalLine x y k) y k = x := by
  simp [unfinalLine, finalLine, BitVec.xor_assoc, BitVec.add_sub_cancel, BitVec.sub_add_cancel]

theorem finalLine_unfinal (x y : W) (k : Nat) : finalLine (unfinalLine x y k) y k = x := by
  simp [unfinalLine, finalLine, BitVec.xor_assoc, BitVec.add_sub_cancel, BitVec.sub_add_cancel]

/-- C82.  Nor does the final mixing, which all three words of the state go through; the word `a` of it is not returned. -/
theorem C82_final (s : St) : unfinal (final s) = s ∧ final (unfinal s) = s := by
  refine ⟨?_, ?_⟩
  · simp only [unfinal, final, unfinal_finalLine]
  · simp only [unfinal, final, finalLine_unfinal]

/-- C82, the part that holds.  The hashes of arrays of 2, 4 and 8 byte numbers, which do not depend on the machine, are the hash of the array's memory on a
little-endian machine, unless the number of elements is a multiple of three (of six for 2 byte numbers). -/
theorem C82_stable_partial (base : BitVec 64) (le : Bool) (addr : Nat) :
    (∀ ks : List W, ks.length % 3 ≠ 0 → hash64Stable32 ks base = hash64Stable8 le addr (Spec.array 4 (ks.map (·.toNat))) base) ∧
    (∀ ks : List (BitVec 64), ks.length % 3 ≠ 0 → hash64Stable64 ks base = hash64Stable8 le addr (Spec.array 8 (ks.map (·.toNat))) base) ∧
    (∀ ks : List (BitVec 16), ks.length % 6 ≠ 0 → hash64Stable16 ks base = hash64Stable8 le addr (Spec.array 2 (ks.map (·.toNat))) base) := by
  refine ⟨fun ks h => ?_, fun ks h => ?_, fun ks h => ?_⟩
  · have hne : ks ≠ [] := by rintro rfl; simp at h
    obtain ⟨t, ht⟩ := wrun_some (start (ks.length * 4) (Spec.previous base)) ks hne
    rw [(C81_any le addr _ base 0).2.2.1, lookup_words, hash64Stable32, stableStart_eq, stable32Rest_eq _ _ h, ht]
    exact stableEnd_eq ..
  · have hne : words64 ks ≠ [] := by
      intro e
      have := words64_length ks
      rw [e, List.length_nil] at this
      omega
    obtain ⟨t, ht⟩ := wrun_some (start ((words64 ks).length * 4) (Spec.previous base)) (words64 ks) hne
    have h2 := stable64Rest_eq (start ((words64 ks).length * 4) (Spec.previous base)) ks h
    rw [(C81_any le addr _ base 0).2.2.1, array_words64, lookup_words, hash64Stable64, stableStart_eq]
    have e : ks.length * 8 = (words64 ks).length * 4 := by rw [words64_length]; omega
    rw [e]
    generalize stable64Rest (start ((words64 ks).length * 4) (Spec.previous base)) ks = q at h2 ⊢
    obtain ⟨c, o⟩ := q
    dsimp only at h2
    rw [h2, ht]
    exact stableEnd_eq ..
  · have hne : ks ≠ [] := by rintro rfl; simp at h
    obtain ⟨t, ht⟩ := hrun_some (start (ks.length * 2) (Spec.previous base)) ks hne
    have h2 := stable16Rest_eq (start (ks.length * 2) (Spec.previous base)) ks h
    rw [(C81_any le addr _ base 0).2.2.1, lookup_halves, hash64Stable16, stableStart_eq]
    generalize stable16Rest (start (ks.length * 2) (Spec.previous base)) ks = q at h2 ⊢
    obtain ⟨c, o⟩ := q
    dsimp only at h2
    rw [h2, ht]
    exact stableEnd_eq ..

/-- A use of it: four numbers of 32 bits. -/
example : hash64Stable32 [1, 2, 3, 4] 0 = hash64Stable8 false 1 (Spec.array 4 [1, 2, 3, 4]) 0 :=
  (C82_stable_partial 0 false 1).1 [1, 2, 3, 4] (by decide)

/-- C82 refuted: in arrays of a multiple of three elements (of six of 2 bytes) the last three (six) do not count.  Whatever they are, the hash is that of the
array with zeros there; in particular all arrays of three numbers have the same hash. -/
theorem C82_every_refuted (base : BitVec 64) :
    (∀ (p : List W) (x y z : W), p.length % 3 = 0 → hash64Stable32 (p ++ [x, y, z]) base = hash64Stable32 (p ++ [0, 0, 0]) base) ∧
    (∀ (p : List (BitVec 64)) (x y z : BitVec 64), p.length % 3 = 0 → hash64Stable64 (p ++ [x, y, z]) base = hash64Stable64 (p ++ [0, 0, 0]) base) ∧
    (∀ (p : List (BitVec 16)) (x0 x1 x2 x3 x4 x5 : BitVec 16), p.length % 6 = 0 →
      hash64Stable16 (p ++ [x0, x1, x2, x3, x4, x5]) base = hash64Stable16 (p ++ [0, 0, 0, 0, 0, 0]) base) := by
  refine ⟨fun p x y z h => ?_, fun p x y z h => ?_, fun p x0 x1 x2 x3 x4 x5 h => ?_⟩
  · unfold hash64Stable32
    rw [stable32_skip _ p h]
    simp only [List.length_append, List.length_cons, List.length_nil]
  · unfold hash64Stable64
    rw [stable64_skip _ p h]
    simp only [List.length_append, List.length_cons, List.length_nil]
  · unfold hash64Stable16
    rw [stable16_skip _ p h]
    simp only [List.length_append, List.length_cons, List.length_nil]

/-- Whereas the hash of their memory tells the arrays 1, 2, 3 and 0, 0, 0 apart. -/
example : hash64Stable32 [1, 2, 3] 0 = hash64Stable32 [0, 0, 0] 0 ∧
    hash64Stable8 true 0 (Spec.array 4 [1, 2, 3]) 0 ≠ hash64Stable8 true 0 (Spec.array 4 [0, 0, 0]) 0 := by decide +kernel

/-- C82 refuted, the empty array: the functions for 1 byte and for larger elements disagree on the high word. -/
theorem C82_empty_refuted :
    (∀ base, hash64Stable32 [] base = hash64Stable64 [] base ∧ hash64Stable32 [] base = hash64Stable16 [] base) ∧
      hash64Stable32 [] 1 = 0xdeadbef0 ∧ hash64Stable8 true 0 [] 1 = 0x1deadbef0 := by
  refine ⟨fun base => ⟨rfl, rfl⟩, ?_⟩
  decide +kernel

end Hash
