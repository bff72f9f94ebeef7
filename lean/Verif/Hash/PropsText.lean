import Verif.Hash.Text
import Verif.Hash.SpecText

namespace Hash

/-- The value of a character. -/
def charInt (signed : Bool) (c : Byte) : Int := if signed = true then c.toInt else c.toNat

theorem charVal_eq (signed : Bool) (c : Byte) : charVal signed c = BitVec.ofInt 32 (charInt signed c) := by
  revert c
  cases signed <;> decide +kernel

theorem step_eq (h c : W) : h <<< 5 - h + c = h * 31#32 + c := by
  have : h <<< 5 = h * 32#32 := by rw [BitVec.shiftLeft_eq_mul_twoPow]; rfl
  rw [this, show (32#32 : W) = 31#32 + 1#32 from rfl, BitVec.mul_add, BitVec.mul_one, BitVec.add_sub_cancel]

theorem loop_eq (signed : Bool) (rest : List Byte) : ∀ (s : List Byte) (ret : Int), (∀ c ∈ s, c ≠ 0) →
    stringLoop signed (BitVec.ofInt 32 ret) (s ++ 0 :: rest) = some (BitVec.ofInt 32 (ret * 31 ^ s.length + Spec.x31 (s.map (charInt signed))))
  | [], ret, _ => by
    unfold stringLoop
    simp [Spec.x31]
  | c :: s, ret, h => by
    rw [List.cons_append]
    unfold stringLoop
    rw [if_neg (h c List.mem_cons_self), step_eq, charVal_eq]
    have : (BitVec.ofInt 32 ret * 31#32 + BitVec.ofInt 32 (charInt signed c) : W) = BitVec.ofInt 32 (ret * 31 + charInt signed c) := by
      rw [BitVec.ofInt_add, BitVec.ofInt_mul]
      rfl
    rw [this, loop_eq signed rest s _ fun x hx => h x (List.mem_cons_of_mem _ hx)]
    congr 2
    rw [List.map_cons, Spec.x31, List.length_map, List.length_cons, Int.pow_succ, Int.add_mul, Int.mul_assoc, Int.mul_comm 31, Int.add_assoc]

/-- C120.  The hash of a string is X31 of its characters, modulo 2^32; what is behind its end does not take part. -/
theorem C120_string (signed : Bool) (s rest : List Byte) (h : ∀ c ∈ s, c ≠ 0) :
    hashString signed (s ++ 0 :: rest) = some (BitVec.ofInt 32 (Spec.x31 (s.map fun c => if signed = true then c.toInt else c.toNat))) := by
  have := loop_eq signed rest s 0 h
  rw [Int.zero_mul, Int.zero_add] at this
  exact this

theorem step_inj {h h' c : W} (e : h <<< 5 - h + c = h' <<< 5 - h' + c) : h = h' := by
  rw [step_eq, step_eq] at e
  have e' : h * 31#32 = h' * 31#32 := by
    have := congrArg (· - c) e
    simpa [BitVec.add_sub_cancel] using this
  have := congrArg (· * 0xbdef7bdf#32) e'
  rw [BitVec.mul_assoc, BitVec.mul_assoc, show (31#32 * 0xbdef7bdf#32 : W) = 1#32 from by decide, BitVec.mul_one, BitVec.mul_one] at this
  exact this

theorem loop_inj (signed : Bool) : ∀ (s : List Byte) (h h' v : W), stringLoop signed h s = some v → stringLoop signed h' s = some v → h = h'
  | [], _, _, _, e, _ => by cases e
  | c :: s, h, h', v, e, e' => by
    unfold stringLoop at e e'
    split at e
    · next hc =>
      rw [if_pos hc] at e'
      rw [Option.some.inj e, Option.some.inj e']
    · next hc =>
      rw [if_neg hc] at e'
      exact step_inj (loop_inj signed s _ _ v e e')

theorem charVal_inj (signed : Bool) {x y : Byte} (h : charVal signed x = charVal signed y) : x = y := by
  have : ∀ z : Byte, (charVal signed z).setWidth 8 = z := by
    cases signed <;> decide +kernel
  rw [← this x, ← this y, h]

/-- C120.  Two strings that differ in one character never have the same hash. -/
theorem C120_one (signed : Bool) (a b : List Byte) (x y : Byte) (hx : x ≠ 0) (hy : y ≠ 0) (hn : x ≠ y) (ha : ∀ c ∈ a, c ≠ 0) (v : W) :
    hashString signed (a ++ x :: b) = some v → hashString signed (a ++ y :: b) ≠ some v := by
  unfold hashString
  suffices ∀ (a : List Byte) (h : W), (∀ c ∈ a, c ≠ 0) → stringLoop signed h (a ++ x :: b) = some v → stringLoop signed h (a ++ y :: b) ≠ some v from this a 0 ha
  intro a
  induction a with
  | nil =>
    intro h _ e e'
    rw [List.nil_append] at e e'
    unfold stringLoop at e e'
    rw [if_neg hx] at e
    rw [if_neg hy] at e'
    have := loop_inj signed b _ _ v e e'
    exact hn (charVal_inj signed (BitVec.add_right_inj _ |>.1 this))
  | cons c a ih =>
    intro h hc e e'
    rw [List.cons_append] at e e'
    unfold stringLoop at e e'
    rw [if_neg (hc c List.mem_cons_self)] at e e'
    exact ih _ (fun z hz => hc z (List.mem_cons_of_mem _ hz)) e e'

example : hashString true [97#8, 98#8, 0#8, 7#8] = some 3105#32 ∧ hashString false [0xe4#8, 0#8] = some 228#32 ∧ hashString true [0xe4#8, 0#8] = some 0xffffffe4#32 := by
  decide +kernel

/-- Strings that differ in two characters can have the same hash. -/
theorem C120_two : hashString true [97#8, 98#8, 0#8] = hashString true [98#8, 67#8, 0#8] := by decide +kernel

/-- C120.  The hash of a pointer is that of its memory, on machines of both byte orders. -/
theorem C120_pointer (le : Bool) (p : BitVec 64) (base : W) (addr : Nat) :
    hashPointer le p base = hashAny le addr (if le = true then Spec.bytes 8 p.toNat else (Spec.bytes 8 p.toNat).reverse) base := by
  unfold hashPointer
  rw [C81_u32 _ _ le addr]
  congr 1
  have hlo : (p.setWidth 32).toNat = p.toNat % 2 ^ 32 := by simp
  have hhi : ((p >>> 32).setWidth 32).toNat = p.toNat / 2 ^ 32 := by
    rw [BitVec.toNat_setWidth, BitVec.toNat_ushiftRight, Nat.shiftRight_eq_div_pow]
    have := p.isLt
    omega
  have h8 : Spec.bytes 8 p.toNat = Spec.bytes 4 (p.toNat % 2 ^ 32) ++ Spec.bytes 4 (p.toNat / 2 ^ 32) := by
    have hb : ∀ a b : Nat, a % 256 = b % 256 → BitVec.ofNat 8 a = BitVec.ofNat 8 b := by
      intro a b h
      apply BitVec.eq_of_toNat_eq
      rw [BitVec.toNat_ofNat, BitVec.toNat_ofNat]
      exact h
    unfold Spec.bytes
    simp only [List.range_eq_range', List.range', List.map_cons, List.map_nil, List.cons_append, List.nil_append, List.cons.injEq, and_true]
    refine ⟨?_, ?_, ?_, ?_, ?_, ?_, ?_, ?_⟩ <;> apply hb <;> omega
  unfold pointerWords
  cases le
  · simp only [Bool.false_eq_true, if_false, List.map_cons, List.map_nil, Spec.arrayBig, List.flatMap_cons, List.flatMap_nil, List.append_nil]
    rw [hlo, hhi, h8, List.reverse_append]
  · simp only [if_true, List.map_cons, List.map_nil, Spec.array, List.flatMap_cons, List.flatMap_nil, List.append_nil]
    rw [hlo, hhi, h8]

end Hash
