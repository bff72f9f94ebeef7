/-!
htm/htm.c: field extraction (line numbers are of that file).  The hardware numbers bits from the most significant one.
-/
namespace Htm

/-- Why a C function ends the program: a failed assertion, or undefined behaviour. -/
inductive Stop where
  | assert
  | undefined
deriving DecidableEq, Repr

/-- 50-55 `htm_uint32`. -/
def uint32C (v : BitVec 64) : Except Stop (BitVec 32) :=
  if v ≤ 0xffffffff#64 then .ok (v.setWidth 32) else .error .assert

/-- 82-85: the mask and the shifts of `htm_bits`, without the assertions. -/
def bits (v : BitVec 64) (start stop : Nat) : BitVec 64 :=
  (v &&& (~~~ (BitVec.allOnes 64 <<< (stop - start + 1)) <<< (63 - stop))) >>> (63 - stop)

/-- 73-86 `htm_bits`.  A shift of a 64-bit value by 64 is undefined. -/
def bitsC (v : BitVec 64) (start stop : Int) : Except Stop (BitVec 64) :=
  if ¬ (0 ≤ start ∧ start ≤ 63) then .error .assert
  else if ¬ (0 ≤ stop ∧ stop ≤ 63) then .error .assert
  else if ¬ start ≤ stop then .error .assert
  else if stop - start + 1 ≥ 64 then .error .undefined
  else .ok (bits v start.toNat stop.toNat)

/-- 66-69: the mask and the shifts of `htm_bits_32`. -/
def bits32 (v : BitVec 32) (start stop : Nat) : BitVec 32 :=
  (v &&& (~~~ (BitVec.allOnes 32 <<< (stop - start + 1)) <<< (31 - stop))) >>> (31 - stop)

/-- 57-70 `htm_bits_32`. -/
def bits32C (v : BitVec 32) (start stop : Int) : Except Stop (BitVec 32) :=
  if ¬ (0 ≤ start ∧ start ≤ 31) then .error .assert
  else if ¬ (0 ≤ stop ∧ stop ≤ 31) then .error .assert
  else if ¬ start ≤ stop then .error .assert
  else if stop - start + 1 ≥ 32 then .error .undefined
  else .ok (bits32 v start.toNat stop.toNat)

/-- 88-95 `htm_bit`, for a bit inside the word. -/
def bit (v : BitVec 64) (n : Nat) : Bool := bits v n n == 1

/-- 88-95 `htm_bit`. -/
def bitC (v : BitVec 64) (n : Int) : Except Stop Bool :=
  match bitsC v n n with
  | .error e => .error e
  | .ok b =>
    match uint32C b with
    | .error e => .error e
    | .ok b => .ok (b == 1)

end Htm
