/-!
Arithmetic of IEEE 754 binary floating point, as far as the percentages printed by the tools need it: numbers that are not
negative and neither tiny nor huge, so that there are no subnormal numbers and no overflow.  A number is a fraction.  The
C code is compiled for targets whose `double` and `float` operations are those of binary64 and binary32 rounded to nearest.
-/
namespace Num

/-- A number that is not negative. -/
structure Val where
  num : Nat
  den : Nat
deriving DecidableEq, Repr

/-- The integer nearest to `n / d`; of two, the even one. -/
def nearest (n d : Nat) : Nat :=
  if 2 * (n % d) < d then n / d
  else if d < 2 * (n % d) then n / d + 1
  else if n / d % 2 = 0 then n / d else n / d + 1

/-- The binary digits that are wanted: `v * 2 ^ up / 2 ^ down` is at least `2 ^ (p - 1)` and less than `2 ^ p`. -/
def up (p : Nat) (v : Val) : Nat := p + v.den.log2 - if v.den * 2 ^ v.num.log2 ≤ v.num * 2 ^ v.den.log2 then 1 else 0
def down (v : Val) : Nat := v.num.log2

/-- IEEE 754-2019 4.3.1 `roundTiesToEven` to `p` significant binary digits (53 for `double`, 24 for `float`). -/
def round (p : Nat) (v : Val) : Val :=
  if v.num = 0 then v
  else { num := nearest (v.num * 2 ^ up p v) (v.den * 2 ^ down v) * 2 ^ down v, den := 2 ^ up p v }

/-- The conversion of an integer. -/
def ofNat (p n : Nat) : Val := round p ⟨n, 1⟩
/-- `100.0 * v`. -/
def times100 (p : Nat) (v : Val) : Val := round p ⟨100 * v.num, v.den⟩
/-- `v / w`; `w` must not be zero. -/
def over (p : Nat) (v w : Val) : Val := round p ⟨v.num * w.den, v.den * w.num⟩

/-- `printf` of a number with two decimals: the hundredths, correctly rounded as glibc and Python do. -/
def hundredths (v : Val) : Nat := nearest (100 * v.num) v.den

/-- What is shown for a percentage. -/
inductive Shown where
  /-- hundredths of a percent -/ | hundredths (c : Nat)
  /-- `nan`, with or without a sign -/ | nan
  /-- `inf` -/ | inf
deriving DecidableEq, Repr

/-- `%.2f` of `100.0 * a / b` for integers (link_stack.c:101, ppcstats.c:359-374 and 447, qtrace_statistics.py:115-118):
the product and then the quotient are rounded to `double`. -/
def percent (a b : Nat) : Shown :=
  if b = 0 then (if a = 0 then .nan else .inf)
  else .hundredths (hundredths (over 53 (times100 53 (ofNat 53 a)) (ofNat 53 b)))

/-- `%.2f` of `float usage = 100.0 * ((double)a/(double)b)` (bb.c:71-75): the quotient and then the product are rounded to
`double` and the result to `float`. -/
def usage (a b : Nat) : Shown :=
  if b = 0 then (if a = 0 then .nan else .inf)
  else .hundredths (hundredths (round 24 (times100 53 (over 53 (ofNat 53 a) (ofNat 53 b)))))

/-- `f = 100.0 * a / b` with `float f` (ppcstats.c:378), for `b ≠ 0`. -/
def single (a b : Nat) : Val := round 24 (over 53 (times100 53 (ofNat 53 a)) (ofNat 53 b))

/-- The text of hundredths: `%N.2f` of `printf` and of Python, blanks on the left up to the width `N`. -/
def Shown.text (width : Nat) (x : Shown) : List Char :=
  let t := match x with
    | .hundredths c => Nat.toDigits 10 (c / 100) ++ '.' :: Nat.digitChar (c / 10 % 10) :: [Nat.digitChar (c % 10)]
    | .nan => "nan".toList
    | .inf => "inf".toList
  List.replicate (width - t.length) ' ' ++ t

end Num
