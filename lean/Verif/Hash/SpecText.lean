import Init.Data.Int

namespace Hash

namespace Spec

/-- The X31 hash of a string: its characters are the digits of a number to the base 31. -/
def x31 : List Int → Int
  | [] => 0
  | c :: r => c * 31 ^ r.length + x31 r

end Spec

end Hash
