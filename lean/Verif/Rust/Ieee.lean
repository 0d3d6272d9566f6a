import Verif.Rust.Float

/-! Rounding to binary32 over the whole range. Rust/Float.lean leaves out the ends of the range; Props/Ieee.lean shows
that the code does not get there. -/

namespace Mvd

/-- Rounds a non-negative rational to binary32 as IEEE 754 prescribes: 24 bit significand, ties to even, multiples of
2^-149 below 2^-126 (subnormal numbers), `none` for infinity. -/
def f32RoundIeee (x : ℚ) : Option ℚ :=
  if x = 0 then some 0
  else
    let ulp : ℚ := 2 ^ (max (Int.log 2 x) (-126) - 23)
    let r := roundEven (x / ulp) * ulp
    if r < 2 ^ 128 then some r else none

end Mvd
