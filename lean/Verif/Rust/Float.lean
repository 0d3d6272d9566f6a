import Mathlib.Data.Int.Log
import Mathlib.Data.Rat.Floor
import Verif.Rust.Res

/-! Binary32 arithmetic on non-negative values as exact rationals, and `Duration` conversions.
Only zero and values in the normal range occur in the code (quotients of machine integers), so subnormals and
infinities are not modelled for `f32` (Props/Ieee.lean shows that they do not come up). -/

namespace Mvd

/-- Round to the nearest integer, ties to even. -/
def roundEven (x : ℚ) : ℤ :=
  let f := ⌊x⌋
  let r := x - f
  if r < 1 / 2 then f else if 1 / 2 < r then f + 1 else if f % 2 = 0 then f else f + 1

/-- Round a non-negative rational to the nearest binary32 value (24 bit significand, ties to even). -/
def f32Round (x : ℚ) : ℚ :=
  if x = 0 then 0
  else
    let ulp : ℚ := 2 ^ (Int.log 2 x - 23)
    roundEven (x / ulp) * ulp

/-- `n as f32` for an unsigned integer. -/
def natAsF32 (n : Nat) : ℚ := f32Round n

/-- `a / b` on `f32`. -/
def f32Div (a b : ℚ) : ℚ := f32Round (a / b)

/-- `x as u32` for a non-negative `f32`: truncation, saturating. -/
def f32AsU32 (x : ℚ) : Nat := min ⌊x⌋.toNat (2 ^ 32 - 1)

/-- `x.round()` for a non-negative `f32`: nearest integer, ties away from zero (always representable). -/
def f32RoundHalfUp (x : ℚ) : ℚ := (⌊x + 1 / 2⌋ : ℤ)

/-- An `f64` value. -/
inductive F64 where
  | finite (x : ℚ)
  | inf (negative : Bool)
  | nan
deriving DecidableEq

/-- `Duration::from_secs_f32(x)` for a non-negative `x` below 2^64, in nanoseconds: nearest, ties to even
(since Rust 1.63). -/
def durationFromSecsF32 (x : ℚ) : Nat := (roundEven (x * 10 ^ 9)).toNat

/-- `Duration::from_secs_f64(x)` in nanoseconds: panics on negative, too large and non-finite values. -/
def durationFromSecsF64 : F64 → R Nat
  | .finite x => if x < 0 ∨ 2 ^ 64 ≤ x then .panic else .ok (roundEven (x * 10 ^ 9)).toNat
  | .inf _ => .panic
  | .nan => .panic

/-- `Duration - Duration`: panics on underflow. -/
def durationSub (a b : Nat) : R Nat := if b ≤ a then .ok (a - b) else .panic

end Mvd
