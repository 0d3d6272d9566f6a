import Mathlib.Data.Rat.Floor
import Verif.Rust.Lit
import Verif.Spec.Text
import Verif.Spec.Layout

/-! Specification of durations. -/

namespace Spec

/-- The print that ends a match. -/
def matchOver : List UInt8 := bytes!"The match is over"

/-- A serverinfo message (number 52) that sets the status to `Standby`. -/
def standby : List UInt8 := 52 :: bytes!"status" ++ [0] ++ bytes!"Standby" ++ [0]

/-- The print (number 8, level 2) that announces the date at the start of a match. -/
def matchdatePrint : List UInt8 := [8, 2] ++ bytes!"matchdate: "

/-- Milliseconds of the frames that start before an offset. -/
def msBefore (target : Nat) (fs : List Frame) : Nat :=
  (((starts 0 fs).filter fun p => p.1 < target).map fun p => p.2.duration.toNat).sum

/-- The offset up to which a demo is measured: the last end-of-match print, without one the last change to standby,
without one the end of the data. -/
def MeasuredTo (data : List UInt8) (target : Nat) : Prop :=
  LastAt matchOver data target ∨
  ¬ Occurs matchOver data ∧ LastAt standby data target ∨
  ¬ Occurs matchOver data ∧ ¬ Occurs standby data ∧ target = data.length

/-- The frames that start before `target` are complete. -/
def CompleteUpTo (data : List UInt8) (fs : List Frame) (rest : List UInt8) (target : Nat) : Prop :=
  Stops data.length rest ∨ Overruns data.length rest ∧ target ≤ (encode fs).length

/-- `x` is a number with a significand of 24 bits, as binary floating point numbers of 32 bits. -/
def Single (x : ℚ) : Prop := ∃ (m : ℕ) (e : ℤ), m < 2 ^ 24 ∧ x = m * 2 ^ e

/-- A single precision number whose significand, normalised to 24 bits, is even. -/
def EvenSingle (x : ℚ) : Prop := ∃ (m : ℕ) (e : ℤ), 2 ^ 23 ≤ 2 * m ∧ 2 * m < 2 ^ 24 ∧ x = 2 * m * 2 ^ e

/-- Among the numbers with property `P` none is closer to `x` than `y`, and if another is equally close `y` is even. -/
def NearestEven (P Even : ℚ → Prop) (x y : ℚ) : Prop :=
  P y ∧ ∀ z, P z → |y - x| ≤ |z - x| ∧ (|z - x| = |y - x| → z = y ∨ Even y)

/-- `ns` nanoseconds are `ms` milliseconds converted to a single precision number, divided by 1000 in single precision
and converted to whole nanoseconds, each time rounding to nearest, ties to even. -/
def Converted (ms ns : ℕ) : Prop :=
  ∃ a b : ℚ, NearestEven Single EvenSingle ms a ∧ NearestEven Single EvenSingle (a / 1000) b ∧
    NearestEven (fun x => ∃ n : ℤ, x = n) (fun x => ∃ n : ℤ, x = 2 * n) (b * 10 ^ 9) ns

/-- The number recorded as duration in a stats text: what stands between the first `"duration": ` and the next comma. -/
def RecordedDuration (s t : List Char) : Prop :=
  ∃ a b, s = a ++ chars!"\"duration\": " ++ t ++ [','] ++ b ∧ FirstAt chars!"\"duration\": " s a.length ∧
    t ≠ [] ∧ ',' ∉ t

end Spec
