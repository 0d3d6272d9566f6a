import Mathlib.Data.Rat.Floor
import Verif.Spec.Ktxstats

/-! Decimal numbers as texts. -/

namespace Spec

/-- Only digits. -/
def AllDigits (s : List Char) : Prop := ∀ c ∈ s, '0'.toNat ≤ c.toNat ∧ c.toNat ≤ '9'.toNat

instance (s : List Char) : Decidable (AllDigits s) := by unfold AllDigits; infer_instance

/-- A sign that does not change a number. -/
def NoSign (s : List Char) : Prop := s = [] ∨ s = ['+']

/-- A power of ten: nothing, or the letter e and a number. -/
def PowerText (s : List Char) (e : Int) : Prop :=
  s = [] ∧ e = 0 ∨
  ∃ letter sign ds, s = letter :: sign ++ ds ∧ (letter = 'e' ∨ letter = 'E') ∧ ds ≠ [] ∧ AllDigits ds ∧
    (NoSign sign ∧ e = digitsValue ds ∨ sign = ['-'] ∧ e = -digitsValue ds)

/-- A decimal number without a sign: digits before and after a point, of which either may be missing, but not both, and a power
of ten. -/
def NumberText (t : List Char) (x : ℚ) : Prop :=
  ∃ whole point frac power e, t = whole ++ point ++ frac ++ power ∧ AllDigits whole ∧ AllDigits frac ∧ whole ++ frac ≠ [] ∧
    (point = ['.'] ∨ point = [] ∧ frac = []) ∧ PowerText power e ∧ x = digitsValue (whole ++ frac) * 10 ^ (e - frac.length)

/-- The words for what is no number, in any case. -/
def SpecialText (t : List Char) : Prop :=
  t.map Char.toLower = chars!"inf" ∨ t.map Char.toLower = chars!"infinity" ∨ t.map Char.toLower = chars!"nan"

/-- Seconds with at most nine digits after the point, which are `ns` nanoseconds. -/
def WritesSeconds (t : List Char) (ns : ℕ) : Prop :=
  ∃ whole point frac, t = whole ++ point ++ frac ∧ AllDigits whole ∧ AllDigits frac ∧ whole ++ frac ≠ [] ∧
    (point = ['.'] ∨ point = [] ∧ frac = []) ∧ frac.length ≤ 9 ∧ ns = digitsValue (whole ++ frac) * 10 ^ (9 - frac.length)

end Spec
