import Verif.Rust.Float
import Verif.Rust.Str

/-! `str::parse::<f64>` of the standard library, after its documentation: the grammar, and rounding to the nearest value.
(The library stops counting at exponents of several hundred thousand; this makes no difference for texts shorter than
that.) -/

namespace Mvd

/-- Rounds a non-negative rational to binary64: 53 bit significand, ties to even, multiples of 2^-1074 below 2^-1022
(subnormal numbers), `none` for infinity. -/
def f64Round (x : ℚ) : Option ℚ :=
  if x = 0 then some 0
  else
    let ulp : ℚ := 2 ^ (max (Int.log 2 x) (-1022) - 52)
    let r := roundEven (x / ulp) * ulp
    if r < 2 ^ 1024 then some r else none

/-- Is `c` one of 0-9? -/
def asciiDigit (c : Char) : Bool := '0'.toNat ≤ c.toNat && c.toNat ≤ '9'.toNat

/-- A non-empty sequence of digits. -/
def digits1? (s : Str) : Option Nat := if s = [] then none else digits? 0 s

/-- `Exp ::= 'e' Sign? Digit+`, in either case, or nothing. -/
def parseExponent : Str → Option Int
  | [] => some 0
  | c :: t =>
    if c = 'e' ∨ c = 'E' then
      match t with
      | '-' :: ds => (digits1? ds).map fun (n : Nat) => -(n : Int)
      | '+' :: ds => (digits1? ds).map fun (n : Nat) => (n : Int)
      | ds => (digits1? ds).map fun (n : Nat) => (n : Int)
    else none

/-- `Number ::= ( Digit+ | Digit+ '.' Digit* | Digit* '.' Digit+ ) Exp?` -/
def parseNumber (t : Str) : Option ℚ :=
  let whole := t.takeWhile asciiDigit
  let rest := t.dropWhile asciiDigit
  let (frac, rest) := match rest with
    | '.' :: r => (r.takeWhile asciiDigit, r.dropWhile asciiDigit)
    | _ => ([], rest)
  (digits1? (whole ++ frac)).bind fun m =>
  (parseExponent rest).map fun (e : Int) => m * 10 ^ (e - frac.length)

/-- The value of a number with a sign. Zeros are not told apart. -/
def signedF64 (negative : Bool) (x : ℚ) : F64 :=
  match f64Round x with
  | some r => .finite (if negative then -r else r)
  | none => .inf negative

/-- `Sign?`: is it negative, and the rest. -/
def splitSign : Str → Bool × Str
  | '-' :: t => (true, t)
  | '+' :: t => (false, t)
  | t => (false, t)

/-- What follows the sign: `'inf' | 'infinity' | 'nan' | Number`, words in any case. -/
def parseUnsigned (negative : Bool) (t : Str) : Option F64 :=
  match parseNumber t with
  | some x => some (signedF64 negative x)
  | none =>
    if t.map Char.toLower = chars!"inf" ∨ t.map Char.toLower = chars!"infinity" then some (.inf negative)
    else if t.map Char.toLower = chars!"nan" then some .nan
    else none

/-- `str::parse::<f64>` -/
def parseF64 (s : Str) : Option F64 := parseUnsigned (splitSign s).1 (splitSign s).2

end Mvd
