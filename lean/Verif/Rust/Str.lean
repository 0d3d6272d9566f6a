import Verif.Rust.Search

/-! `str` operations that depend on the characters or on the UTF-8 encoding. -/

namespace Mvd

/-- UTF-8 encoding of one character (the bytes of a Rust `char` in a `String`). -/
def utf8Char (c : Char) : Bytes :=
  let n := c.toNat
  if n < 0x80 then [UInt8.ofNat n]
  else if n < 0x800 then [UInt8.ofNat (0xC0 + n / 0x40), UInt8.ofNat (0x80 + n % 0x40)]
  else if n < 0x10000 then
    [UInt8.ofNat (0xE0 + n / 0x1000), UInt8.ofNat (0x80 + n / 0x40 % 0x40), UInt8.ofNat (0x80 + n % 0x40)]
  else
    [UInt8.ofNat (0xF0 + n / 0x40000), UInt8.ofNat (0x80 + n / 0x1000 % 0x40), UInt8.ofNat (0x80 + n / 0x40 % 0x40),
      UInt8.ofNat (0x80 + n % 0x40)]

/-- `str::as_bytes`. -/
def asBytes (s : Str) : Bytes := s.flatMap utf8Char

/-- The payload of a UTF-8 continuation byte `10xxxxxx`. -/
def cont? (b : UInt8) : Option Nat := if 0x80 ≤ b.toNat ∧ b.toNat < 0xC0 then some (b.toNat - 0x80) else none

/-- `std::str::from_utf8` / `String::from_utf8`: strict UTF-8 decoding (no overlong forms, no surrogates). -/
def fromUtf8 : Bytes → Option Str
  | [] => some []
  | b0 :: t =>
    if b0.toNat < 0x80 then (fromUtf8 t).map (Char.ofNat b0.toNat :: ·)
    else if b0.toNat < 0xC0 then none
    else if b0.toNat < 0xE0 then
      match t with
      | b1 :: t => do
        let x1 ← cont? b1
        let n := (b0.toNat - 0xC0) * 0x40 + x1
        if n < 0x80 then none else (fromUtf8 t).map (Char.ofNat n :: ·)
      | _ => none
    else if b0.toNat < 0xF0 then
      match t with
      | b1 :: b2 :: t => do
        let x1 ← cont? b1
        let x2 ← cont? b2
        let n := (b0.toNat - 0xE0) * 0x1000 + x1 * 0x40 + x2
        if n < 0x800 ∨ (0xD800 ≤ n ∧ n < 0xE000) then none else (fromUtf8 t).map (Char.ofNat n :: ·)
      | _ => none
    else if b0.toNat < 0xF8 then
      match t with
      | b1 :: b2 :: b3 :: t => do
        let x1 ← cont? b1
        let x2 ← cont? b2
        let x3 ← cont? b3
        let n := (b0.toNat - 0xF0) * 0x40000 + x1 * 0x1000 + x2 * 0x40 + x3
        if n < 0x10000 ∨ 0x110000 ≤ n then none else (fromUtf8 t).map (Char.ofNat n :: ·)
      | _ => none
    else none

/-- Splits a string at a byte offset; `none` if the offset is past the end or not on a char boundary. -/
def splitAtByte : Str → Nat → Option (Str × Str)
  | s, 0 => some ([], s)
  | [], _ + 1 => none
  | c :: cs, n + 1 =>
    if (utf8Char c).length ≤ n + 1 then (splitAtByte cs (n + 1 - (utf8Char c).length)).map fun (a, b) => (c :: a, b)
    else none

/-- `&s[n..]`: panics when `n` is past the end or not on a char boundary. -/
def strFrom (s : Str) (n : Nat) : R Str :=
  match splitAtByte s n with
  | some (_, b) => .ok b
  | none => .panic

/-- `&s[..n]`. -/
def strTo (s : Str) (n : Nat) : R Str :=
  match splitAtByte s n with
  | some (a, _) => .ok a
  | none => .panic

/-- `&s[a..b]`: panics when `a > b`, or one of them is past the end or not on a char boundary. -/
def strSlice (s : Str) (a b : Nat) : R Str :=
  if a ≤ b then
    match strFrom s a with
    | .ok t => strTo t (b - a)
    | _ => .panic
  else .panic

/-- `char::is_whitespace`: the Unicode `White_Space` property. -/
def isWhitespace (c : Char) : Bool :=
  let n := c.toNat
  (0x09 ≤ n && n ≤ 0x0D) || n == 0x20 || n == 0x85 || n == 0xA0 || n == 0x1680 || (0x2000 ≤ n && n ≤ 0x200A)
    || n == 0x2028 || n == 0x2029 || n == 0x202F || n == 0x205F || n == 0x3000

/-- `str::trim_end`. -/
def trimEnd (s : Str) : Str := (s.reverse.dropWhile isWhitespace).reverse

/-- `<[u8]>::cmp`: lexicographic. -/
def bytesCmp : Bytes → Bytes → Ordering
  | [], [] => .eq
  | [], _ :: _ => .lt
  | _ :: _, [] => .gt
  | a :: s, b :: t => if a.toNat < b.toNat then .lt else if b.toNat < a.toNat then .gt else bytesCmp s t

/-- `str::cmp`: compares the bytes. -/
def strCmp (s t : Str) : Ordering := bytesCmp (asBytes s) (asBytes t)

/-- The value of a sequence of ASCII digits, none if there is another character. -/
def digits? : Nat → Str → Option Nat
  | acc, [] => some acc
  | acc, c :: cs => if '0'.toNat ≤ c.toNat ∧ c.toNat ≤ '9'.toNat then digits? (acc * 10 + (c.toNat - '0'.toNat)) cs else none

/-- `str::parse::<i32>`: optional sign, at least one digit, value in range. -/
def parseI32 (s : Str) : Option Int :=
  match s with
  | [] => none
  | c :: cs =>
    if c = '+' then (if cs = [] then none else (digits? 0 cs).bind fun n => if n < 2 ^ 31 then some (n : Int) else none)
    else if c = '-' then
      (if cs = [] then none else (digits? 0 cs).bind fun n => if n ≤ 2 ^ 31 then some (-(n : Int)) else none)
    else (digits? 0 (c :: cs)).bind fun n => if n < 2 ^ 31 then some (n : Int) else none

/-- `format!("{}", n)` for an unsigned integer: decimal digits. -/
def showNat (n : Nat) : Str := Nat.toDigits 10 n

end Mvd
