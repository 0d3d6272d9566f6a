import Verif.Rust.Lit

/-! Outcomes of a Rust call, machine-integer arithmetic, slices. -/

namespace Mvd

/-- Demo data, `&[u8]` / `Vec<u8>`. -/
abbrev Bytes := List UInt8
/-- `String` / `&str`, as its sequence of Unicode scalar values. -/
abbrev Str := List Char

/-- The errors (`Err(_)`) the code returns; the comment gives the message or the origin. -/
inductive Err where
  /-- `std::io::Error` of a failed exact read (qw/primitives.rs:13-46) -/
  | io
  /-- "Frame is smaller than expected size" (qw/frame.rs:52) -/
  | frameTooSmall
  /-- "Serverinfo not found" (serverinfo.rs:18) -/
  | serverinfoNotFound
  /-- "Unable to find clientinfo strings" (clientinfo.rs:17) -/
  | clientinfoNotFound
  /-- "ktxstats not found" (ktxstats.rs:19) -/
  | ktxstatsNotFound
  /-- `Utf8Error` (ktxstats.rs:40, matchdate.rs:45) -/
  | utf8
  /-- the parse error of the `ktxstats` crate (ktxstats.rs:12) -/
  | ktxstatsParse
  /-- "Countdown not found" (duration.rs:15) -/
  | countdownNotFound
  /-- "Duration not found in ktxstats" (duration.rs:54) -/
  | durationNotFound
  /-- `ParseFloatError` (duration.rs:56) -/
  | parseFloat
  /-- "Filename not found" (filename.rs:7) -/
  | filenameNotFound
  /-- "Unable to parse message: .." (qw/fragevent.rs:54) -/
  | fragEvent
  /-- "Unable to parse as flag event: .." (qw/flagevent.rs:47) -/
  | flagEvent
  /-- "Unable to find nearby frag updates" (frags.rs:118) -/
  | noFragUpdates
  /-- "Unable to find victim" (frags.rs:123) -/
  | noVictim
  /-- "Unable to find team killer" (frags.rs:134) -/
  | noTeamKiller
  /-- "Unable to read pings" (ping.rs:48) -/
  | noPings
  /-- "Matchdate not found" (matchdate.rs:30) -/
  | matchdateNotFound
  /-- "Invalid matchdate" (matchdate.rs:35, 42) -/
  | invalidMatchdate
  /-- "Invalid timezone abbreviation" (matchdate.rs:23) -/
  | invalidTimezone
  /-- `chrono::ParseError` (matchdate.rs:17) -/
  | parseDate
  /-- "Epoch not found in serverinfo" (timestamp.rs:13) -/
  | epochNotFound
deriving DecidableEq, Repr

/-- Outcome of a Rust call. `hang`: a loop did not finish within its fuel (shown never to happen). -/
inductive R (α : Type) where
  | ok (a : α)
  | err (e : Err)
  | panic
  | hang
deriving DecidableEq, Repr

namespace R

/-- Sequencing; an error, panic or hang ends the computation (`?` and unwinding). -/
def bind {α β : Type} (x : R α) (f : α → R β) : R β :=
  match x with
  | .ok a => f a
  | .err e => .err e
  | .panic => .panic
  | .hang => .hang

instance : Monad R where
  pure := .ok
  bind := R.bind

/-- `Result::is_ok_and`: false on an error, but a panic stays a panic. -/
def isOkAnd {α : Type} (x : R α) (f : α → Bool) : R Bool :=
  match x with
  | .ok a => .ok (f a)
  | .err _ => .ok false
  | .panic => .panic
  | .hang => .hang

/-- `Result::is_ok`. -/
def isOk {α : Type} (x : R α) : R Bool := x.isOkAnd fun _ => true

/-- `Result::or_else(|_| y)`: the alternative is tried only after an error. -/
def orElse {α : Type} (x : R α) (y : R α) : R α :=
  match x with
  | .err _ => y
  | x => x

/-- `Result::unwrap_or(d)`. -/
def unwrapOr {α : Type} (x : R α) (d : α) : R α :=
  match x with
  | .err _ => .ok d
  | x => x

end R

/-- `data[a..b]`: panics unless `a <= b <= len`. -/
def slice {α : Type} (data : List α) (a b : Nat) : R (List α) :=
  if a ≤ b ∧ b ≤ data.length then .ok ((data.drop a).take (b - a)) else .panic

/-- `data[a..]`: panics unless `a <= len`. -/
def sliceFrom {α : Type} (data : List α) (a : Nat) : R (List α) :=
  if a ≤ data.length then .ok (data.drop a) else .panic

/-- `data[..b]`: panics unless `b <= len`. -/
def sliceTo {α : Type} (data : List α) (b : Nat) : R (List α) :=
  if b ≤ data.length then .ok (data.take b) else .panic

/-- `a + b` on an unsigned integer of `bits` bits: with overflow checks an overflow panics, without it wraps. -/
def addU (checks : Bool) (bits : Nat) (a b : Nat) : R Nat :=
  if a + b < 2 ^ bits then .ok (a + b)
  else if checks then .panic else .ok ((a + b) % 2 ^ bits)

/-- `a - b` on an unsigned integer of `bits` bits (for `a, b < 2 ^ bits`). -/
def subU (checks : Bool) (bits : Nat) (a b : Nat) : R Nat :=
  if b ≤ a then .ok (a - b)
  else if checks then .panic else .ok (2 ^ bits + a - b)

/-- `a + b` on `i32`: with overflow checks an overflow panics, without it wraps. -/
def addI32 (checks : Bool) (a b : Int) : R Int :=
  if -2 ^ 31 ≤ a + b ∧ a + b < 2 ^ 31 then .ok (a + b)
  else if checks then .panic else .ok (Int.bmod (a + b) (2 ^ 32))

/-- `x as u8` for an `i32` (or `usize`): reduction modulo 256. -/
def asU8 (x : Int) : Nat := (x % 256).toNat

/-- `x as u32` for an `i32`: reinterpretation, i.e. reduction modulo 2^32. -/
def asU32 (x : Int) : Nat := (x % 2 ^ 32).toNat

end Mvd
