/-! Specification of the MVD wire format: frames as written by a server. Independent of the model. -/

namespace Spec

/-- A 16-bit number, least significant byte first. -/
def le16 (n : Nat) : List UInt8 := [UInt8.ofNat (n % 256), UInt8.ofNat (n / 256 % 256)]

/-- A 32-bit number, least significant byte first. -/
def le32 (n : Nat) : List UInt8 :=
  [UInt8.ofNat (n % 256), UInt8.ofNat (n / 256 % 256), UInt8.ofNat (n / 65536 % 256), UInt8.ofNat (n / 16777216 % 256)]

/-- One frame: milliseconds since the previous frame, command byte, recipient mask, payload. -/
structure Frame where
  duration : UInt8
  flags : UInt8
  mask : List UInt8
  body : List UInt8
deriving DecidableEq

namespace Frame

/-- The low three bits of the command byte: 0 client command, 1 message, 2 sequence numbers, 3 message to several
players, 4 message to one player, 5 stats, 6 message to all, 7 unused. -/
def kind (f : Frame) : Nat := f.flags.toNat % 8

/-- Kinds that carry a payload preceded by its size. -/
def sized (k : Nat) : Bool := k = 1 ∨ k = 3 ∨ k = 4 ∨ k = 5 ∨ k = 6

/-- Only messages to several players have a recipient mask, of four bytes; payload sizes are 32-bit numbers, sequence
numbers take eight bytes, the other kinds have no payload. -/
def WF (f : Frame) : Prop :=
  f.mask.length = (if f.kind = 3 then 4 else 0) ∧
  (if sized f.kind then f.body.length < 2 ^ 32 else f.body.length = if f.kind = 2 then 8 else 0)

instance (f : Frame) : Decidable f.WF := by unfold WF; infer_instance

/-- The bytes before the payload. -/
def header (f : Frame) : List UInt8 :=
  [f.duration, f.flags] ++ f.mask ++ (if sized f.kind then le32 f.body.length else [])

/-- The bytes of the frame. -/
def encode (f : Frame) : List UInt8 := f.header ++ f.body

end Frame

/-- The bytes of a sequence of frames. -/
def encode (fs : List Frame) : List UInt8 := fs.flatMap Frame.encode

/-- The header size and payload size announced at the beginning of some bytes, if the header is complete. -/
def announced : List UInt8 → Option (Nat × Nat)
  | _ :: flags :: t =>
    match flags.toNat % 8, t with
    | 0, _ | 7, _ => some (2, 0)
    | 2, _ => some (2, 8)
    | 3, _ :: _ :: _ :: _ :: a :: b :: c :: d :: _ =>
      some (10, a.toNat + 256 * b.toNat + 65536 * c.toNat + 16777216 * d.toNat)
    | 3, _ => none
    | _, a :: b :: c :: d :: _ => some (6, a.toNat + 256 * b.toNat + 65536 * c.toNat + 16777216 * d.toNat)
    | _, _ => none
  | _ => none

/-- No frame begins here that fits into `n` bytes. -/
def Stops (n : Nat) (rest : List UInt8) : Prop :=
  match announced rest with
  | none => True
  | some (h, b) => n < h + b

/-- A frame begins here that is cut off, although its announced size does not exceed `n` bytes. -/
def Overruns (n : Nat) (rest : List UInt8) : Prop :=
  match announced rest with
  | none => False
  | some (h, b) => rest.length < h + b ∧ h + b ≤ n

instance (n : Nat) (rest : List UInt8) : Decidable (Stops n rest) := by unfold Stops; split <;> infer_instance
instance (n : Nat) (rest : List UInt8) : Decidable (Overruns n rest) := by unfold Overruns; split <;> infer_instance

/-- The bytes do not begin with a complete frame. -/
def NoFrame (rest : List UInt8) : Prop := ∀ f t, Frame.WF f → rest ≠ f.encode ++ t

/-- `data` is the sequence of frames `fs` followed by a remainder that does not begin with a complete frame. -/
def Splits (data : List UInt8) (fs : List Frame) (rest : List UInt8) : Prop :=
  data = encode fs ++ rest ∧ (∀ f ∈ fs, f.WF) ∧ NoFrame rest

end Spec
