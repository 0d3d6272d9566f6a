import Verif.Spec.Wire
import Verif.Model.Cursor

/-! Specification of the messages inside a frame body. Only the types of the model's results (`Mvd.Print`,
`Mvd.PrintId`) are used, none of its functions. -/

namespace Spec

/-- A print message: a level byte and a text. -/
structure PrintMsg where
  level : UInt8
  text : List UInt8
deriving DecidableEq

namespace PrintMsg

/-- The text ends at the first NUL, so it contains none. -/
def WF (p : PrintMsg) : Prop := (0 : UInt8) ∉ p.text

instance (p : PrintMsg) : Decidable p.WF := by unfold WF; infer_instance

/-- Message number 8, level, text, NUL. -/
def encode (p : PrintMsg) : List UInt8 := [8, p.level] ++ p.text ++ [0]

/-- The level numbers of the protocol. -/
def id (p : PrintMsg) : Mvd.PrintId :=
  if p.level = 0 then .low else if p.level = 1 then .medium else if p.level = 2 then .high
  else if p.level = 3 then .chat else .unknown

/-- The print as the parser reports it. -/
def reported (p : PrintMsg) : Mvd.Print := ⟨p.id, p.text⟩

end PrintMsg

/-- The bytes do not begin with a complete print message. -/
def NoPrint (rem : List UInt8) : Prop := ∀ (p : PrintMsg) (t : List UInt8), p.WF → rem ≠ p.encode ++ t

/-- `ps` is the unbroken run of print messages at the beginning of `body`. -/
def LeadingPrints (body : List UInt8) (ps : List PrintMsg) : Prop :=
  ∃ rem, body = ps.flatMap PrintMsg.encode ++ rem ∧ (∀ p ∈ ps, p.WF) ∧ NoPrint rem

/-- The bytes do not begin with a complete ping update: message number 36, player number, 16-bit ping, one more byte. -/
def NoPing (rem : List UInt8) : Prop := ∀ n lo hi x t, rem ≠ 36 :: n :: lo :: hi :: x :: t

/-- `us` is the unbroken run of ping updates at the beginning of `body`, as pairs of player number and ping. Each ping
update is followed by three bytes (the packet loss update), of which the last two may be cut off. -/
inductive LeadingPings : List UInt8 → List (UInt8 × Nat) → Prop
  | stop {rem} : NoPing rem → LeadingPings rem []
  | step {n lo hi x t us} : LeadingPings (t.drop 2) us →
      LeadingPings (36 :: n :: lo :: hi :: x :: t) ((n, lo.toNat + 256 * hi.toNat) :: us)

/-- `ps` are the print messages met when stepping over every byte that does not begin a print message, up to the first
print message that is cut off. -/
inductive AllPrints : List UInt8 → List PrintMsg → Prop
  | nil : AllPrints [] []
  | skip {b t ps} : b ≠ 8 → AllPrints t ps → AllPrints (b :: t) ps
  | print {p t ps} : PrintMsg.WF p → AllPrints t ps → AllPrints (p.encode ++ t) (p :: ps)
  | cut {t} : NoPrint (8 :: t) → AllPrints (8 :: t) []

end Spec
