import Verif.Spec.Frags
import Verif.Spec.Flags

/-! What is said about a player. -/

namespace Spec

/-- The payload begins with an obituary, or another medium-level message, in which the name occurs. -/
def SpeaksOf (toUnicode : List UInt8 → List Char) (name : List Char) (body : List UInt8) : Prop :=
  ∃ text more, Announces toUnicode body text more ∧ name <:+: text

/-- The payload begins with a teamkill whose killer is not named. -/
def AnonymousTeamkill (toUnicode : List UInt8 → List Char) (body : List UInt8) : Prop :=
  ∃ text more v, Announces toUnicode body text more ∧ Classifies text (.teamkillByUnknown v)

/-- A part of a demo that may change the score of a player: they are mentioned in it, or someone unnamed kills a team mate. -/
def Concerns (toUnicode : List UInt8 → List Char) (name : List Char) (part : List Frame) : Prop :=
  ∃ f ∈ part, SpeaksOf toUnicode name f.body ∨ AnonymousTeamkill toUnicode f.body

/-- The frame contains a text about flags that begins with the name. -/
def SpeaksOfFlags (toUnicode : List UInt8 → List Char) (name : List Char) (f : Frame) : Prop :=
  ∃ texts, FlagTexts toUnicode f texts ∧ ∃ t ∈ texts, name <+: toUnicode t

open Classical in
/-- The payloads of the frames with some property. -/
noncomputable def payloads (P : Frame → Prop) (fs : List Frame) : List (List UInt8) := (fs.filter fun f => decide (P f)).map Frame.body

open Classical in
/-- The payloads of the parts with some property. -/
noncomputable def partPayloads (P : List Frame → Prop) (parts : List (List Frame)) : List (List (List UInt8)) :=
  (parts.filter fun p => decide (P p)).map fun p => p.map Frame.body

end Spec
