import Verif.Spec.Messages
import Verif.Spec.Text

/-! Specification of chat messages that contain one of the texts the parser searches for. Independent of the model. -/

namespace Spec

/-- Somebody says the word `w`, with `u` before it (the server puts at least the name there) and `v` behind it. -/
structure ChatSaying (f : Frame) (u w v : List UInt8) : Prop where
  wf : f.WF
  body : f.body = (PrintMsg.mk 3 (u ++ w ++ v)).encode
  text : (0 : UInt8) ∉ u ++ w ++ v

/-- The word is not repeated in what follows it. -/
def NotAgain (w v : List UInt8) (b : List Frame) : Prop := ¬ Occurs w (w.drop 1 ++ v ++ [0] ++ encode b)

/-- The word is not said before. -/
def NotBefore (a : List Frame) (f : Frame) (u w : List UInt8) : Prop :=
  ¬ Occurs w (encode a ++ f.header ++ [8, 3] ++ u ++ w.dropLast)

/-- The time that passes until the end of some frames. -/
def lasts (fs : List Frame) : Nat := (fs.map fun f => f.duration.toNat).sum

end Spec
