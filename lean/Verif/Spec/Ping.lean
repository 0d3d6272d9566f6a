import Verif.Spec.Messages

/-! Specification of the ping samples. -/

namespace Spec

/-- The sampled updates: those of the first eight frames that begin with a ping update. -/
def sampledPings (updates : List (List (UInt8 × Nat))) : List (UInt8 × Nat) :=
  ((updates.filter fun us => us ≠ []).take 8).flatten

/-- The samples of one player. -/
def samplesOf (l : List (UInt8 × Nat)) (player : UInt8) : List Nat :=
  (l.filter fun u => u.1 = player).map fun u => u.2

end Spec
