import Verif.Spec.Recorder
import Verif.Spec.Ktxstats
import Verif.Spec.Duration

/-! How match stats are written into a recording: in pieces, as messages to nobody. -/

namespace Spec

/-- A piece of the match stats: the size of what follows the type, the type (3, demo info), the number and the piece. -/
def statsMessage (number : Nat) (piece : List UInt8) : List UInt8 :=
  le32 (piece.length + 2) ++ le16 3 ++ le16 number ++ piece

/-- The pieces are numbered consecutively; the last one has the number 0. They take no time and are sent to nobody. -/
def statsPlay : Nat → List (List UInt8) → Play
  | _, [] => []
  | _, [piece] => [⟨0, .several 0, .other (statsMessage 0 piece)⟩]
  | number, piece :: more :: pieces =>
    ⟨0, .several 0, .other (statsMessage number piece)⟩ :: statsPlay (number + 1) (more :: pieces)

/-- A recording with match stats at the end of the match. -/
def Recording.withStats (r : Recording) (pieces : List (List UInt8)) : Recording :=
  { r with play := r.play ++ statsPlay 1 pieces }

/-- A text cut into at most 256 pieces of less than 64 KB. It begins with the marker, which is in the first piece and does not
occur again. -/
structure CutInto (text : List Char) (pieces : List (List UInt8)) : Prop where
  all : pieces.flatten = utf8 text
  few : pieces.length ≤ 256
  small : ∀ p ∈ pieces, p.length < 65528
  begins : ∃ first more, pieces = first :: more ∧ statsMarker <+: first
  once : ¬ Occurs statsMarker ((utf8 text).drop 1)

/-- Match stats that can be added to any recording: at most ten million bytes that begin with the marker, in which neither the
marker occurs again nor the key `\name\` or the announcement of the end. -/
structure StatsText (text : List Char) : Prop where
  begins : statsMarker <+: utf8 text
  once : ¬ Occurs statsMarker ((utf8 text).drop 1)
  nameless : ¬ Occurs bytes!"\\name\\" (utf8 text)
  running : ¬ Occurs matchOver (utf8 text)
  size : (utf8 text).length ≤ 10 ^ 7

end Spec
