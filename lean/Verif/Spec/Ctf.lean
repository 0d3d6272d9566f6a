import Verif.Spec.Flags

/-! A game of capture the flag as it is played, and how a server reports it. -/

namespace Spec

/-- What happened to a flag, and who did it. -/
abbrev FlagEvent := FlagKind × List Char

/-- A text that reports a flag event of a player with a name that can be recognised: the name and one of the phrases. -/
def SaysFlag (e : FlagEvent) (text : List Char) : Prop :=
  FlagName e.2 ∧ ∃ phrases p, (e.1, phrases) ∈ flagPhrases ∧ p ∈ phrases ∧ text = e.2 ++ p

/-- The high-level prints with which a server reports the flag events of a frame. Each event takes two prints, of which the
second is the end of the message; only for the last one the whole message may be in a single print. -/
inductive SaysFlags (toUnicode : List UInt8 → List Char) : List FlagEvent → List (List UInt8) → Prop
  | none : SaysFlags toUnicode [] []
  | whole {e t} : SaysFlag e (toUnicode t) → SaysFlags toUnicode [e] [t]
  | halves {e a b es ts} : SaysFlag e (toUnicode (a ++ b)) → (∃ x ∈ flagMessageEnds, x <:+ toUnicode b) →
      SaysFlags toUnicode es ts → SaysFlags toUnicode (e :: es) (a :: b :: ts)

/-- A frame reports the flag events that happened: none, by not containing the word, or those of its high-level prints. -/
def ReportsFlags (toUnicode : List UInt8 → List Char) (es : List FlagEvent) (f : Frame) : Prop :=
  (es = [] ∧ ¬ Occurs bytes!"flag" f.body) ∨
  (Occurs bytes!"flag" f.body ∧ ∃ ps, AllPrints f.body ps ∧
    SaysFlags toUnicode es ((ps.filter fun p => p.level = 2 ∧ p.text ≠ []).map PrintMsg.text))

end Spec
