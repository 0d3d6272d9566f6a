import Verif.Spec.Messages
import Verif.Spec.Info
import Verif.Spec.Duration
import Verif.Spec.Ktxstats
import Verif.Spec.Frags

/-! Specification of chat messages in a demo. Independent of the model. -/

namespace Spec

/-- A frame with chat messages (print level 3), whoever it is sent to and however much time passed before it. -/
structure ChatFrame (f : Frame) : Prop where
  wf : f.WF
  chat : ∃ ps : List PrintMsg, ps ≠ [] ∧ (∀ p ∈ ps, p.WF ∧ p.level = 3) ∧ f.body = ps.flatMap PrintMsg.encode

/-- The words that the parser looks for anywhere in a demo. -/
def searchedWords : List (List UInt8) :=
  [matchOver, standby, matchdatePrint, statsMarker, stoppedByVote, bytes!"Server is paused", bytes!"paused the game",
    bytes!"\"bot\": {"]

/-- The word begins at the end of `x` and ends at the beginning of `y`. -/
def Crosses (w x y : List UInt8) : Prop :=
  ∃ u v, u ≠ [] ∧ v ≠ [] ∧ w = u ++ v ∧ (∃ x', x = x' ++ u) ∧ ∃ y', y = v ++ y'

/-- A frame with chat messages is sent between two frames of a demo: it contains none of the searched words, and none of them,
nor the marker of the end, lies across one of the borders, with or without the chat. -/
structure ChatSent (a : List Frame) (f : Frame) (b : List Frame) : Prop where
  before : (∀ x ∈ a, x.WF) ∧ a ≠ []
  chat : ChatFrame f
  after : (∀ x ∈ b, x.WF) ∧ b ≠ []
  words : ∀ w ∈ searchedWords, ¬ Occurs w f.encode
  borders : ∀ w ∈ endOfDemo :: searchedWords, ¬ Crosses w (encode a) (f.encode ++ encode b) ∧
    ¬ Crosses w f.encode (encode b) ∧ ¬ Crosses w (encode a) (encode b)

/-- No search for an unknown killer reaches beyond these frames: each anonymous teamkill among them is followed by two or more
frames that are not empty. -/
def NoOpenTeamkill (toUnicode : List UInt8 → List Char) (a : List Frame) : Prop :=
  ∀ before f later text more v, a = before ++ f :: later → Announces toUnicode f.body text more →
    Classifies text (.teamkillByUnknown v) → 2 ≤ (later.filter fun f => f.body ≠ []).length

/-- Any number of such frames, sent one after the other between the first frames and the last frames of a demo, at places
where `here` holds of what comes before. -/
inductive ChatAdded (here : List Frame → Prop) (first last : List Frame) (old : List Frame) : List Frame → Prop
  | none : ChatAdded here first last old old
  | more {a b : List Frame} {f : Frame} (h : ChatAdded here first last old (first ++ a ++ (b ++ last)))
      (sent : ChatSent (first ++ a) f (b ++ last)) (place : here (first ++ a)) :
      ChatAdded here first last old (first ++ a ++ f :: (b ++ last))

end Spec
