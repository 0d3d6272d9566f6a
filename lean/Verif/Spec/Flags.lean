import Verif.Spec.Messages
import Verif.Spec.Obituary
import Verif.Spec.Text

/-! Specification of the flag statistics. -/

namespace Spec

/-- Ends of messages about flags that are sent in two prints. -/
def flagMessageEnds : List (List Char) := [
  chars!" òåôõòîåä the ÒÅÄ flag!\n", chars!" òåôõòîåä the ÂÌÕÅ flag!\n",
  chars!" çïô the ÒÅÄ flag!\n", chars!" çïô the ÂÌÕÅ flag!\n",
  chars!" ãáðôõòåä the ÒÅÄ flag!\n", chars!" ãáðôõòåä the ÂÌÕÅ flag!\n"]

/-- Prints are taken two at a time. The second print of a pair is appended to the first if it ends like a flag message,
and dropped otherwise. -/
def inPairs (toUnicode : List UInt8 → List Char) : List (List UInt8) → List (List UInt8)
  | [] => []
  | [a] => [a]
  | a :: b :: t => (if ∃ e ∈ flagMessageEnds, e <:+ toUnicode b then a ++ b else a) :: inPairs toUnicode t

/-- The texts about flags in a frame: the high-level prints, in pairs, if the frame contains the word. -/
def FlagTexts (toUnicode : List UInt8 → List Char) (f : Frame) (texts : List (List UInt8)) : Prop :=
  (Occurs bytes!"flag" f.body ∧
    ∃ ps, AllPrints f.body ps ∧
      texts = inPairs toUnicode ((ps.filter fun p => p.level = 2 ∧ p.text ≠ []).map PrintMsg.text)) ∨
  (¬ Occurs bytes!"flag" f.body ∧ texts = [])

open Classical in
/-- The number of texts with a given meaning. -/
noncomputable def flagCount (toUnicode : List UInt8 → List Char) (texts : List (List UInt8)) (player : List Char)
    (kind : FlagKind) : Nat :=
  (texts.filter fun t => decide (ClassifiesFlag (toUnicode t) kind player)).length

end Spec
