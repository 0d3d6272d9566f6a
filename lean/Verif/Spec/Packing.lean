import Verif.Spec.Frags
import Verif.Spec.Flags

/-! The same messages in other frames. -/

namespace Spec

/-- Whole print messages. -/
def WholePrints (x : List UInt8) : Prop := ∃ ps : List PrintMsg, (∀ p ∈ ps, p.WF) ∧ x = ps.flatMap PrintMsg.encode

/-- Whole ping updates, each followed by a packet loss update. -/
inductive WholePings : List UInt8 → Prop
  | nil : WholePings []
  | cons {n lo hi a b c t} : WholePings t → WholePings (36 :: n :: lo :: hi :: a :: b :: c :: t)

/-- The payloads `l` and `m` are the same messages: frames are split, and neighbouring frames joined, any number of times; `Cut x y`
tells where, between `x` and `y`. -/
inductive Repacked (Cut : List UInt8 → List UInt8 → Prop) (l : List (List UInt8)) : List (List UInt8) → Prop
  | same : Repacked Cut l l
  | split {a b x y} : Cut x y → Repacked Cut l (a ++ (x ++ y) :: b) → Repacked Cut l (a ++ x :: y :: b)
  | join {a b x y} : Cut x y → Repacked Cut l (a ++ x :: y :: b) → Repacked Cut l (a ++ (x ++ y) :: b)

/-- The second part does not begin with a medium-level print that is not empty, the first part begins with a print. -/
def CutBeforeOther (x y : List UInt8) : Prop :=
  (∃ (p : PrintMsg) (more : List UInt8), p.WF ∧ x = p.encode ++ more) ∧
    ∀ (p : PrintMsg) (more : List UInt8), p.WF → p.level = 1 → p.text ≠ [] → y ≠ p.encode ++ more

/-- The first part are whole prints, among them an even number of high-level prints that are not empty, and the word `flag` is in both
parts. -/
def CutBetweenPairs (x y : List UInt8) : Prop :=
  (∃ ps : List PrintMsg, (∀ p ∈ ps, p.WF) ∧ x = ps.flatMap PrintMsg.encode ∧
    2 ∣ (ps.filter fun p => p.level = 2 ∧ p.text ≠ []).length) ∧
  Occurs bytes!"flag" x ∧ Occurs bytes!"flag" y

end Spec
