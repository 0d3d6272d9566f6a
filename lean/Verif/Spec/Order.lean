/-! Specification of orders. Independent of the model. -/

namespace Spec

/-- `a` comes before `b` in a dictionary that orders characters by code point: `a` is a proper beginning of `b`, or has
the smaller character at the first difference. -/
def Before (a b : List Char) : Prop :=
  (∃ c t, b = a ++ c :: t) ∨ ∃ p x y s t, a = p ++ x :: s ∧ b = p ++ y :: t ∧ x.toNat < y.toNat

/-- `sorted` is `original` sorted without moving tied elements past each other: it has the same elements in the order
given by `lt`, and any group of tied elements is in its original order. -/
def StablySorted {α : Type} (lt : α → α → Prop) (original sorted : List α) : Prop :=
  sorted.Perm original ∧ sorted.Pairwise (fun a b => ¬ lt b a) ∧
  ∀ group : α → Bool, (∀ a b, group a → group b → ¬ lt a b) → sorted.filter group = original.filter group

/-- The elements that have no later element with the same key. -/
def latest {α κ : Type} [DecidableEq κ] (key : α → κ) : List α → List α
  | [] => []
  | a :: t => if ∃ b ∈ t, key b = key a then latest key t else a :: latest key t

end Spec
