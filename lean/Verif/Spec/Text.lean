/-! Specification vocabulary for searching: occurrences of a word in a sequence. Independent of the model. -/

namespace Spec

variable {α : Type}

/-- `needle` occurs in `hay` at index `i`. -/
def OccursAt (needle hay : List α) (i : Nat) : Prop := ∃ pre post, hay = pre ++ needle ++ post ∧ pre.length = i

/-- `needle` occurs somewhere in `hay`. -/
def Occurs (needle hay : List α) : Prop := ∃ pre post, hay = pre ++ needle ++ post

/-- `i` is the index of the first occurrence. -/
def FirstAt (needle hay : List α) (i : Nat) : Prop := OccursAt needle hay i ∧ ∀ j, OccursAt needle hay j → i ≤ j

/-- `i` is the index of the last occurrence. -/
def LastAt (needle hay : List α) (i : Nat) : Prop := OccursAt needle hay i ∧ ∀ j, OccursAt needle hay j → j ≤ i

/-- `short` is `long` with every run of equal neighbours collapsed to one element: neighbours in `short` differ, and
repeating each element of `short` at least once gives back `long`. -/
def Collapses (long short : List α) : Prop :=
  (∀ i, ∀ h : i + 1 < short.length, short[i] ≠ short[i + 1]) ∧
  ∃ extra : List Nat, extra.length = short.length ∧
    long = (List.zipWith (fun n a => List.replicate (n + 1) a) extra short).flatten

end Spec
