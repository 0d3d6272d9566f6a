import Verif.Rust.Res

/-! How often a loop goes round. -/

namespace Spec

/-- A loop that is given a number of rounds, and hangs if these are not enough, goes round exactly `n` times. -/
def Rounds {α : Type} (loop : Nat → Mvd.R α) (n : Nat) : Prop := loop n ≠ .hang ∧ ∀ k < n, loop k = .hang

end Spec
