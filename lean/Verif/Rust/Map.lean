import Verif.Rust.Res

/-! `HashMap` (association list, one entry per key; entry order is an artefact, iteration goes through an oracle),
and stable sorting. -/

namespace Mvd

/-- `HashMap<K, V>`. -/
abbrev Map (K V : Type) := List (K × V)

variable {K V : Type} [DecidableEq K]

/-- `map.get(&k)`. -/
def Map.get (m : Map K V) (k : K) : Option V :=
  match m with
  | [] => none
  | (k', v) :: t => if k' = k then some v else Map.get t k

/-- `map.insert(k, v)`. -/
def Map.set (m : Map K V) (k : K) (v : V) : Map K V :=
  match m with
  | [] => [(k, v)]
  | (k', v') :: t => if k' = k then (k, v) :: t else (k', v') :: Map.set t k v

/-- `let e = map.entry(k).or_insert(d); *e = f(*e)`. -/
def Map.update (m : Map K V) (k : K) (d : V) (f : V → R V) : R (Map K V) :=
  (f ((m.get k).getD d)).bind fun v => .ok (m.set k v)

variable {α : Type}

/-- Insertion of an element in front of the first element that is not smaller. -/
def insertBy (cmp : α → α → Ordering) (x : α) : List α → List α
  | [] => [x]
  | y :: ys => if cmp x y = .gt then y :: insertBy cmp x ys else x :: y :: ys

/-- `slice::sort_by(cmp)`: a stable sort. Rust uses a merge sort; every stable sort gives the same result. -/
def sortBy (cmp : α → α → Ordering) : List α → List α
  | [] => []
  | x :: xs => insertBy cmp x (sortBy cmp xs)

end Mvd
