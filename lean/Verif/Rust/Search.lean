import Verif.Rust.Res

/-! `bstr::ByteSlice` searching (also used for `str::find` on characters). -/

namespace Mvd

variable {α : Type} [DecidableEq α]

/-- `haystack.find(needle)`: index of the first occurrence (0 for an empty needle). -/
def find (needle : List α) : List α → Option Nat
  | [] => if needle.isPrefixOf [] then some 0 else none
  | h :: t => if needle.isPrefixOf (h :: t) then some 0 else (find needle t).map (· + 1)

/-- `haystack.rfind(needle)`: index of the last occurrence. -/
def rfind (needle : List α) : List α → Option Nat
  | [] => if needle.isPrefixOf [] then some 0 else none
  | h :: t =>
    match rfind needle t with
    | some i => some (i + 1)
    | none => if needle.isPrefixOf (h :: t) then some 0 else none

/-- `haystack.find_byte(b)`. -/
def findByte (b : α) (hay : List α) : Option Nat := find [b] hay

/-- `haystack.rfind_byte(b)`. -/
def rfindByte (b : α) (hay : List α) : Option Nat := rfind [b] hay

/-- `Vec::dedup`: removes consecutive repeated elements, keeping the first of each run. -/
def dedup : List α → List α
  | [] => []
  | [a] => [a]
  | a :: b :: t => if a = b then dedup (b :: t) else a :: dedup (b :: t)

/-- `str::split_once(delim)`: around the first occurrence of `delim`. -/
def splitOnce (s delim : List α) : Option (List α × List α) :=
  (find delim s).map fun i => (s.take i, s.drop (i + delim.length))

/-- `str::ends_with`. -/
def endsWith (s suffix : List α) : Bool := suffix.isSuffixOf s

/-- Loop of `str::trim_end_matches(suffix)`; the fuel is the number of characters. -/
def trimEndMatchesAux (suffix : List α) : Nat → List α → List α
  | 0, s => s
  | n + 1, s =>
    if suffix ≠ [] ∧ suffix.isSuffixOf s then trimEndMatchesAux suffix n (s.take (s.length - suffix.length)) else s

/-- `str::trim_end_matches(suffix)`: strips the suffix as often as it occurs at the end. -/
def trimEndMatches (s suffix : List α) : List α := trimEndMatchesAux suffix s.length s

end Mvd
