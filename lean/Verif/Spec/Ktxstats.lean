import Verif.Rust.Lit
import Verif.Spec.Wire
import Verif.Spec.Text
import Verif.Spec.Utf8

/-! Specification of the match stats blocks in a demo. Independent of the model. -/

namespace Spec

/-- The beginning of the match stats. -/
def statsMarker : List UInt8 := bytes!"{\"version\": "

/-- A block of match stats: the ten bytes of a frame header (not looked at), then the size of what follows the type, the
type (3, demo info), the block number and the content. -/
structure StatsBlock where
  frameHeader : List UInt8
  number : Nat
  content : List UInt8

/-- The bytes of a block from its size on. -/
def StatsBlock.body (b : StatsBlock) : List UInt8 :=
  le32 (b.content.length + 2) ++ le16 3 ++ le16 b.number ++ b.content

/-- The bytes of a block. -/
def StatsBlock.encode (b : StatsBlock) : List UInt8 := b.frameHeader ++ b.body

/-- A frame header of ten bytes, a 16-bit number and a content whose size fits into 32 bits. -/
def StatsBlock.WF (b : StatsBlock) : Prop :=
  b.frameHeader.length = 10 ∧ b.number < 2 ^ 16 ∧ b.content.length + 2 < 2 ^ 32

/-- What comes of reading blocks from the size of the first one on: the collected content, or `none` for a crash. -/
inductive ReadsBlocks (checks : Bool) : List UInt8 → Option (List UInt8) → Prop
  /-- The data ends within the header of the block: the end. -/
  | ends {l} : l.length < 8 → (checks = true → ∀ size t, size < 2 → l ≠ le32 size ++ t) → ReadsBlocks checks l (some [])
  /-- A block of another type: the end. -/
  | foreign {size type number t} : size < 2 ^ 32 → type < 2 ^ 16 → number < 2 ^ 16 → type ≠ 3 →
      (checks = true → 2 ≤ size) →
      ReadsBlocks checks (le32 size ++ le16 type ++ le16 number ++ t) (some [])
  /-- A size below 2 crashes with overflow checks. -/
  | small {size t} : checks = true → size < 2 → ReadsBlocks checks (le32 size ++ t) none
  /-- Without overflow checks it crashes for a demo info block. -/
  | wraps {size number t} : checks = false → size < 2 → number < 2 ^ 16 →
      ReadsBlocks checks (le32 size ++ le16 3 ++ le16 number ++ t) none
  /-- The data ends within the content: a crash. -/
  | cut {size number t} : size < 2 ^ 32 → 2 ≤ size → number < 2 ^ 16 → t.length < size - 2 →
      ReadsBlocks checks (le32 size ++ le16 3 ++ le16 number ++ t) none
  /-- Block 0 is the last one. -/
  | last {b t} : b.WF → b.number = 0 → ReadsBlocks checks (StatsBlock.body b ++ t) (some b.content)
  /-- Another block must follow, but there is not even a frame header left: a crash. -/
  | gap {b t} : b.WF → b.number ≠ 0 → t.length < 10 → ReadsBlocks checks (StatsBlock.body b ++ t) none
  /-- The next block follows after a frame header. -/
  | next {b header t o} : b.WF → b.number ≠ 0 → header.length = 10 → ReadsBlocks checks t o →
      ReadsBlocks checks (StatsBlock.body b ++ header ++ t) (o.map (b.content ++ ·))

/-- How far from the beginning the marker must be: the frame header and the block header come before it. Without
overflow checks the frame header may be missing. -/
def markerLimit (checks : Bool) : Nat := if checks then 18 else 8

/-- The value of a sequence of digits. -/
def digitsValue (s : List Char) : Nat := s.foldl (fun n c => n * 10 + (c.toNat - '0'.toNat)) 0

/-- `s` is the usual decimal notation of `n`. -/
def Decimal (n : Nat) (s : List Char) : Prop :=
  s ≠ [] ∧ (∀ c ∈ s, '0'.toNat ≤ c.toNat ∧ c.toNat ≤ '9'.toNat) ∧ digitsValue s = n ∧ (s.head? = some '0' → s = ['0'])

end Spec
