import Verif.Rust.Lit
import Verif.Spec.Text

/-! Specification constants and relations for server and client information. Independent of the model. -/

namespace Spec

/-- The marker at the end of a complete demo: a NUL and the level-2 print text `EndOfDemo`. -/
def endOfDemo : List UInt8 := [0, 2] ++ bytes!"EndOfDemo" ++ [0]

/-- Quake's "brown" text: letters have their high bit set. -/
def brown (text : List UInt8) : List UInt8 := text.map fun b => if b = 32 then b else b + 128

/-- The print message (number 8, level 2) sent when a match is stopped by vote. -/
def stoppedByVote : List UInt8 := [8, 2] ++ brown bytes!"Match stopped by majority vote" ++ [10, 0]

/-- The text between `fullserverinfo "` and the next quote in the first 1280 bytes. -/
def ServerinfoText (data text : List UInt8) : Prop :=
  ∃ pre post, data.take 1280 = pre ++ bytes!"fullserverinfo \"" ++ text ++ [34] ++ post ∧
    FirstAt bytes!"fullserverinfo \"" (data.take 1280) pre.length ∧ text ≠ [] ∧ (34 : UInt8) ∉ text

/-- The data is the end-of-demo marker preceded by at least one byte. -/
def EndsWithMarker (data : List UInt8) : Prop := ∃ pre, pre ≠ [] ∧ data = pre ++ endOfDemo

/-- The server command that tells the client to spawn: message number 9 and the text `cmd spawn`. -/
def spawnCommand : List UInt8 := 9 :: bytes!"cmd spawn"

/-- The key that identifies a userinfo string. -/
def nameKey : List UInt8 := bytes!"\\name\\"

/-- A userinfo string as the scan accepts it: between two NULs, no NUL inside, 7 to 256 bytes. -/
structure NulDelimited (data : List UInt8) (from_ to_ : Nat) : Prop where
  before : 1 ≤ from_ ∧ data[from_ - 1]? = some 0
  after : data[to_]? = some 0
  inside : ∀ k, from_ ≤ k → k < to_ → data[k]? ≠ some 0
  short : from_ + 7 ≤ to_
  long : to_ ≤ from_ + 256

/-- The userinfo string found from `offset` on: the NUL-delimited string around the first `\name\` in the next 512
bytes. -/
def NextClient (data : List UInt8) (offset from_ to_ : Nat) : Prop :=
  ∃ k, FirstAt nameKey ((data.drop offset).take 512) k ∧ from_ ≤ offset + k ∧ offset + k < to_ ∧
    NulDelimited data from_ to_

/-- Userinfo strings found one after the other from an offset on, each search starting at the end of the string before
and below the limit; the last argument is where the next search would start. -/
inductive ClientChain (data : List UInt8) (limit : Nat) : Nat → List (Nat × Nat) → Nat → Prop
  | nil {o} : ClientChain data limit o [] o
  | last {o f t} : NextClient data o f t → ClientChain data limit o [(f, t)] t
  | cons {o f t spans e} : NextClient data o f t → t < limit → ClientChain data limit t spans e →
      ClientChain data limit o ((f, t) :: spans) e

end Spec

namespace Spec

/-- A userinfo string and the bytes between the end of the previous one and its beginning. -/
structure ClientEntry where
  gap : List UInt8
  info : List UInt8

/-- The bytes of consecutive userinfo strings, each followed by a NUL. -/
def clientBytes (es : List ClientEntry) : List UInt8 := es.flatMap fun e => e.gap ++ e.info ++ [0]

/-- Userinfo strings as servers write them, after `sep` and before `tail`: every string is preceded by a NUL, contains
none, is 7 to 256 bytes long and contains `\name\` within 512 bytes of the beginning of the separator; there is no
`\name\` between the strings nor in the 512 bytes after the last one. -/
def ClientSection (tail : List UInt8) : List UInt8 → List ClientEntry → Prop
  | sep, [] => 512 ≤ (sep ++ tail).length ∧ ¬ Occurs nameKey ((sep ++ tail).take 512)
  | sep, e :: es =>
    (∃ a, sep ++ e.gap = a ++ [0]) ∧ ¬ Occurs nameKey (sep ++ e.gap) ∧
    (0 : UInt8) ∉ e.info ∧ 7 ≤ e.info.length ∧ e.info.length ≤ 256 ∧
    (∃ k, FirstAt nameKey e.info k ∧ (sep ++ e.gap).length + k + nameKey.length ≤ 512) ∧
    ClientSection tail [0] es

end Spec
