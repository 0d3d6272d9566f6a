import Verif.Spec.Messages
import Verif.Spec.Obituary
import Verif.Model.Info

/-! Specification of the score: who is charged for which frame. Of the model, only the result type `Mvd.Client` is
used. -/

namespace Spec

/-- Unicode white space. -/
def whiteSpace : List Nat :=
  [0x09, 0x0A, 0x0B, 0x0C, 0x0D, 0x20, 0x85, 0xA0, 0x1680, 0x2000, 0x2001, 0x2002, 0x2003, 0x2004, 0x2005, 0x2006, 0x2007,
    0x2008, 0x2009, 0x200A, 0x2028, 0x2029, 0x202F, 0x205F, 0x3000]

/-- `t` is `s` without the white space at its end. -/
def Trims (s t : List Char) : Prop :=
  ∃ ws, s = t ++ ws ∧ (∀ c ∈ ws, c.toNat ∈ whiteSpace) ∧ ∀ c, t.getLast? = some c → c.toNat ∉ whiteSpace

/-- The payload begins with a medium-level print that is not empty; `text` is its text without white space at the end,
`more` is what follows the print. -/
def Announces (toUnicode : List UInt8 → List Char) (body : List UInt8) (text : List Char) (more : List UInt8) : Prop :=
  ∃ p : PrintMsg, p.WF ∧ p.level = 1 ∧ p.text ≠ [] ∧ body = p.encode ++ more ∧ Trims (toUnicode p.text) text

/-- The player whose score is updated by the message at the beginning of some bytes: message number 14, player number,
16-bit score. -/
def scoreUpdate : List UInt8 → Option UInt8
  | 14 :: n :: _ :: _ :: _ => some n
  | _ => none

/-- The players whose scores are updated near a print: right after it, and at the beginning of the next two frames that
are not empty. -/
def nearbyUpdates (more : List UInt8) (later : List Frame) : List UInt8 :=
  (scoreUpdate more).toList ++ ((later.filter fun f => f.body ≠ []).take 2).filterMap fun f => scoreUpdate f.body

/-- `c` is the first client with property `P`. -/
def FirstClient (cs : List Mvd.Client) (P : Mvd.Client → Prop) (c : Mvd.Client) : Prop :=
  ∃ before after, cs = before ++ c :: after ∧ P c ∧ ∀ d ∈ before, ¬ P d

/-- The client with number `n` is a team mate of `v` with another name. -/
def Suspect (cs : List Mvd.Client) (v : Mvd.Client) (n : UInt8) (c : Mvd.Client) : Prop :=
  FirstClient cs (fun c => c.number = n.toNat) c ∧ c.team = v.team ∧ c.name ≠ v.name

/-- The player blamed for an anonymous teamkill: the first suspect among the given numbers. -/
def Blamed (cs : List Mvd.Client) (numbers : List UInt8) (victim killer : List Char) : Prop :=
  ∃ v, FirstClient cs (fun c => c.name = victim) v ∧
    ∃ before n after, numbers = before ++ n :: after ∧ (∀ m ∈ before, ∀ d, ¬ Suspect cs v m d) ∧
      ∃ c, Suspect cs v n c ∧ c.name = killer

/-- The player charged for a frame, and the points; `later` are the frames after it. -/
inductive Charge (toUnicode : List UInt8 → List Char) (cs : List Mvd.Client) (f : Frame) (later : List Frame) :
    Option (List Char × Int) → Prop
  | frag {text more k v} : Announces toUnicode f.body text more → Classifies text (.frag k v) →
      Charge toUnicode cs f later (some (k, 1))
  | death {text more p} : Announces toUnicode f.body text more → Classifies text (.death p) →
      Charge toUnicode cs f later (some (p, -1))
  | suicide {text more p} : Announces toUnicode f.body text more → Classifies text (.suicide p) →
      Charge toUnicode cs f later (some (p, -2))
  | suicideByWeapon {text more p} : Announces toUnicode f.body text more → Classifies text (.suicideByWeapon p) →
      Charge toUnicode cs f later (some (p, -1))
  | teamkill {text more k} : Announces toUnicode f.body text more → Classifies text (.teamkill k) →
      Charge toUnicode cs f later (some (k, -1))
  | blamed {text more v k} : Announces toUnicode f.body text more → Classifies text (.teamkillByUnknown v) →
      Blamed cs (nearbyUpdates more later) v k → Charge toUnicode cs f later (some (k, -1))
  | unsolved {text more v} : Announces toUnicode f.body text more → Classifies text (.teamkillByUnknown v) →
      (∀ k, ¬ Blamed cs (nearbyUpdates more later) v k) → Charge toUnicode cs f later none
  | nothing : (∀ text more o, Announces toUnicode f.body text more → ¬ Classifies text o) →
      Charge toUnicode cs f later none

/-- The charges for a sequence of frames, in order. -/
inductive Charges (toUnicode : List UInt8 → List Char) (cs : List Mvd.Client) :
    List Frame → List (List Char × Int) → Prop
  | nil : Charges toUnicode cs [] []
  | cons {f fs c charges} : Charge toUnicode cs f fs c → Charges toUnicode cs fs charges →
      Charges toUnicode cs (f :: fs) (c.toList ++ charges)

/-- The points of a player. -/
def points (charges : List (List Char × Int)) (name : List Char) : Int :=
  ((charges.filter fun c => c.1 = name).map fun c => c.2).sum

/-- The frame announces an anonymous teamkill and there are score updates nearby. -/
def NeedsClients (toUnicode : List UInt8 → List Char) (f : Frame) (later : List Frame) : Prop :=
  ∃ text more v, Announces toUnicode f.body text more ∧ Classifies text (.teamkillByUnknown v) ∧
    nearbyUpdates more later ≠ []

end Spec
