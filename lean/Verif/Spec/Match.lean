import Verif.Spec.Award
import Verif.Spec.Frags
import Verif.Spec.Clear

/-! A match as it is played, and how a server reports it. -/

namespace Spec

/-- The texts with which a server reports an event between players with names that can be
recognised, spaces allowed. -/
inductive Says : Obituary → List Char → Prop
  | death {x p} : FirstName x → p ∈ deathPhrases → Says (.death x) (x ++ p)
  | suicide {x} : FirstName x → Says (.suicide x) (x ++ suicidePhrase)
  | suicideByWeapon {x p} : FirstName x → p ∈ weaponPhrases → Says (.suicideByWeapon x) (x ++ p)
  | teamkill {x p} : FirstName x → p ∈ teamkillPhrases → Says (.teamkill x) (x ++ p)
  | killerFirst {x y p} : FirstName x → SecondName y → p ∈ killerFirstPhrases →
      Says (.frag x y) (x ++ p.between ++ y ++ p.after)
  | victimFirst {x y p} : FirstName x → SecondName y → p ∈ victimFirstPhrases →
      Says (.frag y x) (x ++ p.between ++ y ++ p.after)
  | clear {o text} : Wording o text → (∀ n ∈ o.names, Clear n) → (∀ x, o ≠ .teamkillByUnknown x) → Says o text

/-- A frame reports what happened: an event, by a medium-level print in front, or nothing, by not having such a print, or
one that is not an obituary. -/
def Reports (toUnicode : List UInt8 → List Char) (what : Option Obituary) (f : Frame) : Prop :=
  match what with
  | some o => ∃ text more, Says o text ∧ Announces toUnicode f.body text more
  | none => ∀ text more o, Announces toUnicode f.body text more → ¬ Classifies text o

/-- The score of a player in a match: what the events are worth. -/
def score (events : List (Option Obituary)) (name : List Char) : Int :=
  (events.map fun e => match e.bind award with
    | some (who, worth) => if who = name then worth else 0
    | none => 0).sum

/-- The player's score is changed by some event. -/
def Scores (events : List (Option Obituary)) (name : List Char) : Prop :=
  ∃ e ∈ events, ∃ o worth, e = some o ∧ award o = some (name, worth)

end Spec
