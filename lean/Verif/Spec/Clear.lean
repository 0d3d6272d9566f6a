import Verif.Spec.Obituary

/-! Names that are always understood. -/

namespace Spec

/-- The obituaries with one name, except suicides by command. -/
def oneNamePhrasesButSuicide : List (List Char) := deathPhrases ++ weaponPhrases ++ teamkillPhrases ++ teamkillByUnknownPhrases

/-- Beginnings of names that are taken for phrases, besides those of the obituaries with one name. -/
def phraseStarts : List (List Char) := [
  chars!"his teammate", chars!"her teammate",
  chars!"stomps ", chars!"squishes ", chars!"was ax-murdered by ", chars!"tried to catch ", chars!"was crushed by ",
  chars!"was jumped by ", chars!"was body pierced by ", chars!"was nailed by ", chars!"was railed by ",
  chars!"was telefragged by ", chars!"was lead poisoned by ", chars!"was perforated by ", chars!"was punctured by ",
  chars!"was ventilated by ", chars!"gets a natural disaster from ", chars!"was straw-cuttered by ",
  chars!"ate 2 loads of ", chars!"rides ", chars!"was brutalized by "]

/-- Names in which, next to which and with which no phrase comes about that is not meant. -/
structure Clear (n : List Char) : Prop where
  /-- No phrase with one name is a part of it. -/
  one : ∀ q ∈ oneNamePhrasesButSuicide, ¬ Occurs q n
  /-- No phrase with two names is a part of it and the space that follows. -/
  two : ∀ p ∈ killerFirstPhrases ++ victimFirstPhrases, ¬ Occurs p.between (n ++ [' '])
  /-- No end of a phrase is a part of it. -/
  ends : ∀ e ∈ endPhrases, ¬ Occurs e n
  /-- It does not end like a suicide. -/
  suicide : ¬ suicidePhrase <:+ n ∧ n ≠ chars!"suicides"
  /-- It does not make a death out of ` squished a teammate`. -/
  was : ¬ chars!" was" <:+ n
  /-- It does not begin with a phrase. -/
  start : ∀ q ∈ oneNamePhrasesButSuicide, ¬ q.tail <+: n
  /-- It does not begin with the rest of a phrase, or with a phrase that is tried before another one. -/
  begins : ∀ w ∈ phraseStarts, ¬ w <+: n
  /-- Between ` rips ` and ` a new one`, these are phrases. -/
  word : n ≠ chars!"stomps" ∧ n ≠ chars!"squishes"

/-- The texts with which obituaries are announced, whatever the names. -/
inductive Wording : Obituary → List Char → Prop
  | death {x p} : p ∈ deathPhrases → Wording (.death x) (x ++ p)
  | suicide {x} : Wording (.suicide x) (x ++ suicidePhrase)
  | suicideByWeapon {x p} : p ∈ weaponPhrases → Wording (.suicideByWeapon x) (x ++ p)
  | teamkill {x p} : p ∈ teamkillPhrases → Wording (.teamkill x) (x ++ p)
  | teamkillByUnknown {x p} : p ∈ teamkillByUnknownPhrases → Wording (.teamkillByUnknown x) (x ++ p)
  | killerFirst {x y p} : p ∈ killerFirstPhrases → Wording (.frag x y) (x ++ p.between ++ y ++ p.after)
  | victimFirst {x y p} : p ∈ victimFirstPhrases → Wording (.frag y x) (x ++ p.between ++ y ++ p.after)

/-- The names in an obituary. -/
def Obituary.names : Obituary → List (List Char)
  | .death x | .suicide x | .suicideByWeapon x | .teamkill x | .teamkillByUnknown x => [x]
  | .frag x y => [x, y]

/-- The texts of flag messages, whatever the name. -/
def FlagWording (kind : FlagKind) (x text : List Char) : Prop :=
  ∃ phrases p, (kind, phrases) ∈ flagPhrases ∧ p ∈ phrases ∧ text = x ++ p

end Spec
