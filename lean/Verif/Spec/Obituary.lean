import Verif.Rust.Lit
import Verif.Spec.Text

/-! Obituaries and flag messages: what the texts mean. Independent of the model. -/

namespace Spec

/-- The first phrase of a list that occurs in a text, and where it first occurs. -/
def FirstPhrase (phrases : List (List Char)) (text : List Char) (i : Nat) : Prop :=
  ∃ before p after, phrases = before ++ p :: after ∧ (∀ q ∈ before, ¬ Occurs q text) ∧ FirstAt p text i

/-- No phrase of a list occurs in a text. -/
def NoPhrase (phrases : List (List Char)) (text : List Char) : Prop := ∀ p ∈ phrases, ¬ Occurs p text

/-! ### Obituaries -/

/-- What an obituary says. -/
inductive Obituary where
  | death (player : List Char)
  | suicide (player : List Char)
  | suicideByWeapon (player : List Char)
  | frag (killer victim : List Char)
  | teamkill (killer : List Char)
  | teamkillByUnknown (victim : List Char)
deriving DecidableEq, Repr

/-- Deaths without killer. -/
def deathPhrases : List (List Char) := [
  chars!" sleeps with the fishes",
  chars!" sucks it down",
  chars!" gulped a load of slime",
  chars!" can't exist on slime alone",
  chars!" burst into flames",
  chars!" turned into hot slag",
  chars!" visits the Volcano God",
  chars!" cratered",
  chars!" fell to his death",
  chars!" fell to her death",
  chars!" blew up",
  chars!" was spiked",
  chars!" was zapped",
  chars!" ate a lavaball",
  chars!" died",
  chars!" tried to leave",
  chars!" was squished"]

/-- Suicides with a weapon. -/
def weaponPhrases : List (List Char) := [
  chars!" tries to put the pin back in",
  chars!" becomes bored with life",
  chars!" discovers blast radius",
  chars!" electrocutes himself",
  chars!" electrocutes herself",
  chars!" railcutes himself",
  chars!" railcutes herself",
  chars!" discharges into the slime",
  chars!" discharges into the lava",
  chars!" discharges into the water",
  chars!" heats up the water"]

/-- Suicide by command. -/
def suicidePhrase : List Char := chars!" suicides"

/-- Teamkills that name the killer. -/
def teamkillPhrases : List (List Char) := [
  chars!" squished a teammate",
  chars!" mows down a teammate",
  chars!" checks his glasses",
  chars!" checks her glasses",
  chars!" gets a frag for the other team",
  chars!" loses another friend"]

/-- Teamkills that name the victim. -/
def teamkillByUnknownPhrases : List (List Char) := [
  chars!" was telefragged by his teammate",
  chars!" was telefragged by her teammate",
  chars!" was crushed by his teammate",
  chars!" was crushed by her teammate",
  chars!" was jumped by his teammate",
  chars!" was jumped by her teammate"]

/-- A phrase with two names: the text between them and the text after the second one (empty: nothing is required). -/
structure TwoNames where
  between : List Char
  after : List Char
deriving DecidableEq, Repr

/-- Frags that begin with the killer. -/
def killerFirstPhrases : List TwoNames := [
  ⟨chars!" stomps ", []⟩,
  ⟨chars!" squishes ", []⟩,
  ⟨chars!" rips ", chars!" a new one"⟩]

/-- Frags that begin with the victim. -/
def victimFirstPhrases : List TwoNames := [
  ⟨chars!" was ax-murdered by ", []⟩,
  ⟨chars!" softens ", chars!"'s fall"⟩,
  ⟨chars!" tried to catch ", []⟩,
  ⟨chars!" was crushed by ", []⟩,
  ⟨chars!" was jumped by ", []⟩,
  ⟨chars!" chewed on ", chars!"'s boomstick"⟩,
  ⟨chars!" was body pierced by ", []⟩,
  ⟨chars!" was nailed by ", []⟩,
  ⟨chars!" was railed by ", []⟩,
  ⟨chars!" was telefragged by ", []⟩,
  ⟨chars!" accepts ", chars!"'s discharge"⟩,
  ⟨chars!" drains ", chars!"'s batteries"⟩,
  ⟨chars!" was lead poisoned by ", []⟩,
  ⟨chars!" accepts ", chars!"'s shaft"⟩,
  ⟨chars!" ate 2 loads of ", chars!"'s buckshot"⟩,
  ⟨chars!" was perforated by ", []⟩,
  ⟨chars!" was punctured by ", []⟩,
  ⟨chars!" was ventilated by ", []⟩,
  ⟨chars!" ate 8 loads of ", chars!"'s buckshot"⟩,
  ⟨chars!" gets a natural disaster from ", []⟩,
  ⟨chars!" rides ", chars!"'s rocket"⟩,
  ⟨chars!" was gibbed by ", chars!"'s rocket"⟩,
  ⟨chars!" was straw-cuttered by ", []⟩,
  ⟨chars!" eats ", chars!"'s pineapple"⟩,
  ⟨chars!" was gibbed by ", chars!"'s grenade"⟩,
  ⟨chars!" was brutalized by ", chars!"'s quad rocket"⟩,
  ⟨chars!" was smeared by ", chars!"'s quad rocket"⟩,
  ⟨chars!" was hooked by ", []⟩]

/-- `x` and `y` are the names in `text`, according to the phrase: what stands before the first occurrence of the middle
part, and what stands between that and the first following occurrence of the end part, or all the rest if there is no
end part. -/
def TwoNames.Matches (p : TwoNames) (text x y : List Char) : Prop :=
  ∃ rest, text = x ++ p.between ++ rest ∧ FirstAt p.between text x.length ∧
    if p.after = [] then y = rest else ∃ z, rest = y ++ p.after ++ z ∧ FirstAt p.after rest y.length

/-- The phrase is the first of the list that matches. -/
def FirstMatch (phrases : List TwoNames) (text x y : List Char) (p : TwoNames) : Prop :=
  ∃ before after, phrases = before ++ p :: after ∧ (∀ q ∈ before, ∀ x y, ¬ q.Matches text x y) ∧ p.Matches text x y

/-- None of the one-name classes of obituaries applies. -/
structure NoOneName (text : List Char) : Prop where
  death : NoPhrase deathPhrases text
  weapon : NoPhrase weaponPhrases text
  suicide : ¬ suicidePhrase <:+ text
  teamkill : NoPhrase teamkillPhrases text
  teamkillByUnknown : NoPhrase teamkillByUnknownPhrases text

/-- The meaning of an obituary text. -/
inductive Classifies (text : List Char) : Obituary → Prop
  | death {i : Nat} (h : FirstPhrase deathPhrases text i) : Classifies text (.death (text.take i))
  | suicideByWeapon {i : Nat} (h1 : NoPhrase deathPhrases text) (h : FirstPhrase weaponPhrases text i) :
      Classifies text (.suicideByWeapon (text.take i))
  | suicide {player : List Char} {n : Nat} (h1 : NoPhrase deathPhrases text) (h2 : NoPhrase weaponPhrases text)
      (h : text = player ++ (List.replicate (n + 1) suicidePhrase).flatten) (hlast : ¬ suicidePhrase <:+ player) :
      Classifies text (.suicide player)
  | teamkill {i : Nat} (h1 : NoPhrase deathPhrases text) (h2 : NoPhrase weaponPhrases text)
      (h3 : ¬ suicidePhrase <:+ text) (h : FirstPhrase teamkillPhrases text i) : Classifies text (.teamkill (text.take i))
  | teamkillByUnknown {i : Nat} (h1 : NoPhrase deathPhrases text) (h2 : NoPhrase weaponPhrases text)
      (h3 : ¬ suicidePhrase <:+ text) (h4 : NoPhrase teamkillPhrases text)
      (h : FirstPhrase teamkillByUnknownPhrases text i) : Classifies text (.teamkillByUnknown (text.take i))
  | fragKillerFirst {x y : List Char} {p : TwoNames} (h1 : NoOneName text)
      (h : FirstMatch killerFirstPhrases text x y p) : Classifies text (.frag x y)
  | fragVictimFirst {x y : List Char} {p : TwoNames} (h1 : NoOneName text)
      (h2 : ∀ q ∈ killerFirstPhrases, ∀ x y, ¬ q.Matches text x y) (h : FirstMatch victimFirstPhrases text x y p) :
      Classifies text (.frag y x)

/-- Phrases of one word: a second name that begins with one of them is taken for the phrase. -/
def oneWordPhrases : List (List Char) := [chars!"died", chars!"cratered", chars!"suicides", chars!"stomps", chars!"squishes"]

/-- Ordinary second names. -/
structure PlainSecondName (y : List Char) : Prop where
  space : ' ' ∉ y
  apostrophe : '\'' ∉ y
  start : ∀ w ∈ oneWordPhrases, ¬ w <+: y

/-- Whatever follows the name: the phrase could begin inside it. -/
def BeginsInside (phrase name : List Char) : Prop :=
  ∃ follows before after, name ++ follows = before ++ phrase ++ after ∧ before.length < name.length

/-- The texts that can follow the first name of an obituary. -/
def obituaryPhrases : List (List Char) :=
  deathPhrases ++ weaponPhrases ++ [suicidePhrase] ++ teamkillPhrases ++ teamkillByUnknownPhrases ++
    (killerFirstPhrases ++ victimFirstPhrases).map TwoNames.between

/-- The texts that can follow the second name of an obituary. -/
def endPhrases : List (List Char) := ((killerFirstPhrases ++ victimFirstPhrases).map TwoNames.after).filter (· ≠ [])

/-- Names that can be recognised at the beginning of an obituary, spaces allowed: no phrase could begin inside. -/
def FirstName (x : List Char) : Prop := ∀ q ∈ obituaryPhrases, ¬ BeginsInside q x

/-- Names that can be recognised at the second place of an obituary, spaces and apostrophes allowed: no phrase could begin
inside, and the name does not begin with a phrase, with a phrase of one word, or with what distinguishes the teamkills. -/
structure SecondName (y : List Char) : Prop where
  inside : ∀ q ∈ obituaryPhrases ++ endPhrases, ¬ BeginsInside q y
  phrase : ∀ q ∈ obituaryPhrases, ¬ q.tail <+: y
  word : ∀ w ∈ oneWordPhrases, ¬ w <+: y
  teammate : ¬ chars!"his teammate" <+: y ∧ ¬ chars!"her teammate" <+: y

/-! ### Flag messages -/

/-- The kinds of flag messages. -/
inductive FlagKind where
  | captured | defendsFlag | defendsCarrierVsAggressive | defendsCarrier | got | returned | assist
deriving DecidableEq, Repr

/-- The phrases, in the order in which they are tried. -/
def flagPhrases : List (FlagKind × List (List Char)) := [
  (.captured, [chars!" ãáðôõòåä the ÒÅÄ flag!\n", chars!" ãáðôõòåä the ÂÌÕÅ flag!\n"]),
  (.defendsFlag, [chars!" defends the ÒÅÄ flag\n", chars!" defends the ÂÌÕÅ flag\n"]),
  (.defendsCarrierVsAggressive, [chars!" defends ÒÅÄ's flag carrier against an aggressive enemy\n",
    chars!" defends ÂÌÕÅ's flag carrier against an aggressive enemy\n"]),
  (.defendsCarrier, [chars!" defends ÒÅÄ's flag carrier\n", chars!" defends ÂÌÕÅ's flag carrier\n"]),
  (.got, [chars!" çïô the ÒÅÄ flag!\n", chars!" çïô the ÂÌÕÅ flag!\n"]),
  (.returned, [chars!" òåôõòîåä the ÒÅÄ flag!\n", chars!" òåôõòîåä the ÂÌÕÅ flag!\n"]),
  (.assist, [chars!" gets an assist for returning his flag!\n", chars!" gets an assist for fragging the flag carrier!\n"])]

/-- The meaning of a flag message: its kind and the player. -/
def ClassifiesFlag (text : List Char) (kind : FlagKind) (player : List Char) : Prop :=
  ∃ before phrases after i, flagPhrases = before ++ (kind, phrases) :: after ∧
    (∀ c ∈ before, NoPhrase c.2 text) ∧ FirstPhrase phrases text i ∧ player = text.take i

/-- Names that can be recognised in a flag message, spaces allowed: no phrase is a part of it. -/
def FlagName (x : List Char) : Prop := ∀ c ∈ flagPhrases, ∀ q ∈ c.2, ¬ Occurs q x

end Spec
