import Verif.Spec.Ktxstats
import Verif.Spec.Recorder
import Verif.Model.Info

/-! Info strings `\key\value\key\value…`, and the people who are described by them. -/

namespace Spec

/-- The text of the entries of an info string. -/
def infoText (entries : List (List Char × List Char)) : List Char := entries.flatMap fun e => '\\' :: e.1 ++ '\\' :: e.2

/-- Keys and values are not empty and contain no backslashes, and keys are not repeated. -/
structure InfoEntries (entries : List (List Char × List Char)) : Prop where
  keys : ∀ e ∈ entries, e.1 ≠ [] ∧ '\\' ∉ e.1
  values : ∀ e ∈ entries, e.2 ≠ [] ∧ '\\' ∉ e.2
  distinct : (entries.map (·.1)).Nodup

/-- `result` is the number of an entry: its value, if that is a decimal number that fits, and none without the entry. Nothing is
said about other values. -/
def NumberOf (value : Option (List Char)) (result : Option Int) : Prop :=
  (value = none → result = none) ∧ ∀ v n, value = some v → Decimal n v → n < 2 ^ 31 → result = some (n : Int)

/-- A parser of client info strings finds the entries. -/
def ReadsUserinfo (read : List Char → Mvd.Clientinfo) : Prop :=
  ∀ entries, InfoEntries entries →
    (read (infoText entries)).name = entries.lookup chars!"name" ∧
    (read (infoText entries)).team = entries.lookup chars!"team" ∧
    NumberOf (entries.lookup chars!"topcolor") (read (infoText entries)).topcolor ∧
    NumberOf (entries.lookup chars!"bottomcolor") (read (infoText entries)).bottomcolor ∧
    NumberOf (entries.lookup chars!"*spectator") (read (infoText entries)).spectator ∧
    NumberOf (entries.lookup chars!"*bot") (read (infoText entries)).bot

/-- A parser of server settings finds the entries. -/
def ReadsServerinfo (read : List Char → Mvd.Settings) : Prop :=
  ∀ entries, InfoEntries entries →
    (read (infoText entries)).mode = entries.lookup chars!"mode" ∧
    (read (infoText entries)).serverdemo = entries.lookup chars!"serverdemo" ∧
    NumberOf (entries.lookup chars!"epoch") (read (infoText entries)).epoch

/-- Somebody who is connected to the server. -/
structure Person where
  name : List Char
  team : List Char
  shirt : Nat
  pants : Nat
  watching : Bool
  bot : Bool

/-- An entry with a number, which may be missing if the number is 0. -/
def WritesNumber (value : Option (List Char)) (n : Nat) : Prop :=
  (∃ v, value = some v ∧ Decimal n v) ∨ value = none ∧ n = 0

/-- An entry that says yes: 1, and missing otherwise. -/
def WritesYes (value : Option (List Char)) (yes : Bool) : Prop := value = if yes then some ['1'] else none

/-- The info string of a person, in any order, with any other entries. Without a team there is no such entry. -/
structure Introduces (entries : List (List Char × List Char)) (p : Person) : Prop where
  wellformed : InfoEntries entries
  name : entries.lookup chars!"name" = some p.name
  team : entries.lookup chars!"team" = if p.team = [] then none else some p.team
  shirt : WritesNumber (entries.lookup chars!"topcolor") p.shirt ∧ p.shirt < 256
  pants : WritesNumber (entries.lookup chars!"bottomcolor") p.pants ∧ p.pants < 256
  watching : WritesYes (entries.lookup chars!"*spectator") p.watching
  bot : WritesYes (entries.lookup chars!"*bot") p.bot

/-- The person is written down in bytes. -/
def IntroducedBy (info : List UInt8) (p : Person) : Prop :=
  ∃ entries, Introduces entries p ∧ OneByte (infoText entries) ∧ info = bytesOf (infoText entries)

/-- A client is a person in a slot. -/
structure Seated (p : Person) (slot : Nat) (c : Mvd.Client) : Prop where
  number : c.number = slot
  name : c.name = p.name
  team : c.team = p.team
  color : c.color = (p.shirt, p.pants)
  spectator : c.isSpectator = p.watching
  bot : c.isBot = p.bot

end Spec
