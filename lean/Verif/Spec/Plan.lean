import Verif.Spec.Timeline
import Verif.Spec.Userinfo

/-! What is to be recorded: people, scores, date and times. -/

namespace Spec

/-- Empty frames that take some time. -/
def waiting (ms : Nat) : Play :=
  List.replicate (ms / 255) ⟨255, .all, .other []⟩ ++ [⟨UInt8.ofNat (ms % 255), .all, .other []⟩]

/-- Obituaries that give a player a score, one point each. -/
def scoring (name : List Char) (score : Int) : Play :=
  List.replicate score.toNat ⟨0, .all, .obituary (.frag name ['x']) (name ++ chars!" stomps x")⟩ ++
    List.replicate (-score).toNat ⟨0, .all, .obituary (.death name) (name ++ chars!" died")⟩

/-- Announcement of a flag event, about the red flag where there is a choice. -/
def flagWords : FlagKind → List Char
  | .captured => chars!" ãáðôõòåä the ÒÅÄ flag!\n"
  | .defendsFlag => chars!" defends the ÒÅÄ flag\n"
  | .defendsCarrierVsAggressive => chars!" defends ÒÅÄ's flag carrier against an aggressive enemy\n"
  | .defendsCarrier => chars!" defends ÒÅÄ's flag carrier\n"
  | .got => chars!" çïô the ÒÅÄ flag!\n"
  | .returned => chars!" òåôõòîåä the ÒÅÄ flag!\n"
  | .assist => chars!" gets an assist for fragging the flag carrier!\n"

/-- The moment at which a flag event is announced. -/
def flagging (e : FlagEvent) : Moment := ⟨0, .all, .flag e (e.2 ++ flagWords e.1)⟩

/-- Serverinfo, people with their userinfo strings, the scores of those who play, pings, flag events, the date, and milliseconds of
countdown and game. -/
structure Plan where
  info : List Char
  strings : List (List Char)
  people : List Person
  goal : List Char → Int
  ping : List Char → Nat
  deeds : List FlagEvent
  date : List Char
  countdown : Nat
  game : Nat

namespace Plan

/-- Printable ASCII characters other than quotes. -/
def Printable (text : List Char) : Prop := ∀ c ∈ text, 32 ≤ c.toNat ∧ c.toNat < 127 ∧ c ≠ '"'

/-- The plan can be carried out: 1 to 24 people with different printable names, userinfo strings of at most 256 characters that
say who they are, names of players that can be recognised, a date of 22 to 25 characters, not more than a million points
altogether, pings of 16 bits, flag events of some of the people whose names can be recognised, not more than 255 of a kind for each, and not more
than 2^32 milliseconds. -/
structure Possible (p : Plan) : Prop where
  info : p.info ≠ [] ∧ p.info.length ≤ 1200 ∧ Printable p.info ∧ '{' ∉ p.info
  some : p.people ≠ []
  few : p.people.length ≤ 24
  strings : List.Forall₂ (fun s q => ∃ entries, Introduces entries q ∧ s = infoText entries) p.strings p.people
  printable : ∀ s ∈ p.strings, Printable s ∧ s.length ≤ 256
  names : (p.people.map (·.name)).Nodup
  recognised : ∀ q ∈ p.people, q.watching = false → FirstName q.name ∨ Clear q.name
  doers : ∀ e ∈ p.deeds, e.2 ∈ p.people.map (·.name) ∧ FlagName e.2
  often : ∀ e, p.deeds.count e < 256
  points : ((p.people.map fun q => (p.goal q.name).natAbs).sum) ≤ 10 ^ 6
  pings : ∀ q ∈ p.people, p.ping q.name < 65536
  date : Printable p.date ∧ '\\' ∉ p.date ∧ 22 ≤ p.date.length ∧ p.date.length ≤ 25
  times : p.countdown + p.game < 2 ^ 32

/-- The word `flag` is in none of the given texts. -/
def Unflagged (p : Plan) : Prop :=
  ¬ Occurs bytes!"flag" (bytesOf p.info) ∧ (∀ s ∈ p.strings, ¬ Occurs bytes!"flag" (bytesOf s)) ∧
    ¬ Occurs bytes!"flag" (bytesOf p.date)

/-- One update for everybody, as the server numbers them. -/
def updates (p : Plan) : List (UInt8 × Nat) := p.people.zipIdx.map fun q => (UInt8.ofNat q.2, p.ping q.1.name)

/-- How the match goes: a long message that nobody looks at, the pings, the countdown, the date, the game,
all flag events, all scores, and the end. -/
def course (p : Plan) : Course where
  countdown := ⟨0, .all, .other (7 :: List.replicate 1300 10 ++ [0])⟩ :: ⟨0, .all, .pings p.updates⟩ :: waiting p.countdown
  start := 0
  date := p.date
  game := waiting p.game ++ p.deeds.map flagging ++ (p.people.filter fun q => !q.watching).flatMap fun q => scoring q.name (p.goal q.name)
  finish := 0
  after := []

/-- The recording. -/
def recording (p : Plan) : Recording where
  info := p.info
  clients := p.strings
  play := p.course.play

end Plan

end Spec
