import Verif.Spec.Recorder
import Verif.Spec.Duration

/-! The course of a recorded match: countdown, match date, game, end, what follows. -/

namespace Spec

/-- The course of a match. The date is announced `start` milliseconds after the last moment of the countdown, the end
`finish` milliseconds after the last moment of the game. -/
structure Course where
  countdown : Play
  start : UInt8
  date : List Char
  game : Play
  finish : UInt8
  after : Play

namespace Course

/-- Everything that is sent. -/
def play (c : Course) : Play :=
  c.countdown ++ ⟨c.start, .all, .announcement (chars!"matchdate: " ++ c.date ++ ['\n'])⟩ ::
    (c.game ++ ⟨c.finish, .all, .announcement chars!"The match is over\n"⟩ :: c.after)

/-- The time in milliseconds from the start of the recording to the announcement of the date. -/
def countdownMs (c : Course) : Nat := (c.countdown.map fun m => m.ms.toNat).sum + c.start.toNat

/-- The time from there to the announcement of the end. -/
def gameMs (c : Course) : Nat := (c.game.map fun m => m.ms.toNat).sum + c.finish.toNat

/-- The date is a line of 22 to 25 ASCII characters, no other date is announced before, and no other end after. -/
structure Clear (c : Course) (r : Recording) : Prop where
  line : ∀ x ∈ c.date, 0 < x.toNat ∧ x.toNat < 128 ∧ x ≠ '\n'
  size : 22 ≤ c.date.length ∧ c.date.length ≤ 25
  first : ¬ Occurs ([8, 2] ++ bytes!"matchdate:")
    (record (⟨0, .all, .other r.serverinfo⟩ :: ⟨0, .all, .other r.spawn⟩ :: c.countdown))
  last : ¬ Occurs matchOver (record c.after)

end Course

end Spec
