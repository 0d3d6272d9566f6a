import Verif.Spec.Match
import Verif.Spec.Ctf
import Verif.Spec.Ping

/-! A small recorder: how a match is written as a demo, one frame per moment. -/

namespace Spec

/-- Text as servers write it, one byte per character. -/
def bytesOf (text : List Char) : List UInt8 := text.map fun c => UInt8.ofNat c.toNat

/-- All characters can be written as one byte other than NUL. -/
def OneByte (text : List Char) : Prop := ∀ c ∈ text, 0 < c.toNat ∧ c.toNat < 256

/-- What happens at one moment of a match, with the text of the announcement where there is one. -/
inductive Happening where
  | obituary (what : Obituary) (text : List Char)
  | flag (what : FlagEvent) (text : List Char)
  | pings (updates : List (UInt8 × Nat))
  | chat (text : List Char)
  | announcement (text : List Char)
  | other (message : List UInt8)

namespace Happening

/-- The text says what happened and can be written; pings are 16-bit numbers; other messages are no prints and no
pings. -/
def Proper : Happening → Prop
  | .obituary what text => Says what text ∧ OneByte text ∧ ∀ c, text.getLast? = some c → c.toNat ∉ whiteSpace
  | .flag what text => SaysFlag what text ∧ OneByte text
  | .pings updates => ∀ u ∈ updates, u.2 < 65536
  | .chat text => text ≠ [] ∧ OneByte text
  | .announcement text => text ≠ [] ∧ OneByte text
  | .other message => message.head? ≠ some 8 ∧ message.head? ≠ some 36

/-- Announcements, and messages that are no prints, do not contain the word `flag`. -/
def Unflagged : Happening → Prop
  | .announcement text => ¬ Occurs bytes!"flag" (bytesOf text)
  | .other message => ¬ Occurs bytes!"flag" message
  | _ => True

/-- The print sent for a happening: medium level with a line feed for obituaries, high level for flags and other
announcements, level 3 for chat. -/
def print : Happening → Option PrintMsg
  | .obituary _ text => some ⟨1, bytesOf (text ++ ['\n'])⟩
  | .flag _ text => some ⟨2, bytesOf text⟩
  | .chat text => some ⟨3, bytesOf text⟩
  | .announcement text => some ⟨2, bytesOf text⟩
  | _ => none

/-- The message sent for a happening. Each ping update (number 36) is followed by a packet loss update (number 53). -/
def message : Happening → List UInt8
  | .pings updates => updates.flatMap fun u => [36, u.1] ++ le16 u.2 ++ [53, u.1, 0]
  | .other message => message
  | h => (h.print.map PrintMsg.encode).getD []

/-- The obituary. -/
def died : Happening → Option Obituary
  | .obituary what _ => some what
  | _ => none

/-- The flag event. -/
def flagged : Happening → List FlagEvent
  | .flag what _ => [what]
  | _ => []

/-- The ping updates. -/
def pinged : Happening → List (UInt8 × Nat)
  | .pings updates => updates
  | _ => []

end Happening

/-- Who gets a message: all players, one of 32, or those of a mask. -/
inductive Recipients where
  | all
  | one (player : Fin 32)
  | several (mask : UInt32)

/-- A moment of a match: the milliseconds since the moment before, what happens, and who is told. -/
structure Moment where
  ms : UInt8
  whom : Recipients
  what : Happening

/-- The frame of a moment. The command byte has the recipients in the low three bits and the player in the high ones. -/
def Moment.frame (m : Moment) : Frame :=
  match m.whom with
  | .all => ⟨m.ms, 6, [], m.what.message⟩
  | .one player => ⟨m.ms, UInt8.ofNat (4 + 8 * player.val), [], m.what.message⟩
  | .several mask => ⟨m.ms, 3, le32 mask.toNat, m.what.message⟩

/-- A match. -/
abbrev Play := List Moment

/-- The frames of a recording: one for every moment. -/
def Play.frames (play : Play) : List Frame := play.map Moment.frame

/-- The demo of a match. -/
def record (play : Play) : List UInt8 := encode play.frames

/-- Userinfo updates (number 40) of consecutive clients: slot, user number, the string, NUL. -/
def userinfos : Nat → List (List Char) → List UInt8
  | _, [] => []
  | slot, s :: t => [40, UInt8.ofNat slot] ++ le32 (slot + 1) ++ bytesOf s ++ [0] ++ userinfos (slot + 1) t

/-- A recorded match: serverinfo, userinfo strings of the clients, what happens. -/
structure Recording where
  info : List Char
  clients : List (List Char)
  play : Play

namespace Recording

/-- The command (number 9) that tells the serverinfo. -/
def serverinfo (r : Recording) : List UInt8 := 9 :: bytes!"fullserverinfo \"" ++ bytesOf r.info ++ bytes!"\"\n" ++ [0]

/-- The command to spawn and the clients. -/
def spawn (r : Recording) : List UInt8 := 9 :: bytes!"cmd spawn\n" ++ [0] ++ userinfos 0 r.clients

/-- The message (number 2) at the end of a demo. -/
def disconnect : List UInt8 := 2 :: bytes!"EndOfDemo" ++ [0]

/-- Everything that is sent: serverinfo, clients, the play, the end. -/
def whole (r : Recording) : Play := ⟨0, .all, .other r.serverinfo⟩ :: ⟨0, .all, .other r.spawn⟩ :: r.play ++ [⟨0, .all, .other disconnect⟩]

/-- The demo. -/
def demo (r : Recording) : List UInt8 := record r.whole

/-- The serverinfo is not empty, fits into the first 1280 bytes and contains no quotes and tabs; there are 1 to 24 clients,
with a name and at most 256 bytes of userinfo each; the play takes at least 1280 bytes and does not contain the key
`\name\`. -/
structure Proper (r : Recording) : Prop where
  info : r.info ≠ [] ∧ r.info.length ≤ 1200 ∧ OneByte r.info ∧ '"' ∉ r.info ∧ '\t' ∉ r.info
  some : r.clients ≠ []
  few : r.clients.length ≤ 24
  clients : ∀ s ∈ r.clients, OneByte s ∧ 7 ≤ s.length ∧ s.length ≤ 256 ∧ Occurs chars!"\\name\\" s
  play : ∀ m ∈ r.play, m.what.Proper
  long : 1280 ≤ (record r.play).length
  nameless : ¬ Occurs bytes!"\\name\\" (record r.play)

end Recording

end Spec
