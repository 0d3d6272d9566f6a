import Verif.Spec.Ambush
import Verif.Spec.Duration
import Verif.Spec.Info
import Verif.Spec.Ktxstats
import Verif.Spec.Ping

/-! Demos as servers write them. Nothing is said about messages that are not looked at: they may stand anywhere. -/

namespace Spec

/-- A match: the serverinfo, the userinfo strings in the order of the slots, the clients these stand for, for every frame of the
demo the event and the ping updates it reports, the date, and the milliseconds of countdown and game. -/
structure ServerMatch where
  info : List UInt8
  userinfos : List (List UInt8)
  roster : List Mvd.Client
  events : List (Option Obituary)
  pings : List (List (UInt8 × Nat))
  date : List Char
  countdown : Nat
  game : Nat

/-- The client with a userinfo in a slot. Missing names and teams are empty, missing colors 0; colors are taken modulo 256. -/
structure Enlisted (info : Mvd.Clientinfo) (slot : Nat) (c : Mvd.Client) : Prop where
  number : c.number = slot
  name : c.name = info.name.getD []
  team : c.team = info.team.getD []
  color : (c.color.1 : Int) = info.topcolor.getD 0 % 256 ∧ (c.color.2 : Int) = info.bottomcolor.getD 0 % 256
  spectator : c.isSpectator = true ↔ ∃ n, info.spectator = some n ∧ n ≠ 0
  bot : c.isBot = true ↔ ∃ n, info.bot = some n ∧ n ≠ 0
  username : c.authUsername = info.auth
  country : c.authCc = info.flag

/-- The demo of a match. -/
structure Served (g : Mvd.Env) (m : ServerMatch) (data : List UInt8) (frames : List Frame) : Prop where
  /-- whole frames only -/
  whole : Splits data frames []
  size : 1280 ≤ data.length ∧ data.length < 2 ^ 31
  header : ServerinfoText data m.info
  /-- the userinfo strings after the first command to spawn, with other messages between them -/
  slots : ∃ before entries tail, data = before ++ spawnCommand ++ clientBytes entries ++ tail ∧
    FirstAt spawnCommand data before.length ∧ ClientSection tail spawnCommand entries ∧
    (spawnCommand ++ clientBytes entries).length ≤ 24 * 512 ∧ entries.map (·.info) = m.userinfos
  few : m.userinfos.length ≤ 256
  enlisted : List.Forall₂ (fun s c => Enlisted (g.clientinfo (g.toUnicode s.1)) s.2 c) m.userinfos.zipIdx m.roster
  names : (m.roster.map (·.name)).Nodup
  /-- obituaries at the beginning of frames, anonymous ones with a score update nearby -/
  told : Told g.toUnicode m.roster m.events frames
  /-- ping updates at the beginning of frames -/
  pinged : List.Forall₂ (fun f us => LeadingPings f.body us) frames m.pings
  some : sampledPings m.pings ≠ []
  low : ∀ p, (samplesOf (sampledPings m.pings) p).sum < 65536
  /-- the first announcement of a date, 22 to 25 bytes up to the end of the line -/
  dated : ∃ before after, data = before ++ matchdatePrint ++ (utf8 m.date ++ 10 :: after) ∧
    FirstAt matchdatePrint data before.length ∧ 10 ∉ utf8 m.date ∧ 22 ≤ (utf8 m.date).length ∧ (utf8 m.date).length ≤ 25
  /-- the frames before that, and before the end -/
  timed : ∃ start finish, FirstAt matchdatePrint data start ∧ MeasuredTo data finish ∧ start ≤ finish ∧
    msBefore start frames = m.countdown ∧ msBefore finish frames = m.countdown + m.game
  short : m.countdown + m.game < 2 ^ 32

/-- The demo contains match stats, in numbered blocks, and none after these. -/
def CarriesStats (data : List UInt8) (text : List Char) : Prop :=
  ∃ (before : List UInt8) (blocks : List StatsBlock) (last : StatsBlock) (after : List UInt8),
    data = before ++ blocks.flatMap StatsBlock.encode ++ last.encode ++ after ∧
    (∀ b ∈ blocks, b.WF ∧ b.number ≠ 0) ∧ last.WF ∧ last.number = 0 ∧
    LastAt statsMarker data (before.length + 18) ∧ blocks.flatMap StatsBlock.content ++ last.content = utf8 text

end Spec
