import Verif.Model.Ktxstats
import Verif.Model.Frags
import Verif.Model.Ping

/-! src/player.rs, src/players.rs -/

namespace Mvd

/-- player.rs:3 `BOT_PING` -/
def BOT_PING : Int := 10

/-- player.rs:5-15 `Player` -/
structure Player where
  name : Str
  team : Str
  color : Nat × Nat
  frags : Int
  ping : Nat
  isBot : Bool
  authUsername : Option Str
  authCc : Option Str
deriving DecidableEq

/-- player.rs:17-35 `Player::from` -/
def Player.ofKtx (player : KtxPlayer) : Player where
  name := player.name
  team := player.team
  color := (asU8 player.topColor, asU8 player.bottomColor)
  frags := player.frags
  ping := asU32 player.ping
  isBot := player.bot || player.ping == BOT_PING
  authUsername := if !player.login.isEmpty then some player.login else none
  authCc := none

/-- player.rs:37-39 `sort`: the closure's arguments are called (b, a). -/
def playerCmp (b a : Player) : Ordering := (compare a.frags b.frags).then (strCmp b.name a.name)

/-- players.rs:21-25 `players_from_ktxstats` -/
def playersFromKtxstats (stats : KtxStats) : R (List Player) := .ok (sortBy playerCmp (stats.players.map Player.ofKtx))

/-- players.rs:34-43, the player of a client. -/
def playerOfClient (frags : Map Str Int) (pings : Map UInt8 Nat) (c : Client) : Player where
  name := c.name
  team := c.team
  color := c.color
  frags := (frags.get c.name).getD 0
  ping := (pings.get (UInt8.ofNat c.number)).getD 0
  authUsername := c.authUsername
  authCc := c.authCc
  isBot := c.isBot

/-- players.rs:27-50 `players_from_parsing` -/
def playersFromParsing (g : Env) (data : Bytes) : R (List Player) :=
  (clients g data).bind fun clients =>
  (pingPerPlayerNumber g data).bind fun pings =>
  (fragsPerPlayerName g data).bind fun frags =>
  let pmap : Map Nat Player := (clients.filter fun c => !c.isSpectator).foldl
    (fun pmap c => Map.set pmap c.number (playerOfClient frags pings c)) []
  .ok (sortBy playerCmp ((g.order 1 pmap).map (·.2)))

/-- players.rs:13-19 `players` -/
def players (g : Env) (data : Bytes) : R (List Player) :=
  match ktxstatsV3 g data with
  | .ok stats => playersFromKtxstats stats
  | .err _ => playersFromParsing g data
  | .panic => .panic
  | .hang => .hang

end Mvd
