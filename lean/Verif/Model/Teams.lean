import Verif.Model.Players

/-! src/team.rs, src/teams.rs -/

namespace Mvd

/-- team.rs:5-12 `Team` -/
structure Team where
  name : Str
  color : Nat × Nat
  frags : Int
  ping : Nat
  players : List Player
deriving DecidableEq

/-- team.rs:67-71, the color counts (`u8`). -/
def colorCount (g : Env) (colors : List (Nat × Nat)) : R (Map (Nat × Nat) Nat) :=
  forR (fun m color => Map.update m color 0 fun n => addU g.checks 8 n 1) [] colors

/-- team.rs:73-80, the maximum over the counts in iteration order: (max_color, max_count). -/
def maxColor : Option (Nat × Nat) × Nat → List ((Nat × Nat) × Nat) → Option (Nat × Nat) × Nat
  | s, [] => s
  | (c, n), (color, count) :: t => if count > n then maxColor (some color, count) t else maxColor (c, n) t

/-- team.rs:60-83 `majority_color`; `seed` numbers the call. -/
def majorityColor (g : Env) (seed : Nat) (colors : List (Nat × Nat)) : R (Option (Nat × Nat)) :=
  match colors with
  | [] => .ok none
  | [a] => .ok (some a)
  | [a, _] => .ok (some a)
  | _ => (colorCount g colors).bind fun m => .ok (maxColor (none, 0) (g.order seed m)).1

/-- team.rs:14-40 `Team::from` -/
def Team.ofPlayers (g : Env) (seed : Nat) (players : List Player) : R Team :=
  match players with
  | [] => .ok { name := [], color := (0, 0), frags := 0, ping := 0, players := [] }
  | first :: _ =>
    (forR (fun (s : Int × Nat) (p : Player) =>
      (addI32 g.checks s.1 p.frags).bind fun frags =>
      (addU g.checks 32 s.2 p.ping).bind fun ping => .ok (frags, ping)) (0, 0) players).bind fun (frags, ping) =>
    (majorityColor g seed (players.map (·.color))).bind fun color =>
    .ok {
      name := first.team
      players := players
      frags := frags
      ping := f32AsU32 (f32RoundHalfUp (f32Div (natAsF32 ping) (natAsF32 players.length)))
      color := color.getD first.color }

/-- team.rs:43-47, the players per team name. -/
def teamMap (players : List Player) : Map Str (List Player) :=
  players.foldl (fun tmap p => Map.set tmap p.team ((Map.get tmap p.team).getD [] ++ [p])) []

/-- team.rs:42-58 `teams_from_players` -/
def teamsFromPlayers (g : Env) (players : List Player) : R (List Team) :=
  (forR (fun (teams : List Team) (e : (Str × List Player) × Nat) =>
    (Team.ofPlayers g (3 + e.2) e.1.2).bind fun t => .ok (teams ++ [t]))
    [] (g.order 2 (teamMap players)).zipIdx).bind fun teams =>
  .ok (sortBy (fun a b => strCmp (g.lowercase a.name) (g.lowercase b.name)) teams)

/-- teams.rs:8-10 `teams` -/
def teams (g : Env) (data : Bytes) : R (List Team) := (players g data).bind fun ps => teamsFromPlayers g ps

/-- teams.rs:12-14 `teams_from_ktxstats` -/
def teamsFromKtxstats (g : Env) (stats : KtxStats) : R (List Team) :=
  (playersFromKtxstats stats).bind fun ps => teamsFromPlayers g ps

end Mvd
