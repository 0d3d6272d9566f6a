import Lean.Data.Json
import Verif.Model.Teams
import Verif.Model.Matchdate
import Verif.Model.Duration
import Verif.Model.Flags
import Verif.Model.Prints
import Verif.Rust.ParseFloat

/-! Runs the model on demo files, so that its results can be compared with those the unit tests in /repo expect
(tools/conformance.py). No theorem depends on this file. The functions of external crates are stand-ins that agree with them on the test files. -/

namespace Mvd.Conformance

/-- Bytes as characters of the same number. -/
def latin1 (b : Bytes) : Str := b.map fun x => Char.ofNat x.toNat

/-- The pairs of `key\value\key\value`. -/
def pairs : List String → List (String × String)
  | k :: v :: t => (k, v) :: pairs t
  | _ => []

/-- The settings of `\key\value\key\value`. -/
def settings (s : Str) : List (String × String) := pairs (((String.ofList s).splitOn "\\").drop 1)

/-- The value of a setting. -/
def value (k : String) (l : List (String × String)) : Option String := (l.find? (·.1 == k)).map (·.2)

/-- Days since 1970-01-01. -/
def days (y m d : Nat) : Int :=
  let y' := if m ≤ 2 then y - 1 else y
  let m' := if m ≤ 2 then m + 9 else m - 3
  365 * y' + y' / 4 - y' / 100 + y' / 400 + (153 * m' + 2) / 5 + d - 719469

/-- `YYYY-MM-DD hh:mm:ss+hh:mm` -/
def parseDate (s : Str) : Option Int :=
  let num (i n : Nat) : Option Nat := (String.ofList ((s.drop i).take n)).toNat?
  match num 0 4, num 5 2, num 8 2, num 11 2, num 14 2, num 17 2, num 20 2, num 23 2 with
  | some y, some mo, some d, some h, some mi, some sec, some oh, some om =>
    let offset : Int := 3600 * oh + 60 * om
    some (86400 * days y mo d + 3600 * h + 60 * mi + sec - if s[19]? = some '-' then -offset else offset)
  | _, _, _, _, _, _, _, _ => none

/-- The fields of the match stats that are used. -/
def ktxstats (s : Str) : Option KtxStats :=
  let str (j : Lean.Json) (k : String) : Except String Str := (j.getObjVal? k).bind fun v => v.getStr?.map (·.toList)
  let int (j : Lean.Json) (k : String) : Except String Int := (j.getObjVal? k).bind fun v => v.getInt?
  let player (j : Lean.Json) : Except String KtxPlayer := do
    return ⟨← str j "name", ← str j "team", ← int j "top-color", ← int j "bottom-color", ← int (← j.getObjVal? "stats") "frags",
      ← int j "ping", (j.getObjVal? "bot").isOk, ← str j "login"⟩
  let stats : Except String KtxStats := do
    let j ← Lean.Json.parse (String.ofList s)
    let players ← (← (← j.getObjVal? "players").getArr?).toList.mapM player
    return ⟨← str j "hostname", ← str j "ip", (← int j "port").toNat, players⟩
  stats.toOption

/-- The environment: overflow checks on, hash maps in order of insertion. -/
def env : Env where
  checks := true
  eofSeek := true
  order := fun _ l => l
  order_perm := fun _ _ => .refl _
  toUnicode := latin1
  toUtf8 := latin1
  unicodeSort := fun l => l.mergeSort fun a b => decide (String.ofList a ≤ String.ofList b)
  settings := fun s =>
    let l := settings s
    { mode := (value "mode" l).map (·.toList), epoch := (value "epoch" l).bind (·.toInt?),
      serverdemo := (value "serverdemo" l).map (·.toList), other := [] }
  clientinfo := fun s =>
    let l := settings s
    let str k := (value k l).map (·.toList)
    let int k := (value k l).bind (·.toInt?)
    ⟨str "name", str "team", int "topcolor", int "bottomcolor", int "*spectator", str "*auth", str "*flag", str "*client",
      int "*bot", int "chat"⟩
  ktxstats := ktxstats
  lowercase := fun s => s.map Char.toLower
  parseF64 := parseF64
  parseDate := parseDate

/-- An outcome as text. -/
def «show» {α : Type} (f : α → String) : R α → String
  | .ok a => f a
  | .err e => s!"error {repr e}"
  | .panic => "panic"
  | .hang => "hang"

/-- A text as it is. -/
def text (s : Str) : String := String.ofList s

/-- A list, one element after the other. -/
def items {α : Type} (f : α → String) (l : List α) : String := String.intercalate " | " (l.map f)

/-- One line for each function. -/
def report (data : Bytes) : List (String × (Unit → String)) :=
  let g := env
  let player (p : Player) := s!"{text p.name};{text p.team};{p.color.1},{p.color.2};{p.frags};{p.ping};{p.isBot}"
  let client (c : Client) := s!"{c.number};{text c.name};{text c.team};{c.color.1},{c.color.2};{c.isSpectator};{c.isBot}"
  let team (t : Team) := s!"{text t.name};{t.color.1},{t.color.2};{t.frags};{t.ping}"
  [("is_valid", fun _ => «show» toString (isValid g data)),
   ("is_aborted", fun _ => toString (isAborted data)),
   ("is_paused", fun _ => toString (isPaused data)),
   ("has_end_of_demo_print", fun _ => toString (hasEndOfDemoPrint data)),
   ("serverinfo_string", fun _ => «show» text (serverinfoString g data)),
   ("filename", fun _ => «show» text (filename g data)),
   ("clientinfo_strings", fun _ => «show» (items text) (clientinfoStrings g data)),
   ("clients", fun _ => «show» (items client) (clients g data)),
   ("player_names", fun _ => «show» (items text) (playerNames g data)),
   ("spectator_names", fun _ => «show» (items text) (spectatorNames g data)),
   ("team_names", fun _ => «show» (items text) (teamNames g data)),
   ("has_bot_players", fun _ => «show» toString (hasBotPlayers g data)),
   ("has_human_players", fun _ => «show» toString (hasHumanPlayers g data)),
   ("matchdate_string", fun _ => «show» text (matchdateString data)),
   ("timestamp", fun _ => «show» toString (timestamp g data)),
   ("ktxstats_string", fun _ => «show» text (ktxstatsString g data)),
   ("countdown_duration", fun _ => «show» toString (countdownDuration g data)),
   ("demo_duration", fun _ => «show» toString (demoDuration g data)),
   ("match_duration", fun _ => «show» toString (matchDuration g data)),
   ("ping_per_player_number", fun _ => «show» (items fun e => s!"{e.1.toNat}:{e.2}") (pingPerPlayerNumber g data)),
   ("frags_per_player_name", fun _ => «show» (items fun e => s!"{text e.1}:{e.2}") (fragsPerPlayerName g data)),
   ("flag_events_per_player_name", fun _ =>
      «show» (items fun e => s!"{text e.1}:{e.2.captures},{e.2.pickups},{e.2.returns},{e.2.carrierFrags},{e.2.defends}")
        (flagEventsPerPlayerName g data)),
   ("players_from_parsing", fun _ => «show» (items player) (playersFromParsing g data)),
   ("teams_from_parsing", fun _ => «show» (items team) ((playersFromParsing g data).bind (teamsFromPlayers g))),
   ("players", fun _ => «show» (items player) (players g data)),
   ("teams", fun _ => «show» (items fun t => team t ++ " = " ++ String.intercalate " + " (t.players.map player)) (teams g data)),
   ("server", fun _ => «show» (fun s => s!"{text s.hostname};{text s.address};{text s.ip};{s.port}") (server g data)),
   ("prints", fun _ => «show» (fun l => toString l.length) (prints g data))]

end Mvd.Conformance

/-- Reports on the file given. -/
def main (args : List String) : IO Unit := do
  for file in args do
    let data := (← IO.FS.readBinFile file).toList
    for (name, f) in Mvd.Conformance.report data do
      IO.println s!"{name}\t{(f ()).replace "\n" "\\n"}"
