import Verif.Model.Env
import Verif.Rust.Search

/-! src/bytesextra.rs, src/serverinfo.rs, src/filename.rs, src/clientinfo.rs, src/client.rs, src/clients.rs,
src/validate.rs, src/paused.rs, src/aborted.rs -/

namespace Mvd

/-- bytesextra.rs:3-12 `offsets_between` (the slice `data[index_from..]` is always in range). -/
def offsetsBetween (data a b : Bytes) : Option (Nat × Nat) :=
  match find a data with
  | none => none
  | some i =>
    let indexFrom := i + a.length
    match find b (data.drop indexFrom) with
    | none => none
    | some j =>
      let indexTo := indexFrom + j
      if indexTo > indexFrom then some (indexFrom, indexTo) else none

/-- serverinfo.rs:10-21 `serverinfo_string` -/
def serverinfoString (g : Env) (data : Bytes) : R Str :=
  let maxOffset := 256
  let maxSize := 1024
  (sliceTo data (maxOffset + maxSize)).bind fun head =>
  match offsetsBetween head bytes!"fullserverinfo \"" bytes!"\"" with
  | none => .err .serverinfoNotFound
  | some (from_, to_) => (slice data from_ to_).bind fun s => .ok (g.toUtf8 s)

/-- serverinfo.rs:6-8 `serverinfo` -/
def serverinfo (g : Env) (data : Bytes) : R Settings :=
  (serverinfoString g data).bind fun s => .ok (g.settings s)

/-- filename.rs:5-10 `filename` -/
def filename (g : Env) (data : Bytes) : R Str :=
  (serverinfo g data).bind fun s =>
  match s.serverdemo with
  | none => .err .filenameNotFound
  | some d => .ok d

/-- clientinfo.rs:14 `CMD_SPAWN` -/
def CMD_SPAWN : Bytes := [0x09, 0x63, 0x6D, 0x64, 0x20, 0x73, 0x70, 0x61, 0x77, 0x6E]

/-- clientinfo.rs:19 `MAX_PLAYERS` -/
def MAX_PLAYERS : Nat := 24
/-- clientinfo.rs:20 `MAX_LOOKAHEAD` -/
def MAX_LOOKAHEAD : Nat := 512
/-- clientinfo.rs:22 `MIN_LEN` -/
def CLIENT_MIN_LEN : Nat := (bytes!"\\name\\ ").length
/-- clientinfo.rs:23 `MAX_LEN` -/
def CLIENT_MAX_LEN : Nat := 256

/-- clientinfo.rs:27-49, the scan loop. `data[..name_offset]` and `data[from..]` are always in range. -/
def clientScan (g : Env) (data : Bytes) (maxOffset : Nat) : Nat → Nat → List Str → R (List Str)
  | 0, _, _ => .hang
  | fuel + 1, offset, result =>
    (slice data offset (offset + MAX_LOOKAHEAD)).bind fun window =>
    match find bytes!"\\name\\" window with
    | none => .ok result
    | some o =>
      let nameOffset := offset + o
      match rfindByte 0 (data.take nameOffset) with
      | none => .ok result
      | some z =>
        let from_ := z + 1
        match findByte 0 (data.drop from_) with
        | none => .ok result
        | some l =>
          let to_ := from_ + l
          if CLIENT_MIN_LEN ≤ to_ - from_ ∧ to_ - from_ ≤ CLIENT_MAX_LEN then
            (slice data from_ to_).bind fun s =>
            let result := result ++ [g.toUnicode s]
            let offset := to_
            if offset ≥ maxOffset then .ok result else clientScan g data maxOffset fuel offset result
          else .ok result

/-- clientinfo.rs:13-52 `clientinfo_strings` -/
def clientinfoStrings (g : Env) (data : Bytes) : R (List Str) :=
  match find CMD_SPAWN data with
  | none => .err .clientinfoNotFound
  | some offset => clientScan g data (offset + MAX_PLAYERS * MAX_LOOKAHEAD) (data.length + 1) offset []

/-- clientinfo.rs:5-11 `clientinfo` -/
def clientinfo (g : Env) (data : Bytes) : R (List Clientinfo) :=
  (clientinfoStrings g data).bind fun strings => .ok (strings.map g.clientinfo)

/-- client.rs:3-13 `Client` -/
structure Client where
  number : Nat
  name : Str
  team : Str
  color : Nat × Nat
  isSpectator : Bool
  isBot : Bool
  authUsername : Option Str
  authCc : Option Str
deriving DecidableEq

/-- client.rs:15-31 `Client::from` -/
def Client.ofClientinfo (value : Clientinfo) : Client where
  number := 0
  name := value.name.getD []
  team := value.team.getD []
  color := (asU8 (value.topcolor.getD 0), asU8 (value.bottomcolor.getD 0))
  isSpectator := value.spectator.any (· ≠ 0)
  isBot := value.bot.any (· ≠ 0)
  authUsername := value.auth
  authCc := value.flag

/-- clients.rs:8-19 `clients` -/
def clients (g : Env) (data : Bytes) : R (List Client) :=
  (clientinfo g data).bind fun infos =>
  .ok (infos.zipIdx.map fun (info, number) => { Client.ofClientinfo info with number := asU8 number })

/-- clients.rs:33-40 `player_clients` -/
def playerClients (g : Env) (data : Bytes) : R (List Client) :=
  (clients g data).bind fun cs => .ok (cs.filter fun c => !c.isSpectator)

/-- clients.rs:50-57 `spectator_clients` -/
def spectatorClients (g : Env) (data : Bytes) : R (List Client) :=
  (clients g data).bind fun cs => .ok (cs.filter fun c => c.isSpectator)

/-- clients.rs:21-27 `has_bot_players` -/
def hasBotPlayers (g : Env) (data : Bytes) : R Bool :=
  (playerClients g data).bind fun cs =>
  if cs.any (·.isBot) then .ok true else .ok (rfind bytes!"\"bot\": {" data).isSome

/-- clients.rs:29-31 `has_human_players` -/
def hasHumanPlayers (g : Env) (data : Bytes) : R Bool :=
  (playerClients g data).bind fun cs => .ok (cs.any fun c => !c.isBot)

/-- clients.rs:42-48 `player_names` -/
def playerNames (g : Env) (data : Bytes) : R (List Str) :=
  (playerClients g data).bind fun cs => .ok (g.unicodeSort (cs.map (·.name)))

/-- clients.rs:59-65 `spectator_names` -/
def spectatorNames (g : Env) (data : Bytes) : R (List Str) :=
  (spectatorClients g data).bind fun cs => .ok (g.unicodeSort (cs.map (·.name)))

/-- clients.rs:67-76 `team_names` -/
def teamNames (g : Env) (data : Bytes) : R (List Str) :=
  (playerClients g data).bind fun cs => .ok (dedup (g.unicodeSort (cs.map (·.team))))

/-- validate.rs:16-18 `NEEDLE` -/
def END_OF_DEMO : Bytes := [0x00, 0x02, 0x45, 0x6E, 0x64, 0x4F, 0x66, 0x44, 0x65, 0x6D, 0x6F, 0x00]

/-- validate.rs:15-21 `has_end_of_demo_print` (the slice is in range by the first conjunct). -/
def hasEndOfDemoPrint (data : Bytes) : Bool :=
  data.length > END_OF_DEMO.length && data.drop (data.length - END_OF_DEMO.length) == END_OF_DEMO

/-- validate.rs:11-13 `has_clients` -/
def hasClients (g : Env) (data : Bytes) : R Bool := (clientinfo g data).isOkAnd fun c => !c.isEmpty

/-- validate.rs:3-9 `is_valid`, with short-circuit `&&`. -/
def isValid (g : Env) (data : Bytes) : R Bool :=
  if data.length ≥ 1024 then
    if hasEndOfDemoPrint data then
      ((serverinfo g data).isOk).bind fun
        | true => hasClients g data
        | false => .ok false
    else .ok false
  else .ok false

/-- paused.rs:10-13 `IS_PAUSED_NEEDLE` -/
def IS_PAUSED_NEEDLE : Bytes :=
  [0x53, 0x65, 0x72, 0x76, 0x65, 0x72, 0x20, 0x69, 0x73, 0x20, 0x70, 0x61, 0x75, 0x73, 0x65, 0x64]

/-- paused.rs:16-18 `PAUSED_THE_GAME_NEEDLE` -/
def PAUSED_THE_GAME_NEEDLE : Bytes :=
  [0x70, 0x61, 0x75, 0x73, 0x65, 0x64, 0x20, 0x74, 0x68, 0x65, 0x20, 0x67, 0x61, 0x6D, 0x65]

/-- paused.rs:4-21 `is_paused` -/
def isPaused (data : Bytes) : Bool :=
  if hasEndOfDemoPrint data then false
  else (rfind IS_PAUSED_NEEDLE data).isSome || (rfind PAUSED_THE_GAME_NEEDLE data).isSome

/-- aborted.rs:3-7 `MATCH_STOPPED_PRINT` -/
def MATCH_STOPPED_PRINT : Bytes :=
  [0x08, 0x02, 0xCD, 0xE1, 0xF4, 0xE3, 0xE8, 0x20, 0xF3, 0xF4, 0xEF, 0xF0, 0xF0, 0xE5, 0xE4, 0x20,
    0xE2, 0xF9, 0x20, 0xED, 0xE1, 0xEA, 0xEF, 0xF2, 0xE9, 0xF4, 0xF9, 0x20, 0xF6, 0xEF, 0xF4, 0xE5,
    0x0A, 0x00]

/-- aborted.rs:9-11 `is_aborted` -/
def isAborted (data : Bytes) : Bool := (find MATCH_STOPPED_PRINT data).isSome

end Mvd
