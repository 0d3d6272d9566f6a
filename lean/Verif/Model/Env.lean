import Verif.Rust.Float
import Verif.Rust.Str
import Verif.Rust.Map

/-! Everything the code's result can depend on besides the demo data: build profile, standard library version,
hash map iteration order, and the external crates, which are not modelled further. -/

namespace Mvd

/-- `quake_serverinfo::Settings`: the entries the code looks at; the remaining ones are passed through as `other`. -/
structure Settings where
  mode : Option Str
  epoch : Option Int
  serverdemo : Option Str
  other : List (Str × Str)
deriving DecidableEq

/-- `quake_clientinfo::Clientinfo` (fields as in clientinfo.rs:69-80); numbers are `i32`. -/
structure Clientinfo where
  name : Option Str
  team : Option Str
  topcolor : Option Int
  bottomcolor : Option Int
  spectator : Option Int
  auth : Option Str
  flag : Option Str
  client : Option Str
  bot : Option Int
  chat : Option Int
deriving DecidableEq

/-- `ktxstats::v3::Player`: the fields read in player.rs:17-35; numbers are `i32`, `bot` records whether there is a
bot entry. -/
structure KtxPlayer where
  name : Str
  team : Str
  topColor : Int
  bottomColor : Int
  frags : Int
  ping : Int
  bot : Bool
  login : Str
deriving DecidableEq

/-- `ktxstats::v3::KtxstatsV3`: the fields read in server.rs and players.rs. -/
structure KtxStats where
  hostname : Str
  ip : Str
  port : Nat
  players : List KtxPlayer
deriving DecidableEq

/-- The environment of a call. -/
structure Env where
  /-- are overflow checks compiled in (dev/test profile) or not (release profile)? -/
  checks : Bool
  /-- does a failed `Cursor::read_exact` move the cursor to the end (newer std) or leave it (older std)? -/
  eofSeek : Bool
  /-- iteration order of the `n`-th hash map of a call -/
  order : {α : Type} → (n : Nat) → List α → List α
  /-- iteration visits every entry exactly once -/
  order_perm : ∀ {α : Type} (n : Nat) (l : List α), (order n l).Perm l
  /-- `quake_text::bytestr::to_unicode` -/
  toUnicode : Bytes → Str
  /-- `quake_text::bytestr::to_utf8` -/
  toUtf8 : Bytes → Str
  /-- `quake_text::unicode::sort` -/
  unicodeSort : List Str → List Str
  /-- `quake_serverinfo::Settings::from` -/
  settings : Str → Settings
  /-- `quake_clientinfo::Clientinfo::from` -/
  clientinfo : Str → Clientinfo
  /-- `ktxstats::v3::KtxstatsV3::try_from`, `none` on a parse error -/
  ktxstats : Str → Option KtxStats
  /-- `str::to_lowercase` -/
  lowercase : Str → Str
  /-- `str::parse::<f64>`, `none` on a parse error -/
  parseF64 : Str → Option F64
  /-- `chrono::DateTime::parse_from_str(_, "%Y-%m-%d %H:%M:%S%z")` and `to_utc`, as seconds since the epoch -/
  parseDate : Str → Option Int

end Mvd
