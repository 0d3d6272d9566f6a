import Verif.Model.Env
import Verif.Rust.Search

/-! src/qw/fragprint.rs, src/qw/fragevent.rs. Strings are character lists: `find`, `split_once`, `ends_with` and the
slices at found positions give the same result on characters as on UTF-8 bytes (shown in Props/Utf8Events.lean). -/

namespace Mvd

/-- qw/fragprint.rs:2 `WILDCARD` -/
def WILDCARD : Str := chars!"\"??\""

/-- qw/fragprint.rs:4-22 `X_DEATH` -/
def X_DEATH : List Str := [
  chars!" sleeps with the fishes",
  chars!" sucks it down",
  chars!" gulped a load of slime",
  chars!" can't exist on slime alone",
  chars!" burst into flames",
  chars!" turned into hot slag",
  chars!" visits the Volcano God",
  chars!" cratered",
  chars!" fell to his death",
  chars!" fell to her death",
  chars!" blew up",
  chars!" was spiked",
  chars!" was zapped",
  chars!" ate a lavaball",
  chars!" died",
  chars!" tried to leave",
  chars!" was squished"]

/-- qw/fragprint.rs:24-36 `X_SUICIDE_BY_WEAPON` -/
def X_SUICIDE_BY_WEAPON : List Str := [
  chars!" tries to put the pin back in",
  chars!" becomes bored with life",
  chars!" discovers blast radius",
  chars!" electrocutes himself",
  chars!" electrocutes herself",
  chars!" railcutes himself",
  chars!" railcutes herself",
  chars!" discharges into the slime",
  chars!" discharges into the lava",
  chars!" discharges into the water",
  chars!" heats up the water"]

/-- qw/fragprint.rs:38 `X_SUICIDE` -/
def X_SUICIDE : Str := chars!" suicides"

/-- qw/fragprint.rs:40-47 `X_TEAMKILL_UNKNOWN` -/
def X_TEAMKILL_UNKNOWN : List Str := [
  chars!" squished a teammate",
  chars!" mows down a teammate",
  chars!" checks his glasses",
  chars!" checks her glasses",
  chars!" gets a frag for the other team",
  chars!" loses another friend"]

/-- qw/fragprint.rs:49-56 `UNKNOWN_TEAMKILL_X` -/
def UNKNOWN_TEAMKILL_X : List Str := [
  chars!" was telefragged by his teammate",
  chars!" was telefragged by her teammate",
  chars!" was crushed by his teammate",
  chars!" was crushed by her teammate",
  chars!" was jumped by his teammate",
  chars!" was jumped by her teammate"]

/-- qw/fragprint.rs:58-63 `X_FRAG_Y` -/
def X_FRAG_Y : List Str := [
  chars!" stomps ",
  chars!" squishes ",
  chars!" rips \"??\" a new one"]

/-- qw/fragprint.rs:65-94 `Y_FRAG_X` -/
def Y_FRAG_X : List Str := [
  chars!" was ax-murdered by ",
  chars!" softens \"??\"'s fall",
  chars!" tried to catch ",
  chars!" was crushed by ",
  chars!" was jumped by ",
  chars!" chewed on \"??\"'s boomstick",
  chars!" was body pierced by ",
  chars!" was nailed by ",
  chars!" was railed by ",
  chars!" was telefragged by ",
  chars!" accepts \"??\"'s discharge",
  chars!" drains \"??\"'s batteries",
  chars!" was lead poisoned by ",
  chars!" accepts \"??\"'s shaft",
  chars!" ate 2 loads of \"??\"'s buckshot",
  chars!" was perforated by ",
  chars!" was punctured by ",
  chars!" was ventilated by ",
  chars!" ate 8 loads of \"??\"'s buckshot",
  chars!" gets a natural disaster from ",
  chars!" rides \"??\"'s rocket",
  chars!" was gibbed by \"??\"'s rocket",
  chars!" was straw-cuttered by ",
  chars!" eats \"??\"'s pineapple",
  chars!" was gibbed by \"??\"'s grenade",
  chars!" was brutalized by \"??\"'s quad rocket",
  chars!" was smeared by \"??\"'s quad rocket",
  chars!" was hooked by "]

/-- qw/fragevent.rs:8-16 `FragEvent` -/
inductive FragEvent where
  | death (player : Str)
  | suicide (player : Str)
  | suicideByWeapon (player : Str)
  | frag (killer victim : Str)
  | teamkill (killer : Str)
  | teamkillByUnknown (victim : Str)
deriving DecidableEq, Repr

/-- qw/fragevent.rs:58-70 `pattern_match` -/
def patternMatch (value pattern : Str) : Option (Str × Str) :=
  if (find WILDCARD pattern).isSome then
    match splitOnce pattern WILDCARD with
    | none => none
    | some (prefix_, suffix) =>
      match splitOnce value prefix_ with
      | none => none
      | some (x, rest) =>
        match splitOnce rest suffix with
        | none => none
        | some (y, _) => some (x, y)
  else splitOnce value pattern

/-- `PATTERNS.iter().find_map(|&p| value.find(p))` -/
def findAny (patterns : List Str) (value : Str) : Option Nat := patterns.findSome? fun p => find p value

/-- qw/fragevent.rs:44-52, the loop over the two-name patterns. -/
def fragPatternLoop (value : Str) : List Str → R FragEvent
  | [] => .err .fragEvent
  | p :: ps =>
    match patternMatch value p with
    | some (x, y) => if X_FRAG_Y.contains p then .ok (.frag x y) else .ok (.frag y x)
    | none => fragPatternLoop value ps

/-- qw/fragevent.rs:21-55 `FragEvent::try_from` -/
def FragEvent.tryFrom (value : Str) : R FragEvent :=
  match findAny X_DEATH value with
  | some pos => .ok (.death (value.take pos))
  | none =>
  match findAny X_SUICIDE_BY_WEAPON value with
  | some pos => .ok (.suicideByWeapon (value.take pos))
  | none =>
  if endsWith value X_SUICIDE then .ok (.suicide (trimEndMatches value X_SUICIDE))
  else
  match findAny X_TEAMKILL_UNKNOWN value with
  | some pos => .ok (.teamkill (value.take pos))
  | none =>
  match findAny UNKNOWN_TEAMKILL_X value with
  | some pos => .ok (.teamkillByUnknown (value.take pos))
  | none => fragPatternLoop value (X_FRAG_Y ++ Y_FRAG_X)

end Mvd
