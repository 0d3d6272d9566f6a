import Verif.Model.FragEvent
import Verif.Model.Flags

/-! src/qw/fragevent.rs, src/qw/flagevent.rs and src/flags.rs once more, with strings searched and cut as Rust does it:
`str::find` gives a byte offset in the UTF-8 encoding, and slicing panics unless the offset is on a character boundary.
Model/FragEvent.lean and Model/FlagEvent.lean do the same on characters; Props/Utf8Events.lean shows that they agree. -/

namespace Mvd

/-- `value.find(p)`: the byte offset of the first occurrence of the bytes of `p`. -/
def strFind (value p : Str) : Option Nat := find (asBytes p) (asBytes value)

/-- `value.split_once(delim)`: `(&value[..i], &value[i + delim.len()..])` at the byte offset found. -/
def strSplitOnce (value delim : Str) : R (Option (Str × Str)) :=
  match strFind value delim with
  | none => .ok none
  | some i =>
    (strTo value i).bind fun a =>
    (strFrom value (i + (asBytes delim).length)).bind fun b => .ok (some (a, b))

/-- `value.ends_with(suffix)`, on the bytes. -/
def strEndsWith (value suffix : Str) : Bool := (asBytes suffix).isSuffixOf (asBytes value)

/-- `value.trim_end_matches(suffix)`, cutting bytes off the end; the fuel is the number of bytes. -/
def strTrimEndMatches (suffix : Str) : Nat → Str → R Str
  | 0, value => .ok value
  | n + 1, value =>
    if suffix ≠ [] ∧ strEndsWith value suffix then
      (strTo value ((asBytes value).length - (asBytes suffix).length)).bind fun t => strTrimEndMatches suffix n t
    else .ok value

/-- qw/fragevent.rs:58-70 `pattern_match` -/
def strPatternMatch (value pattern : Str) : R (Option (Str × Str)) :=
  if (strFind pattern WILDCARD).isSome then
    (strSplitOnce pattern WILDCARD).bind fun
      | none => .ok none
      | some (prefix_, suffix) =>
        (strSplitOnce value prefix_).bind fun
          | none => .ok none
          | some (x, rest) =>
            (strSplitOnce rest suffix).bind fun
              | none => .ok none
              | some (y, _) => .ok (some (x, y))
  else strSplitOnce value pattern

/-- `PATTERNS.iter().find_map(|&p| value.find(p))` -/
def strFindAny (patterns : List Str) (value : Str) : Option Nat := patterns.findSome? fun p => strFind value p

/-- qw/fragevent.rs:44-52, the loop over the two-name patterns. -/
def strFragPatternLoop (value : Str) : List Str → R FragEvent
  | [] => .err .fragEvent
  | p :: ps =>
    (strPatternMatch value p).bind fun
      | some (x, y) => if X_FRAG_Y.contains p then .ok (.frag x y) else .ok (.frag y x)
      | none => strFragPatternLoop value ps

/-- qw/fragevent.rs:21-55 `FragEvent::try_from` -/
def FragEvent.strTryFrom (value : Str) : R FragEvent :=
  match strFindAny X_DEATH value with
  | some pos => (strTo value pos).bind fun player => .ok (.death player)
  | none =>
  match strFindAny X_SUICIDE_BY_WEAPON value with
  | some pos => (strTo value pos).bind fun player => .ok (.suicideByWeapon player)
  | none =>
  if strEndsWith value X_SUICIDE then
    (strTrimEndMatches X_SUICIDE (asBytes value).length value).bind fun player => .ok (.suicide player)
  else
  match strFindAny X_TEAMKILL_UNKNOWN value with
  | some pos => (strTo value pos).bind fun killer => .ok (.teamkill killer)
  | none =>
  match strFindAny UNKNOWN_TEAMKILL_X value with
  | some pos => (strTo value pos).bind fun victim => .ok (.teamkillByUnknown victim)
  | none => strFragPatternLoop value (X_FRAG_Y ++ Y_FRAG_X)

/-- qw/flagevent.rs:30-45, the loop over the print types. -/
def strFlagPrintLoop (value : Str) : List ((Str → FlagEvent) × List Str) → R FlagEvent
  | [] => .err .flagEvent
  | (event, needles) :: rest =>
    match strFindAny needles value with
    | some pos => (strTo value pos).bind fun player => .ok (event player)
    | none => strFlagPrintLoop value rest

/-- qw/flagevent.rs:19-48 `FlagEvent::try_from` -/
def FlagEvent.strTryFrom (value : Str) : R FlagEvent := strFlagPrintLoop value flagPrintTypes

/-- flags.rs:110-119 `is_message_suffix` -/
def strIsMessageSuffix (g : Env) (print : Bytes) : Bool :=
  (X_RETURNED_FLAG ++ X_GOT_FLAG ++ X_CAPTURED_FLAG).any fun n => strEndsWith (g.toUnicode print) n

end Mvd
