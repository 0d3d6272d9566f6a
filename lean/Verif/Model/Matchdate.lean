import Verif.Model.Timezone
import Verif.Model.Info

/-! src/matchdate.rs, src/timestamp.rs -/

namespace Mvd

/-- matchdate.rs:7-9 `MATCHDATE_NEEDLE` -/
def MATCHDATE_NEEDLE : Bytes := [0x08, 0x02, 0x6D, 0x61, 0x74, 0x63, 0x68, 0x64, 0x61, 0x74, 0x65, 0x3A, 0x20]
/-- matchdate.rs:10 `DATETIME_LEN` -/
def DATETIME_LEN : Nat := (bytes!"yyyy-mm-dd hh:mm:ss").length
/-- matchdate.rs:11 `MIN_LEN` -/
def MATCHDATE_MIN_LEN : Nat := (bytes!"yyyy-mm-dd hh:mm:ss ab").length
/-- matchdate.rs:12 `MAX_LEN` -/
def MATCHDATE_MAX_LEN : Nat := (bytes!"yyyy-mm-dd hh:mm:ss abcde").length

/-- matchdate.rs:28-46 `matchdate_string` (the slice `data[index_from..]` is always in range). -/
def matchdateString (data : Bytes) : R Str :=
  match find MATCHDATE_NEEDLE data with
  | none => .err .matchdateNotFound
  | some i =>
    let indexFrom := i + MATCHDATE_NEEDLE.length
    match findByte 10 (data.drop indexFrom) with
    | none => .err .invalidMatchdate
    | some length =>
      let indexTo := length + indexFrom
      if MATCHDATE_MIN_LEN ≤ indexTo - indexFrom ∧ indexTo - indexFrom ≤ MATCHDATE_MAX_LEN then
        (slice data indexFrom indexTo).bind fun s =>
        match fromUtf8 s with
        | some s => .ok s
        | none => .err .utf8
      else .err .invalidMatchdate

/-- matchdate.rs:20-26 `replace_tz_abbr_with_offset` -/
def replaceTzAbbrWithOffset (timestamp : Str) : R Str :=
  (strFrom timestamp (DATETIME_LEN + 1)).bind fun tzAbbr =>
  (utcOffset tzAbbr).bind fun
    | none => .err .invalidTimezone
    | some tzOffset => (strTo timestamp DATETIME_LEN).bind fun datetime => .ok (datetime ++ tzOffset)

/-- matchdate.rs:14-18 `matchdate`; a `DateTime<Utc>` is its number of seconds since the epoch. -/
def matchdate (g : Env) (data : Bytes) : R Int :=
  (matchdateString data).bind fun raw =>
  (replaceTzAbbrWithOffset raw).bind fun fixed =>
  match g.parseDate fixed with
  | some t => .ok t
  | none => .err .parseDate

/-- timestamp.rs:11-21 `timestamp_from_epoch`. `epoch` is an `i32`, for which `timestamp_opt` always is `Single`. -/
def timestampFromEpoch (g : Env) (data : Bytes) : R Int :=
  (serverinfo g data).bind fun s =>
  match s.epoch with
  | none => .err .epochNotFound
  | some epoch => .ok epoch

/-- timestamp.rs:7-9 `timestamp` -/
def timestamp (g : Env) (data : Bytes) : R Int := (timestampFromEpoch g data).orElse (matchdate g data)

end Mvd
