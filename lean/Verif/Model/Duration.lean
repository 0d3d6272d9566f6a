import Verif.Model.Ktxstats
import Verif.Model.Matchdate

/-! src/duration.rs. A `Duration` is its number of nanoseconds. -/

namespace Mvd

/-- duration.rs:61-71, the loop summing up frame durations; the `u32` sum may overflow. -/
def totalMs (g : Env) (data : Bytes) (targetOffset : Nat) : R Nat :=
  frameLoopFrom g data 0 0 fun total info =>
    if info.index ≥ targetOffset then .ok (.brk total)
    else (addU g.checks 32 total info.duration).bind fun total => .ok (.next total)

/-- duration.rs:73 `Duration::from_secs_f32(total_ms as f32 / 1000.0)` -/
def msToDuration (ms : Nat) : Nat := durationFromSecsF32 (f32Div (natAsF32 ms) 1000)

/-- duration.rs:60-74 `duration_until_offset` -/
def durationUntilOffset (g : Env) (data : Bytes) (targetOffset : Nat) : R Nat :=
  (totalMs g data targetOffset).bind fun ms => .ok (msToDuration ms)

/-- `serverinfo(data).is_ok_and(|s| s.mode == Some("hoonymode".to_string()))` (duration.rs:10, 36) -/
def isHoonymode (g : Env) (data : Bytes) : R Bool :=
  (serverinfo g data).isOkAnd fun s => s.mode = some chars!"hoonymode"

/-- duration.rs:9-18 `countdown_duration` -/
def countdownDuration (g : Env) (data : Bytes) : R Nat :=
  (isHoonymode g data).bind fun
    | true => .ok 0
    | false =>
      match find MATCHDATE_NEEDLE data with
      | none => .err .countdownNotFound
      | some offset => durationUntilOffset g data offset

/-- duration.rs:21-24 `NEEDLE_MATCH_OVER` -/
def NEEDLE_MATCH_OVER : Bytes :=
  [0x54, 0x68, 0x65, 0x20, 0x6D, 0x61, 0x74, 0x63, 0x68, 0x20, 0x69, 0x73, 0x20, 0x6F, 0x76, 0x65, 0x72]

/-- duration.rs:25-28 `NEEDLE_STANDBY` -/
def NEEDLE_STANDBY : Bytes :=
  [0x34, 0x73, 0x74, 0x61, 0x74, 0x75, 0x73, 0x00, 0x53, 0x74, 0x61, 0x6E, 0x64, 0x62, 0x79, 0x00]

/-- duration.rs:20-33 `demo_duration` -/
def demoDuration (g : Env) (data : Bytes) : R Nat :=
  let offset := (rfind NEEDLE_MATCH_OVER data).getD ((rfind NEEDLE_STANDBY data).getD data.length)
  durationUntilOffset g data offset

/-- duration.rs:43-47 `match_duration_from_seeking` -/
def matchDurationFromSeeking (g : Env) (data : Bytes) : R Nat :=
  (demoDuration g data).bind fun end_ =>
  ((countdownDuration g data).unwrapOr 0).bind fun begin_ => durationSub end_ begin_

/-- duration.rs:49-58 `match_duration_from_ktxstats` -/
def matchDurationFromKtxstats (g : Env) (data : Bytes) : R Nat :=
  (ktxstatsString g data).bind fun s =>
  match offsetsBetween (asBytes s) bytes!"\"duration\": " bytes!"," with
  | none => .err .durationNotFound
  | some (from_, to_) =>
    (strSlice s from_ to_).bind fun text =>
    match g.parseF64 text with
    | none => .err .parseFloat
    | some x => durationFromSecsF64 x

/-- duration.rs:35-41 `match_duration` -/
def matchDuration (g : Env) (data : Bytes) : R Nat :=
  (isHoonymode g data).bind fun
    | true => matchDurationFromSeeking g data
    | false => (matchDurationFromKtxstats g data).orElse (matchDurationFromSeeking g data)

end Mvd
