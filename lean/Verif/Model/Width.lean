import Verif.Model.Matchdate
import Verif.Model.Duration
import Verif.Model.Ktxstats

/-! The functions whose models elsewhere compute offsets with natural numbers and slice without a check, once more:
offsets are `usize` numbers of `w` bits (64 or 32), every sum may overflow, every slice may be out of range.
Props/Width.lean shows when the two agree. -/

namespace Mvd

/-- qw/frame.rs:26-66 `frame::Info::from_data_and_index` with `w`-bit `usize` arithmetic. -/
def FrameInfo.fromDataAndIndexW (w : Nat) (g : Env) (data : Bytes) (index : Nat) : R FrameInfo :=
  (sliceFrom data index).bind fun tail =>
  let cur := Cursor.new tail
  match cur.readByte g with
  | (none, _) => .err .io
  | (some duration, cur) =>
    match cur.readByte g with
    | (none, _) => .err .io
    | (some byte, cur) =>
      let target := Target.ofByte byte
      let command := Command.ofByte byte
      let multiBytes := match target with
        | .multiple => LONG
        | _ => 0
      let cur := cur.skip multiBytes
      let read : Option Nat × Cursor := match command with
        | .read => cur.readU32 g
        | .set => (some (2 * LONG), cur)
        | _ => (some 0, cur)
      match read with
      | (none, _) => .err .io
      | (some bodySize, cur) =>
        let headerSize := cur.pos
        (addU g.checks w headerSize bodySize).bind fun size =>
        if data.length < size then .err .frameTooSmall
        else
          (addU g.checks w index headerSize).bind fun headerEnd =>
          (addU g.checks w index size).bind fun bodyEnd =>
          .ok {
            index := index
            duration := duration.toNat
            target := target
            command := command
            size := size
            headerSize := headerSize
            headerRange := (index, headerEnd)
            bodySize := bodySize
            bodyRange := (headerEnd, bodyEnd) }

/-- The frame loop (prints.rs:13-30, frags.rs:19-39, frags.rs:90-115, flags.rs:29-63, ping.rs:17-45,
duration.rs:64-71) with `w`-bit `usize` arithmetic. -/
def frameLoopW {σ : Type} (w : Nat) (g : Env) (data : Bytes) (body : σ → FrameInfo → R (Step σ)) : Nat → Nat → σ → R σ
  | 0, _, _ => .hang
  | fuel + 1, index, s =>
    match FrameInfo.fromDataAndIndexW w g data index with
    | .ok info =>
      (body s info).bind fun
        | .next s => (addU g.checks w index info.size).bind fun index => frameLoopW w g data body fuel index s
        | .brk s => .ok s
    | .err _ => .ok s
    | .panic => .panic
    | .hang => .hang

/-- duration.rs:61-71, the loop summing up frame durations, with `w`-bit `usize` arithmetic. -/
def totalMsW (w : Nat) (g : Env) (data : Bytes) (targetOffset fuel : Nat) : R Nat :=
  frameLoopW w g data (fun total info =>
    if info.index ≥ targetOffset then .ok (.brk total)
    else (addU g.checks 32 total info.duration).bind fun total => .ok (.next total)) fuel 0 0

/-- bytesextra.rs:3-12 `offsets_between` -/
def offsetsBetweenW (w : Nat) (g : Env) (data a b : Bytes) : R (Option (Nat × Nat)) :=
  match find a data with
  | none => .ok none
  | some i =>
    (addU g.checks w i a.length).bind fun indexFrom =>
    (sliceFrom data indexFrom).bind fun tail =>
    match find b tail with
    | none => .ok none
    | some j =>
      (addU g.checks w indexFrom j).bind fun indexTo =>
      .ok (if indexTo > indexFrom then some (indexFrom, indexTo) else none)

/-- serverinfo.rs:10-21 `serverinfo_string` -/
def serverinfoStringW (w : Nat) (g : Env) (data : Bytes) : R Str :=
  (addU g.checks w 256 1024).bind fun stop =>
  (sliceTo data stop).bind fun head =>
  (offsetsBetweenW w g head bytes!"fullserverinfo \"" bytes!"\"").bind fun
  | none => .err .serverinfoNotFound
  | some (from_, to_) => (slice data from_ to_).bind fun s => .ok (g.toUtf8 s)

/-- clientinfo.rs:27-49, the scan loop. -/
def clientScanW (w : Nat) (g : Env) (data : Bytes) (maxOffset : Nat) : Nat → Nat → List Str → R (List Str)
  | 0, _, _ => .hang
  | fuel + 1, offset, result =>
    (addU g.checks w offset MAX_LOOKAHEAD).bind fun stop =>
    (slice data offset stop).bind fun window =>
    match find bytes!"\\name\\" window with
    | none => .ok result
    | some o =>
      (addU g.checks w offset o).bind fun nameOffset =>
      (sliceTo data nameOffset).bind fun head =>
      match rfindByte 0 head with
      | none => .ok result
      | some z =>
        (addU g.checks w z 1).bind fun from_ =>
        (sliceFrom data from_).bind fun tail =>
        match findByte 0 tail with
        | none => .ok result
        | some l =>
          (addU g.checks w from_ l).bind fun to_ =>
          (subU g.checks w to_ from_).bind fun len =>
          if CLIENT_MIN_LEN ≤ len ∧ len ≤ CLIENT_MAX_LEN then
            (slice data from_ to_).bind fun s =>
            let result := result ++ [g.toUnicode s]
            if to_ ≥ maxOffset then .ok result else clientScanW w g data maxOffset fuel to_ result
          else .ok result

/-- clientinfo.rs:13-52 `clientinfo_strings` -/
def clientinfoStringsW (w : Nat) (g : Env) (data : Bytes) : R (List Str) :=
  match find CMD_SPAWN data with
  | none => .err .clientinfoNotFound
  | some offset =>
    (addU g.checks w offset (MAX_PLAYERS * MAX_LOOKAHEAD)).bind fun maxOffset =>
    clientScanW w g data maxOffset (data.length + 1) offset []

/-- matchdate.rs:28-46 `matchdate_string` -/
def matchdateStringW (w : Nat) (g : Env) (data : Bytes) : R Str :=
  match find MATCHDATE_NEEDLE data with
  | none => .err .matchdateNotFound
  | some i =>
    (addU g.checks w i MATCHDATE_NEEDLE.length).bind fun indexFrom =>
    (sliceFrom data indexFrom).bind fun tail =>
    match findByte 10 tail with
    | none => .err .invalidMatchdate
    | some j =>
      (addU g.checks w j indexFrom).bind fun indexTo =>
      (subU g.checks w indexTo indexFrom).bind fun length =>
      if MATCHDATE_MIN_LEN ≤ length ∧ length ≤ MATCHDATE_MAX_LEN then
        (slice data indexFrom indexTo).bind fun s =>
        match fromUtf8 s with
        | some s => .ok s
        | none => .err .utf8
      else .err .invalidMatchdate

/-- validate.rs:15-21 `has_end_of_demo_print`, with short-circuit `&&`. -/
def hasEndOfDemoPrintW (w : Nat) (g : Env) (data : Bytes) : R Bool :=
  if data.length > END_OF_DEMO.length then
    (subU g.checks w data.length END_OF_DEMO.length).bind fun start =>
    (sliceFrom data start).bind fun tail => .ok (tail == END_OF_DEMO)
  else .ok false

/-- qw/block.rs:16-31 `block::Info::try_from` -/
def BlockInfo.tryFromW (w : Nat) (g : Env) (value : Bytes) : R BlockInfo :=
  let cur := Cursor.new value
  match cur.readU32 g with
  | (none, _) => .err .io
  | (some n, cur) =>
    (subU g.checks w n SHORT).bind fun bodySize =>
    (addU g.checks w BLOCK_HEADER_SIZE bodySize).bind fun totalSize =>
    match cur.readU16 g with
    | (none, _) => .err .io
    | (some hidden, cur) =>
      match cur.readU16 g with
      | (none, _) => .err .io
      | (some number, _) =>
        .ok { bodySize := bodySize, totalSize := totalSize, hiddenMessage := HiddenMessage.ofU16 hidden, number := number }

/-- ktxstats.rs:25-38, the block loop. -/
def blockLoopW (w : Nat) (g : Env) (data : Bytes) : Nat → Nat → Bytes → R Bytes
  | 0, _, _ => .hang
  | fuel + 1, offset, content =>
    (addU g.checks w offset MULTI_HEADER_SIZE).bind fun start =>
    (sliceFrom data start).bind fun tail =>
    match BlockInfo.tryFromW w g tail with
    | .ok info =>
      if info.hiddenMessage ≠ .demoinfo then .ok content
      else
        (addU g.checks w offset TOTAL_HEADER_SIZE).bind fun offset =>
        (addU g.checks w offset info.bodySize).bind fun stop =>
        (slice data offset stop).bind fun body =>
        let content := content ++ body
        if info.number = 0 then .ok content else blockLoopW w g data fuel stop content
    | .err _ => .ok content
    | .panic => .panic
    | .hang => .hang

/-- ktxstats.rs:15-41 `ktxstats_string` -/
def ktxstatsStringW (w : Nat) (g : Env) (data : Bytes) : R Str :=
  match rfind bytes!"{\"version\": " data with
  | none => .err .ktxstatsNotFound
  | some offset =>
    (subU g.checks w offset TOTAL_HEADER_SIZE).bind fun offset =>
    (blockLoopW w g data (data.length + 1) offset []).bind fun content =>
    match fromUtf8 content with
    | some s => .ok s
    | none => .err .utf8

end Mvd
