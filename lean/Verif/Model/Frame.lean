import Verif.Model.Cursor

/-! src/qw/frame.rs, src/qw/block.rs, and the frame loop shared by all frame-walking functions. -/

namespace Mvd

/-- qw/primitives.rs:4 -/
def SHORT : Nat := 2
/-- qw/primitives.rs:5 -/
def LONG : Nat := 4

/-- qw/frame.rs:9 `HEADER_SIZE` -/
def FRAME_HEADER_SIZE : Nat := SHORT + LONG
/-- qw/frame.rs:10 `MULTI_HEADER_SIZE` -/
def MULTI_HEADER_SIZE : Nat := FRAME_HEADER_SIZE + LONG

/-- qw/frame.rs:12-23 `frame::Info`; a `Range` is a pair (start, end). -/
structure FrameInfo where
  duration : Nat
  target : Target
  command : Command
  index : Nat
  size : Nat
  headerSize : Nat
  headerRange : Nat × Nat
  bodySize : Nat
  bodyRange : Nat × Nat
deriving DecidableEq, Repr

/-- qw/frame.rs:26-66 `frame::Info::from_data_and_index`. `usize` sums cannot overflow here on a 64-bit target
(`index` is at most the data length, `body_size < 2^32`; shown in Props/Width.lean), so they are plain additions. -/
def FrameInfo.fromDataAndIndex (g : Env) (data : Bytes) (index : Nat) : R FrameInfo :=
  (sliceFrom data index).bind fun tail =>
  let cur := Cursor.new tail
  match cur.readByte g with
  | (none, _) => .err .io
  | (some duration, cur) =>
    match cur.readByte g with
    | (none, _) => .err .io
    | (some byte, cur) =>
      let target := Target.ofByte byte
      let command := Command.ofByte byte
      let multiBytes := match target with
        | .multiple => LONG
        | _ => 0
      let cur := cur.skip multiBytes
      let read : Option Nat × Cursor := match command with
        | .read => cur.readU32 g
        | .set => (some (2 * LONG), cur)
        | _ => (some 0, cur)
      match read with
      | (none, _) => .err .io
      | (some bodySize, cur) =>
        let headerSize := cur.pos
        let size := headerSize + bodySize
        if data.length < size then .err .frameTooSmall
        else .ok {
          index := index
          duration := duration.toNat
          target := target
          command := command
          size := size
          headerSize := headerSize
          headerRange := (index, index + headerSize)
          bodySize := bodySize
          bodyRange := (index + headerSize, index + size) }

/-- What a loop body decides: go on with the next frame, or `break`. -/
inductive Step (σ : Type) where
  | next (s : σ)
  | brk (s : σ)

/-- The loop `while let Ok(info) = frame::Info::from_data_and_index(data, index) { body; index += info.size; }`
(prints.rs:13-30, frags.rs:19-39, frags.rs:90-115, flags.rs:29-63, ping.rs:17-45, duration.rs:64-71; every
`continue` in these bodies also advances `index` by `info.size`). -/
def frameLoop {σ : Type} (g : Env) (data : Bytes) (body : σ → FrameInfo → R (Step σ)) : Nat → Nat → σ → R σ
  | 0, _, _ => .hang
  | fuel + 1, index, s =>
    match FrameInfo.fromDataAndIndex g data index with
    | .ok info =>
      (body s info).bind fun
        | .next s => frameLoop g data body fuel (index + info.size) s
        | .brk s => .ok s
    | .err _ => .ok s
    | .panic => .panic
    | .hang => .hang

/-- The loop with enough fuel for any data. -/
def frameLoopFrom {σ : Type} (g : Env) (data : Bytes) (index : Nat) (s : σ) (body : σ → FrameInfo → R (Step σ)) : R σ :=
  frameLoop g data body (data.length + 1) index s

/-- `&data[info.body_range]` -/
def FrameInfo.body (info : FrameInfo) (data : Bytes) : R Bytes := slice data info.bodyRange.1 info.bodyRange.2

/-- qw/block.rs:6 `HEADER_SIZE` -/
def BLOCK_HEADER_SIZE : Nat := LONG + 2 * SHORT

/-- qw/block.rs:8-14 `block::Info` -/
structure BlockInfo where
  bodySize : Nat
  totalSize : Nat
  hiddenMessage : HiddenMessage
  number : Nat
deriving DecidableEq, Repr

/-- qw/block.rs:16-31 `block::Info::try_from`; `usize` has 64 bits. -/
def BlockInfo.tryFrom (g : Env) (value : Bytes) : R BlockInfo :=
  let cur := Cursor.new value
  match cur.readU32 g with
  | (none, _) => .err .io
  | (some n, cur) =>
    (subU g.checks 64 n SHORT).bind fun bodySize =>
    (addU g.checks 64 BLOCK_HEADER_SIZE bodySize).bind fun totalSize =>
    match cur.readU16 g with
    | (none, _) => .err .io
    | (some hidden, cur) =>
      match cur.readU16 g with
      | (none, _) => .err .io
      | (some number, _) =>
        .ok { bodySize := bodySize, totalSize := totalSize, hiddenMessage := HiddenMessage.ofU16 hidden, number := number }

end Mvd
