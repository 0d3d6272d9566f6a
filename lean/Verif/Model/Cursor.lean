import Verif.Model.Env
import Verif.Model.Prot

/-! `std::io::Cursor<&[u8]>` and the readers of src/qw/primitives.rs and src/qw/message/*.rs.
A read returns `none` for `Err(_)`; the error text is never looked at by the callers. -/

namespace Mvd

/-- `Cursor`: position and unread bytes (the buffer from the position on, empty if the position is past the end). -/
structure Cursor where
  pos : Nat
  rest : Bytes
deriving DecidableEq, Repr

namespace Cursor

/-- `Cursor::new(buf)`. -/
def new (buf : Bytes) : Cursor := ⟨0, buf⟩

/-- `cur.set_position(cur.position() + n)`. -/
def skip (c : Cursor) (n : Nat) : Cursor := ⟨c.pos + n, c.rest.drop n⟩

/-- `cur.read_exact(&mut [0; n])`. -/
def readExact (g : Env) (c : Cursor) (n : Nat) : Option Bytes × Cursor :=
  if n ≤ c.rest.length then (some (c.rest.take n), c.skip n)
  else (none, if g.eofSeek then c.skip c.rest.length else c)

/-- qw/primitives.rs:13-18 `read_byte` -/
def readByte (g : Env) (c : Cursor) : Option UInt8 × Cursor :=
  match c.readExact g 1 with
  | (some [b], c) => (some b, c)
  | (_, c) => (none, c)

/-- qw/primitives.rs:20-25 `read_u16` -/
def readU16 (g : Env) (c : Cursor) : Option Nat × Cursor :=
  match c.readExact g 2 with
  | (some [a, b], c) => (some (a.toNat + 256 * b.toNat), c)
  | (_, c) => (none, c)

/-- qw/primitives.rs:27-32 `read_u32` -/
def readU32 (g : Env) (c : Cursor) : Option Nat × Cursor :=
  match c.readExact g 4 with
  | (some [a, b, d, e], c) => (some (a.toNat + 256 * b.toNat + 65536 * d.toNat + 16777216 * e.toNat), c)
  | (_, c) => (none, c)

/-- Loop of `read_bstring` over the unread bytes: result and number of bytes consumed. One round per byte, so the
recursion is on the unread bytes; at the end of the buffer the read fails with everything consumed. -/
def bstringLoop : Bytes → Bytes → Option Bytes × Nat
  | _, [] => (none, 0)
  | result, b :: t =>
    if b = 0 then (some result, 1)
    else
      let (r, n) := bstringLoop (result ++ [b]) t
      (r, n + 1)

/-- qw/primitives.rs:34-46 `read_bstring` -/
def readBstring (c : Cursor) : Option Bytes × Cursor :=
  let (r, n) := bstringLoop [] c.rest
  (r, c.skip n)

/-- qw/message/message_type.rs:6-10 `read_message_type` -/
def readMessageType (g : Env) (c : Cursor) : Option MessageType × Cursor :=
  match c.readByte g with
  | (some b, c) => (some (MessageType.ofByte b), c)
  | (none, c) => (none, c)

end Cursor

/-- qw/message/print.rs:9-13 `Print` -/
structure Print where
  id : PrintId
  content : Bytes
deriving DecidableEq, Repr

/-- qw/message/print.rs:15-19 `Print::byte_size` -/
def Print.byteSize (p : Print) : Nat := p.content.length + 2

/-- qw/message/print.rs:38-45 `read_print` -/
def Cursor.readPrint (g : Env) (c : Cursor) : Option Print × Cursor :=
  match c.readByte g with
  | (some b, c) =>
    match c.readBstring with
    | (some content, c) => (some ⟨PrintId.ofByte b, content⟩, c)
    | (none, c) => (none, c)
  | (none, c) => (none, c)

/-- qw/message/update_frags.rs:5-9 `UpdateFrags` -/
structure UpdateFrags where
  playerNumber : UInt8
  frags : Nat
deriving DecidableEq, Repr

/-- qw/message/update_frags.rs:19-26 `read_update_frags` -/
def Cursor.readUpdateFrags (g : Env) (c : Cursor) : Option UpdateFrags × Cursor :=
  match c.readByte g with
  | (some b, c) =>
    match c.readU16 g with
    | (some n, c) => (some ⟨b, n⟩, c)
    | (none, c) => (none, c)
  | (none, c) => (none, c)

/-- qw/message/update_ping.rs:5-9 `UpdatePing` -/
structure UpdatePing where
  playerNumber : UInt8
  ping : Nat
deriving DecidableEq, Repr

/-- qw/message/update_ping.rs:19-28 `read_update_ping` -/
def Cursor.readUpdatePing (g : Env) (c : Cursor) : Option UpdatePing × Cursor :=
  match c.readByte g with
  | (some b, c) =>
    match c.readU16 g with
    | (some n, c) =>
      match c.readByte g with
      | (some _, c) => (some ⟨b, n⟩, c)
      | (none, c) => (none, c)
    | (none, c) => (none, c)
  | (none, c) => (none, c)

/-- qw/message/print.rs:30-36 `Print::try_from` -/
def Print.tryFrom (g : Env) (value : Bytes) : R Print :=
  match (Cursor.new value).readPrint g with
  | (some p, _) => .ok p
  | (none, _) => .err .io

/-- qw/message/update_frags.rs:11-17 `UpdateFrags::try_from` -/
def UpdateFrags.tryFrom (g : Env) (value : Bytes) : R UpdateFrags :=
  match (Cursor.new value).readUpdateFrags g with
  | (some p, _) => .ok p
  | (none, _) => .err .io

/-- qw/message/update_ping.rs:11-17 `UpdatePing::try_from` -/
def UpdatePing.tryFrom (g : Env) (value : Bytes) : R UpdatePing :=
  match (Cursor.new value).readUpdatePing g with
  | (some p, _) => .ok p
  | (none, _) => .err .io

end Mvd
