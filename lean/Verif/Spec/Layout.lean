import Verif.Spec.Wire
import Verif.Model.Frame

/-! Specification of how the parser describes frames. Uses only the types of the model's results. -/

namespace Spec

/-- The recipients by kind of frame. -/
def Frame.target (f : Frame) : Mvd.Target :=
  if f.kind = 3 then .multiple else if f.kind = 4 then .single else if f.kind = 5 then .stats
  else if f.kind = 6 then .all else .none

/-- The command by kind of frame. -/
def Frame.command (f : Frame) : Mvd.Command :=
  if f.kind = 0 then .qwd else if f.kind = 2 then .set else if f.kind = 7 then .empty else .read

/-- The description of a frame that starts at offset `i`. -/
def Frame.described (i : Nat) (f : Frame) : Mvd.FrameInfo where
  duration := f.duration.toNat
  target := f.target
  command := f.command
  index := i
  size := f.encode.length
  headerSize := f.header.length
  headerRange := (i, i + f.header.length)
  bodySize := f.body.length
  bodyRange := (i + f.header.length, i + f.header.length + f.body.length)

/-- The descriptions of consecutive frames, the first of which starts at offset `i`. -/
def layout (i : Nat) : List Frame → List Mvd.FrameInfo
  | [] => []
  | f :: fs => f.described i :: layout (i + f.encode.length) fs

/-- The frames together with the offsets at which they start. -/
def starts (i : Nat) : List Frame → List (Nat × Frame)
  | [] => []
  | f :: fs => (i, f) :: starts (i + f.encode.length) fs

end Spec
