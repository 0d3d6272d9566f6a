import Verif.Model.Frame

/-! src/prints.rs -/

namespace Mvd

/-- prints.rs:17-26, the loop over the messages of one frame body. -/
def printsBody (g : Env) : Nat → Cursor → List Print → R (List Print)
  | 0, _, _ => .hang
  | fuel + 1, body, prints =>
    match body.readMessageType g with
    | (some t, body) =>
      if t = .print then
        match body.readPrint g with
        | (some print, body) =>
          printsBody g fuel body (if !print.content.isEmpty then prints ++ [print] else prints)
        | (none, body) => printsBody g fuel body prints
      else .ok prints
    | (none, _) => .ok prints

/-- prints.rs:9-34 `prints` -/
def prints (g : Env) (data : Bytes) : R (List Print) :=
  (frameLoopFrom g data 0 [] fun prints info =>
    if info.bodySize > 0 then
      (info.body data).bind fun body =>
      (printsBody g (body.length + 1) (Cursor.new body) prints).bind fun prints => .ok (.next prints)
    else .ok (.next prints)).bind fun prints =>
  .ok (dedup prints)

end Mvd
