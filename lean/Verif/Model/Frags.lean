import Verif.Model.Frame
import Verif.Model.FragEvent
import Verif.Model.Info

/-! src/frags.rs -/

namespace Mvd

/-- frags.rs:20-38, the body of the first loop. -/
def printFramesBody (g : Env) (data : Bytes) (acc : List (Print × FrameInfo)) (info : FrameInfo) :
    R (Step (List (Print × FrameInfo))) :=
    if info.bodySize = 0 then .ok (.next acc)
    else
      (info.body data).bind fun body =>
      match (Cursor.new body).readMessageType g with
      | (some t, body) =>
        if t = .print then
          match body.readPrint g with
          | (some p, _) =>
            if !p.content.isEmpty ∧ p.id = .medium then .ok (.next (acc ++ [(p, info)]))
            else .ok (.next acc)
          | (none, _) => .ok (.next acc)
        else .ok (.next acc)
      | (none, _) => .ok (.next acc)

/-- frags.rs:19-39, first loop: the leading medium prints with their frame. -/
def printFrames (g : Env) (data : Bytes) : R (List (Print × FrameInfo)) := frameLoopFrom g data 0 [] (printFramesBody g data)

/-- frags.rs:91-114, the body of the look-ahead loop of `find_team_killer`; the state is (frame_count, player numbers). -/
def lookBody (g : Env) (data : Bytes) (s : Nat × List UInt8) (info : FrameInfo) : R (Step (Nat × List UInt8)) :=
  match s with
  | (frameCount, numbers) =>
    if frameCount ≥ 4 then .ok (.brk (frameCount, numbers))
    else if info.bodySize = 0 then .ok (.next (frameCount, numbers))
    else
      (info.body data).bind fun bytes =>
      let body := Cursor.new bytes
      let body := if frameCount = 1 then (body.readPrint g).2 else body
      match body.readMessageType g with
      | (some t, body) =>
        if t = .updateFrags then
          match body.readUpdateFrags g with
          | (some u, _) => .ok (.next (frameCount + 1, numbers ++ [u.playerNumber]))
          | (none, _) => .ok (.next (frameCount + 1, numbers))
        else .ok (.next (frameCount + 1, numbers))
      | (none, _) => .ok (.next (frameCount + 1, numbers))

/-- frags.rs:90-115, the look-ahead loop of `find_team_killer`. -/
def fragUpdatesFrom (g : Env) (data : Bytes) (index : Nat) : R (Nat × List UInt8) :=
  frameLoopFrom g data index (1, []) (lookBody g data)

/-- frags.rs:84-136 `find_team_killer` -/
def findTeamKiller (g : Env) (data : Bytes) (index : Nat) (victimName : Str) : R Str :=
  (fragUpdatesFrom g data index).bind fun (_, numbers) =>
  if numbers.isEmpty then .err .noFragUpdates
  else
    (clients g data).bind fun clients =>
    match clients.find? fun c => c.name = victimName with
    | none => .err .noVictim
    | some victim =>
      let candidates := numbers.filterMap fun n => clients.find? fun c => c.number = n.toNat
      match candidates.find? fun c => c.team = victim.team ∧ c.name ≠ victim.name with
      | some c => .ok c.name
      | none => .err .noTeamKiller

/-- frags.rs:43-79, the body of the second loop. -/
def scorePrint (g : Env) (data : Bytes) (frags : Map Str Int) (pf : Print × FrameInfo) : R (Map Str Int) :=
  match FragEvent.tryFrom (trimEnd (g.toUnicode pf.1.content)) with
  | .ok (.frag killer _) => frags.update killer 0 fun n => addI32 g.checks n 1
  | .ok (.death player) => frags.update player 0 fun n => addI32 g.checks n (-1)
  | .ok (.suicide player) => frags.update player 0 fun n => addI32 g.checks n (-2)
  | .ok (.suicideByWeapon player) => frags.update player 0 fun n => addI32 g.checks n (-1)
  | .ok (.teamkill killer) => frags.update killer 0 fun n => addI32 g.checks n (-1)
  | .ok (.teamkillByUnknown victim) =>
    match findTeamKiller g data pf.2.index victim with
    | .ok name => frags.update name 0 fun n => addI32 g.checks n (-1)
    | .err _ => .ok frags
    | .panic => .panic
    | .hang => .hang
  | .err _ => .ok frags
  | .panic => .panic
  | .hang => .hang

/-- A `for` loop over a list whose body may panic. -/
def forR {α σ : Type} (f : σ → α → R σ) : σ → List α → R σ
  | s, [] => .ok s
  | s, a :: as => (f s a).bind fun s => forR f s as

/-- frags.rs:15-82 `frags_per_player_name` -/
def fragsPerPlayerName (g : Env) (data : Bytes) : R (Map Str Int) :=
  (printFrames g data).bind fun pfs => forR (scorePrint g data) [] pfs

end Mvd
