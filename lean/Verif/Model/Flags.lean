import Verif.Model.Frags
import Verif.Model.FlagEvent

/-! src/flags.rs -/

namespace Mvd

/-- flags.rs:13-22 `PlayerFlagEvents`; all counters are `u8`. -/
structure PlayerFlagEvents where
  captures : Nat := 0
  pickups : Nat := 0
  returns : Nat := 0
  carrierFrags : Nat := 0
  defends : Nat := 0
  carrierDefends : Nat := 0
  carrierDefendsVsAggressive : Nat := 0
deriving DecidableEq, Repr

/-- flags.rs:110-119 `is_message_suffix` -/
def isMessageSuffix (g : Env) (print : Bytes) : Bool :=
  (X_RETURNED_FLAG ++ X_GOT_FLAG ++ X_CAPTURED_FLAG).any fun n => endsWith (g.toUnicode print) n

/-- flags.rs:39-56, the loop over the messages of one frame: (prints, current_print). -/
def flagBody (g : Env) : Nat → Cursor → List Bytes → Bytes → R (List Bytes × Bytes)
  | 0, _, _, _ => .hang
  | fuel + 1, body, prints, current =>
    match body.readMessageType g with
    | (none, _) => .ok (prints, current)
    | (some t, body) =>
      if t = .print then
        match body.readPrint g with
        | (some p, body) =>
          if p.id = .high ∧ !p.content.isEmpty then
            if current.isEmpty then flagBody g fuel body prints (current ++ p.content)
            else
              let current := if isMessageSuffix g p.content then current ++ p.content else current
              flagBody g fuel body (prints ++ [current]) []
          else flagBody g fuel body prints current
        | (none, body) => flagBody g fuel body prints current
      else flagBody g fuel body prints current

/-- flags.rs:29-63, first loop: the texts to classify. -/
def flagPrints (g : Env) (data : Bytes) : R (List Bytes) :=
  frameLoopFrom g data 0 [] fun prints info =>
    if info.bodySize = 0 then .ok (.next prints)
    else
      (info.body data).bind fun body =>
      if (find bytes!"flag" body).isNone then .ok (.next prints)
      else
        (flagBody g (body.length + 1) (Cursor.new body) prints []).bind fun (prints, current) =>
        .ok (.next (if !current.isEmpty then prints ++ [current] else prints))

/-- flags.rs:67-105, the body of the second loop. -/
def countFlagPrint (g : Env) (m : Map Str PlayerFlagEvents) (print : Bytes) : R (Map Str PlayerFlagEvents) :=
  match FlagEvent.tryFrom (g.toUnicode print) with
  | .ok (.capturedFlag player) => m.update player {} fun e =>
      (addU g.checks 8 e.captures 1).bind fun n => .ok { e with captures := n }
  | .ok (.defendsFlag player) => m.update player {} fun e =>
      (addU g.checks 8 e.defends 1).bind fun n => .ok { e with defends := n }
  | .ok (.defendsFlagCarrier player) => m.update player {} fun e =>
      (addU g.checks 8 e.carrierDefends 1).bind fun n => .ok { e with carrierDefends := n }
  | .ok (.defendsFlagCarrierVsAggressive player) => m.update player {} fun e =>
      (addU g.checks 8 e.carrierDefendsVsAggressive 1).bind fun n => .ok { e with carrierDefendsVsAggressive := n }
  | .ok (.gotFlag player) => m.update player {} fun e =>
      (addU g.checks 8 e.pickups 1).bind fun n => .ok { e with pickups := n }
  | .ok (.returnedFlag player) => m.update player {} fun e =>
      (addU g.checks 8 e.returns 1).bind fun n => .ok { e with returns := n }
  | .ok (.returnedFlagAssist player) => m.update player {} fun e =>
      (addU g.checks 8 e.carrierFrags 1).bind fun n => .ok { e with carrierFrags := n }
  | .err _ => .ok m
  | .panic => .panic
  | .hang => .hang

/-- flags.rs:24-108 `flag_events_per_player_name` -/
def flagEventsPerPlayerName (g : Env) (data : Bytes) : R (Map Str PlayerFlagEvents) :=
  (flagPrints g data).bind fun prints => forR (countFlagPrint g) [] prints

end Mvd
