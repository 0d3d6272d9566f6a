import Verif.Model.Env
import Verif.Rust.Search

/-! src/qw/flagprint.rs, src/qw/flagevent.rs -/

namespace Mvd

/-- qw/flagprint.rs:2 -/
def X_CAPTURED_FLAG : List Str := [chars!" ãáðôõòåä the ÒÅÄ flag!\n", chars!" ãáðôõòåä the ÂÌÕÅ flag!\n"]
/-- qw/flagprint.rs:4 -/
def X_DEFENDS_FLAG : List Str := [chars!" defends the ÒÅÄ flag\n", chars!" defends the ÂÌÕÅ flag\n"]
/-- qw/flagprint.rs:6-9 -/
def X_DEFENDS_CARRIER : List Str := [chars!" defends ÒÅÄ's flag carrier\n", chars!" defends ÂÌÕÅ's flag carrier\n"]
/-- qw/flagprint.rs:11-14 -/
def X_DEFENDS_CARRIER_AGGR : List Str := [
  chars!" defends ÒÅÄ's flag carrier against an aggressive enemy\n",
  chars!" defends ÂÌÕÅ's flag carrier against an aggressive enemy\n"]
/-- qw/flagprint.rs:16 -/
def X_GOT_FLAG : List Str := [chars!" çïô the ÒÅÄ flag!\n", chars!" çïô the ÂÌÕÅ flag!\n"]
/-- qw/flagprint.rs:18 -/
def X_RETURNED_FLAG : List Str := [chars!" òåôõòîåä the ÒÅÄ flag!\n", chars!" òåôõòîåä the ÂÌÕÅ flag!\n"]
/-- qw/flagprint.rs:20-23 -/
def X_FRAGS_CARRIER : List Str := [
  chars!" gets an assist for returning his flag!\n",
  chars!" gets an assist for fragging the flag carrier!\n"]

/-- qw/flagevent.rs:5-14 `FlagEvent` -/
inductive FlagEvent where
  | capturedFlag (player : Str)
  | gotFlag (player : Str)
  | defendsFlag (player : Str)
  | defendsFlagCarrier (player : Str)
  | defendsFlagCarrierVsAggressive (player : Str)
  | returnedFlag (player : Str)
  | returnedFlagAssist (player : Str)
deriving DecidableEq, Repr

/-- qw/flagevent.rs:20-28 `print_types`, with the event of the `match` in lines 34-43 in place of the index. -/
def flagPrintTypes : List ((Str → FlagEvent) × List Str) := [
  (.capturedFlag, X_CAPTURED_FLAG),
  (.defendsFlag, X_DEFENDS_FLAG),
  (.defendsFlagCarrierVsAggressive, X_DEFENDS_CARRIER_AGGR),
  (.defendsFlagCarrier, X_DEFENDS_CARRIER),
  (.gotFlag, X_GOT_FLAG),
  (.returnedFlag, X_RETURNED_FLAG),
  (.returnedFlagAssist, X_FRAGS_CARRIER)]

/-- qw/flagevent.rs:30-45, the loop over the print types. -/
def flagPrintLoop (value : Str) : List ((Str → FlagEvent) × List Str) → R FlagEvent
  | [] => .err .flagEvent
  | (event, needles) :: rest =>
    match needles.findSome? fun n => find n value with
    | some pos => .ok (event (value.take pos))
    | none => flagPrintLoop value rest

/-- qw/flagevent.rs:19-48 `FlagEvent::try_from` -/
def FlagEvent.tryFrom (value : Str) : R FlagEvent := flagPrintLoop value flagPrintTypes

end Mvd
