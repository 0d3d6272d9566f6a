import Verif.Model.Frags

/-! src/ping.rs -/

namespace Mvd

/-- ping.rs:22-33, the loop over the messages of one frame: (total_pings, did_ping_update). -/
def pingBody (g : Env) : Nat → Cursor → Map UInt8 (List Nat) → Bool → R (Map UInt8 (List Nat) × Bool)
  | 0, _, _, _ => .hang
  | fuel + 1, body, total, did =>
    match body.readMessageType g with
    | (some t, body) =>
      if t = .updatePing then
        match body.readUpdatePing g with
        | (some u, body) =>
          let total := total.set u.playerNumber ((total.get u.playerNumber).getD [] ++ [u.ping])
          pingBody g fuel (body.skip 2) total true
        | (none, body) => pingBody g fuel body total did
      else .ok (total, did)
    | (none, _) => .ok (total, did)

/-- ping.rs:17-45, the frame loop: (total_pings, sample_count). -/
def totalPings (g : Env) (data : Bytes) : R (Map UInt8 (List Nat) × Nat) :=
  frameLoopFrom g data 0 ([], 0) fun (total, samples) info =>
    (if info.bodySize > 0 then
      (info.body data).bind fun body =>
      (pingBody g (body.length + 1) (Cursor.new body) total false).bind fun (total, did) =>
      .ok (total, if did then samples + 1 else samples)
    else .ok (total, samples)).bind fun (total, samples) =>
    if samples ≥ 8 then .ok (.brk (total, samples)) else .ok (.next (total, samples))

/-- ping.rs:54-55, average of the samples of one player: `sum::<u16>()`, then a division on `f32`. -/
def averagePing (g : Env) (pings : List Nat) : R Nat :=
  (forR (fun sum p => addU g.checks 16 sum p) 0 pings).bind fun sum =>
  .ok (f32AsU32 (f32Div (natAsF32 sum) (natAsF32 pings.length)))

/-- ping.rs:11-60 `ping_per_player_number` -/
def pingPerPlayerNumber (g : Env) (data : Bytes) : R (Map UInt8 Nat) :=
  (totalPings g data).bind fun (total, _) =>
  if total.isEmpty then .err .noPings
  else
    forR (fun avg (e : UInt8 × List Nat) => (averagePing g e.2).bind fun a => .ok (Map.set avg e.1 a)) [] (g.order 0 total)

end Mvd
