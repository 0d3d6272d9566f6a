import Verif.Model.Frame
import Verif.Model.Info

/-! src/ktxstats.rs, src/server.rs -/

namespace Mvd

/-- ktxstats.rs:16 `TOTAL_HEADER_SIZE` -/
def TOTAL_HEADER_SIZE : Nat := MULTI_HEADER_SIZE + BLOCK_HEADER_SIZE

/-- ktxstats.rs:25-38, the block loop; `usize` has 64 bits. -/
def blockLoop (g : Env) (data : Bytes) : Nat → Nat → Bytes → R Bytes
  | 0, _, _ => .hang
  | fuel + 1, offset, content =>
    (addU g.checks 64 offset MULTI_HEADER_SIZE).bind fun start =>
    (sliceFrom data start).bind fun tail =>
    match BlockInfo.tryFrom g tail with
    | .ok info =>
      if info.hiddenMessage ≠ .demoinfo then .ok content
      else
        (addU g.checks 64 offset TOTAL_HEADER_SIZE).bind fun offset =>
        (addU g.checks 64 offset info.bodySize).bind fun stop =>
        (slice data offset stop).bind fun body =>
        let content := content ++ body
        if info.number = 0 then .ok content else blockLoop g data fuel stop content
    | .err _ => .ok content
    | .panic => .panic
    | .hang => .hang

/-- ktxstats.rs:15-41 `ktxstats_string` -/
def ktxstatsString (g : Env) (data : Bytes) : R Str :=
  match rfind bytes!"{\"version\": " data with
  | none => .err .ktxstatsNotFound
  | some offset =>
    (subU g.checks 64 offset TOTAL_HEADER_SIZE).bind fun offset =>
    (blockLoop g data (data.length + 1) offset []).bind fun content =>
    match fromUtf8 content with
    | some s => .ok s
    | none => .err .utf8

/-- ktxstats.rs:10-13 `ktxstats_v3` -/
def ktxstatsV3 (g : Env) (data : Bytes) : R KtxStats :=
  (ktxstatsString g data).bind fun s =>
  match g.ktxstats s with
  | some stats => .ok stats
  | none => .err .ktxstatsParse

/-- server.rs:10-16 `Server` -/
structure Server where
  hostname : Str
  address : Str
  ip : Str
  port : Nat
deriving DecidableEq

/-- server.rs:18-27 `Server::from` -/
def Server.ofStats (stats : KtxStats) : Server where
  hostname := stats.hostname
  address := stats.ip ++ [':'] ++ showNat stats.port
  ip := stats.ip
  port := stats.port

/-- server.rs:6-8 `server` -/
def server (g : Env) (data : Bytes) : R Server := (ktxstatsV3 g data).bind fun stats => .ok (Server.ofStats stats)

end Mvd
