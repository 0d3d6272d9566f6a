import Verif.Rust.Res

/-! src/qw/prot.rs -/

namespace Mvd

/-- qw/prot.rs:1-8 `Target` -/
inductive Target where
  | none | multiple | single | stats | all
deriving DecidableEq, Repr

/-- qw/prot.rs:10-21 `Target::from` -/
def Target.ofByte (value : UInt8) : Target :=
  match (value &&& 7).toNat with
  | 3 => .multiple
  | 4 => .single
  | 5 => .stats
  | 6 => .all
  | _ => .none

/-- qw/prot.rs:23-29 `Command` -/
inductive Command where
  | qwd | read | set | empty
deriving DecidableEq, Repr

/-- qw/prot.rs:31-41 `Command::from` -/
def Command.ofByte (value : UInt8) : Command :=
  match (value &&& 7).toNat with
  | 0 => .qwd
  | 1 | 3 | 4 | 5 | 6 => .read
  | 2 => .set
  | _ => .empty

/-- qw/prot.rs:43-107 `MessageType` -/
inductive MessageType where
  | bad | nop | disconnect | updateStat | nqVersion | nqSetview | sound | nqTime | print | stufftext
  | setAngle | serverData | lightstyle | nqUpdateName | updateFrags | nqClientdata | stopSound | nqUpdateColors
  | nqParticle | damage | spawnStatic | fteSpawnStatic2 | spawnBaseline | tempEntity | setPause | nqSignonnum
  | centerPrint | killedmonster | foundSecret | spawnStaticSound | intermission | finale | cdtrack | sellscreen
  | smallkick | bigkick | updatePing | updateEntertime | updateStatLong | muzzleflash | updateUserinfo | download
  | playerinfo | nails | chokeCount | modellist | soundlist | packetentities | deltapacketentities | maxspeed
  | entgravity | setinfo | serverinfo | updatePl | nails2 | fteModellistshort | fteSpawnbaseline2 | endOfDemo
  | qizmoVoice | fteVoiceChat | unknown
deriving DecidableEq, Repr

/-- qw/prot.rs:109-175 `MessageType::from` -/
def MessageType.ofByte (value : UInt8) : MessageType :=
  match value.toNat with
  | 0 => .bad
  | 1 => .nop
  | 2 => .disconnect
  | 3 => .updateStat
  | 4 => .nqVersion
  | 5 => .nqSetview
  | 6 => .sound
  | 7 => .nqTime
  | 8 => .print
  | 9 => .stufftext
  | 10 => .setAngle
  | 11 => .serverData
  | 12 => .lightstyle
  | 13 => .nqUpdateName
  | 14 => .updateFrags
  | 15 => .nqClientdata
  | 16 => .stopSound
  | 17 => .nqUpdateColors
  | 18 => .nqParticle
  | 19 => .damage
  | 20 => .spawnStatic
  | 21 => .fteSpawnStatic2
  | 22 => .spawnBaseline
  | 23 => .tempEntity
  | 24 => .setPause
  | 25 => .nqSignonnum
  | 26 => .centerPrint
  | 27 => .killedmonster
  | 28 => .foundSecret
  | 29 => .spawnStaticSound
  | 30 => .intermission
  | 31 => .finale
  | 32 => .cdtrack
  | 33 => .sellscreen
  | 34 => .smallkick
  | 35 => .bigkick
  | 36 => .updatePing
  | 37 => .updateEntertime
  | 38 => .updateStatLong
  | 39 => .muzzleflash
  | 40 => .updateUserinfo
  | 41 => .download
  | 42 => .playerinfo
  | 43 => .nails
  | 44 => .chokeCount
  | 45 => .modellist
  | 46 => .soundlist
  | 47 => .packetentities
  | 48 => .deltapacketentities
  | 49 => .maxspeed
  | 50 => .entgravity
  | 51 => .setinfo
  | 52 => .serverinfo
  | 53 => .updatePl
  | 54 => .nails2
  | 60 => .fteModellistshort
  | 66 => .fteSpawnbaseline2
  | 69 => .endOfDemo
  | 83 => .qizmoVoice
  | 84 => .fteVoiceChat
  | _ => .unknown

/-- qw/prot.rs:177-192 `HiddenMessage` -/
inductive HiddenMessage where
  | antilagPosition | usercmd | usercmdWeapons | demoinfo | commentaryTrack | commentaryData | commentaryTextSegment
  | dmgdone | usercmdWeaponsSs | usercmdWeaponInstruction | pausedDuration | extended | unknown
deriving DecidableEq, Repr

/-- qw/prot.rs:194-212 `HiddenMessage::from` -/
def HiddenMessage.ofU16 (value : Nat) : HiddenMessage :=
  if value = 0x0000 then .antilagPosition
  else if value = 0x0001 then .usercmd
  else if value = 0x0002 then .usercmdWeapons
  else if value = 0x0003 then .demoinfo
  else if value = 0x0004 then .commentaryTrack
  else if value = 0x0005 then .commentaryData
  else if value = 0x0006 then .commentaryTextSegment
  else if value = 0x0007 then .dmgdone
  else if value = 0x0008 then .usercmdWeaponsSs
  else if value = 0x0009 then .usercmdWeaponInstruction
  else if value = 0x000A then .pausedDuration
  else if value = 0xFFFF then .extended
  else .unknown

/-- qw/prot.rs:214-221 `PrintId` -/
inductive PrintId where
  | low | medium | high | chat | unknown
deriving DecidableEq, Repr

/-- qw/prot.rs:223-233 `PrintId::from` -/
def PrintId.ofByte (value : UInt8) : PrintId :=
  match value.toNat with
  | 0 => .low
  | 1 => .medium
  | 2 => .high
  | 3 => .chat
  | _ => .unknown

end Mvd
