import Verif.Model.Prot

/-! src/qw/prot.rs: the numbers given to the protocol's kinds. -/

namespace Mvd

/-- qw/prot.rs:2-8, the numbers of `Target`. -/
def Target.number : Target → Nat
  | .none => 0
  | .multiple => 3
  | .single => 4
  | .stats => 5
  | .all => 6

/-- qw/prot.rs:24-29, the numbers of `Command`. -/
def Command.number : Command → Nat
  | .qwd => 0
  | .read => 1
  | .set => 2
  | .empty => 7

/-- qw/prot.rs:44-107, the numbers of `MessageType`. -/
def MessageType.number : MessageType → Nat
  | .bad => 0
  | .nop => 1
  | .disconnect => 2
  | .updateStat => 3
  | .nqVersion => 4
  | .nqSetview => 5
  | .sound => 6
  | .nqTime => 7
  | .print => 8
  | .stufftext => 9
  | .setAngle => 10
  | .serverData => 11
  | .lightstyle => 12
  | .nqUpdateName => 13
  | .updateFrags => 14
  | .nqClientdata => 15
  | .stopSound => 16
  | .nqUpdateColors => 17
  | .nqParticle => 18
  | .damage => 19
  | .spawnStatic => 20
  | .fteSpawnStatic2 => 21
  | .spawnBaseline => 22
  | .tempEntity => 23
  | .setPause => 24
  | .nqSignonnum => 25
  | .centerPrint => 26
  | .killedmonster => 27
  | .foundSecret => 28
  | .spawnStaticSound => 29
  | .intermission => 30
  | .finale => 31
  | .cdtrack => 32
  | .sellscreen => 33
  | .smallkick => 34
  | .bigkick => 35
  | .updatePing => 36
  | .updateEntertime => 37
  | .updateStatLong => 38
  | .muzzleflash => 39
  | .updateUserinfo => 40
  | .download => 41
  | .playerinfo => 42
  | .nails => 43
  | .chokeCount => 44
  | .modellist => 45
  | .soundlist => 46
  | .packetentities => 47
  | .deltapacketentities => 48
  | .maxspeed => 49
  | .entgravity => 50
  | .setinfo => 51
  | .serverinfo => 52
  | .updatePl => 53
  | .nails2 => 54
  | .fteModellistshort => 60
  | .fteSpawnbaseline2 => 66
  | .endOfDemo => 69
  | .qizmoVoice => 83
  | .fteVoiceChat => 84
  | .unknown => 255

/-- qw/prot.rs:178-192, the numbers of `HiddenMessage`. -/
def HiddenMessage.number : HiddenMessage → Nat
  | .antilagPosition => 0x0000
  | .usercmd => 0x0001
  | .usercmdWeapons => 0x0002
  | .demoinfo => 0x0003
  | .commentaryTrack => 0x0004
  | .commentaryData => 0x0005
  | .commentaryTextSegment => 0x0006
  | .dmgdone => 0x0007
  | .usercmdWeaponsSs => 0x0008
  | .usercmdWeaponInstruction => 0x0009
  | .pausedDuration => 0x000A
  | .extended => 0xFFFF
  | .unknown => 0xDEAD

/-- qw/prot.rs:215-221, the numbers of `PrintId`. -/
def PrintId.number : PrintId → Nat
  | .low => 0
  | .medium => 1
  | .high => 2
  | .chat => 3
  | .unknown => 0xDEAD

end Mvd
