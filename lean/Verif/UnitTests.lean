import Verif.Props.Example
import Verif.Model.FlagEvent
import Verif.Model.Matchdate

/-! The unit tests in /repo that need no demo file, evaluated on the model: evidence that the model follows the code.
No theorem depends on this file; those that read demo files are in Conformance.lean. -/

namespace Mvd.UnitTests

/-- qw/fragevent.rs:124-224 `test_frag_event` -/
def fragEvents : List (Str × FragEvent) := [
    (chars!"FOO sleeps with the fishes", .death chars!"FOO"),
    (chars!"FOO sucks it down", .death chars!"FOO"),
    (chars!"FOO gulped a load of slime", .death chars!"FOO"),
    (chars!"FOO can't exist on slime alone", .death chars!"FOO"),
    (chars!"FOO burst into flames", .death chars!"FOO"),
    (chars!"FOO turned into hot slag", .death chars!"FOO"),
    (chars!"FOO visits the Volcano God", .death chars!"FOO"),
    (chars!"FOO cratered", .death chars!"FOO"),
    (chars!"FOO fell to his death", .death chars!"FOO"),
    (chars!"FOO fell to her death", .death chars!"FOO"),
    (chars!"FOO blew up", .death chars!"FOO"),
    (chars!"FOO was spiked", .death chars!"FOO"),
    (chars!"FOO was zapped", .death chars!"FOO"),
    (chars!"FOO ate a lavaball", .death chars!"FOO"),
    (chars!"FOO died", .death chars!"FOO"),
    (chars!"FOO tried to leave", .death chars!"FOO"),
    (chars!"FOO was squished", .death chars!"FOO"),
    (chars!"FOO tries to put the pin back in", .suicideByWeapon chars!"FOO"),
    (chars!"FOO becomes bored with life", .suicideByWeapon chars!"FOO"),
    (chars!"FOO discovers blast radius", .suicideByWeapon chars!"FOO"),
    (chars!"FOO electrocutes himself", .suicideByWeapon chars!"FOO"),
    (chars!"FOO electrocutes herself", .suicideByWeapon chars!"FOO"),
    (chars!"FOO railcutes himself", .suicideByWeapon chars!"FOO"),
    (chars!"FOO railcutes herself", .suicideByWeapon chars!"FOO"),
    (chars!"FOO discharges into the slime", .suicideByWeapon chars!"FOO"),
    (chars!"FOO discharges into the lava", .suicideByWeapon chars!"FOO"),
    (chars!"FOO discharges into the water", .suicideByWeapon chars!"FOO"),
    (chars!"FOO heats up the water", .suicideByWeapon chars!"FOO"),
    (chars!"FOO squished a teammate", .teamkill chars!"FOO"),
    (chars!"FOO mows down a teammate", .teamkill chars!"FOO"),
    (chars!"FOO checks his glasses", .teamkill chars!"FOO"),
    (chars!"FOO checks her glasses", .teamkill chars!"FOO"),
    (chars!"FOO gets a frag for the other team", .teamkill chars!"FOO"),
    (chars!"FOO loses another friend", .teamkill chars!"FOO"),
    (chars!"FOO was telefragged by his teammate", .teamkillByUnknown chars!"FOO"),
    (chars!"FOO was telefragged by her teammate", .teamkillByUnknown chars!"FOO"),
    (chars!"FOO was crushed by his teammate", .teamkillByUnknown chars!"FOO"),
    (chars!"FOO was crushed by her teammate", .teamkillByUnknown chars!"FOO"),
    (chars!"FOO was jumped by his teammate", .teamkillByUnknown chars!"FOO"),
    (chars!"FOO was jumped by her teammate", .teamkillByUnknown chars!"FOO"),
    (chars!"FOO stomps BAR", .frag chars!"FOO" chars!"BAR"),
    (chars!"FOO squishes BAR", .frag chars!"FOO" chars!"BAR"),
    (chars!"FOO rips BAR a new one", .frag chars!"FOO" chars!"BAR"),
    (chars!"FOO was ax-murdered by BAR", .frag chars!"BAR" chars!"FOO"),
    (chars!"FOO softens BAR's fall", .frag chars!"BAR" chars!"FOO"),
    (chars!"FOO tried to catch BAR", .frag chars!"BAR" chars!"FOO"),
    (chars!"FOO was crushed by BAR", .frag chars!"BAR" chars!"FOO"),
    (chars!"FOO was jumped by BAR", .frag chars!"BAR" chars!"FOO"),
    (chars!"FOO chewed on BAR's boomstick", .frag chars!"BAR" chars!"FOO"),
    (chars!"FOO was body pierced by BAR", .frag chars!"BAR" chars!"FOO"),
    (chars!"FOO was nailed by BAR", .frag chars!"BAR" chars!"FOO"),
    (chars!"FOO was railed by BAR", .frag chars!"BAR" chars!"FOO"),
    (chars!"FOO was telefragged by BAR", .frag chars!"BAR" chars!"FOO"),
    (chars!"FOO accepts BAR's discharge", .frag chars!"BAR" chars!"FOO"),
    (chars!"FOO drains BAR's batteries", .frag chars!"BAR" chars!"FOO"),
    (chars!"FOO was lead poisoned by BAR", .frag chars!"BAR" chars!"FOO"),
    (chars!"FOO accepts BAR's shaft", .frag chars!"BAR" chars!"FOO"),
    (chars!"FOO ate 2 loads of BAR's buckshot", .frag chars!"BAR" chars!"FOO"),
    (chars!"FOO was perforated by BAR", .frag chars!"BAR" chars!"FOO"),
    (chars!"FOO was punctured by BAR", .frag chars!"BAR" chars!"FOO"),
    (chars!"FOO was ventilated by BAR", .frag chars!"BAR" chars!"FOO"),
    (chars!"FOO ate 8 loads of BAR's buckshot", .frag chars!"BAR" chars!"FOO"),
    (chars!"FOO gets a natural disaster from BAR", .frag chars!"BAR" chars!"FOO"),
    (chars!"FOO rides BAR's rocket", .frag chars!"BAR" chars!"FOO"),
    (chars!"FOO was gibbed by BAR's rocket", .frag chars!"BAR" chars!"FOO"),
    (chars!"FOO was straw-cuttered by BAR", .frag chars!"BAR" chars!"FOO"),
    (chars!"FOO eats BAR's pineapple", .frag chars!"BAR" chars!"FOO"),
    (chars!"FOO was gibbed by BAR's grenade", .frag chars!"BAR" chars!"FOO"),
    (chars!"FOO was brutalized by BAR's quad rocket", .frag chars!"BAR" chars!"FOO"),
    (chars!"FOO was smeared by BAR's quad rocket", .frag chars!"BAR" chars!"FOO"),
    (chars!"FOO was hooked by BAR", .frag chars!"BAR" chars!"FOO"),
    (chars!"FOO suicides", .suicide chars!"FOO")]

example : ∀ t ∈ fragEvents, FragEvent.tryFrom t.1 = .ok t.2 := by decide +kernel

/-- qw/flagevent.rs:61-149 `test_flag_event` -/
def flagEvents : List (Str × FlagEvent) := [
    (chars!"FOO çïô the ÒÅÄ flag!\n", .gotFlag chars!"FOO"),
    (chars!"\x10FOO\x11 çïô the ÒÅÄ flag!\n", .gotFlag chars!"\x10FOO\x11"),
    (chars!"FOO çïô the ÂÌÕÅ flag!\n", .gotFlag chars!"FOO"),
    (chars!"FOO ãáðôõòåä the ÒÅÄ flag!\n", .capturedFlag chars!"FOO"),
    (chars!"FOO ãáðôõòåä the ÂÌÕÅ flag!\n", .capturedFlag chars!"FOO"),
    (chars!"FOO gets an assist for fragging the flag carrier!\n", .returnedFlagAssist chars!"FOO"),
    (chars!"FOO òåôõòîåä the ÒÅÄ flag!\n", .returnedFlag chars!"FOO"),
    (chars!"FOO òåôõòîåä the ÂÌÕÅ flag!\n", .returnedFlag chars!"FOO"),
    (chars!"FOO defends the ÒÅÄ flag\n", .defendsFlag chars!"FOO"),
    (chars!"FOO defends ÒÅÄ's flag carrier\n", .defendsFlagCarrier chars!"FOO"),
    (chars!"FOO defends ÂÌÕÅ's flag carrier\n", .defendsFlagCarrier chars!"FOO"),
    (chars!"FOO defends ÒÅÄ's flag carrier against an aggressive enemy\n", .defendsFlagCarrierVsAggressive chars!"FOO"),
    (chars!"FOO defends ÂÌÕÅ's flag carrier against an aggressive enemy\n", .defendsFlagCarrierVsAggressive chars!"FOO")]

example : ∀ t ∈ flagEvents, FlagEvent.tryFrom t.1 = .ok t.2 := by decide +kernel

/-- timezone.rs:260-276 `test_utc_offset` -/
def utcOffsets : List (Str × Option Str) := [
    (chars!"FOO", none), (chars!"+FOO", none), (chars!"+1205", none), (chars!"-1205", none),
    (chars!"CEST", some chars!"+02:00"), (chars!"UTC", some chars!"+00:00"), (chars!"+01", some chars!"+01:00"),
    (chars!"+01:00", some chars!"+01:00"), (chars!"+0100", some chars!"+01:00"), (chars!"-0145", some chars!"-01:45")]

example : ∀ t ∈ utcOffsets, utcOffset t.1 = .ok t.2 := by decide +kernel

/-- matchdate.rs:59-82 `test_replace_tz_abbr_with_offset` -/
def replacements : List (Str × Str) := [
    (chars!"2024-04-02 21:02:17 CEST", chars!"2024-04-02 21:02:17+02:00"),
    (chars!"2024-04-02 21:02:17 GMT", chars!"2024-04-02 21:02:17+00:00"),
    (chars!"2024-04-02 21:02:17 UTC", chars!"2024-04-02 21:02:17+00:00"),
    (chars!"2024-04-02 21:02:17 -01", chars!"2024-04-02 21:02:17-01:00"),
    (chars!"2024-04-02 21:02:17 +0200", chars!"2024-04-02 21:02:17+02:00")]

example : ∀ t ∈ replacements, replaceTzAbbrWithOffset t.1 = .ok t.2 := by decide +kernel

/-- matchdate.rs:97-137 `test_matchdate_string`, without the demo files -/
def matchdates : List (Bytes × R Str) := [
    (bytes!"", .err .matchdateNotFound), (bytes!"foo", .err .matchdateNotFound),
    ([8, 2] ++ bytes!"matchdate: foo", .err .invalidMatchdate), ([8, 2] ++ bytes!"matchdate: 2024", .err .invalidMatchdate),
    ([8, 2] ++ bytes!"matchdate: 2024-04-02 21:02:17\n", .err .invalidMatchdate),
    ([8, 2] ++ bytes!"matchdate: 2024-04-02 21:02:17 FOOBAR\n", .err .invalidMatchdate),
    ([8, 2] ++ bytes!"matchdate: 2024-04-02 21:02:17 CEST\n", .ok chars!"2024-04-02 21:02:17 CEST")]

example : ∀ t ∈ matchdates, matchdateString t.1 = t.2 := by decide +kernel

/-- bytesextra.rs:22-36 `test_offsets_between` -/
def text : Bytes := bytes!"{'foo': 'bar', 'duration': 600, 'map': 'dm2'}"

example : offsetsBetween text bytes!"'duration': " bytes!"," = some (27, 30) := by decide +kernel
example : slice text 27 30 = .ok bytes!"600" := by decide +kernel
example : offsetsBetween text bytes!"" bytes!"," = some (0, 13) := by decide +kernel
example : offsetsBetween text bytes!"'map': " bytes!"," = none := by decide +kernel
example : offsetsBetween text bytes!"'FOO': " bytes!"," = none := by decide +kernel
example : offsetsBetween text bytes!"'duration': " bytes!"" = none := by decide +kernel

/-! qw/primitives.rs:60-85 -/
example : ((Cursor.new [8]).readByte Example.debug).1 = some 8 := by decide +kernel
example : ((Cursor.new [1, 2]).readU16 Example.debug).1 = some 513 := by decide +kernel
example : ((Cursor.new [1, 2, 3, 1]).readU32 Example.debug).1 = some 16974337 := by decide +kernel
example : (Cursor.new [1, 2, 3, 10, 0]).readBstring.1 = some [1, 2, 3, 10] := by decide +kernel

/-! qw/message/print.rs:58-80, update_ping.rs:39-49, update_frags.rs:37-47 -/
example : Print.tryFrom Example.debug [1, 2, 3, 4, 5, 10] = .err .io := by decide +kernel
example : Print.tryFrom Example.debug [1, 2, 3, 4, 10, 0] = .ok ⟨.medium, [2, 3, 4, 10]⟩ := by decide +kernel
example : (⟨.medium, [2, 3, 4, 10]⟩ : Print).byteSize = 6 := by decide +kernel
example : UpdatePing.tryFrom Example.debug [4, 1, 2, 0] = .ok ⟨4, 513⟩ := by decide +kernel
example : UpdateFrags.tryFrom Example.debug [9, 23, 1] = .ok ⟨9, 279⟩ := by decide +kernel

/-! player.rs:48-75 `test_player_from_ktxplayer` -/
example : Player.ofKtx ⟨chars!"Alpha", chars!"red", 4, 3, 54, 25, false, []⟩ =
    ⟨chars!"Alpha", chars!"red", (4, 3), 54, 25, false, none, none⟩ := by decide +kernel

/-! team.rs:92-158 `test_teams_from_players` (all but the average ping), `test_majority_color` -/
/-- A player of the test. -/
def alpha : Player := ⟨chars!"Alpha", chars!"red", (4, 3), 54, 25, false, none, none⟩
/-- A player of the test. -/
def beta : Player := ⟨chars!"Beta", chars!"red", (4, 3), 16, 12, false, none, none⟩
/-- A player of the test. -/
def gamma : Player := ⟨chars!"Gamma", chars!"blue", (11, 10), 29, 52, false, none, none⟩

example : ((teamsFromPlayers Example.debug [alpha, beta, gamma]).bind fun ts =>
      .ok (ts.map fun t => (t.name, t.color, t.frags, t.players))) =
    .ok [(chars!"blue", (11, 10), 29, [gamma]), (chars!"red", (4, 3), 70, [alpha, beta])] := by decide +kernel
example : majorityColor Example.debug 0 [(4, 3), (11, 10)] = .ok (some (4, 3)) := by decide +kernel
example : majorityColor Example.debug 0 [(4, 3), (11, 10), (0, 0), (11, 10)] = .ok (some (11, 10)) := by decide +kernel

end Mvd.UnitTests
