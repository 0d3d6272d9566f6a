import Verif.Lemmas.Profile
import Verif.Props.Flags

/-! C60. -/

namespace Mvd

/-- Unless the build with overflow checks panics, the build without gives the same result. -/
def SameUnlessPanic {α : Type} (checked release : R α) : Prop := checked ≠ .panic → release = checked

theorem PanicOr.same {α : Type} {x y : R α} (h : PanicOr x y) : SameUnlessPanic x y := by
  intro hp
  rcases h with h | h
  · exact absurd h hp
  · exact h.symm

/-- C60: whatever a build with overflow checks returns, result or error, the release build returns too. -/
theorem C60_same (g : Env) (data : Bytes) :
    SameUnlessPanic (fragsPerPlayerName { g with checks := true } data) (fragsPerPlayerName { g with checks := false } data) ∧
    SameUnlessPanic (flagEventsPerPlayerName { g with checks := true } data)
      (flagEventsPerPlayerName { g with checks := false } data) ∧
    SameUnlessPanic (pingPerPlayerNumber { g with checks := true } data) (pingPerPlayerNumber { g with checks := false } data) ∧
    SameUnlessPanic (ktxstatsString { g with checks := true } data) (ktxstatsString { g with checks := false } data) ∧
    SameUnlessPanic (ktxstatsV3 { g with checks := true } data) (ktxstatsV3 { g with checks := false } data) ∧
    SameUnlessPanic (server { g with checks := true } data) (server { g with checks := false } data) ∧
    SameUnlessPanic (countdownDuration { g with checks := true } data) (countdownDuration { g with checks := false } data) ∧
    SameUnlessPanic (demoDuration { g with checks := true } data) (demoDuration { g with checks := false } data) ∧
    SameUnlessPanic (matchDuration { g with checks := true } data) (matchDuration { g with checks := false } data) ∧
    SameUnlessPanic (players { g with checks := true } data) (players { g with checks := false } data) ∧
    SameUnlessPanic (teams { g with checks := true } data) (teams { g with checks := false } data) ∧
    SameUnlessPanic (matchDurationFromSeeking { g with checks := true } data)
      (matchDurationFromSeeking { g with checks := false } data) ∧
    SameUnlessPanic (matchDurationFromKtxstats { g with checks := true } data)
      (matchDurationFromKtxstats { g with checks := false } data) ∧
    SameUnlessPanic (playersFromParsing { g with checks := true } data) (playersFromParsing { g with checks := false } data) ∧
    (∀ stats, SameUnlessPanic (teamsFromKtxstats { g with checks := true } stats)
      (teamsFromKtxstats { g with checks := false } stats)) ∧
    ∀ ps, SameUnlessPanic (teamsFromPlayers { g with checks := true } ps) (teamsFromPlayers { g with checks := false } ps) :=
  ⟨(frags_profile g data).same, (flags_profile g data).same, (pings_profile g data).same, (ktxstatsString_profile g data).same,
    (ktxstatsV3_profile g data).same, (server_profile g data).same, (countdownDuration_profile g data).same,
    (demoDuration_profile g data).same, (matchDuration_profile g data).same, (players_profile g data).same,
    (teams_profile g data).same, (seeking_profile g data).same, (fromKtxstats_profile g data).same,
    (playersFromParsing_profile g data).same, fun _ => (teamsFromPlayers_profile g _).same, fun ps => (teamsFromPlayers_profile g ps).same⟩

/-- C60: the other functions give the same result in both builds, panics included. -/
theorem C60_independent (g : Env) (data : Bytes) (b : Bool) :
    prints { g with checks := b } data = prints g data ∧
    serverinfoString { g with checks := b } data = serverinfoString g data ∧
    serverinfo { g with checks := b } data = serverinfo g data ∧
    filename { g with checks := b } data = filename g data ∧
    clientinfoStrings { g with checks := b } data = clientinfoStrings g data ∧
    clientinfo { g with checks := b } data = clientinfo g data ∧
    clients { g with checks := b } data = clients g data ∧
    playerClients { g with checks := b } data = playerClients g data ∧
    spectatorClients { g with checks := b } data = spectatorClients g data ∧
    hasBotPlayers { g with checks := b } data = hasBotPlayers g data ∧
    hasHumanPlayers { g with checks := b } data = hasHumanPlayers g data ∧
    playerNames { g with checks := b } data = playerNames g data ∧
    spectatorNames { g with checks := b } data = spectatorNames g data ∧
    teamNames { g with checks := b } data = teamNames g data ∧
    isValid { g with checks := b } data = isValid g data ∧
    matchdate { g with checks := b } data = matchdate g data ∧
    timestamp { g with checks := b } data = timestamp g data ∧
    hasClients { g with checks := b } data = hasClients g data ∧
    timestampFromEpoch { g with checks := b } data = timestampFromEpoch g data := by
  have hp := playerClients_profile g b data
  have hs := spectatorClients_profile g b data
  exact ⟨prints_profile g b data, rfl, rfl, rfl, clientinfoStrings_profile g b data, clientinfo_profile g b data,
    clients_profile g b data, hp, hs, congrArg (R.bind · _) hp, congrArg (R.bind · _) hp, congrArg (R.bind · _) hp,
    congrArg (R.bind · _) hs, congrArg (R.bind · _) hp, isValid_profile g b data, rfl, rfl,
    congrArg (R.isOkAnd · _) (clientinfo_profile g b data), rfl⟩

/-- The hypothesis is met by a demo with three flag pickups, and it is needed: with 256 pickups the builds differ. -/
example : flagEventsPerPlayerName { Example.debug with checks := true } (Spec.encode (Example.pickups 3)) ≠ .panic ∧
    flagEventsPerPlayerName { Example.debug with checks := true } (Spec.encode (Example.pickups 256)) ≠
      flagEventsPerPlayerName { Example.debug with checks := false } (Spec.encode (Example.pickups 256)) := by
  constructor
  · decide +kernel
  · intro h
    have h1 := C30_witness
    have e1 : Example.debug = { Example.debug with checks := true } := rfl
    have e2 : Example.release = { Example.debug with checks := false } := rfl
    rw [e1, e2, ← h] at h1
    rw [h1.1] at h1
    simp at h1

end Mvd
