import Verif.Lemmas.Eof
import Verif.Props.Info

/-! C01, C59. -/

namespace Mvd
open Spec

/-! ### C01: every call terminates

Every loop of the code is modelled with a bound on its number of rounds, the length of what it walks over plus one, and
gives `hang` when the bound is used up. -/

/-- C01: no function of the library runs forever. (A Rust slice has less than 2^63 bytes; this is needed where the
stats block is read, as offsets wrap around at 2^64.) -/
theorem C01_terminates (g : Env) (data : Bytes) (hd : data.length < 2 ^ 63) :
    prints g data ≠ .hang ∧ serverinfoString g data ≠ .hang ∧ serverinfo g data ≠ .hang ∧ filename g data ≠ .hang ∧
    clientinfoStrings g data ≠ .hang ∧ clientinfo g data ≠ .hang ∧ clients g data ≠ .hang ∧ playerClients g data ≠ .hang ∧
    spectatorClients g data ≠ .hang ∧ hasBotPlayers g data ≠ .hang ∧ hasHumanPlayers g data ≠ .hang ∧
    playerNames g data ≠ .hang ∧ spectatorNames g data ≠ .hang ∧ teamNames g data ≠ .hang ∧ hasClients g data ≠ .hang ∧
    isValid g data ≠ .hang ∧ fragsPerPlayerName g data ≠ .hang ∧ flagEventsPerPlayerName g data ≠ .hang ∧
    pingPerPlayerNumber g data ≠ .hang ∧ ktxstatsString g data ≠ .hang ∧ ktxstatsV3 g data ≠ .hang ∧ server g data ≠ .hang ∧
    countdownDuration g data ≠ .hang ∧ demoDuration g data ≠ .hang ∧ matchDuration g data ≠ .hang ∧
    matchDurationFromSeeking g data ≠ .hang ∧ matchDurationFromKtxstats g data ≠ .hang ∧ matchdateString data ≠ .hang ∧
    matchdate g data ≠ .hang ∧ timestampFromEpoch g data ≠ .hang ∧ timestamp g data ≠ .hang ∧
    playersFromParsing g data ≠ .hang ∧ players g data ≠ .hang ∧ teams g data ≠ .hang :=
  ⟨prints_halts g data, serverinfoString_halts g data, serverinfo_halts g data, filename_halts g data,
    clientinfoStrings_halts g data, clientinfo_halts g data, clients_halts g data, playerClients_halts g data,
    spectatorClients_halts g data, hasBotPlayers_halts g data, hasHumanPlayers_halts g data, playerNames_halts g data,
    spectatorNames_halts g data, teamNames_halts g data, hasClients_halts g data, isValid_halts g data,
    frags_halts g data, flags_halts g data, pings_halts g data, ktxstatsString_halts g data hd,
    ktxstatsV3_halts g data hd, server_halts g data hd, countdownDuration_halts g data, demoDuration_halts g data,
    matchDuration_halts g data hd, seeking_halts g data, fromKtxstats_halts g data hd, matchdateString_halts data,
    matchdate_halts g data, timestampFromEpoch_halts g data, timestamp_halts g data, playersFromParsing_halts g data,
    players_halts g data hd, teams_halts g data hd⟩

/-- C01: the functions that do not take demo data. -/
theorem C01_terminates_other (g : Env) (stats : KtxStats) (players : List Player) (text : Str) :
    playersFromKtxstats stats ≠ .hang ∧ teamsFromKtxstats g stats ≠ .hang ∧ teamsFromPlayers g players ≠ .hang ∧
    utcOffset text ≠ .hang ∧ FragEvent.tryFrom text ≠ .hang ∧ FlagEvent.tryFrom text ≠ .hang :=
  ⟨ok_halts _, teamsFromKtxstats_halts g stats, teamsFromPlayers_halts g players, utcOffset_halts text, fragEvent_halts text,
    flagEvent_halts text⟩

/-- C01: the frame loop: whatever its body does (without running forever itself), more rounds than bytes in the data
are never needed: allowing more does not change the result. -/
theorem C01_frame_loop {σ : Type} (g : Env) (data : Bytes) (body : σ → FrameInfo → R (Step σ))
    (hb : ∀ s info, body s info ≠ .hang) (index : Nat) (s : σ) (fuel : Nat) (hf : data.length < fuel) :
    frameLoop g data body fuel index s ≠ .hang ∧ frameLoop g data body fuel index s = frameLoopFrom g data index s body := by
  obtain ⟨k, rfl⟩ : ∃ k, fuel = data.length + 1 + k := ⟨fuel - (data.length + 1), by omega⟩
  have h := frameLoopFrom_halts g data index s hb
  have := frameLoop_more g data (data.length + 1) k index s h
  exact ⟨this ▸ h, this⟩

/-- C01: the loops over the messages of a frame. -/
theorem C01_message_loops (g : Env) (c : Cursor) (fuel : Nat) (hf : c.rest.length < fuel) :
    (∀ l, printsBody g fuel c l ≠ .hang ∧ printsBody g fuel c l = printsBody g (c.rest.length + 1) c l) ∧
    (∀ l x, flagBody g fuel c l x ≠ .hang ∧ flagBody g fuel c l x = flagBody g (c.rest.length + 1) c l x) ∧
    (∀ m d, pingBody g fuel c m d ≠ .hang ∧ pingBody g fuel c m d = pingBody g (c.rest.length + 1) c m d) := by
  obtain ⟨k, rfl⟩ : ∃ k, fuel = c.rest.length + 1 + k := ⟨fuel - (c.rest.length + 1), by omega⟩
  exact ⟨fun l => ⟨printsBody_halts g _ _ _ hf, printsBody_more g _ k _ _ (printsBody_halts g _ _ _ (by omega))⟩,
    fun l x => ⟨flagBody_halts g _ _ _ _ hf, flagBody_more g _ k _ _ _ (flagBody_halts g _ _ _ _ (by omega))⟩,
    fun m d => ⟨pingBody_halts g _ _ _ _ hf, pingBody_more g _ k _ _ _ (pingBody_halts g _ _ _ _ (by omega))⟩⟩

/-- C01: the scan for clients. -/
theorem C01_client_scan (g : Env) (data : Bytes) (limit offset : Nat) (l : List Str) (fuel : Nat) (hf : data.length < fuel) :
    clientScan g data limit fuel offset l ≠ .hang ∧
    clientScan g data limit fuel offset l = clientScan g data limit (data.length + 1) offset l := by
  obtain ⟨k, rfl⟩ : ∃ k, fuel = data.length + 1 + k := ⟨fuel - (data.length + 1), by omega⟩
  have h := clientScan_halts g data limit (data.length + 1) offset l (by omega) (by omega)
  have := clientScan_more g data limit _ k offset l h
  exact ⟨this ▸ h, this⟩

/-- C01: the loop over the blocks of the stats. -/
theorem C01_block_loop (g : Env) (data : Bytes) (hd : data.length < 2 ^ 63) (h0 : data ≠ []) (offset : Nat) (content : Bytes)
    (fuel : Nat) (hf : data.length < fuel) :
    blockLoop g data fuel offset content ≠ .hang ∧
    blockLoop g data fuel offset content = blockLoop g data (data.length + 1) offset content := by
  obtain ⟨k, rfl⟩ : ∃ k, fuel = data.length + 1 + k := ⟨fuel - (data.length + 1), by omega⟩
  have h := blockLoop_first_halts g data hd data.length (by have := List.length_pos_of_ne_nil h0; omega) offset content
  have := blockLoop_more g data _ k offset content h
  exact ⟨this ▸ h, this⟩

example : Example.validData.length < 2 ^ 63 ∧ Example.validData ≠ [] := by decide +kernel

/-- The bounds are not vacuous: one round is not enough for two frames. -/
example : frameLoop Example.debug [1, 0, 2, 0] (fun (n : Nat) _ => .ok (.next (n + 1))) 1 0 0 = .hang ∧
    frameLoop Example.debug [1, 0, 2, 0] (fun (n : Nat) _ => .ok (.next (n + 1))) 3 0 0 = .ok 2 := by decide +kernel

/-! ### C59: the position after a failed exact read -/

/-- C59: two environments that differ only in where a failed exact read leaves the cursor give the same results. -/
theorem C59_eof (g : Env) (b : Bool) (data : Bytes) :
    prints { g with eofSeek := b } data = prints g data ∧
    serverinfoString { g with eofSeek := b } data = serverinfoString g data ∧
    serverinfo { g with eofSeek := b } data = serverinfo g data ∧
    filename { g with eofSeek := b } data = filename g data ∧
    clientinfoStrings { g with eofSeek := b } data = clientinfoStrings g data ∧
    clientinfo { g with eofSeek := b } data = clientinfo g data ∧
    clients { g with eofSeek := b } data = clients g data ∧
    playerClients { g with eofSeek := b } data = playerClients g data ∧
    spectatorClients { g with eofSeek := b } data = spectatorClients g data ∧
    hasBotPlayers { g with eofSeek := b } data = hasBotPlayers g data ∧
    hasHumanPlayers { g with eofSeek := b } data = hasHumanPlayers g data ∧
    playerNames { g with eofSeek := b } data = playerNames g data ∧
    spectatorNames { g with eofSeek := b } data = spectatorNames g data ∧
    teamNames { g with eofSeek := b } data = teamNames g data ∧
    isValid { g with eofSeek := b } data = isValid g data ∧
    fragsPerPlayerName { g with eofSeek := b } data = fragsPerPlayerName g data ∧
    flagEventsPerPlayerName { g with eofSeek := b } data = flagEventsPerPlayerName g data ∧
    pingPerPlayerNumber { g with eofSeek := b } data = pingPerPlayerNumber g data ∧
    ktxstatsString { g with eofSeek := b } data = ktxstatsString g data ∧
    ktxstatsV3 { g with eofSeek := b } data = ktxstatsV3 g data ∧
    server { g with eofSeek := b } data = server g data ∧
    countdownDuration { g with eofSeek := b } data = countdownDuration g data ∧
    demoDuration { g with eofSeek := b } data = demoDuration g data ∧
    matchDuration { g with eofSeek := b } data = matchDuration g data ∧
    timestamp { g with eofSeek := b } data = timestamp g data ∧
    players { g with eofSeek := b } data = players g data ∧
    teams { g with eofSeek := b } data = teams g data ∧
    hasClients { g with eofSeek := b } data = hasClients g data ∧
    matchDurationFromSeeking { g with eofSeek := b } data = matchDurationFromSeeking g data ∧
    matchDurationFromKtxstats { g with eofSeek := b } data = matchDurationFromKtxstats g data ∧
    matchdate { g with eofSeek := b } data = matchdate g data ∧
    timestampFromEpoch { g with eofSeek := b } data = timestampFromEpoch g data ∧
    playersFromParsing { g with eofSeek := b } data = playersFromParsing g data ∧
    (∀ stats, teamsFromKtxstats { g with eofSeek := b } stats = teamsFromKtxstats g stats) ∧
    ∀ ps, teamsFromPlayers { g with eofSeek := b } ps = teamsFromPlayers g ps := by
  have hp := playerClients_eof g b data
  have hs := spectatorClients_eof g b data
  refine ⟨prints_eof g b data, rfl, rfl, rfl, clientinfoStrings_eof g b data, clientinfo_eof g b data, clients_eof g b data,
    hp, hs, ?_, ?_, ?_, ?_, ?_, ?_, frags_eof g b data, flags_eof g b data, pings_eof g b data, ktxstatsString_eof g b data,
    ktxstatsV3_eof g b data, server_eof g b data, countdownDuration_eof g b data, demoDuration_eof g b data,
    matchDuration_eof g b data, rfl, players_eof g b data, teams_eof g b data,
    congrArg (R.isOkAnd · _) (clientinfo_eof g b data), seeking_eof g b data, fromKtxstats_eof g b data, rfl, rfl,
    playersFromParsing_eof g b data, fun _ => rfl, fun ps => teamsFromPlayers_eof g b ps⟩
  · exact congrArg (R.bind · _) hp
  · exact congrArg (R.bind · _) hp
  · exact congrArg (R.bind · _) hp
  · exact congrArg (R.bind · _) hs
  · exact congrArg (R.bind · _) hp
  · have : hasClients (g.eof b) data = hasClients g data := congrArg (R.isOkAnd · _) (clientinfo_eof g b data)
    show isValid (g.eof b) data = isValid g data
    unfold isValid
    rw [this]
    rfl

/-- The cursors do differ: a 16-bit number is read from a single byte. -/
example : (Cursor.new [7]).readU16 Example.debug = (none, ⟨1, []⟩) ∧
    (Cursor.new [7]).readU16 { Example.debug with eofSeek := false } = (none, ⟨0, [7]⟩) := by decide +kernel

end Mvd
