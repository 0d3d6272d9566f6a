import Verif.Props.Info
import Verif.Props.Robustness
import Verif.Props.Duration
import Verif.Props.Time

/-! C98: what the crates and library functions that are not modelled can influence.  Every function of the crate that is
not named in a theorem's comment gives the same result when the dependency is replaced by any other function of its type,
so a defect of the dependency cannot show there. -/

namespace Mvd

/-- Two scans that differ only in how texts are converted end alike and find as many clients. -/
private theorem clientScan_shape (g g' : Env) (data : Bytes) (m : Nat) : ∀ (fuel o : Nat) (l l' : List Str), l.length = l'.length →
    (∃ r r', clientScan g data m fuel o l = .ok r ∧ clientScan g' data m fuel o l' = .ok r' ∧ r.length = r'.length) ∨
    (∃ e, clientScan g data m fuel o l = .err e ∧ clientScan g' data m fuel o l' = .err e) ∨
    (clientScan g data m fuel o l = .panic ∧ clientScan g' data m fuel o l' = .panic) ∨
    (clientScan g data m fuel o l = .hang ∧ clientScan g' data m fuel o l' = .hang)
  | 0, _, _, _, _ => .inr (.inr (.inr ⟨rfl, rfl⟩))
  | fuel + 1, o, l, l', h => by
    unfold clientScan
    cases slice data o (o + MAX_LOOKAHEAD) with
    | err e => exact .inr (.inl ⟨e, rfl, rfl⟩)
    | panic => exact .inr (.inr (.inl ⟨rfl, rfl⟩))
    | hang => exact .inr (.inr (.inr ⟨rfl, rfl⟩))
    | ok window =>
      simp only [R.bind]
      cases find bytes!"\\name\\" window with
      | none => exact .inl ⟨l, l', rfl, rfl, h⟩
      | some p =>
        simp only
        cases rfindByte 0 (data.take (o + p)) with
        | none => exact .inl ⟨l, l', rfl, rfl, h⟩
        | some z =>
          simp only
          cases findByte 0 (data.drop (z + 1)) with
          | none => exact .inl ⟨l, l', rfl, rfl, h⟩
          | some n =>
            simp only
            split
            case isFalse => exact .inl ⟨l, l', rfl, rfl, h⟩
            cases slice data (z + 1) (z + 1 + n) with
            | err e => exact .inr (.inl ⟨e, rfl, rfl⟩)
            | panic => exact .inr (.inr (.inl ⟨rfl, rfl⟩))
            | hang => exact .inr (.inr (.inr ⟨rfl, rfl⟩))
            | ok s =>
              simp only
              split
              · exact .inl ⟨_, _, rfl, rfl, by simp [h]⟩
              · exact clientScan_shape g g' data m fuel _ _ _ (by simp [h])

/-- C98: whether a demo is valid depends on its bytes alone, on no dependency, build profile or version. -/
theorem C98_valid (g g' : Env) (data : Bytes) : isValid g data = isValid g' data := by
  have hs : (serverinfo g data).isOk = (serverinfo g' data).isOk := by
    unfold serverinfo serverinfoString
    dsimp only
    cases sliceTo data (256 + 1024) with
    | ok head =>
      simp only [R.bind]
      cases offsetsBetween head bytes!"fullserverinfo \"" bytes!"\"" with
      | none => rfl
      | some p => dsimp only; cases slice data p.1 p.2 <;> rfl
    | _ => rfl
  have hc : hasClients g data = hasClients g' data := by
    unfold hasClients clientinfo clientinfoStrings
    cases find CMD_SPAWN data with
    | none => rfl
    | some o =>
      simp only
      rcases clientScan_shape g g' data (o + MAX_PLAYERS * MAX_LOOKAHEAD) (data.length + 1) o [] [] rfl with
        ⟨r, r', h, h', hl⟩ | ⟨e, h, h'⟩ | ⟨h, h'⟩ | ⟨h, h'⟩
      · rw [h, h']
        cases r <;> cases r' <;> simp_all [R.bind, R.isOkAnd]
      all_goals rw [h, h']; rfl
  unfold isValid
  rw [hs, hc]

section

set_option smartUnfolding false

/-- C98: `quake_text::bytestr::to_unicode` decides what the texts of clients and the names of frag and flag messages
look like, and nothing else: prints, serverinfo, match stats, durations, pings and dates do not depend on it.  Left
out: `clientinfoStrings`, `clientinfo`, `clients`, `playerClients`, `spectatorClients`, `hasBotPlayers`,
`hasHumanPlayers`, `playerNames`, `spectatorNames`, `teamNames`, `fragsPerPlayerName`, `flagEventsPerPlayerName`,
`players`, `teams`. -/
theorem C98_unicode (g : Env) (f : Bytes → Str) (data : Bytes) :
    prints { g with toUnicode := f } data = prints g data ∧
    serverinfoString { g with toUnicode := f } data = serverinfoString g data ∧
    serverinfo { g with toUnicode := f } data = serverinfo g data ∧
    filename { g with toUnicode := f } data = filename g data ∧
    isValid { g with toUnicode := f } data = isValid g data ∧
    pingPerPlayerNumber { g with toUnicode := f } data = pingPerPlayerNumber g data ∧
    ktxstatsString { g with toUnicode := f } data = ktxstatsString g data ∧
    ktxstatsV3 { g with toUnicode := f } data = ktxstatsV3 g data ∧
    server { g with toUnicode := f } data = server g data ∧
    countdownDuration { g with toUnicode := f } data = countdownDuration g data ∧
    demoDuration { g with toUnicode := f } data = demoDuration g data ∧
    matchDuration { g with toUnicode := f } data = matchDuration g data ∧
    matchdate { g with toUnicode := f } data = matchdate g data ∧
    timestamp { g with toUnicode := f } data = timestamp g data :=
  ⟨rfl, rfl, rfl, rfl, C98_valid _ _ data, rfl, rfl, rfl, rfl, rfl, rfl, rfl, rfl, rfl⟩

/-- C98: `quake_text::bytestr::to_utf8` decides what the serverinfo text looks like, and so the settings, the
filename, the timestamp and the two durations that depend on the game mode, and nothing else.  Left out:
`serverinfoString`, `serverinfo`, `filename`, `countdownDuration`, `matchDuration`, `timestamp`. -/
theorem C98_utf8 (g : Env) (f : Bytes → Str) (data : Bytes) :
    prints { g with toUtf8 := f } data = prints g data ∧
    clientinfoStrings { g with toUtf8 := f } data = clientinfoStrings g data ∧
    clientinfo { g with toUtf8 := f } data = clientinfo g data ∧
    clients { g with toUtf8 := f } data = clients g data ∧
    playerClients { g with toUtf8 := f } data = playerClients g data ∧
    spectatorClients { g with toUtf8 := f } data = spectatorClients g data ∧
    hasBotPlayers { g with toUtf8 := f } data = hasBotPlayers g data ∧
    hasHumanPlayers { g with toUtf8 := f } data = hasHumanPlayers g data ∧
    playerNames { g with toUtf8 := f } data = playerNames g data ∧
    spectatorNames { g with toUtf8 := f } data = spectatorNames g data ∧
    teamNames { g with toUtf8 := f } data = teamNames g data ∧ isValid { g with toUtf8 := f } data = isValid g data ∧
    fragsPerPlayerName { g with toUtf8 := f } data = fragsPerPlayerName g data ∧
    flagEventsPerPlayerName { g with toUtf8 := f } data = flagEventsPerPlayerName g data ∧
    pingPerPlayerNumber { g with toUtf8 := f } data = pingPerPlayerNumber g data ∧
    ktxstatsString { g with toUtf8 := f } data = ktxstatsString g data ∧
    ktxstatsV3 { g with toUtf8 := f } data = ktxstatsV3 g data ∧ server { g with toUtf8 := f } data = server g data ∧
    demoDuration { g with toUtf8 := f } data = demoDuration g data ∧
    matchdate { g with toUtf8 := f } data = matchdate g data ∧ players { g with toUtf8 := f } data = players g data ∧
    teams { g with toUtf8 := f } data = teams g data :=
  ⟨rfl, rfl, rfl, rfl, rfl, rfl, rfl, rfl, rfl, rfl, rfl, C98_valid _ _ data, rfl, rfl, rfl, rfl, rfl, rfl, rfl, rfl, rfl, rfl⟩

/-- C98: `quake_text::unicode::sort` decides the order of the lists of names, and nothing else.  Left out:
`playerNames`, `spectatorNames`, `teamNames`. -/
theorem C98_sort (g : Env) (f : List Str → List Str) (data : Bytes) :
    prints { g with unicodeSort := f } data = prints g data ∧
    serverinfoString { g with unicodeSort := f } data = serverinfoString g data ∧
    serverinfo { g with unicodeSort := f } data = serverinfo g data ∧
    filename { g with unicodeSort := f } data = filename g data ∧
    clientinfoStrings { g with unicodeSort := f } data = clientinfoStrings g data ∧
    clientinfo { g with unicodeSort := f } data = clientinfo g data ∧
    clients { g with unicodeSort := f } data = clients g data ∧
    playerClients { g with unicodeSort := f } data = playerClients g data ∧
    spectatorClients { g with unicodeSort := f } data = spectatorClients g data ∧
    hasBotPlayers { g with unicodeSort := f } data = hasBotPlayers g data ∧
    hasHumanPlayers { g with unicodeSort := f } data = hasHumanPlayers g data ∧
    isValid { g with unicodeSort := f } data = isValid g data ∧
    fragsPerPlayerName { g with unicodeSort := f } data = fragsPerPlayerName g data ∧
    flagEventsPerPlayerName { g with unicodeSort := f } data = flagEventsPerPlayerName g data ∧
    pingPerPlayerNumber { g with unicodeSort := f } data = pingPerPlayerNumber g data ∧
    ktxstatsString { g with unicodeSort := f } data = ktxstatsString g data ∧
    ktxstatsV3 { g with unicodeSort := f } data = ktxstatsV3 g data ∧
    server { g with unicodeSort := f } data = server g data ∧
    countdownDuration { g with unicodeSort := f } data = countdownDuration g data ∧
    demoDuration { g with unicodeSort := f } data = demoDuration g data ∧
    matchDuration { g with unicodeSort := f } data = matchDuration g data ∧
    matchdate { g with unicodeSort := f } data = matchdate g data ∧
    timestamp { g with unicodeSort := f } data = timestamp g data ∧
    players { g with unicodeSort := f } data = players g data ∧
    teams { g with unicodeSort := f } data = teams g data :=
  ⟨rfl, rfl, rfl, rfl, rfl, rfl, rfl, rfl, rfl, rfl, rfl, C98_valid _ _ data, rfl, rfl, rfl, rfl, rfl, rfl, rfl, rfl, rfl, rfl, rfl, rfl, rfl⟩

/-- C98: `quake_serverinfo::Settings` decides the settings, the filename, the timestamp and the two durations that
depend on the game mode, and nothing else.  Left out: `serverinfo`, `filename`, `countdownDuration`, `matchDuration`,
`timestamp`. -/
theorem C98_settings (g : Env) (f : Str → Settings) (data : Bytes) :
    prints { g with settings := f } data = prints g data ∧
    serverinfoString { g with settings := f } data = serverinfoString g data ∧
    clientinfoStrings { g with settings := f } data = clientinfoStrings g data ∧
    clientinfo { g with settings := f } data = clientinfo g data ∧
    clients { g with settings := f } data = clients g data ∧
    playerClients { g with settings := f } data = playerClients g data ∧
    spectatorClients { g with settings := f } data = spectatorClients g data ∧
    hasBotPlayers { g with settings := f } data = hasBotPlayers g data ∧
    hasHumanPlayers { g with settings := f } data = hasHumanPlayers g data ∧
    playerNames { g with settings := f } data = playerNames g data ∧
    spectatorNames { g with settings := f } data = spectatorNames g data ∧
    teamNames { g with settings := f } data = teamNames g data ∧
    isValid { g with settings := f } data = isValid g data ∧
    fragsPerPlayerName { g with settings := f } data = fragsPerPlayerName g data ∧
    flagEventsPerPlayerName { g with settings := f } data = flagEventsPerPlayerName g data ∧
    pingPerPlayerNumber { g with settings := f } data = pingPerPlayerNumber g data ∧
    ktxstatsString { g with settings := f } data = ktxstatsString g data ∧
    ktxstatsV3 { g with settings := f } data = ktxstatsV3 g data ∧
    server { g with settings := f } data = server g data ∧
    demoDuration { g with settings := f } data = demoDuration g data ∧
    matchdate { g with settings := f } data = matchdate g data ∧
    players { g with settings := f } data = players g data ∧ teams { g with settings := f } data = teams g data :=
  ⟨rfl, rfl, rfl, rfl, rfl, rfl, rfl, rfl, rfl, rfl, rfl, rfl, C98_valid _ _ data, rfl, rfl, rfl, rfl, rfl, rfl, rfl, rfl, rfl, rfl⟩

/-- C98: `quake_clientinfo::Clientinfo` decides what is known of clients and who is charged with teamkills, and
nothing else.  Left out: `clientinfo`, `clients`, `playerClients`, `spectatorClients`, `hasBotPlayers`,
`hasHumanPlayers`, `playerNames`, `spectatorNames`, `teamNames`, `fragsPerPlayerName`, `players`, `teams`. -/
theorem C98_clientinfo (g : Env) (f : Str → Clientinfo) (data : Bytes) :
    prints { g with clientinfo := f } data = prints g data ∧
    serverinfoString { g with clientinfo := f } data = serverinfoString g data ∧
    serverinfo { g with clientinfo := f } data = serverinfo g data ∧
    filename { g with clientinfo := f } data = filename g data ∧
    clientinfoStrings { g with clientinfo := f } data = clientinfoStrings g data ∧
    isValid { g with clientinfo := f } data = isValid g data ∧
    flagEventsPerPlayerName { g with clientinfo := f } data = flagEventsPerPlayerName g data ∧
    pingPerPlayerNumber { g with clientinfo := f } data = pingPerPlayerNumber g data ∧
    ktxstatsString { g with clientinfo := f } data = ktxstatsString g data ∧
    ktxstatsV3 { g with clientinfo := f } data = ktxstatsV3 g data ∧
    server { g with clientinfo := f } data = server g data ∧
    countdownDuration { g with clientinfo := f } data = countdownDuration g data ∧
    demoDuration { g with clientinfo := f } data = demoDuration g data ∧
    matchDuration { g with clientinfo := f } data = matchDuration g data ∧
    matchdate { g with clientinfo := f } data = matchdate g data ∧
    timestamp { g with clientinfo := f } data = timestamp g data :=
  ⟨rfl, rfl, rfl, rfl, rfl, C98_valid _ _ data, rfl, rfl, rfl, rfl, rfl, rfl, rfl, rfl, rfl, rfl⟩

/-- C98: `ktxstats::v3::KtxstatsV3` decides the match stats, the server, the players and the teams, and nothing else;
the match duration is read from the text of the stats, not from the parsed stats.  Left out: `ktxstatsV3`, `server`,
`players`, `teams`. -/
theorem C98_ktxstats (g : Env) (f : Str → Option KtxStats) (data : Bytes) :
    prints { g with ktxstats := f } data = prints g data ∧
    serverinfoString { g with ktxstats := f } data = serverinfoString g data ∧
    serverinfo { g with ktxstats := f } data = serverinfo g data ∧
    filename { g with ktxstats := f } data = filename g data ∧
    clientinfoStrings { g with ktxstats := f } data = clientinfoStrings g data ∧
    clientinfo { g with ktxstats := f } data = clientinfo g data ∧
    clients { g with ktxstats := f } data = clients g data ∧
    playerClients { g with ktxstats := f } data = playerClients g data ∧
    spectatorClients { g with ktxstats := f } data = spectatorClients g data ∧
    hasBotPlayers { g with ktxstats := f } data = hasBotPlayers g data ∧
    hasHumanPlayers { g with ktxstats := f } data = hasHumanPlayers g data ∧
    playerNames { g with ktxstats := f } data = playerNames g data ∧
    spectatorNames { g with ktxstats := f } data = spectatorNames g data ∧
    teamNames { g with ktxstats := f } data = teamNames g data ∧
    isValid { g with ktxstats := f } data = isValid g data ∧
    fragsPerPlayerName { g with ktxstats := f } data = fragsPerPlayerName g data ∧
    flagEventsPerPlayerName { g with ktxstats := f } data = flagEventsPerPlayerName g data ∧
    pingPerPlayerNumber { g with ktxstats := f } data = pingPerPlayerNumber g data ∧
    ktxstatsString { g with ktxstats := f } data = ktxstatsString g data ∧
    countdownDuration { g with ktxstats := f } data = countdownDuration g data ∧
    demoDuration { g with ktxstats := f } data = demoDuration g data ∧
    matchDuration { g with ktxstats := f } data = matchDuration g data ∧
    matchdate { g with ktxstats := f } data = matchdate g data ∧
    timestamp { g with ktxstats := f } data = timestamp g data :=
  ⟨rfl, rfl, rfl, rfl, rfl, rfl, rfl, rfl, rfl, rfl, rfl, rfl, rfl, rfl, C98_valid _ _ data, rfl, rfl, rfl, rfl, rfl, rfl, rfl, rfl, rfl⟩

/-- C98: `str::to_lowercase` decides the teams, and nothing else.  Left out: `teams`. -/
theorem C98_lowercase (g : Env) (f : Str → Str) (data : Bytes) :
    prints { g with lowercase := f } data = prints g data ∧
    serverinfoString { g with lowercase := f } data = serverinfoString g data ∧
    serverinfo { g with lowercase := f } data = serverinfo g data ∧
    filename { g with lowercase := f } data = filename g data ∧
    clientinfoStrings { g with lowercase := f } data = clientinfoStrings g data ∧
    clientinfo { g with lowercase := f } data = clientinfo g data ∧
    clients { g with lowercase := f } data = clients g data ∧
    playerClients { g with lowercase := f } data = playerClients g data ∧
    spectatorClients { g with lowercase := f } data = spectatorClients g data ∧
    hasBotPlayers { g with lowercase := f } data = hasBotPlayers g data ∧
    hasHumanPlayers { g with lowercase := f } data = hasHumanPlayers g data ∧
    playerNames { g with lowercase := f } data = playerNames g data ∧
    spectatorNames { g with lowercase := f } data = spectatorNames g data ∧
    teamNames { g with lowercase := f } data = teamNames g data ∧
    isValid { g with lowercase := f } data = isValid g data ∧
    fragsPerPlayerName { g with lowercase := f } data = fragsPerPlayerName g data ∧
    flagEventsPerPlayerName { g with lowercase := f } data = flagEventsPerPlayerName g data ∧
    pingPerPlayerNumber { g with lowercase := f } data = pingPerPlayerNumber g data ∧
    ktxstatsString { g with lowercase := f } data = ktxstatsString g data ∧
    ktxstatsV3 { g with lowercase := f } data = ktxstatsV3 g data ∧
    server { g with lowercase := f } data = server g data ∧
    countdownDuration { g with lowercase := f } data = countdownDuration g data ∧
    demoDuration { g with lowercase := f } data = demoDuration g data ∧
    matchDuration { g with lowercase := f } data = matchDuration g data ∧
    matchdate { g with lowercase := f } data = matchdate g data ∧
    timestamp { g with lowercase := f } data = timestamp g data ∧
    players { g with lowercase := f } data = players g data :=
  ⟨rfl, rfl, rfl, rfl, rfl, rfl, rfl, rfl, rfl, rfl, rfl, rfl, rfl, rfl, C98_valid _ _ data, rfl, rfl, rfl, rfl, rfl, rfl, rfl, rfl, rfl, rfl, rfl, rfl⟩

/-- C98: `str::parse::<f64>` decides the match duration, and nothing else.  Left out: `matchDuration`. -/
theorem C98_float (g : Env) (f : Str → Option F64) (data : Bytes) :
    prints { g with parseF64 := f } data = prints g data ∧
    serverinfoString { g with parseF64 := f } data = serverinfoString g data ∧
    serverinfo { g with parseF64 := f } data = serverinfo g data ∧
    filename { g with parseF64 := f } data = filename g data ∧
    clientinfoStrings { g with parseF64 := f } data = clientinfoStrings g data ∧
    clientinfo { g with parseF64 := f } data = clientinfo g data ∧
    clients { g with parseF64 := f } data = clients g data ∧
    playerClients { g with parseF64 := f } data = playerClients g data ∧
    spectatorClients { g with parseF64 := f } data = spectatorClients g data ∧
    hasBotPlayers { g with parseF64 := f } data = hasBotPlayers g data ∧
    hasHumanPlayers { g with parseF64 := f } data = hasHumanPlayers g data ∧
    playerNames { g with parseF64 := f } data = playerNames g data ∧
    spectatorNames { g with parseF64 := f } data = spectatorNames g data ∧
    teamNames { g with parseF64 := f } data = teamNames g data ∧
    isValid { g with parseF64 := f } data = isValid g data ∧
    fragsPerPlayerName { g with parseF64 := f } data = fragsPerPlayerName g data ∧
    flagEventsPerPlayerName { g with parseF64 := f } data = flagEventsPerPlayerName g data ∧
    pingPerPlayerNumber { g with parseF64 := f } data = pingPerPlayerNumber g data ∧
    ktxstatsString { g with parseF64 := f } data = ktxstatsString g data ∧
    ktxstatsV3 { g with parseF64 := f } data = ktxstatsV3 g data ∧
    server { g with parseF64 := f } data = server g data ∧
    countdownDuration { g with parseF64 := f } data = countdownDuration g data ∧
    demoDuration { g with parseF64 := f } data = demoDuration g data ∧
    matchdate { g with parseF64 := f } data = matchdate g data ∧
    timestamp { g with parseF64 := f } data = timestamp g data ∧
    players { g with parseF64 := f } data = players g data ∧ teams { g with parseF64 := f } data = teams g data :=
  ⟨rfl, rfl, rfl, rfl, rfl, rfl, rfl, rfl, rfl, rfl, rfl, rfl, rfl, rfl, C98_valid _ _ data, rfl, rfl, rfl, rfl, rfl, rfl, rfl, rfl, rfl, rfl, rfl, rfl⟩

/-- C98: overflow checks (the build profile) have no part in prints, serverinfo, clients, names, validity and dates.
Left out: `fragsPerPlayerName`, `flagEventsPerPlayerName`, `pingPerPlayerNumber`, `ktxstatsString`, `ktxstatsV3`,
`server`, `countdownDuration`, `demoDuration`, `matchDuration`, `players`, `teams`. -/
theorem C98_profile (g : Env) (f : Bool) (data : Bytes) :
    prints { g with checks := f } data = prints g data ∧
    serverinfoString { g with checks := f } data = serverinfoString g data ∧
    serverinfo { g with checks := f } data = serverinfo g data ∧
    filename { g with checks := f } data = filename g data ∧
    clientinfoStrings { g with checks := f } data = clientinfoStrings g data ∧
    clientinfo { g with checks := f } data = clientinfo g data ∧
    clients { g with checks := f } data = clients g data ∧
    playerClients { g with checks := f } data = playerClients g data ∧
    spectatorClients { g with checks := f } data = spectatorClients g data ∧
    hasBotPlayers { g with checks := f } data = hasBotPlayers g data ∧
    hasHumanPlayers { g with checks := f } data = hasHumanPlayers g data ∧
    playerNames { g with checks := f } data = playerNames g data ∧
    spectatorNames { g with checks := f } data = spectatorNames g data ∧
    teamNames { g with checks := f } data = teamNames g data ∧ isValid { g with checks := f } data = isValid g data ∧
    matchdate { g with checks := f } data = matchdate g data ∧
    timestamp { g with checks := f } data = timestamp g data :=
  ⟨rfl, rfl, rfl, rfl, rfl, rfl, rfl, rfl, rfl, rfl, rfl, rfl, rfl, rfl, C98_valid _ _ data, rfl, rfl⟩

/-- C98: where a failed read leaves the cursor (the version of the standard library) has no part in serverinfo,
clients, names, validity and dates.  Left out: `prints`, `fragsPerPlayerName`, `flagEventsPerPlayerName`,
`pingPerPlayerNumber`, `ktxstatsString`, `ktxstatsV3`, `server`, `countdownDuration`, `demoDuration`, `matchDuration`,
`players`, `teams`. -/
theorem C98_std (g : Env) (f : Bool) (data : Bytes) :
    serverinfoString { g with eofSeek := f } data = serverinfoString g data ∧
    serverinfo { g with eofSeek := f } data = serverinfo g data ∧
    filename { g with eofSeek := f } data = filename g data ∧
    clientinfoStrings { g with eofSeek := f } data = clientinfoStrings g data ∧
    clientinfo { g with eofSeek := f } data = clientinfo g data ∧
    clients { g with eofSeek := f } data = clients g data ∧
    playerClients { g with eofSeek := f } data = playerClients g data ∧
    spectatorClients { g with eofSeek := f } data = spectatorClients g data ∧
    hasBotPlayers { g with eofSeek := f } data = hasBotPlayers g data ∧
    hasHumanPlayers { g with eofSeek := f } data = hasHumanPlayers g data ∧
    playerNames { g with eofSeek := f } data = playerNames g data ∧
    spectatorNames { g with eofSeek := f } data = spectatorNames g data ∧
    teamNames { g with eofSeek := f } data = teamNames g data ∧
    isValid { g with eofSeek := f } data = isValid g data ∧
    matchdate { g with eofSeek := f } data = matchdate g data ∧
    timestamp { g with eofSeek := f } data = timestamp g data :=
  ⟨rfl, rfl, rfl, rfl, rfl, rfl, rfl, rfl, rfl, rfl, rfl, rfl, rfl, C98_valid _ _ data, rfl, rfl⟩

/-- C98: `chrono` decides the match date and the timestamp, and nothing else.  Left out: `matchdate`, `timestamp`. -/
theorem C98_date (g : Env) (f : Str → Option Int) (data : Bytes) :
    prints { g with parseDate := f } data = prints g data ∧
    serverinfoString { g with parseDate := f } data = serverinfoString g data ∧
    serverinfo { g with parseDate := f } data = serverinfo g data ∧
    filename { g with parseDate := f } data = filename g data ∧
    clientinfoStrings { g with parseDate := f } data = clientinfoStrings g data ∧
    clientinfo { g with parseDate := f } data = clientinfo g data ∧
    clients { g with parseDate := f } data = clients g data ∧
    playerClients { g with parseDate := f } data = playerClients g data ∧
    spectatorClients { g with parseDate := f } data = spectatorClients g data ∧
    hasBotPlayers { g with parseDate := f } data = hasBotPlayers g data ∧
    hasHumanPlayers { g with parseDate := f } data = hasHumanPlayers g data ∧
    playerNames { g with parseDate := f } data = playerNames g data ∧
    spectatorNames { g with parseDate := f } data = spectatorNames g data ∧
    teamNames { g with parseDate := f } data = teamNames g data ∧
    isValid { g with parseDate := f } data = isValid g data ∧
    fragsPerPlayerName { g with parseDate := f } data = fragsPerPlayerName g data ∧
    flagEventsPerPlayerName { g with parseDate := f } data = flagEventsPerPlayerName g data ∧
    pingPerPlayerNumber { g with parseDate := f } data = pingPerPlayerNumber g data ∧
    ktxstatsString { g with parseDate := f } data = ktxstatsString g data ∧
    ktxstatsV3 { g with parseDate := f } data = ktxstatsV3 g data ∧
    server { g with parseDate := f } data = server g data ∧
    countdownDuration { g with parseDate := f } data = countdownDuration g data ∧
    demoDuration { g with parseDate := f } data = demoDuration g data ∧
    matchDuration { g with parseDate := f } data = matchDuration g data ∧
    players { g with parseDate := f } data = players g data ∧ teams { g with parseDate := f } data = teams g data :=
  ⟨rfl, rfl, rfl, rfl, rfl, rfl, rfl, rfl, rfl, rfl, rfl, rfl, rfl, rfl, C98_valid _ _ data, rfl, rfl, rfl, rfl, rfl, rfl, rfl, rfl, rfl, rfl, rfl⟩

end

/-- The influence is real: each dependency has an effect on at least one of the functions left out above. -/
example :
    clientinfoStrings { Example.debug with toUnicode := fun _ => [] } Example.validData ≠ clientinfoStrings Example.debug Example.validData ∧
    serverinfoString { Example.debug with toUtf8 := fun _ => [] } Example.validData ≠ serverinfoString Example.debug Example.validData ∧
    playerNames { Example.debug with unicodeSort := fun _ => [] } Example.validData ≠ playerNames Example.debug Example.validData ∧
    teamNames { Example.debug with unicodeSort := fun _ => [] } Example.validData ≠ teamNames Example.debug Example.validData ∧
    (serverinfo { Example.debug with settings := fun _ => ⟨none, none, none, []⟩ } Example.validData).bind (fun s => .ok s.serverdemo) ≠
      (serverinfo Example.debug Example.validData).bind (fun s => .ok s.serverdemo) ∧
    hasBotPlayers { Example.debug with clientinfo := fun s => { Example.debug.clientinfo s with bot := some 1 } } Example.validData ≠
      hasBotPlayers Example.debug Example.validData ∧
    server { Example.debug with ktxstats := fun _ => none } Example.statsData ≠ server Example.debug Example.statsData ∧
    matchDuration { Example.debug with parseF64 := fun _ => some (.finite 600) } Example.statsData ≠
      matchDuration Example.debug Example.statsData ∧
    matchdate { Example.debug with parseDate := fun _ => none } (Example.dated bytes!"2024-04-02 21:02:17 CEST") ≠ matchdate Example.debug (Example.dated bytes!"2024-04-02 21:02:17 CEST") := by
  decide +kernel

end Mvd
