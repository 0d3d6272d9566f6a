# Formal model of vikpe/mvdparser in Lean 4

## Layout

* `lean/Verif/Rust/*` – small models of the Rust, std and bstr operations the code uses: outcomes with explicit panic,
  machine integers, slices, substring search, UTF-8 strings, hash maps, stable sort, binary32.
* `lean/Verif/Model/*` – the code of `/repo/src`, function by function. Each definition cites its lines.
* `lean/Verif/Spec/*` – specification vocabulary: wire format, messages, first and last occurrences, obituary phrases,
  rounding, and so on. It uses none of the model's functions; a few files use the types of the model's results.
* `lean/Verif/Lemmas/*` – helper lemmas.
* `lean/Verif/Props/*` – the property theorems `Cnn_…`, with a concrete case that meets the hypotheses beside them.
* `lean/Verif/UnitTests.lean`, `lean/Verif/Conformance.lean` – the repository's unit tests run on the model; see Trusted base.
* `MANIFEST.json`, `AXIOMS.md` and this file are generated by `tools/*.py`.
* `seeded/LOG.jsonl` – wrong programs tried against the theorems.

## Model conventions

* Demo data is `List UInt8`. A Rust `String` or `&str` is the list of its Unicode scalar values. Where the code slices a
  string by byte offset, the offset into the UTF-8 encoding and the panic inside a character are modelled.
* A call has one of four outcomes: `ok`, `err` (an `Err(_)`, with its kind), `panic`, and `hang` for a loop that did not
  finish within its fuel. C01 proves that `hang` never happens.
* Machine integers are `Nat` or `Int` with explicit overflow: a panic when overflow checks are compiled in (dev and test
  profiles), wrap-around otherwise (release profile). `Env.checks` selects the profile; theorems hold for both unless they
  say otherwise.
* `HashMap` iteration order is an arbitrary permutation (`Env.order`), chosen afresh for every map of a call.
* `f32` values are exact rationals rounded to 24 significant bits, to nearest, ties to even. The numbers in question (sums
  of `u8`, `u16` or `u32` values and their quotients) are far from the exponent limits.
* `Cursor::read_exact` at the end of the data leaves the cursor at the end or where it was, depending on the version of the
  standard library. Both are modelled (`Env.eofSeek`); C59 proves that the results do not depend on it.
* External crates and locale-like functions are parameters, the fields of `Env`: the text conversions and the sort of
  `quake_text`, `quake_serverinfo::Settings::from`, `quake_clientinfo::Clientinfo::from`,
  `ktxstats::v3::KtxstatsV3::try_from`, chrono's date parser, `str::to_lowercase` and `str::parse::<f64>`. Theorems hold for
  every choice of them. Where a theorem needs a fact about one, it is a hypothesis of the theorem.
  `Rust/ParseFloat.lean` models the correctly rounded reading of decimal numbers; C104 and `C106_duration` assume that
  `str::parse::<f64>` is this function.

## Properties

### C01 Every call terminates

Every public function returns, errors or panics after finitely many steps on any byte string; none of the frame-walking, message-reading, client-scanning or stats-block loops can run forever.

* Model: all loops: `frameLoop`, `printsBody`, `flagBody`, `pingBody`, `clientScan`, `blockLoop`, and every public function built on them
* Proof: Each loop has fuel and an explicit outcome `hang`. An induction shows that every round consumes input, so fuel beyond the data length is never used up; further lemmas show that more fuel does not change the result.
* Hypotheses and limits: `data.length < 2^63`, which every Rust slice satisfies (needed only for the stats blocks, whose 64-bit offset arithmetic wraps in release builds). Recursion inside external crates is not covered.
* Theorems: `C01_terminates`, `C01_terminates_other`, `C01_frame_loop`, `C01_message_loops`, `C01_client_scan`, `C01_block_loop`

### C02 Frame walk is the inverse of the demo encoding

On a demo that is a concatenation of well-formed MVD frames the parser visits exactly those frames, in order, each with its duration, target, command, header range and body range, and stops exactly at the end of the data.

* Model: `FrameInfo.fromDataAndIndex`, `frameLoop`
* Proof: Encoder `Spec.Frame.encode` written from the format; decoding an encoded frame at any position is computed, then induction over the frame list.
* Hypotheses and limits: Frames must be well-formed (`Frame.WF`: mask of four bytes exactly for kind 3, payload below 2^32 bytes, fixed payload of the unsized kinds).
* Theorems: `C02_frame_walk`, `C02_frame_walk_whole`, `C02_frame_at`

### C03 Every byte string has exactly one frame decomposition

Any byte string splits in one and only one way into a (possibly empty) sequence of complete frames followed by a remainder that does not begin with a complete frame; this determines what every frame-walking function sees.

* Model: `frameLoop`
* Proof: Existence by strong induction on the length, uniqueness because the header determines the frame; the remainder is classified by case analysis.
* Hypotheses and limits: None. Together with C02 it makes every theorem stated on `Splits` apply to every byte string.
* Theorems: `C03_unique_split`, `C03_remainder`, `C03_walk_any`

### C04 prints returns exactly the leading prints of each frame

prints(data) lists, in demo order, every non-empty print message in the unbroken run of print messages at the start of each frame body, with its level and exact text bytes, and collapses only adjacent repetitions.

* Model: `printsBody`, `prints`, `Cursor.readPrint`
* Proof: Refinement of the two loops to the relation `LeadingPrints` and to `Collapses`; both relations are shown to be total and functional.
* Hypotheses and limits: The demo must not end in a cut-off frame (`Stops`); C06 covers the other case.
* Theorems: `C04_prints`, `C04_leading_prints`, `C04_collapse_unique`

### C05 Shape of returned prints

Every print returned has non-empty text without a NUL byte, its text occurs verbatim in the demo data, and no two neighbouring prints are equal.

* Model: `prints`
* Proof: Invariant of the loops.
* Hypotheses and limits: None.
* Theorems: `C05_print_shape`

### C06 Truncated demos: when frame walkers panic

prints, frags_per_player_name, flag_events_per_player_name, ping_per_player_number and the duration functions should return normally on a demo cut off in the middle. In fact they panic when the cut frame's declared size is at most the total data length: prints on exactly those inputs and on no other, frags_per_player_name and flag_events_per_player_name on all of them, ping_per_player_number unless eight frames with pings come before the cut, and the duration functions if the cut frame starts before the point up to which they measure.

* Model: every frame walker: `prints`, `frags…`, `flagEvents…`, `ping…`, durations
* Proof: Case split on the remainder of C03.
* Hypotheses and limits: The absence of panics that users expect is false: witnesses are proved beside the exact conditions.
* Theorems: `C06_demo_duration`, `C06_countdown_duration`, `C06_match_duration`, `C06_flags`, `C06_frags`, `C06_ping`, `C06_ping_enough`, `C06_prints`, `C06_prints_witness`

### C07 offsets_between is exact

The range between two markers is non-empty, starts right after the first occurrence of the first marker, ends at the first occurrence of the second marker after that, and is absent exactly when one of the markers is missing or nothing lies between them.

* Model: `offsetsBetween`
* Proof: Iff against first occurrences.
* Hypotheses and limits: None.
* Theorems: `C07_offsets_between`, `C07_no_range`

### C08 is_aborted is exact

is_aborted(data) is true exactly when the 'Match stopped by majority vote' print appears somewhere in the data.

* Model: `isAborted`
* Proof: Iff against `Occurs`.
* Hypotheses and limits: None.
* Theorems: `C08_is_aborted`

### C09 End-of-demo detection is exact

The end-of-demo check succeeds exactly when the data is the end-of-demo marker preceded by at least one byte.

* Model: `hasEndOfDemoPrint`
* Proof: Iff.
* Hypotheses and limits: None.
* Theorems: `C09_end_of_demo`

### C10 is_paused is exact and never panics

is_paused(data) is true exactly when the demo does not end with the end-of-demo print and contains 'Server is paused' or 'paused the game'.

* Model: `isPaused`
* Proof: Iff; the function is total in the model because both slices are in range.
* Hypotheses and limits: None.
* Theorems: `C10_is_paused`

### C11 A valid demo is never reported paused

If is_valid(data) is true then is_paused(data) is false.

* Model: `isValid`, `isPaused`
* Proof: Corollary of C09, C10 and C12.
* Hypotheses and limits: None.
* Theorems: `C11_valid_not_paused`

### C12 is_valid guarantees usable metadata

If is_valid(data) is true then the data is at least 1280 bytes, ends with the end-of-demo marker, and serverinfo, serverinfo_string, clientinfo, player_clients, spectator_clients, player_names, spectator_names, team_names and has_human_players succeed and there is at least one client. has_clients answers true exactly when the scan finds at least one userinfo string, and panics exactly when the scan does.

* Model: `isValid`, `clients`, `serverinfo` and the name lists
* Proof: Unfolding; `C12_exact` gives the exact condition for validity.
* Hypotheses and limits: None.
* Theorems: `C12_valid`, `C12_exact`, `C12_has_clients`

### C13 is_valid decides every input without panicking

is_valid should return false, not panic, for any data that is not a valid demo. In fact it panics exactly when the data ends with the end-of-demo marker and either is 1024 to 1279 bytes long, or is longer, has serverinfo and the client scan runs past the end of the data.

* Model: `isValid`
* Proof: Exact panic condition and totality otherwise. Never panicking is false; witnesses for both causes.
* Hypotheses and limits: None.
* Theorems: `C13_valid_panics`, `C13_witness`, `C13_witness_scan`

### C14 serverinfo_string is exact and local

serverinfo_string returns the text between 'fullserverinfo "' and the next quote within the first 1280 bytes, fails with 'Serverinfo not found' when it is absent there, never depends on bytes after the first 1280, and the raw text is non-empty and contains no quote. serverinfo is the parsed text and fails with it.

* Model: `serverinfoString`, `serverinfo`
* Proof: Corollary of C07 on the first 1280 bytes.
* Hypotheses and limits: At least 1280 bytes (C15 covers the rest). The decoding of bytes to text is opaque.
* Theorems: `C14_serverinfo_string`, `C14_serverinfo_error`, `C14_settings`, `C14_serverinfo_local`

### C15 Short data and serverinfo

serverinfo and everything derived from it should report an error on short data. In fact they panic on every input shorter than 1280 bytes and on no other.

* Model: `serverinfoString`, `serverinfo`, `filename`, `timestampFromEpoch`, `timestamp`, durations
* Proof: Computation of the slice.
* Hypotheses and limits: None.
* Theorems: `C15_short_data`, `C15_short_data_derived`

### C16 filename is the serverdemo setting

filename(data) is the serverdemo entry of the demo's serverinfo, and an error exactly when there is no serverinfo or it has no serverdemo entry.

* Model: `filename`
* Proof: Case analysis.
* Hypotheses and limits: `quake_serverinfo::Settings::from` is opaque.
* Theorems: `C16_filename`, `C16_filename_errors`

### C17 Client strings are well-formed userinfo strings

Every string found by the client scan is delimited by NUL bytes in the data, contains no NUL, contains \name\, and is 7 to 256 bytes long; they are returned in data order without overlap.

* Model: `clientScan`, `clientinfoStrings`
* Proof: One search step is shown equivalent to the relation `NextClient`, the loop to `ClientChain`; uniqueness of finished chains gives the iff `C17_exact`.
* Hypotheses and limits: Unless the scan panics; C19 says exactly when.
* Theorems: `C17_client_strings`, `C17_exact`

### C18 The client scan finds every client

If after the spawn command the userinfo strings follow, each NUL-delimited, 7 to 256 bytes long, with gaps that contain no \name\ and short enough for the look-ahead, then the scan returns exactly these strings in order.

* Model: `clientinfoStrings`
* Proof: Induction over the layout `ClientSection`.
* Hypotheses and limits: Sections up to 24 * 512 bytes, 512 bytes present after the last string.
* Theorems: `C18_finds_every_client`

### C19 Bounds and failures of the client scan

The client scan returns at most 1535 strings, errors exactly when the spawn command is absent, and panics only when a 512-byte look-ahead window starting at the spawn command or at the end of a found string runs past the end of the data.

* Model: `clientinfoStrings`
* Proof: From the chain relation.
* Hypotheses and limits: None.
* Theorems: `C19_bound`, `C19_error`, `C19_panic`, `C19_panic_simple`, `C19_witness`

### C20 Client numbers

Clients are numbered by their position, modulo 256; with at most 256 clients the numbers are pairwise different, with more they repeat.

* Model: `clients`
* Proof: Enumeration lemma; number is the index modulo 256.
* Hypotheses and limits: None.
* Theorems: `C20_client_numbers`

### C21 Players and spectators partition the clients

player_clients and spectator_clients split the client list: every client is in exactly one of them, order is preserved, and exactly the clients whose spectator setting is present and non-zero are spectators. All client functions succeed, fail and panic together with the scan of the userinfo strings. clientinfo returns the parsed userinfo strings, one each.

* Model: `playerClients`, `spectatorClients`, `Client.ofClientinfo`
* Proof: Filter partition.
* Hypotheses and limits: `quake_clientinfo::Clientinfo::from` is opaque.
* Theorems: `C21_partition`, `C21_failure`, `C21_infos`, `C21_client_fields`

### C22 Name lists

player_names and spectator_names contain exactly the names of the players/spectators with multiplicity; team_names contains exactly the players' team names, with no two neighbours equal, and with no duplicates at all when the name sort places equal names next to each other. The lists are in whatever order the name sort establishes.

* Model: `playerNames`, `spectatorNames`, `teamNames`
* Proof: Permutation of the sorted list, then `dedup`.
* Hypotheses and limits: `quake_text::unicode::sort` is a parameter assumed to permute its input (`C22_names`) and to place equal names next to each other (`C22_team_names_nodup`).
* Theorems: `C22_names`, `C22_sorted`, `C22_team_names_nodup`

### C23 Bots and humans

If has_bot_players and has_human_players both answer false, there are no players; has_human_players answers whether some player is not a bot; has_bot_players answers whether some player is a bot or the data contains a bot entry of the match stats.

* Model: `hasHumanPlayers`, `hasBotPlayers`
* Proof: Case analysis.
* Hypotheses and limits: None.
* Theorems: `C23_bots_humans`

### C24 Obituary classification is total and exact

Every obituary text is classified by the first matching class in the order death, weapon suicide, suicide, teamkill, teamkill by unknown, frag, and names are the exact text before (or between) the first occurrence of the phrase; texts matching no phrase are rejected.

* Model: `FragEvent.tryFrom`, `patternMatch`, the phrase tables
* Proof: The relation `Classifies` is written from the phrases; both directions by case analysis, plus totality and uniqueness.
* Hypotheses and limits: None.
* Theorems: `C24_classification`, `C24_total`, `C24_rejects`, `C24_unique`

### C25 Obituaries round-trip for ordinary names

For every phrase in the game's obituary table, the message built from player names without spaces or apostrophes, not beginning with a one-word phrase, is attributed to the right killer and victim. Names such as 'died' are misattributed.

* Model: `FragEvent.tryFrom`
* Proof: From C24: a phrase occurring in another place would need a space or one of the one-word phrases inside a name.
* Hypotheses and limits: Names without spaces; second names without apostrophe and not beginning with a one-word phrase. Witnesses show that these limits are needed.
* Theorems: `C25_one_name`, `C25_two_names`, `C25_witnesses`

### C26 frags_per_player_name is the sum of the obituaries

The frags reported for a name equal +1 per frag, -1 per death, weapon suicide and teamkill, -2 per suicide, over all frames that begin with a medium-level obituary print; a name is listed exactly when some obituary is attributed to it. A score that leaves the 32-bit range on the way is reduced to 32 bits in a release build and a panic with overflow checks.

* Model: `printFrames`, `fragUpdatesFrom`, `findTeamKiller`, `scorePrint`, `fragsPerPlayerName`
* Proof: Refinement of the frame loop to the list of charges; the table is the sum per name by induction over the charges.
* Hypotheses and limits: `C26_frags` is for fewer than 2^30 charges (implied by data below 2 GiB, `C26_bound`); `C26_release` and `C26_debug` cover any number of charges. No cut-off frame.
* Theorems: `C26_release`, `C26_debug`, `C26_charges`, `C26_frags`, `C26_panic`, `C26_bound`, `C26_overflow_witness`

### C27 Only leading medium prints score

Frames whose first message is not a medium-level print, for example chat, can be inserted or removed anywhere without changing the frags of any player, except where they come within the two frames after an anonymous teamkill that are searched for the killer.

* Model: `fragsPerPlayerName`
* Proof: From C26: the charges depend only on the frames that lead with a medium print. `C27_far`: with anonymous teamkills, if two or more frames with content lie between each earlier one and the added frame, and the clients are the same.
* Hypotheses and limits: With anonymous teamkills the clients are assumed to be the same in both demos.
* Theorems: `C27_only_medium_prints`, `C27_insert`, `C27_far`

### C28 Anonymous teamkills blame a team mate

A teamkill whose killer is unknown is charged only to a client on the victim's team with a different name whose score was updated in the obituary's frame or the next two non-empty frames; otherwise to nobody.

* Model: `findTeamKiller`
* Proof: Exact characterisation of the look-ahead by `nearbyUpdates` and `Blamed`.
* Hypotheses and limits: The clients can be read.
* Theorems: `C28_exact`, `C28_sound`

### C29 Flag message classification is total and exact

Every flag message text is classified by the first matching class in order captured, defends flag, defends carrier against aggressive enemy, defends carrier, got flag, returned flag, assist; the player is the text before the phrase; the aggressive-enemy messages are never counted as plain carrier defends.

* Model: `FlagEvent.tryFrom`
* Proof: Like C24.
* Hypotheses and limits: None for the classification; `C29_round_trip` for names without spaces.
* Theorems: `C29_classification`, `C29_total`, `C29_unique`, `C29_aggressive`, `C29_round_trip`

### C30 Flag counters count

Each counter reported by flag_events_per_player_name is the number of flag messages of that kind for that player when that number is below 256; at 256 it wraps to 0 in release builds and panics in builds with overflow checks.

* Model: `flagBody`, `flagPrints`, `countFlagPrint`, `flagEventsPerPlayerName`
* Proof: Refinement to `FlagTexts`; counters by induction over the events.
* Hypotheses and limits: Counters are `u8`: exact below 256, modulo 256 in release builds, panic with overflow checks; all three cases are proved.
* Theorems: `C30_texts`, `C30_counts`, `C30_wraps`, `C30_panics`, `C30_few`, `C30_witness`

### C31 Frames without flag text are irrelevant to flag events

Frames whose body does not contain the bytes 'flag' can be inserted or removed anywhere without changing flag_events_per_player_name.

* Model: `flagEventsPerPlayerName`
* Proof: From C30.
* Hypotheses and limits: None.
* Theorems: `C31_only_flag_frames`, `C31_insert`

### C32 Pings are floor averages of the first eight samples

The ping reported for a player number is the integer part of the mean of that player's ping updates in the first eight frames that begin with a ping update, provided the sum fits in 16 bits.

* Model: `pingBody`, `totalPings`, `averagePing`, `pingPerPlayerNumber`
* Proof: Refinement to `sampledPings`; the binary32 quotient of numbers below 2^16 is shown to have the right floor.
* Hypotheses and limits: Sample sums below 65536; C33 covers the rest.
* Theorems: `C32_pings`

### C33 Ping sum overflow

A player whose ping samples sum to 65536 or more should still get their mean ping. In fact the sum panics in builds with overflow checks and is reduced modulo 65536 otherwise.

* Model: `averagePing`
* Proof: Computation for both build profiles.
* Hypotheses and limits: None.
* Theorems: `C33_wraps`, `C33_panics`, `C33_witness`

### C34 Pings are reported or the call fails

ping_per_player_number fails exactly when no frame begins with a complete ping update; otherwise it reports exactly the player numbers that occur in the sampled updates.

* Model: `pingPerPlayerNumber`
* Proof: From C32.
* Hypotheses and limits: None.
* Theorems: `C34_updates`, `C34_error`, `C34_players`

### C35 Durations sum the frames before an offset

The demo duration is the sum of the millisecond durations of all frames starting before the last 'The match is over' text, else before the last standby status change, else of all frames, converted to seconds.

* Model: `totalMs`, `durationUntilOffset`, `demoDuration`, `countdownDuration`
* Proof: The loop sums the frames that start before the offset; offsets by `LastAt`/`FirstAt`.
* Hypotheses and limits: Frames before the offset complete; totals below 2^32 ms (larger totals: `C35_overflow`, `C35_countdown_overflow`).
* Theorems: `C35_measured`, `C35_demo_duration`, `C35_demo_duration_accuracy`, `C35_all_frames`, `C35_overflow`, `C35_countdown_duration`, `C35_countdown_overflow`, `C35_no_countdown`, `C35_overflow_witness`, `C35_countdown_overflow_witness`

### C36 Duration conversion is accurate and monotone

Converting a millisecond total to a duration is monotone and its relative error is at most 2^-23 (plus half a nanosecond); below 2^24 ms it differs from the exact value by at most 2^-24 relative plus half a nanosecond.

* Model: `msToDuration`, `f32Round`, `roundEven`
* Proof: The relation `Converted` prescribes three roundings to nearest, ties to even; `C36_conversion` is an iff. Accuracy and monotonicity follow.
* Hypotheses and limits: Single precision without exponent limits: the values (0 to 2^32) are far from overflow and subnormal numbers (C93).
* Theorems: `C36_conversion`, `C36_monotone`, `C36_accuracy`, `C36_accuracy_short`

### C37 The countdown never exceeds the demo

countdown_duration <= demo_duration whenever the match date print starts no later than the point up to which the demo is measured, so the match duration by seeking is their difference and does not panic; when it starts later the subtraction can panic.

* Model: `matchDurationFromSeeking`
* Proof: Monotonicity of prefix sums and of the conversion.
* Hypotheses and limits: Match date print before the end of the measurement; the witness shows a panic otherwise.
* Theorems: `C37_countdown_le_demo`, `C37_no_matchdate`, `C37_panic`, `C37_witness`

### C38 Hoonymode durations

In hoonymode the countdown is zero and the match duration equals the demo duration, whatever the match stats contain.

* Model: `countdownDuration`, `matchDuration`
* Proof: Case analysis.
* Hypotheses and limits: At least 1280 bytes.
* Theorems: `C38_hoonymode`

### C39 Match duration source

Outside hoonymode match_duration is the duration recorded in the match stats when these can be read, and otherwise falls back to seeking; a recorded duration that is negative, not a number or too large panics. match_duration_from_ktxstats is this recorded duration in every mode, and fails when the stats cannot be read, record no duration, or record one that is no number.

* Model: `matchDurationFromKtxstats`, `matchDuration`
* Proof: Case analysis on the recorded text; rounding of the parsed number as in C36.
* Hypotheses and limits: `str::parse::<f64>` is a parameter. At least 1280 bytes.
* Theorems: `C39_recorded`, `C39_panic`, `C39_fallback`, `C39_unique`, `C39_stats_panic`, `C39_stats`, `C39_stats_errors`, `C39_witness`

### C40 Match stats blocks round-trip

If the last '{"version": ' in the data begins a chain of demo-info blocks the last of which is numbered 0, ktxstats_string returns the concatenation of the block contents, however many blocks there are.

* Model: `BlockInfo.tryFrom`, `blockLoop`, `ktxstatsString`
* Proof: Induction over the blocks.
* Hypotheses and limits: Data below 2^63 bytes.
* Theorems: `C40_round_trip`, `C40_marker`

### C41 ktxstats_string errors and panics

ktxstats_string fails with 'ktxstats not found' exactly when the marker is absent, fails when the content is not UTF-8, and should not panic. In fact it panics when the marker lies in the first bytes of the data, when a block size is below 2 (in release builds only for blocks of stats), when a block claims more bytes than there are, and when a block with another number than 0 is followed by less than the ten bytes of a frame header; exactly then.

* Model: `ktxstatsString`
* Proof: Refinement of the loop to `ReadsBlocks`, which is total and functional.
* Hypotheses and limits: Data below 2^63 bytes.
* Theorems: `C41_not_found`, `C41_outcome`, `C41_early`, `C41_reads`, `C41_reads_unique`, `C41_panic_iff`, `C41_ok_iff`, `C41_early_witness`, `C41_size_witness`, `C41_cut_witness`, `C41_gap_witness`

### C42 server is read off the match stats

server(data) copies hostname, ip and port of the match stats and its address is 'ip:port' with the decimal port.

* Model: `ktxstatsV3`, `server`, `Server.ofStats`
* Proof: Unfolding; decimal printing is characterised by `Decimal`.
* Hypotheses and limits: `KtxstatsV3::try_from` is opaque.
* Theorems: `C42_stats`, `C42_server`, `C42_no_server`, `C42_decimal_unique`

### C43 players prefers match stats

players(data) is computed from the match stats when they can be read and parsed and otherwise from the demo's messages.

* Model: `players`
* Proof: Case analysis.
* Hypotheses and limits: None.
* Theorems: `C43_from_stats`, `C43_from_messages`, `C43_panic`

### C44 Player ranking

players are sorted by frags, highest first, ties by name in code point order, and no player is lost or invented.

* Model: `playersFromKtxstats`, `players`, `playerCmp`, `sortBy`
* Proof: The model's insertion sort is stable and sorted; stable sorting has only one result, so the choice of algorithm does not matter.
* Hypotheses and limits: The standard library's sort is assumed to be stable (documented).
* Theorems: `C44_from_stats`, `C44_unique`, `C44_ranked`

### C45 Parsed players are the non-spectator clients

With at most 256 clients, players read from demo messages are exactly the non-spectator clients, each with the frags of its name and the ping of its number (0 when unknown).

* Model: `playersFromParsing`
* Proof: Map join lemma.
* Hypotheses and limits: None.
* Theorems: `C45_from_messages`, `C45_all`, `C45_failure`

### C46 players is deterministic up to ties

The player list does not depend on hash map iteration order when no two players share both name and frags; otherwise two runs may differ.

* Model: `players`
* Proof: Sorting two permutations of a list without ties gives the same list; witness with a tie.
* Hypotheses and limits: None.
* Theorems: `C46_deterministic`, `C46_failure`, `C46_witness`

### C47 Match-stats player conversion

A player taken from match stats keeps name, team and frags; colors are reduced modulo 256; the ping is reinterpreted as unsigned; it is a bot exactly when it has a bot entry or a ping of 10; an empty login gives no auth name.

* Model: `Player.ofKtx`
* Proof: Field by field, with the wrap-around of the `as` casts.
* Hypotheses and limits: None.
* Theorems: `C47_conversion`, `C47_unique`

### C48 Teams partition the players

Every player is in exactly one team, the one named by the player's team; teams have pairwise different names, are never empty, and keep the players' order. The teams of a demo are made of exactly the players of the demo, those of match stats of exactly the players of the stats.

* Model: `teamMap`, `teamsFromPlayers`, `teams`, `teamsFromKtxstats`
* Proof: Grouping invariant.
* Hypotheses and limits: The call returns.
* Theorems: `C48_partition`, `C48_all`, `C48_demo`, `C48_stats`

### C49 Team totals

A team's frags are the sum of its players' frags when that sum fits 32 bits, and its ping is their mean ping rounded half up when the pings add up to less than 2^23 ms (beyond, the 32-bit float quotient may be off); frags over all teams add up to the frags over all players; making the teams panics exactly when overflow checks are on and adding up the players of some team overflows.

* Model: `Team.ofPlayers`
* Proof: Sums with both overflow behaviours; the ping through its three roundings.
* Hypotheses and limits: `C49_totals`: sum of pings below 2^23 for the exact mean; `C49_any_ping`: any sum, through single precision (modulo 2^32 in release builds).
* Theorems: `C49_any_ping`, `C49_totals`, `C49_ping`, `C49_wraps`, `C49_conserved`, `C49_outcome`, `C49_overflow_witness`, `C49_ping_witness`

### C50 Team order

Teams are sorted by lower-cased name.

* Model: `teamsFromPlayers`
* Proof: Sort lemma.
* Hypotheses and limits: `str::to_lowercase` is a parameter.
* Theorems: `C50_order`

### C51 Team color

A team's color is the color of one of its players; with one or two players that of the first; with more (no color worn 256 times or more) one that no other color of the team outnumbers.

* Model: `majorityColor`, `maxColor`, `colorCount`
* Proof: Invariant of the maximum search.
* Hypotheses and limits: None: `C51_any_color` says what happens when the 8-bit counters wrap.
* Theorems: `C51_any_color`, `C51_wraps_witness`, `C51_color`, `C51_overflow_witness`

### C52 teams is deterministic up to ties

For given players the team list does not depend on hash map iteration order when lower-cased team names differ pairwise and each team of three or more has a strictly most common color; for a demo the same holds if moreover no two players share name and frags; otherwise two runs may differ.

* Model: `teamsFromPlayers`, `teams`
* Proof: C48 and C51 determine every team; witnesses for both kinds of ties.
* Hypotheses and limits: None.
* Theorems: `C52_deterministic`, `C52_panic`, `C52_teams`, `C52_from_stats`, `C52_color_witness`, `C52_order_witness`

### C53 Time zone abbreviations

Every abbreviation in the table yields a well-formed offset, sign hh:mm with at most 14 hours and minutes below 60, that stands for the minutes listed for it in the specification; a second listing of the same abbreviation (AST, LHST) is never used; any other text not beginning with a sign is no time zone.

* Model: `utcOffset`, `utcOffsetByAbbr`, the table
* Proof: The whole finite table by kernel computation, related to minutes by `OffsetText`.
* Hypotheses and limits: None.
* Theorems: `C53_abbreviation`, `C53_other`, `C53_functional`, `C53_shadowed`, `C53_denotes`

### C54 Numeric time zones

For texts sign hh, sign hhmm and sign hh:mm up to 12:00 the offset is normalised to sign hh:mm; four digits above 1200 and longer numbers are rejected; the lookup never panics; the accepted texts are characterised exactly. Not every accepted text gives a well-formed offset: '++100' and '+0199' are accepted.

* Model: `utcOffsetByOffset`
* Proof: Iff on the filtered and padded text.
* Hypotheses and limits: None.
* Theorems: `C54_accepted`, `C54_total`, `C54_normalised`, `C54_denotes`, `C54_rejected`, `C54_witness`

### C55 Match date text

matchdate_string returns the text from after the first 'matchdate: ' print to the next newline when it has 22 to 25 bytes and is UTF-8, and an error otherwise: "not found" exactly without such a print, "invalid" without a newline or with another length, a decoding error for other bytes; it never panics.

* Model: `matchdateString`
* Proof: Search lemmas.
* Hypotheses and limits: None.
* Theorems: `C55_no_newline`, `C55_text`, `C55_bad`, `C55_outcome`, `C55_missing`

### C56 Match date conversion

matchdate yields the instant denoted by the printed date and time and its time zone; it panics exactly when byte 20 of the text is inside a multi-byte character, or byte 19 is and a known time zone follows; all other bad text is an error, for an unknown time zone one that says so.

* Model: `matchdate`, `replaceTzAbbrWithOffset`
* Proof: Case analysis on byte offsets; `C56_instant` for whole dates.
* Hypotheses and limits: `C56_instant` assumes `ReadsDates`: chrono parses `YYYY-MM-DD HH:MM:SS±hh:mm` to the instant it denotes.
* Theorems: `C56_no_text`, `C56_conversion`, `C56_unknown_zone`, `C56_panic_iff`, `C56_instant`, `C56_panic_witness`

### C57 timestamp prefers the epoch

timestamp(data) is the epoch of the serverinfo when present and otherwise the match date. timestamp_from_epoch succeeds exactly when the serverinfo has an epoch.

* Model: `timestampFromEpoch`, `timestamp`
* Proof: Case analysis.
* Hypotheses and limits: None.
* Theorems: `C57_epoch`, `C57_epoch_exact`, `C57_matchdate`, `C57_short`, `C57_example`

### C58 Number primitives and protocol numbers round-trip

Reading a byte, 16-bit or 32-bit little-endian number or NUL-terminated string from the bytes that encode it returns it and consumes exactly those bytes; reading fails exactly when too few bytes (no terminator) are left. A number is read as the kind of message, print level or hidden message that it is declared for, and as unknown exactly if it is declared for none; target and command of a frame are in its lowest three bits, and frames with a target are to be read.

* Model: `readByte`, `readU16`, `readU32`, `readBstring`, the three message readers `MessageType.number` and its likes (Model/Numbers.lean) are the numbers declared in the enums.
* Proof: Computation. Protocol numbers: every byte is checked against the declared numbers, every kind against the byte.
* Hypotheses and limits: None.
* Theorems: `C58_byte`, `C58_u16`, `C58_u32`, `C58_string`, `C58_print`, `C58_updates`, `C58_message_errors`, `C58_message_number`, `C58_print_number`, `C58_hidden_number`, `C58_frame_number`

### C59 Results do not depend on end-of-input details of the standard library

Whether a failed exact read leaves the cursor in place or moves it to the end (this differs between Rust releases) never changes the result of any function.

* Model: `Cursor.readExact` and everything built on it
* Proof: All loops compared under both behaviours of a failing `read_exact`.
* Hypotheses and limits: None.
* Theorems: `C59_eof`

### C60 Debug and release builds agree

Whatever a build with overflow checks returns (a value or an error), the release build returns too: the two differ only where the checked build panics. The functions without checked arithmetic behave identically in both.

* Model: every function with arithmetic
* Proof: Relation `panics or equal` between the two build profiles through all loops.
* Hypotheses and limits: None.
* Theorems: `C60_same`, `C60_independent`

### C61 A longer demo adds to what was reported

Appending frames to a demo appends its prints (collapsing a repetition where the parts meet), adds up the scores of each player and adds up each player's flag counters. With anonymous teamkills that are not open at the end of the old demo, the scores are the old ones plus the charges for the new frames.

* Model: `prints`, `fragsPerPlayerName`, `flagEventsPerPlayerName`
* Proof: Splitting of concatenated frames; `C61_frags_closed`: the two frames searched for a killer lie in the old demo.
* Hypotheses and limits: Frags: data below 2 GiB; with anonymous teamkills two or more frames with content follow each one before the new frames. Flags: counters below 256.
* Theorems: `C61_frags_closed`, `C61_prints`, `C61_frags`, `C61_flags`

### C62 Names, players and teams tell the same story

Without match stats and with at most 256 clients: player_names lists exactly the names of players, team_names lists exactly the names of teams, and has_human_players says whether some player is not a bot.

* Model: `players`, `teams`, `playerNames`, `teamNames`, `hasHumanPlayers`
* Proof: Corollary of C22, C23, C45 and C48.
* Hypotheses and limits: At most 256 clients, no readable match stats.
* Theorems: `C62_without_stats`

### C63 Client information is local

Once the data contains 24*512+768 bytes from the first spawn command on, appending anything changes neither the userinfo strings nor the clients, player, spectator and team names, nor has_human_players.

* Model: `clientinfoStrings`, `clients`
* Proof: One search step depends on at most 768 bytes; induction over the scan.
* Hypotheses and limits: 13056 bytes present from the spawn command on.
* Theorems: `C63_client_strings`, `C63_clients`

### C64 Complete demos do not panic

A demo of whole frames, whose clients and match stats lie within the data, below 2 GiB: in a release build prints, clients, frags, flag events and demo duration are returned, and pings, players and teams are returned or reported missing for lack of pings. With overflow checks the same holds when no counter overflows.

* Model: all data functions
* Proof: Combination of C06, C19, C26, C30, C33, C35, C41, C45 and C49.
* Hypotheses and limits: Conditions `CompleteDemo`; with overflow checks also bounds on the counters.
* Theorems: `C64_fits`, `C64_release`, `C64_checked`

### C65 Frag ledger balances

The frag table lists each name once, and its scores add up to the sum of the individual charges of all frames. The sum grows by at most one and falls by at most two per frame.

* Model: `fragsPerPlayerName`
* Proof: Sum invariant of the table over the charges.
* Hypotheses and limits: As C26.
* Theorems: `C65_total`, `C65_bounds`

### C66 Times and recipients of messages do not matter

Two demos whose frames carry the same message bodies, in the same order, have the same prints, flag statistics and pings, and with the same client list the same scores, whatever the frame times, frame commands and recipient sets are.

* Model: `prints`, `flagEventsPerPlayerName`, `pingPerPlayerNumber`, `fragsPerPlayerName`
* Proof: Each report is a function of the bodies by C04, C30, C32, C26; transport along equality of bodies, including the panic of an unreadable client list.
* Hypotheses and limits: Equal results are proved, panics included; demos that stop in a cut-off frame are C06. Equality of the client lists is a hypothesis for the scores, because the client scan searches raw bytes.
* Theorems: `C66_prints`, `C66_flags`, `C66_pings`, `C66_frags`

### C67 Pings come from the first eight ping frames only

The pings depend only on the first eight frames that begin with a ping update. Whatever is recorded after these, and whatever other frames are inserted or removed, the result is the same.

* Model: `pingPerPlayerNumber`
* Proof: The sampled updates are a function of the filtered prefix; uniqueness of the leading updates.
* Hypotheses and limits: Includes overflow outcomes. For cut-off demos see C06.
* Theorems: `C67_window`, `C67_later`

### C68 One message, one change

Inserting, anywhere in a demo except among the frames that are searched for an unknown killer, a frame that announces an obituary changes the score of exactly one player by its worth: +1 for a killer, -1 for a death, a suicide by weapon or a teamkill, -2 for a suicide by command; no other score changes. Inserting a frame with one flag message adds exactly one to the counter of its kind for its player.

* Model: `fragsPerPlayerName`, `flagEventsPerPlayerName`, `FragEvent.tryFrom`, `FlagEvent.tryFrom`
* Proof: C26 and C30 for both demos, C84 for the names, sums of charges over the concatenation.
* Hypotheses and limits: With anonymous teamkills two or more frames with content follow each one before the inserted frame (`C68_obituary_closed`). Flags: the counter shown before is below 255 (C30 says what happens then).
* Theorems: `C68_obituary`, `C68_two_names`, `C68_one_name`, `C68_flag`, `C68_obituary_closed`

### C69 The order of frames does not matter for totals

Rearranging the frames of a demo changes no score and no flag counter; with overflow checks either both demos panic or neither does. For scores, an anonymous teamkill and the two frames searched for the killer have to be kept together.

* Model: `fragsPerPlayerName`, `flagEventsPerPlayerName`
* Proof: Charges and flag texts of a permutation are permutations; sums and counts are invariant.
* Hypotheses and limits: Scores: demos below 2 GB; frames without anonymous teamkills (`C69_frags`) or parts that contain the frames searched (`C69_frags_closed`).
* Theorems: `C69_frags_closed`, `C69_frags`, `C69_flags`

### C70 Recording on does not change the header

Appending data changes neither the serverinfo, the file name and the epoch, nor the match date and the timestamp once the date line is complete, nor the countdown once the match has started; an aborted demo remains aborted.

* Model: `serverinfoString`, `serverinfo`, `filename`, `timestampFromEpoch`, `matchdateString`, `matchdate`, `timestamp`, `countdownDuration`, `isAborted`
* Proof: Locality of the first-match searches; frames that start after the date print do not count.
* Hypotheses and limits: At least 1280 bytes before (below, the serverinfo panics: C15). The countdown theorem appends whole frames.
* Theorems: `C70_header`, `C70_matchdate`, `C70_aborted`, `C70_countdown`

### C71 Validity is decided by the two ends

If the spawn command and 13056 bytes from it are in the front part, and the end marker is at the end, `is_valid` does not depend on what lies between.

* Model: `isValid`, `clientinfo`, `serverinfo`
* Proof: C63 and C70 reduce the verdict to one on the front part.
* Hypotheses and limits: Panics included: the equation is between outcomes.
* Theorems: `C71_valid_local`

### C72 A demo that goes on is not reported shorter

After the last end-of-match print the demo duration is settled: appended frames without another such print do not change it. A demo measured at least as far as before is not reported shorter.

* Model: `demoDuration`, `totalMs`, `msToDuration`
* Proof: Frames before an offset are stable under appending; monotone conversion (C36).
* Hypotheses and limits: The monotonicity needs totals below 2^32 ms; the first theorem covers all outcomes.
* Theorems: `C72_settled`, `C72_monotone`

### C73 A match written down is scored as it was played

If the frames of a demo report a sequence of events (each event by one of the known phrases with names that can be recognised (C84 or C111), in a medium-level print at the front of its frame; frames without an event by no such print, or by one that is not an obituary), the reported scores are the scores of the event sequence, and exactly the players with a scoring event are listed.

* Model: `fragsPerPlayerName`, `FragEvent.tryFrom`
* Proof: Events are mapped to charges (C84, C111, C26) by induction on the sequence.
* Hypotheses and limits: Without anonymous teamkills (C28) and for data below 2 GB.
* Theorems: `C73_scores`

### C74 No name is invented

Every name in the score table is part of the text of an obituary in the demo or the name of a client. Every name in the flag table is the beginning of a flag text in the demo.

* Model: `fragsPerPlayerName`, `flagEventsPerPlayerName`
* Proof: Names of the charges by cases of the meaning; keys of the table are the charged names, by induction, also when sums wrap.
* Hypotheses and limits: For demos that split into frames; others report nothing (C06).
* Theorems: `C74_frag_names`, `C74_flag_names`

### C75 Reports are not larger than the demo

The texts of the prints, plus three bytes each, together are no longer than the data; the score table has at most one entry per frame, and every frame takes at least two bytes. The table of flag events has at most one entry per four bytes of data. A duration found by adding up frames is at most 127.5 ms per byte. There are at most 1537 clients, and at most one for eight bytes of data; players found by parsing are moreover at most 256. There are no more teams than players. The text of the match statistics is no longer than the data.

* Model: `prints`, `fragsPerPlayerName`, `flagEventsPerPlayerName`, `demoDuration`, `countdownDuration`, `matchDurationFromSeeking`, `clientinfoStrings`, `clients`, `playersFromParsing`, `teams`, `ktxstatsString`
* Proof: Each leading print is a disjoint part of its frame; collapsing only removes; each charge adds at most one entry. A flag text comes from a print of four bytes or more. A frame has at least two bytes and lasts at most 255 ms. After the first client string each begins behind the terminator of the last, and has seven bytes or more; the search ends 12288 bytes after the spawn command. Players are told apart by an 8-bit number. The bodies of stats blocks are disjoint parts of the data (induction over the loop).
* Hypotheses and limits: Durations up to the conversion of C36.
* Theorems: `C75_clients`, `C75_people`, `C75_players`, `C75_teams`, `C75_stats`, `C75_prints`, `C75_frags`, `C75_flags`, `C75_durations`

### C76 A game of capture the flag is counted as it was played

If the frames of a demo report flag events (each event in two high-level prints, the last one of a frame possibly in one; frames without events by not containing the word flag), every counter of every player is the number of events of that kind, and exactly the players with an event are listed.

* Model: `flagEventsPerPlayerName`
* Proof: Pairing of the prints by induction on the reported events, then C30.
* Hypotheses and limits: A witness shows that the second of two whole messages in one frame is not counted. Counters wrap at 256 (C30).
* Theorems: `C76_counts`, `C76_witness`

### C77 The players of a match, end to end

In a demo without match stats, with at most 256 clients, whose frames report a sequence of events and sample pings, the players are the clients that are no spectators, each with the score of its name and its mean ping, ranked by score.

* Model: `players`, `playersFromParsing`
* Proof: Composition of C32, C35 and C73.
* Hypotheses and limits: Without anonymous teamkills; some ping must have been sampled, otherwise the report fails.
* Theorems: `C77_players`

### C78 The teams of a match, end to end

In such a demo, if the players have different names, there is a team for every team name of a player, and its frags are the sum of the scores of its players. With at most 255 players the teams are always found.

* Model: `teams`, `teamsFromPlayers`
* Proof: C77, then C48 and C49; the sum of the scores is bounded by the size of the demo so that it does not wrap.
* Hypotheses and limits: As C77. Two players of the same name are both given the score of the name.
* Theorems: `C78_teams`, `C78_found`

### C79 Reported numbers are in range

Scores are 32-bit numbers, flag counters 8-bit numbers, pings of players found by parsing at most 65535, client numbers and colors 8-bit numbers, frags and pings of teams 32-bit numbers, durations found by adding up frames at most 4294967.5 s.

* Model: all result types
* Proof: Invariants of the frame loops: every entry ever stored is in range.
* Hypotheses and limits: For players from match stats the numbers are those of the decoded JSON, which have these types (hypothesis `StatsInRange`).
* Theorems: `C79_frags`, `C79_flags`, `C79_pings`, `C79_clients`, `C79_players`, `C79_teams`, `C79_durations`

### C80 One bad frame does little harm

If one frame of a demo is replaced by another, the scores of at most two players change, and each by at most three points, unless the frame is among those searched for an unknown killer (then C94). Flag counters change only for players that the old or the new frame is about, and by no more than the number of texts in it. The measured time changes by at most 255 ms, if the end is still found at the same place after the frame.

* Model: `fragsPerPlayerName`, `flagEventsPerPlayerName`, `demoDuration`
* Proof: C61 around the frame; a frame charges at most one player with one or minus two points. An example reaches three points. Flag counters are sums over the frames (C30), measured time is a sum over the frames before the end (C35).
* Hypotheses and limits: No anonymous teamkill is open before the frame (`C80_frags_closed`); C94 covers the other frames with a larger bound. The replacement has to keep the framing intact.
* Theorems: `C80_frags_closed`, `C80_flags`, `C80_duration`, `C80_frags`

### C81 Mean pings lie between the extremes

The ping of a player lies between the smallest and the largest of the sampled pings; the ping of a team between the pings of two of its players.

* Model: `pingPerPlayerNumber`, `teamsFromPlayers`
* Proof: From the exact means in C32 and C49.
* Hypotheses and limits: Larger sums overflow (C33) or lose precision (C49).
* Theorems: `C81_player`, `C81_team`

### C82 What a recorder writes down is read back

A recorder writes every happening of a match (obituary, flag event, ping update, chat, announcement, other message) as one frame, addressed to all players, to one of them or to several. Of the demo it writes, the parser reports the scores of the obituaries, the flag counters of the flag events, the mean pings of the first eight moments with pings, the announcements as prints without repetitions, and the time that passed as demo duration.

* Model: `fragsPerPlayerName`, `flagEventsPerPlayerName`, `pingPerPlayerNumber`, `prints`, `demoDuration`
* Proof: The recorder (`Spec/Recorder.lean`) is a function from matches to bytes; each happening is shown to be a frame that reports it, then C04, C32, C35, C73 and C76.
* Hypotheses and limits: The text conversion has to read single bytes back as the characters they encode. Flag counts below 256, ping sums below 65536, durations for recordings without end-of-match print and standby. Anonymous teamkills are not written. The recorder is idealised: no demo in the repository has this form (see Hypotheses and real demos).
* Theorems: `C82_prints`, `C82_frags`, `C82_flags`, `C82_pings`, `C82_duration`

### C83 A complete recording is read back

A recording consists of the serverinfo, the userinfo strings of 1 to 24 clients, the frames of a match and the end-of-demo message, each written as servers write it. The demo is valid and not paused; the serverinfo and the userinfo strings are read back exactly; scores, flag counters, prints, duration, the ranked players and the teams are those of the match.

* Model: `serverinfoString`, `clientinfoStrings`, `isValid`, `players`, `fragsPerPlayerName`, `flagEventsPerPlayerName`, `prints`, `demoDuration`
* Proof: The markers are shown to occur first where the recorder writes them (no earlier occurrence, not even across the borders of frames); then C12, C14, C18, C77 and C82.
* Hypotheses and limits: The text conversion has to read single bytes back. The match must not contain the key `\name\`. For flags, the word `flag` must not be in serverinfo and userinfo; for the duration and players no end-of-match print, standby and stats marker. The recorder is idealised: no demo in the repository has this form (see Hypotheses and real demos).
* Theorems: `C83_serverinfo`, `C83_clients`, `C83_valid`, `C83_frags`, `C83_prints`, `C83_flags`, `C83_duration`, `C83_players`, `C83_teams`

### C84 Obituaries round-trip for names with spaces

Players choose names with spaces and apostrophes. For every name inside which no phrase could begin, whatever follows the name, the obituary built from the name and any phrase is attributed to that name; the same for the second name if it also does not begin with a phrase, with a one-word phrase or with 'his teammate' / 'her teammate'; and the same for flag messages about every name that no flag phrase is a part of. All names without spaces are included. The other names can be misattributed.

* Model: FragEvent.tryFrom, patternMatch, FlagEvent.tryFrom with all phrase tables.
* Proof: An occurrence of a phrase in name ++ text begins inside the name or is an occurrence in the text (occursAt_after). The finite remainder (which phrases occur in which phrases, and which could begin in front of a second name and end in it or behind it) is decided once by the kernel (startsNot, unmatched) and lifted to all names by startsNot_spec, absent_spec and unmatched_spec. C73, C76, C77, C82 and C83 are stated for these names and those of C111. For flag messages no phrase fits across the border of name and phrase (flag_edges).
* Hypotheses and limits: The condition for obituaries is sufficient, not necessary. C111 gives the condition that is both, for players who appear at both places, and shows that the one for flag messages is; the exact condition for every text is C24.
* Theorems: `C84_one_name`, `C84_two_names`, `C84_plain`, `C84_flags`, `C84_witnesses`

### C85 Match stats in a recording are read back and disturb nothing

A server writes the match stats (a JSON text beginning with the marker '{"version": ') at the end of the match, cut anywhere into pieces, also inside a character. The text is read back exactly, server and players come from it when it can be parsed, and a proper recording (C83) stays proper: scores, prints and duration are those without the stats. The last part needs that no piece has a size whose low byte is 8 or 36, because pieces are sent in message frames and such a size looks like the number of a print or a ping update.

* Model: ktxstatsString, ktxstatsV3, server, players, and the walkers of C83 over the frames of the pieces.
* Proof: Every header of a piece has a NUL at least every third byte (statsHeader), so a word without NUL and of three bytes or more occurs in one of the pieces or outside (occurs_sep, stats_occurs by induction on the pieces). So the marker is last found in the first piece, and C40 gives the text; C42-C44 give server and players. The same lemma shows that the key \\name\\ does not arise (C85_proper), and C83 gives the rest. C85_witness is a piece of 34 bytes that is taken for a ping update.
* Hypotheses and limits: Stats in the middle of a match are covered by C40, not by C85. JSON parsing is an uninterpreted function of the environment. The recorder is idealised: no demo in the repository has this form (see Hypotheses and real demos).
* Theorems: `C85_carries`, `C85_text`, `C85_stats`, `C85_proper`, `C85_undisturbed`, `C85_witness`

### C86 Date and times of a recorded match are read back

The course of a match is recorded as countdown, announcement of the date ('matchdate: …'), game, announcement of the end ('The match is over'), and whatever follows. The date is read back exactly, and if it exists and its time zone is known, the match date is the instant it stands for. The countdown is the time until the date is announced, the demo duration the time until the end is announced, and the match duration without match stats is the time of the game, up to single-precision rounding; in hoonymode there is no countdown; with match stats the match lasts as long as these say. The timestamp is the epoch of the serverinfo, without one the match date.

* Model: matchdateString, matchdate, countdownDuration, demoDuration, matchDuration, timestamp.
* Proof: A word without the bytes 6 and 0 cannot reach over the header of a frame to all players (occursAt_sep, firstAt_message), so the date is first found in its frame and the end last in its (course_first, course_last); the sum of the frames before an offset inside a frame is computed by induction (msBefore_mid). C35, C36, C38, C39, C55-C57 and C85 give the results; the error bound of C86_match adds those of C36.
* Hypotheses and limits: Assumes that the environment reads dates (ReadsDates, as in C56). Announcements to all players only. The recorder is idealised: no demo in the repository has this form (see Hypotheses and real demos).
* Theorems: `C86_date`, `C86_instant`, `C86_countdown`, `C86_demo`, `C86_match`, `C86_hoonymode`, `C86_recorded`, `C86_timestamp`

### C87 Exactly when a call panics or fails

The conditions are exact. A duration panics exactly when a frame is cut off before the place it measures to or the total exceeds 32 bits with overflow checks on; the match duration by seeking also when the countdown exceeds the demo duration; the match duration also when the recorded number is negative, too large or no number. Flag statistics panic exactly when the data ends in a cut-off frame or a count exceeds 255; scores exactly when it ends in one, when clients are needed and reading them panics, or when a score leaves 32 bits; pings exactly when it ends in one with fewer than eight frames of pings before it, or when the samples of a player exceed 16 bits; players and teams exactly when one of the calls they depend on does, or the totals of a team overflow. The only errors are: no match date for the countdown, no samples for pings, and for players and teams those of clients and pings when there are no usable stats, and for the timestamp those of the match date when there is no epoch.

* Model: demoDuration, countdownDuration, matchDurationFromSeeking, matchDuration, flagEventsPerPlayerName, fragsPerPlayerName, pingPerPlayerNumber, players, teams, timestamp.
* Proof: Each exact condition follows from the value theorems (C30, C32-C39, C43, C49, C57) together with the panic conditions of the walks (C06, C26), by excluding the remaining cases: the results are disjoint, and no call hangs (Halt).
* Hypotheses and limits: The composed calls are characterised by those they call; for clients and the match stats see C18, C19, C40-C42.
* Theorems: `C87_demo_duration`, `C87_countdown_duration`, `C87_seeking`, `C87_match_duration`, `C87_flags`, `C87_frags`, `C87_pings`, `C87_players`, `C87_teams`, `C87_timestamp`, `C87_witness`

### C88 Anonymous teamkills in a match are charged to the killer

In a match in which some teamkills are reported without naming the killer ('a was telefragged by his teammate'), scores, players and teams are still those of the match as played, if after each such report the first score update for a team mate of the victim, in the rest of the frame or at the beginning of one of the next two frames that are not empty, is the killer's. Updates for the victim and for opponents may come before. A teamkill without any such update for a team mate is charged to nobody. With at most 255 players the teams are always found.

* Model: fragsPerPlayerName, findTeamKiller, players, teams.
* Proof: The frames and those after them determine the charges (Told, by induction over the frames); with different names and numbers (C20) the betrayed killer is the blamed client (C28), and nobody is blamed when no update is for a team mate. The remainder as C73, C77, C78.
* Hypotheses and limits: A witness shows that another team mate is charged when the score update of that mate comes first, and nobody when the update comes later.
* Theorems: `C88_scores`, `C88_players`, `C88_teams`, `C88_found`, `C88_witness`

### C89 Chat changes nothing that is reported

A frame of chat messages, to any receivers and between any two frames, changes none of the results, and so does any number of such frames: validity, aborted, paused, serverinfo, clients, names, bots, scores, flag events, pings, date, match stats, players and teams, and the durations if no time passes with the chat. Time recorded with the chat is added to the durations it lies in, and nothing else. Chat about flags is not counted as a flag event. Chat between an anonymous teamkill and the score update that tells the killer can hide the killer. The other exception are messages that contain one of the eight texts that the parser looks for anywhere in the file: with those a player can make an unfinished demo appear paused, shorten the duration or claim that bots took part.

* Model: All of the listed results.
* Proof: A text that neither occurs in the chat frame nor lies across its borders occurs exactly where it did before, moved by the size of the chat if it comes after; hence so do first and last occurrences. Milliseconds before a moved offset are equal apart from the time of the chat (`C89_time`, `C89_match_time`; bounds for any number of messages in `C89_many_time`). The others by C27, C31, C41, C63, C67, C70. Any number of chat frames by induction (`C89_many`, `C89_many_header`, `C89_many_match`). `borders_of` shows that the borders are free of the texts after a string when the chat and the next frame go to all or to player 1. Scores with anonymous teamkills by `C27_far`: the search for the killer sees the same frames.
* Hypotheses and limits: That no text lies across a border is a hypothesis; all 2231 frames of chat in the repository's demos meet it (`tools/hypotheses.py`). Scores when chat comes among the two frames with content after an anonymous teamkill are not covered; `C89_unknown_witness` shows that they can change. The list of prints, which contains the chat, is the subject of C04.
* Theorems: `C89_words`, `C89_verdicts`, `C89_frags`, `C89_flags`, `C89_pings`, `C89_duration`, `C89_header`, `C89_countdown`, `C89_matchdate`, `C89_stats`, `C89_frags_unknown`, `C89_match`, `C89_words_witness`, `C89_time`, `C89_match_time`, `C89_many_time`, `C89_many`, `C89_many_header`, `C89_many_match`, `C89_unknown_witness`

### C90 Players and teams are the same with and without match stats

If the match stats list the players found in the demo's messages, in any order and with the same frags, then `players_from_ktxstats` and `players_from_parsing` give the same score board (names and frags, in the same order, ties included). Teams depend only on who plays for which team with how many frags: both ways give the same teams with the same frags, and in the same order unless two team names differ only in case. A recorded match is reported with the same score board and teams whether or not the recording ends with such stats.

* Model: `players`, `players_from_ktxstats`, `players_from_parsing`, `teams_from_players`.
* Proof: A ranked list of names and frags is unique (the ranking is antisymmetric on such pairs); team names are the names occurring, without repetition, and totals are sums over a permutation. The recording by C83 and C85.
* Hypotheses and limits: Pings, colors and logins are not compared: the stats have their own.
* Theorems: `C90_players`, `C90_teams`, `C90_recording`

### C91 Messages are cut at character boundaries

Searching a message for a phrase on its UTF-8 bytes finds it exactly where it occurs as text, never inside or across other characters, so cutting out the names at the byte offsets found never panics and gives exactly the characters before, between or after the phrases. Obituaries, flag messages and flag message endings are therefore classified the same way on bytes, as Rust does it, as on characters.

* Model: A second model of `FragEvent::try_from`, `pattern_match`, `FlagEvent::try_from` and `is_message_suffix` (Model/Utf8Events.lean) with byte offsets from `find` on the encoded text and slices that panic off a boundary.
* Proof: UTF-8 is self-synchronising: lead bytes differ from continuation bytes and tell the length, so an occurrence of encoded text starts at a boundary and decodes to the text. The two models are then equal, phrase by phrase.
* Hypotheses and limits: This removes the assumption that searching characters and searching bytes agree from the trusted base.
* Theorems: `C91_occurs`, `C91_frag_event`, `C91_flag_event`, `C91_suffix`, `C91_classification`

### C92 Offset arithmetic is safe on 64-bit targets

On a 64-bit target no sum of offsets in the frame walk, the client scan, serverinfo, match date and `offsets_between` overflows, and no slice at an offset found by searching is out of range. On a 32-bit target the frame walk can overflow: a frame announcing 2^32-6 bytes makes a release build go on for ever at the same place when adding up durations, and panics with overflow checks; it cannot if no four neighbouring bytes of the data are a number of 2^32-10 or more. Match stats are read alike on both, whatever the block sizes, except that with overflow checks a 32-bit target panics at a block size near 2^32.

* Model: Second models (Model/Width.lean) of the functions with `usize` arithmetic of `w` bits that wraps or panics and slices that panic.
* Proof: Every offset found by searching leaves room for the needle, and a frame is accepted only if its size is at most the data's; the sums are below 2^w, so the second models equal the first. The witness by induction on the number of rounds. Block sizes too large or too small lead to a slice out of range on both targets.
* Hypotheses and limits: Stats blocks are modelled with 64-bit arithmetic that may wrap from the beginning (C41); Model/Width.lean has them with any width.
* Theorems: `C92_frames`, `C92_frames_32`, `C92_durations`, `C92_offsets_between`, `C92_serverinfo`, `C92_clients`, `C92_matchdate`, `C92_end`, `C92_witness_32`, `C92_stats`, `C92_stats_32`, `C92_stats_witness`

### C93 Floating-point computations stay in range

Converting a 64-bit number to `f32`, and dividing two such numbers, gives zero or a normal number: neither infinity nor the reduced precision of subnormal numbers comes up in mean pings and durations. Rounding a mean to a whole number gives a number `f32` has.

* Model: Rounding to binary32 as in IEEE 754 with subnormal numbers and infinity (Rust/Ieee.lean), next to the unbounded one used in the model (Rust/Float.lean).
* Proof: Numbers from 1 to 2^64 have quotients between 2^-64 and 2^64; there the two roundings coincide.
* Hypotheses and limits: This removes the restriction to normal numbers from the trusted base.
* Theorems: `C93_cast`, `C93_quotient`, `C93_round`

### C94 Lost, repeated and damaged frames do limited harm

When a run of k frames of a demo is replaced by k' other frames (none: frames are lost; k = 0: frames are too many), at most k+k'+4 players get another score, a player's score rises by at most 2k+k'+2 and falls by at most k+2k'+2 points; unless an anonymous teamkill is open before the run the additional 4 and 2 are not needed. Flag counters differ by exactly the flag messages in the replaced frames, the duration by the time of these frames if the end-of-match print comes later, pings not at all if eight ping frames come before, clients not at all if the client strings come before, and server, players and teams not at all if readable match stats come after.

* Model: `frags_per_player_name`, `flag_events_per_player_name`, `ping_per_player_number`, `demo_duration`, `clients`, `ktxstats_string`, `players`, `teams`.
* Proof: Only the charge for an anonymous teamkill depends on later frames, and only on the next two that are not empty, so at most two frames before the run are charged otherwise; the bounds add up over the parts. The rest by additivity, locality and C41.
* Hypotheses and limits: The bound for the scores needs the same clients in both demos, which C94_clients gives for damage after the client strings. C94_witness shows a case in which the bound is reached.
* Theorems: `C94_frags_closed`, `C94_frags`, `C94_frags_named`, `C94_flags`, `C94_pings`, `C94_duration`, `C94_clients`, `C94_stats`, `C94_witness`

### C95 Frames without messages do not matter

Prints, flag events, pings and scores (anonymous teamkills and panics included) depend only on the sequence of the bodies of the frames that carry something: inserting or removing empty frames anywhere, at any times and for any recipients, changes none of them, provided that the clients read from the raw data are the same. A frame with even a single byte between an anonymous teamkill and the score update that tells the killer can hide the killer.

* Model: As C04, C26, C30 and C32.
* Proof: Forall2 over the frames restricted to the non-empty ones (`forall2_spoken`), induction over the charges (`charges_spoken`), the look-ahead of `nearbyUpdates` skips empty frames.
* Hypotheses and limits: Demos that stop in a cut-off frame are C06. Equality of the clients is a hypothesis for the scores, because the client scan searches raw bytes (C94_clients gives it for changes after the client strings).
* Theorems: `C95_prints`, `C95_flags`, `C95_pings`, `C95_frags`, `C95_witness`

### C96 Interrupted downloads

A demo of whole frames that is cut at any byte consists of its first frames and a proper part of the next one. If that part contains the whole header and the frame is not longer than the cut demo, then prints, flag events and scores panic, and so do the pings unless eight frames with pings come before the cut. Otherwise prints, flag events, pings and (with the same clients) scores are those of the whole frames before the cut. Cut before the end of the measurement the demo is not reported longer than it is (for totals below 2^32 ms), cut after the frame with the last end-of-match print its duration is that of the whole demo. Whatever prints a cut demo shows are the first prints of the whole demo. If the end-of-demo print occurs only at the end, is_valid answers false, without panic, wherever the demo is cut.

* Model: As C02, C04, C26, C30, C32 and C12.
* Proof: What a part of a frame announces (`announced_part`), induction over the frames (`cut_at`), then C06 and C95; the prints of a longer demo begin with those of its first frames (`dedup_prefix`).
* Hypotheses and limits: The scores need the same clients, which C63 gives for cuts after the client strings.
* Theorems: `C96_cut`, `C96_prefix`, `C96_invalid`, `C96_shorter`, `C96_settled`

### C97 Demos as servers write them

Take a demo of whole frames, at least 1280 bytes, with a serverinfo string in the header, userinfo strings after the first spawn command with other messages between them, different client names, medium prints at the beginning of frames that announce obituaries or nothing recognisable, anonymous teamkills with or without a score update of a team mate nearby, ping updates at the beginning of frames, a date announcement, and an end not before it; other messages stand anywhere. Then serverinfo, file name and timestamp are those of the serverinfo string, the clients those of the userinfo strings in order, the scores the sums of the charges of the announced events, the players without match stats the clients that are no spectators with score and mean ping in order of rank, the teams theirs in order of lower-cased name, each with its players in order of rank and the sum of scores, found if there are at most 255 players, and with at most 128 the rounded mean ping and the color of most; the date is the announced one, and countdown, demo and match last as long as the frames say, up to rounding. With match stats, their text is found, and server, players and match duration are taken from them. With the end marker the demo is valid and not paused. In hoonymode there is no countdown and the match is the whole demo.

* Model: All of the functions named, in their entirety. `Spec.Served` relates match and demo by what is found in the demo.
* Proof: From C12, C14, C16, C20-C23, C35-C38, C40-C44, C48-C51, C55, C56 and C88, whose hypotheses `Served` contains.
* Hypotheses and limits: serverinfo and userinfo strings, stats text and dates are parsed by external crates. The seven demos of the repository meet the hypotheses (see Hypotheses and real demos).
* Theorems: `C97_header`, `C97_clients`, `C97_valid`, `C97_scores`, `C97_players`, `C97_teams`, `C97_stats`, `C97_date`, `C97_recorded`, `C97_times`, `C97_hoonymode`, `C97_lineup`

### C98 What a dependency can influence

Replacing an external crate or library function by any other function of its type changes only the functions named here. quake_text to_unicode: client strings and all that is read from them, frags, flag events, players, teams. to_utf8: serverinfo text, settings, filename, timestamp, countdown and match duration. unicode sort: the three lists of names. quake_serverinfo: settings, filename, timestamp, countdown and match duration. quake_clientinfo: clients and what is read from them, frags, players, teams. ktxstats: parsed stats, server, players, teams, but not the match duration. str::to_lowercase: teams. f64 parsing: match duration. Date parsing: matchdate and timestamp. Overflow checks have no part in prints, serverinfo, clients, validity and dates. Whether a demo is valid depends on none of them.

* Model: All public functions that take demo data; dependencies are the function fields of `Env`.
* Proof: By definitional unfolding (`rfl`), `is_valid` by an induction over the client scan that compares two scans step by step. An example shows for most dependencies that the influence is real.
* Hypotheses and limits: A dependency that panics, does not terminate or has side effects is outside the model: `Env` fields are total functions.
* Theorems: `C98_valid`, `C98_unicode`, `C98_utf8`, `C98_sort`, `C98_settings`, `C98_clientinfo`, `C98_ktxstats`, `C98_lowercase`, `C98_float`, `C98_profile`, `C98_std`, `C98_date`

### C99 Durations depend on frame headers and the places of two texts

Two demos whose frames have the same sizes and times, that are measured to the same offset and whose first match date announcements stand at the same offset, have the same demo duration, countdown and match duration by seeking, whatever the frames contain, also when the total does not fit into 32 bits. If the frames of one are as large as and no shorter in time than those of the other, its demo duration and countdown are no shorter.

* Model: `demoDuration`, `countdownDuration`, `matchDurationFromSeeking` in their entirety.
* Proof: From C35, C36 and C38: the total over the frames before an offset is monotone in the times, by induction over the frames.
* Hypotheses and limits: Demos of whole frames (`Stops`); the recorded duration of match stats is C39.
* Theorems: `C99_longer`, `C99_longer_countdown`, `C99_demo`, `C99_countdown`, `C99_match`

### C100 Match dates come in the order of their texts

Of two demos whose match dates are printed in the same time zone, the one whose text comes first in the dictionary has the earlier match date, across months, years and leap days, and only equal texts give equal match dates. The same date and time printed in two time zones are as far apart as the zones.

* Model: `matchdate` in its entirety; the calendar is specified in Spec/Time.lean.
* Proof: From C53 and C56. Day numbers increase with year, month and day by induction over years and months; the order of fixed-width decimal numbers is that of their digits.
* Hypotheses and limits: `chrono` is assumed to read existing dates correctly (`ReadsDates`), which is shown to be satisfiable.
* Theorems: `C100_order`, `C100_zones`

### C101 Names, wordings and the order of events do not matter for scores

If the same things happen in two matches, in any order and told with any wording or weapon, anonymously or not, and every player of the one has another name in the other, then everybody has the same score in both demos, and nobody else has any. If the players are in the same teams, in any slots, without match stats both demos have the same teams with the same totals.

* Model: `fragsPerPlayerName`, `teams` and everything below.
* Proof: From C97: the scores are sums over the events, which are invariant under permutation and injective renaming; the members of a team are the same up to renaming.
* Hypotheses and limits: With match stats, players come from the stats (C97_stats); teams then are the stats' business. Names must be such that messages about them can be understood (`FirstName`, `SecondName` in the definition of `Says`).
* Theorems: `C101_scores`, `C101_teams`

### C102 The work is proportional to the number of frames

A walk over a demo reads one frame header per frame and at most two more, whatever is done with the frames. When scores are counted, all searches for the killers in anonymous teamkills together read at most four headers per frame, even though a search passes over any number of empty frames. The scan for clients looks at no more than 2049 places, however long the demo is, the loops over the messages of all frames together read at most one message per byte, and the loop over the blocks of match statistics reads at most one block per 18 bytes and two more, whatever sizes are written there.

* Model: The loops of the model with a given number of rounds (`frameLoop`, `clientScan`, `printsBody`, `flagBody`, `pingBody`, `blockLoop`). `Rounds` (Spec/Work.lean): a loop hangs with fewer than `n` rounds and does not with `n`.
* Proof: Induction over the frames; for the searches with a potential that accounts for the two searches that are under way at any frame.
* Hypotheses and limits: What a round costs is not modelled: searches in byte strings and texts count as one step. In particular every anonymous teamkill with a score update nearby lets `clients` look for the spawn command from the beginning of the data (frags.rs:121), so a demo with many of these and a late or no spawn command takes time proportional to the number of teamkills times the size.
* Theorems: `C102_walk`, `C102_searches`, `C102_clients`, `C102_messages`, `C102_blocks`

### C103 What people are called is read off their info strings

If the demo lists the info strings of the people on the server, then the clients are these people in this order, numbered by slot: name, team, shirt and pants colours, whether they watch and whether they are bots are what the entries of their strings say, in any order and among any other entries. The name lists, the reported players with their scores and mean pings and the teams with their totals are then those of the people who do not watch. Likewise the file name, the time stamp and hoonymode are read off the entries of the server settings.

* Model: `clients`, `playerNames`, `spectatorNames`, `hasHumanPlayers`, `players`, `teams`, `filename`, `timestamp` and `countdownDuration` of the model. People and their info strings are specified in Spec/Userinfo.lean (`Person`, `Introduces`, `Seated`), with no reference to how the model finds them.
* Proof: The clients from C18 and the meaning of the entries, the reports from C97 by mapping clients to people, the settings from C16, C57 and C38.
* Hypotheses and limits: The parsers `quake_clientinfo` and `quake_serverinfo` are dependencies whose source is not in /repo. That they find the entries name, team, topcolor, bottomcolor, *spectator, *bot, mode, serverdemo and epoch is a hypothesis (`ReadsUserinfo`, `ReadsServerinfo`), and a parser that does is defined beside the theorems. Its keys are those that appear in the unit tests of /repo. *auth and *flag are left out.
* Theorems: `C103_clients`, `C103_names`, `C103_match`, `C103_players`, `C103_pings`, `C103_teams`, `C103_settings`

### C104 The recorded duration is read exactly

If the match statistics in the demo record a duration as decimal seconds with at most nine digits after the point, less than 2^22 seconds, the reported match duration is exactly that many nanoseconds. For any decimal number, with or without a power of ten, below 2^64 - 2^10 it is off by at most half a nanosecond and one part in 2^53. Infinity, NaN, numbers from 2^64 - 2^10 on and negative numbers greater than 2^-1075 in size make the parser panic; negative numbers not greater than that are no time at all. Any other text is ignored and the time is measured from the messages instead.

* Model: `matchDuration` of the model with `Env.parseF64` replaced by `parseF64` of Rust/ParseFloat.lean, which models `str::parse::<f64>` after its documented grammar and rounding. Texts and their values are specified in Spec/FloatText.lean.
* Proof: `parseNumber` finds a value if and only if the text has it by the grammar (`parseNumber_eq_some`). The error of rounding to 53 bits is at most half a unit in the last place (`round64_error`), and below 2^22 seconds that is less than half a nanosecond, so that the second rounding goes back to the written value.
* Hypotheses and limits: `str::parse::<f64>` is part of the standard library, not of /repo: the model follows its documentation, to the nearest number and ties to even, with no limit on the exponent.
* Theorems: `C104_exact`, `C104_close`, `C104_panic`, `C104_tiny`, `C104_other`, `C104_witness`

### C105 It does not matter in which slots people play, nor who watches

If two demos show the same people playing the same match, then the reported players are equal in every field and in their order, and so are the teams. The people may be in other slots, others may watch, the events may come in another order with other wordings, and the pings may be sampled otherwise as long as each player's mean is the same.

* Model: `players` and `teams` of the model. That the players are the same is stated in Props/Slots.lean (`SamePlayers`, by the line-ups without slot numbers), that the events are the same in Props/Renaming.lean (`SameEvents` without a change of names).
* Proof: From C97 both lists are ordered by rank and contain the same lines. Names are distinct, so the order is determined.
* Hypotheses and limits: Match statistics are left out: with them the players come from there (C43).
* Theorems: `C105_players`, `C105_teams`, `C105_witness`

### C106 Match statistics and messages tell the same match

If the match statistics of one demo list the people who play in another demo of the match, with their teams and scores in any order, then both demos give the same score board: names, teams and scores in the same order, and the same teams with the same totals, in the same order unless two team names differ only in case. With at most 255 players and pings up to 65535 ms the teams are found in both demos. If the statistics give the length of the match to the millisecond, up to 48 days, the match durations differ by no more than the rounding of single precision numbers; with statistics the duration is exact.

* Model: `players`, `teams` and `matchDuration` of the model, with `Env.parseF64` as in C104. What the statistics have to say is stated in Props/Concord.lean (`TellsScores`).
* Proof: Both lists of players are ordered by rank and have the same lines (C97, C44). Names are distinct, so the order is determined; teams by C90, where the totals cannot overflow because nobody scores more than once per frame; durations by C97 and C104.
* Hypotheses and limits: The parser of the statistics (ktxstats crate) is a dependency. The total of the pings in the statistics may overflow, so `C106_teams` assumes that both calls succeed; `C106_found` gives a condition for that.
* Theorems: `C106_players`, `C106_teams`, `C106_found`, `C106_duration`, `C106_witness`

### C107 Every match can be recorded and is read back

For all people, whatever their names, teams and colours, and whether they play or watch, for all scores of those who play, all pings, all counts of flag events, every date and for all times of countdown and game there is a valid demo from which exactly these players with these scores and pings, their teams with these totals and the mean of these pings, rounded to the nearest number, these flag counters, the names of those who watch, the settings of the server, the date and the times are read; the duration of the match up to the rounding of C97, and in hoonymode, where there is no countdown, the time of the whole demo. More generally every recording as of C83 and C86 is a demo as servers write them, so that all that is proved about these (C97, C101, C103, C105, C106) applies to it.

* Model: All functions that take part in C97. The plan of a match, and the recording made from it, are in Spec/Plan.lean; the recorder is that of C82.
* Proof: The demo is constructed: an obituary per point, a print per flag event, one ping update for everybody, empty frames for the time. That the words the parser looks for are nowhere else in it follows from the NULs between the parts (`occurs_record`). Then C97 and C103; the flag counters by C83.
* Hypotheses and limits: Demo times are converted to single precision as stated in C36, countdown and demo durations are therefore given by `Converted`. Names of players are as in C97 those that can be recognised in obituaries.
* Theorems: `C107_served`, `C107_every_match`, `C107_read_back`

### C108 Every match can be recorded with any match stats, and both are read back

For every match as of C107 and for all match stats there is a valid demo with both. The text of the stats, and the server, the players and (except in hoonymode) the duration they tell, are read from it, even if they contradict the recorded match. What is not asked of the stats is still that of the match: the settings of the server, the names of those who play and of those who watch, the score of everybody who plays as counted from the obituaries, the pings, the date, the times of countdown and demo, and the counters of flag events. In hoonymode there is no countdown, and the match lasts as long as the demo.

* Model: All functions that take part in C85, C97 and C107. The plan is that of C107 (Spec/Plan.lean), the stats are written as in C85; which texts can be added is said in Spec/StatsRecorder.lean.
* Proof: `C108_cut`: every text can be cut into pieces none of which looks like a print or a ping update, by strong induction on its length. The demo is the recording of C107 with these pieces (C85); it is a demo as servers write them (C107_served) that carries the stats (C85_carries), so C97 applies.
* Hypotheses and limits: Durations as in C39 and C107. The text must not contain the key \name\, because such a text could be taken for a userinfo string.
* Theorems: `C108_cut`, `C108_read_back`

### C109 A player's row depends only on what is said about them

The score of a player depends only on the messages that mention them, not on the order of these, nor on anything else in the demo. When team mates are killed by someone unnamed, it also depends on the parts of the demo in which this happens, and on the clients. The flag events of a player depend only on the frames with texts about flags that begin with their name, the ping of a player number only on its own samples. So in two demos with the same clients, that say the same about one of the players, the row of this player in the list of players is the same.

* Model: All functions that take part in C26, C30, C32 and C45. What it means to mention a player is defined in Spec/Hearsay.lean.
* Proof: `C109_parts`, `C109_frags`, `C109_flags`, `C109_pings`, `C109_row`: by C26, C30, C32 and C33 the results are sums over charges, texts and samples, whatever the build. The charges of a player in a part that does not concern them are empty (`charges_concern`, by induction); the others are equal up to permutation.
* Hypotheses and limits: The name occurs in a message if it is a part of its text; short names such as "a" occur in most messages.
* Theorems: `C109_parts`, `C109_frags`, `C109_flags`, `C109_pings`, `C109_row`

### C110 Exactly which reports are possible

Callers can tell from a report alone whether some demo has it. Lists of prints are possible exactly if no text is empty or contains a NUL, every text fits into a frame and neighbours differ. Pings per player number are possible exactly if there is at least one and each is below 65536. Durations of demos are exactly the numbers of milliseconds below 2^32 as they are converted. Serverinfo texts are exactly the conversions of one to 1263 bytes without a quote. Match dates are exactly the texts of 22 to 25 bytes without a newline. A demo can be valid, paused and aborted in every combination except valid and paused. Rankings made from match stats are exactly the ranked lists of rows whose colors have 8 bits and frags and pings 32, in which a ping of 10 belongs to a bot, no auth name is empty and no country is told.

* Model: All functions that take part in C05, C14, C32, C35 and C55.
* Proof: `C110_prints`, `C110_pings`, `C110_duration`, `C110_serverinfo`, `C110_matchdate`: one direction by what C05, C06, C14, C33 and C55 say about every result and by an invariant of the sum of frame durations; the other by a demo that is constructed from the report: one frame per print, one frame with all pings, idle frames that add up to the duration. `C110_verdicts`: C11, and six demos for the other combinations, which do for every environment (C98). `C110_ranking`: C44 and C47, and the match stats that list the rows.
* Hypotheses and limits: Demos are constructed as bytes; whether a server would write them is not asked.
* Theorems: `C110_prints`, `C110_pings`, `C110_duration`, `C110_serverinfo`, `C110_matchdate`, `C110_verdicts`, `C110_ranking`

### C111 Exactly which names are always understood

For a set of player names, every obituary that can be written about its players, with every phrase and every pair of names, is understood as it was meant exactly if each of the names is clear: no phrase with one name and no end of a phrase is a part of it, no phrase with two names is a part of it and a following space, it does not end with ` was` or ` suicides` and is not `suicides`, `stomps` or `squishes`, and it does not begin with what follows the first space of a phrase with one name or of certain phrases with two names, or with `his teammate` or `her teammate`. No two events between players with clear names are announced with the same text. Every flag message about a player is understood exactly if no phrase of a flag message is a part of the name.

* Model: All functions of C24 and C29.
* Proof: `C111_clear`, `C111_name`, `C111_unambiguous`, `C111_known`, `C111_flags`: what a message means is taken from C24 and C29. A phrase in a message about clear names lies in a name, across a border between name and phrase, or in the phrases; the ways to cut a phrase at a border are finitely many and checked in the kernel, so that only the intended phrase is left. For the other direction, each condition is derived from one message that is only understood if the name meets it.
* Hypotheses and limits: Messages are taken as whole texts.
* Theorems: `C111_clear`, `C111_unambiguous`, `C111_name`, `C111_known`, `C111_flags`, `C111_clear_names`, `C111_says`, `C111_unclear_names`, `C111_misunderstood`, `C111_ambiguous`, `C111_flag_names`

### C112 How messages are packed into frames

Servers put several messages into one frame or spread them over several frames. Prints are the same however whole prints are distributed over frames. So are pings, if not more than eight frames begin with pings either way, flag events, if frames are cut between pairs of high-level prints and the word flag is in both parts, and scores, if what is split off or appended does not begin with a medium-level print that is not empty and no teamkill is anonymous. This restriction is needed: an obituary behind another print of the same frame is not counted, in a frame of its own it is; the score of the player charged differs by exactly its worth, all others stay the same.

* Model: All functions of C04, C26, C30 and C32.
* Proof: `C112_prints`, `C112_pings`, `C112_flags`: what is found in a whole first part and in the second part is together what is found in both, so all that is found in the frames stays the same under each splitting and joining. `C112_frags`: the charge for a frame depends on its first print only. `C112_obituary` follows with C68. An example has the same messages in one frame and in two and other scores.
* Hypotheses and limits: Pieces of messages are not moved; times of frames, places of texts and client strings, which are not read by frames, are not considered here (C99, C63).
* Theorems: `C112_prints`, `C112_pings`, `C112_flags`, `C112_frags`, `C112_obituary`

### C113 A team's row depends only on its own players

Players, frags and ping of a team depend only on the players of that team and their order, not on the other players, the number of teams or the order in which a hash map is walked; so does the color, if the team has at most two players or one color is worn by more players than any other. When the players of some teams leave, or stand in another order that keeps the order within the teams, the remaining teams are reported as before and in the same order. Grouping the players listed under the teams once more gives the same teams. Leaving players out of the match stats leaves them out of the ranking and the others keep their order.

* Model: All functions of C44 and C48 to C52.
* Proof: `C113_row`: the members of the team are the same list, so the sums are, and the majority by C52. `C113_rows`: no sum overflows that did not before, the teams reported are the same set, and both lists are sorted strictly by lower-cased name. `C113_leave`, `C113_regroup` and `C113_stats` are instances; `C113_ranking` by the uniqueness of a stable sort (C44). `C113_order_witness`: the order within a team matters.
* Hypotheses and limits: With lower-cased names that coincide the order of the teams is up to chance (C52).
* Theorems: `C113_row`, `C113_rows`, `C113_leave`, `C113_regroup`, `C113_ranking`, `C113_stats`, `C113_order_witness`

### C114 What a single chat message can make the parser report

A chat message is searched like everything else. Saying "Server is paused" or "paused the game" makes a demo without the end marker appear paused; saying `"bot": {` makes bots appear; saying "The match is over" after the last announcement of it sets the duration of the demo to the time of the message, and said before it adds only the time of its frame; saying how match stats begin, after them and behind at least three other bytes, makes their text empty, so that there is no server and players and duration are read off the messages. A message with the bytes of the server's announcement in it sets the date, if the server has not sent it before, or makes the match appear aborted; a message without the byte 8 contains neither.

* Model: All functions of C08, C10, C23, C35, C41, C42 and C55.
* Proof: The bytes around the word are computed from the frames (`chatSaying_encode`), which gives its last or first occurrence; then `C114_paused`, `C114_bots`, `C114_aborted`, `C114_matchdate` by C10, C23, C08, C55; `C114_duration` and `C114_duration_kept` by C35 and the sum of the durations before an offset; `C114_stats`: the type of the supposed block consists of bytes of the message, so it is not 3 and reading stops with an empty text (C41); `C114_hidden` by C42 and C39; `C114_typed` by induction on the occurrence. `C114_witness` shows the messages at work.
* Hypotheses and limits: `C114_hidden` assumes that the JSON reader rejects the empty text, as serde_json does. `C114_stats` needs eleven bytes of other frames before the message and a demo of less than 2^63 bytes. What chat does not change at all is C89.
* Theorems: `C114_paused`, `C114_bots`, `C114_aborted`, `C114_duration`, `C114_duration_kept`, `C114_matchdate`, `C114_stats`, `C114_hidden`, `C114_typed`, `C114_witness`

### C115 Two demos in one file

If a file consists of two demos, one after the other, then server info, file name, epoch, match date and all clients and names are those of the first; match stats are those of the second, and with them server, players, teams and the recorded duration. Pings are those of the first, if it has eight frames with pings. The file is valid exactly if the first is and the second has the end marker; it is aborted if either is, and paused only if the second has no end marker. The demo duration is that of the first demo plus the time until the end of the second match, and without match stats the duration of the match is counted from the beginning of the first match.

* Model: All functions of C08 to C12, C35, C37, C41, C63 and C70.
* Proof: `C115_first` by C70 and C63, `C115_second` by C94 (what lies before the match stats does not matter), `C115_verdicts` by C08, C10, C12 and a lemma on ends of concatenations, `C115_pings` by C67, `C115_duration` by C35, C37 and the sum of durations of a concatenation. `C115_witness`: a match that lasts from the first demo into the second.
* Hypotheses and limits: Scores and flag counters add up by C61.
* Theorems: `C115_first`, `C115_second`, `C115_verdicts`, `C115_duration`, `C115_pings`, `C115_witness`

## Modelled code

One line per definition of the model; the source is `/repo/src`.

`Model/Cursor.lean`

* `Cursor`: `Cursor`: position and unread bytes (the buffer from the position on, empty if the position is past the end).
* `new`: `Cursor::new(buf)`.
* `skip`: `cur.set_position(cur.position() + n)`.
* `readExact`: `cur.read_exact(&mut [0; n])`.
* `readByte`: qw/primitives.rs:13-18 `read_byte`
* `readU16`: qw/primitives.rs:20-25 `read_u16`
* `readU32`: qw/primitives.rs:27-32 `read_u32`
* `bstringLoop`: Loop of `read_bstring` over the unread bytes: result and number of bytes consumed. One round per byte, so the recursion is on the unread bytes; at the end of the buffer the read fails with everything consumed.
* `readBstring`: qw/primitives.rs:34-46 `read_bstring`
* `readMessageType`: qw/message/message_type.rs:6-10 `read_message_type`
* `Print`: qw/message/print.rs:9-13 `Print`
* `Print.byteSize`: qw/message/print.rs:15-19 `Print::byte_size`
* `Cursor.readPrint`: qw/message/print.rs:38-45 `read_print`
* `UpdateFrags`: qw/message/update_frags.rs:5-9 `UpdateFrags`
* `Cursor.readUpdateFrags`: qw/message/update_frags.rs:19-26 `read_update_frags`
* `UpdatePing`: qw/message/update_ping.rs:5-9 `UpdatePing`
* `Cursor.readUpdatePing`: qw/message/update_ping.rs:19-28 `read_update_ping`
* `Print.tryFrom`: qw/message/print.rs:30-36 `Print::try_from`
* `UpdateFrags.tryFrom`: qw/message/update_frags.rs:11-17 `UpdateFrags::try_from`
* `UpdatePing.tryFrom`: qw/message/update_ping.rs:11-17 `UpdatePing::try_from`

`Model/Duration.lean`

* `totalMs`: duration.rs:61-71, the loop summing up frame durations; the `u32` sum may overflow.
* `msToDuration`: duration.rs:73 `Duration::from_secs_f32(total_ms as f32 / 1000.0)`
* `durationUntilOffset`: duration.rs:60-74 `duration_until_offset`
* `isHoonymode`: `serverinfo(data).is_ok_and(|s| s.mode == Some("hoonymode".to_string()))` (duration.rs:10, 36)
* `countdownDuration`: duration.rs:9-18 `countdown_duration`
* `NEEDLE_MATCH_OVER`: duration.rs:21-24 `NEEDLE_MATCH_OVER`
* `NEEDLE_STANDBY`: duration.rs:25-28 `NEEDLE_STANDBY`
* `demoDuration`: duration.rs:20-33 `demo_duration`
* `matchDurationFromSeeking`: duration.rs:43-47 `match_duration_from_seeking`
* `matchDurationFromKtxstats`: duration.rs:49-58 `match_duration_from_ktxstats`
* `matchDuration`: duration.rs:35-41 `match_duration`

`Model/Env.lean`

* `Settings`: `quake_serverinfo::Settings`: the entries the code looks at; the remaining ones are passed through as `other`.
* `Clientinfo`: `quake_clientinfo::Clientinfo` (fields as in clientinfo.rs:69-80); numbers are `i32`.
* `KtxPlayer`: `ktxstats::v3::Player`: the fields read in player.rs:17-35; numbers are `i32`, `bot` records whether there is a bot entry.
* `KtxStats`: `ktxstats::v3::KtxstatsV3`: the fields read in server.rs and players.rs.
* `Env`: The environment of a call.

`Model/FlagEvent.lean`

* `X_CAPTURED_FLAG`: qw/flagprint.rs:2
* `X_DEFENDS_FLAG`: qw/flagprint.rs:4
* `X_DEFENDS_CARRIER`: qw/flagprint.rs:6-9
* `X_DEFENDS_CARRIER_AGGR`: qw/flagprint.rs:11-14
* `X_GOT_FLAG`: qw/flagprint.rs:16
* `X_RETURNED_FLAG`: qw/flagprint.rs:18
* `X_FRAGS_CARRIER`: qw/flagprint.rs:20-23
* `FlagEvent`: qw/flagevent.rs:5-14 `FlagEvent`
* `flagPrintTypes`: qw/flagevent.rs:20-28 `print_types`, with the event of the `match` in lines 34-43 in place of the index.
* `flagPrintLoop`: qw/flagevent.rs:30-45, the loop over the print types.
* `FlagEvent.tryFrom`: qw/flagevent.rs:19-48 `FlagEvent::try_from`

`Model/Flags.lean`

* `PlayerFlagEvents`: flags.rs:13-22 `PlayerFlagEvents`; all counters are `u8`.
* `isMessageSuffix`: flags.rs:110-119 `is_message_suffix`
* `flagBody`: flags.rs:39-56, the loop over the messages of one frame: (prints, current_print).
* `flagPrints`: flags.rs:29-63, first loop: the texts to classify.
* `countFlagPrint`: flags.rs:67-105, the body of the second loop.
* `flagEventsPerPlayerName`: flags.rs:24-108 `flag_events_per_player_name`

`Model/FragEvent.lean`

* `WILDCARD`: qw/fragprint.rs:2 `WILDCARD`
* `X_DEATH`: qw/fragprint.rs:4-22 `X_DEATH`
* `X_SUICIDE_BY_WEAPON`: qw/fragprint.rs:24-36 `X_SUICIDE_BY_WEAPON`
* `X_SUICIDE`: qw/fragprint.rs:38 `X_SUICIDE`
* `X_TEAMKILL_UNKNOWN`: qw/fragprint.rs:40-47 `X_TEAMKILL_UNKNOWN`
* `UNKNOWN_TEAMKILL_X`: qw/fragprint.rs:49-56 `UNKNOWN_TEAMKILL_X`
* `X_FRAG_Y`: qw/fragprint.rs:58-63 `X_FRAG_Y`
* `Y_FRAG_X`: qw/fragprint.rs:65-94 `Y_FRAG_X`
* `FragEvent`: qw/fragevent.rs:8-16 `FragEvent`
* `patternMatch`: qw/fragevent.rs:58-70 `pattern_match`
* `findAny`: `PATTERNS.iter().find_map(|&p| value.find(p))`
* `fragPatternLoop`: qw/fragevent.rs:44-52, the loop over the two-name patterns.
* `FragEvent.tryFrom`: qw/fragevent.rs:21-55 `FragEvent::try_from`

`Model/Frags.lean`

* `printFramesBody`: frags.rs:20-38, the body of the first loop.
* `printFrames`: frags.rs:19-39, first loop: the leading medium prints with their frame.
* `lookBody`: frags.rs:91-114, the body of the look-ahead loop of `find_team_killer`; the state is (frame_count, player numbers).
* `fragUpdatesFrom`: frags.rs:90-115, the look-ahead loop of `find_team_killer`.
* `findTeamKiller`: frags.rs:84-136 `find_team_killer`
* `scorePrint`: frags.rs:43-79, the body of the second loop.
* `forR`: A `for` loop over a list whose body may panic.
* `fragsPerPlayerName`: frags.rs:15-82 `frags_per_player_name`

`Model/Frame.lean`

* `SHORT`: qw/primitives.rs:4
* `LONG`: qw/primitives.rs:5
* `FRAME_HEADER_SIZE`: qw/frame.rs:9 `HEADER_SIZE`
* `MULTI_HEADER_SIZE`: qw/frame.rs:10 `MULTI_HEADER_SIZE`
* `FrameInfo`: qw/frame.rs:12-23 `frame::Info`; a `Range` is a pair (start, end).
* `FrameInfo.fromDataAndIndex`: qw/frame.rs:26-66 `frame::Info::from_data_and_index`. `usize` sums cannot overflow here on a 64-bit target (`index` is at most the data length, `body_size < 2^32`; shown in Props/Width.lean), so they are plain additions.
* `Step`: What a loop body decides: go on with the next frame, or `break`.
* `frameLoop`: The loop `while let Ok(info) = frame::Info::from_data_and_index(data, index) { body; index += info.size; }` (prints.rs:13-30, frags.rs:19-39, frags.rs:90-115, flags.rs:29-63, ping.rs:17-45, duration.rs:64-71; every `continue` in these bodies also advances `index` by `info.size`).
* `frameLoopFrom`: The loop with enough fuel for any data.
* `FrameInfo.body`: `&data[info.body_range]`
* `BLOCK_HEADER_SIZE`: qw/block.rs:6 `HEADER_SIZE`
* `BlockInfo`: qw/block.rs:8-14 `block::Info`
* `BlockInfo.tryFrom`: qw/block.rs:16-31 `block::Info::try_from`; `usize` has 64 bits.

`Model/Info.lean`

* `offsetsBetween`: bytesextra.rs:3-12 `offsets_between` (the slice `data[index_from..]` is always in range).
* `serverinfoString`: serverinfo.rs:10-21 `serverinfo_string`
* `serverinfo`: serverinfo.rs:6-8 `serverinfo`
* `filename`: filename.rs:5-10 `filename`
* `CMD_SPAWN`: clientinfo.rs:14 `CMD_SPAWN`
* `MAX_PLAYERS`: clientinfo.rs:19 `MAX_PLAYERS`
* `MAX_LOOKAHEAD`: clientinfo.rs:20 `MAX_LOOKAHEAD`
* `CLIENT_MIN_LEN`: clientinfo.rs:22 `MIN_LEN`
* `CLIENT_MAX_LEN`: clientinfo.rs:23 `MAX_LEN`
* `clientScan`: clientinfo.rs:27-49, the scan loop. `data[..name_offset]` and `data[from..]` are always in range.
* `clientinfoStrings`: clientinfo.rs:13-52 `clientinfo_strings`
* `clientinfo`: clientinfo.rs:5-11 `clientinfo`
* `Client`: client.rs:3-13 `Client`
* `Client.ofClientinfo`: client.rs:15-31 `Client::from`
* `clients`: clients.rs:8-19 `clients`
* `playerClients`: clients.rs:33-40 `player_clients`
* `spectatorClients`: clients.rs:50-57 `spectator_clients`
* `hasBotPlayers`: clients.rs:21-27 `has_bot_players`
* `hasHumanPlayers`: clients.rs:29-31 `has_human_players`
* `playerNames`: clients.rs:42-48 `player_names`
* `spectatorNames`: clients.rs:59-65 `spectator_names`
* `teamNames`: clients.rs:67-76 `team_names`
* `END_OF_DEMO`: validate.rs:16-18 `NEEDLE`
* `hasEndOfDemoPrint`: validate.rs:15-21 `has_end_of_demo_print` (the slice is in range by the first conjunct).
* `hasClients`: validate.rs:11-13 `has_clients`
* `isValid`: validate.rs:3-9 `is_valid`, with short-circuit `&&`.
* `IS_PAUSED_NEEDLE`: paused.rs:10-13 `IS_PAUSED_NEEDLE`
* `PAUSED_THE_GAME_NEEDLE`: paused.rs:16-18 `PAUSED_THE_GAME_NEEDLE`
* `isPaused`: paused.rs:4-21 `is_paused`
* `MATCH_STOPPED_PRINT`: aborted.rs:3-7 `MATCH_STOPPED_PRINT`
* `isAborted`: aborted.rs:9-11 `is_aborted`

`Model/Ktxstats.lean`

* `TOTAL_HEADER_SIZE`: ktxstats.rs:16 `TOTAL_HEADER_SIZE`
* `blockLoop`: ktxstats.rs:25-38, the block loop; `usize` has 64 bits.
* `ktxstatsString`: ktxstats.rs:15-41 `ktxstats_string`
* `ktxstatsV3`: ktxstats.rs:10-13 `ktxstats_v3`
* `Server`: server.rs:10-16 `Server`
* `Server.ofStats`: server.rs:18-27 `Server::from`
* `server`: server.rs:6-8 `server`

`Model/Matchdate.lean`

* `MATCHDATE_NEEDLE`: matchdate.rs:7-9 `MATCHDATE_NEEDLE`
* `DATETIME_LEN`: matchdate.rs:10 `DATETIME_LEN`
* `MATCHDATE_MIN_LEN`: matchdate.rs:11 `MIN_LEN`
* `MATCHDATE_MAX_LEN`: matchdate.rs:12 `MAX_LEN`
* `matchdateString`: matchdate.rs:28-46 `matchdate_string` (the slice `data[index_from..]` is always in range).
* `replaceTzAbbrWithOffset`: matchdate.rs:20-26 `replace_tz_abbr_with_offset`
* `matchdate`: matchdate.rs:14-18 `matchdate`; a `DateTime<Utc>` is its number of seconds since the epoch.
* `timestampFromEpoch`: timestamp.rs:11-21 `timestamp_from_epoch`. `epoch` is an `i32`, for which `timestamp_opt` always is `Single`.
* `timestamp`: timestamp.rs:7-9 `timestamp`

`Model/Numbers.lean`

* `Target.number`: qw/prot.rs:2-8, the numbers of `Target`.
* `Command.number`: qw/prot.rs:24-29, the numbers of `Command`.
* `MessageType.number`: qw/prot.rs:44-107, the numbers of `MessageType`.
* `HiddenMessage.number`: qw/prot.rs:178-192, the numbers of `HiddenMessage`.
* `PrintId.number`: qw/prot.rs:215-221, the numbers of `PrintId`.

`Model/Ping.lean`

* `pingBody`: ping.rs:22-33, the loop over the messages of one frame: (total_pings, did_ping_update).
* `totalPings`: ping.rs:17-45, the frame loop: (total_pings, sample_count).
* `averagePing`: ping.rs:54-55, average of the samples of one player: `sum::<u16>()`, then a division on `f32`.
* `pingPerPlayerNumber`: ping.rs:11-60 `ping_per_player_number`

`Model/Players.lean`

* `BOT_PING`: player.rs:3 `BOT_PING`
* `Player`: player.rs:5-15 `Player`
* `Player.ofKtx`: player.rs:17-35 `Player::from`
* `playerCmp`: player.rs:37-39 `sort`: the closure's arguments are called (b, a).
* `playersFromKtxstats`: players.rs:21-25 `players_from_ktxstats`
* `playerOfClient`: players.rs:34-43, the player of a client.
* `playersFromParsing`: players.rs:27-50 `players_from_parsing`
* `players`: players.rs:13-19 `players`

`Model/Prints.lean`

* `printsBody`: prints.rs:17-26, the loop over the messages of one frame body.
* `prints`: prints.rs:9-34 `prints`

`Model/Prot.lean`

* `Target`: qw/prot.rs:1-8 `Target`
* `Target.ofByte`: qw/prot.rs:10-21 `Target::from`
* `Command`: qw/prot.rs:23-29 `Command`
* `Command.ofByte`: qw/prot.rs:31-41 `Command::from`
* `MessageType`: qw/prot.rs:43-107 `MessageType`
* `MessageType.ofByte`: qw/prot.rs:109-175 `MessageType::from`
* `HiddenMessage`: qw/prot.rs:177-192 `HiddenMessage`
* `HiddenMessage.ofU16`: qw/prot.rs:194-212 `HiddenMessage::from`
* `PrintId`: qw/prot.rs:214-221 `PrintId`
* `PrintId.ofByte`: qw/prot.rs:223-233 `PrintId::from`

`Model/Teams.lean`

* `Team`: team.rs:5-12 `Team`
* `colorCount`: team.rs:67-71, the color counts (`u8`).
* `maxColor`: team.rs:73-80, the maximum over the counts in iteration order: (max_color, max_count).
* `majorityColor`: team.rs:60-83 `majority_color`; `seed` numbers the call.
* `Team.ofPlayers`: team.rs:14-40 `Team::from`
* `teamMap`: team.rs:43-47, the players per team name.
* `teamsFromPlayers`: team.rs:42-58 `teams_from_players`
* `teams`: teams.rs:8-10 `teams`
* `teamsFromKtxstats`: teams.rs:12-14 `teams_from_ktxstats`

`Model/Timezone.lean`

* `UTC_OFFSET_BY_ABBR`: timezone.rs:1-207 `UTC_OFFSET_BY_ABBR` (without the entries that are commented out there).
* `utcOffsetByAbbr`: timezone.rs:219-227 `utc_offset_by_abbr`
* `padRight4`: `format!("{:0<4}", s)`: padded on the right with zeros to at least four characters.
* `utcOffsetByOffset`: timezone.rs:229-251 `utc_offset_by_offset`. The slice `offset[1..]` is after an ASCII character.
* `utcOffset`: timezone.rs:209-217 `utc_offset`

`Model/Utf8Events.lean`

* `strFind`: `value.find(p)`: the byte offset of the first occurrence of the bytes of `p`.
* `strSplitOnce`: `value.split_once(delim)`: `(&value[..i], &value[i + delim.len()..])` at the byte offset found.
* `strEndsWith`: `value.ends_with(suffix)`, on the bytes.
* `strTrimEndMatches`: `value.trim_end_matches(suffix)`, cutting bytes off the end; the fuel is the number of bytes.
* `strPatternMatch`: qw/fragevent.rs:58-70 `pattern_match`
* `strFindAny`: `PATTERNS.iter().find_map(|&p| value.find(p))`
* `strFragPatternLoop`: qw/fragevent.rs:44-52, the loop over the two-name patterns.
* `FragEvent.strTryFrom`: qw/fragevent.rs:21-55 `FragEvent::try_from`
* `strFlagPrintLoop`: qw/flagevent.rs:30-45, the loop over the print types.
* `FlagEvent.strTryFrom`: qw/flagevent.rs:19-48 `FlagEvent::try_from`
* `strIsMessageSuffix`: flags.rs:110-119 `is_message_suffix`

`Model/Width.lean`

* `FrameInfo.fromDataAndIndexW`: qw/frame.rs:26-66 `frame::Info::from_data_and_index` with `w`-bit `usize` arithmetic.
* `frameLoopW`: The frame loop (prints.rs:13-30, frags.rs:19-39, frags.rs:90-115, flags.rs:29-63, ping.rs:17-45, duration.rs:64-71) with `w`-bit `usize` arithmetic.
* `totalMsW`: duration.rs:61-71, the loop summing up frame durations, with `w`-bit `usize` arithmetic.
* `offsetsBetweenW`: bytesextra.rs:3-12 `offsets_between`
* `serverinfoStringW`: serverinfo.rs:10-21 `serverinfo_string`
* `clientScanW`: clientinfo.rs:27-49, the scan loop.
* `clientinfoStringsW`: clientinfo.rs:13-52 `clientinfo_strings`
* `matchdateStringW`: matchdate.rs:28-46 `matchdate_string`
* `hasEndOfDemoPrintW`: validate.rs:15-21 `has_end_of_demo_print`, with short-circuit `&&`.
* `BlockInfo.tryFromW`: qw/block.rs:16-31 `block::Info::try_from`
* `blockLoopW`: ktxstats.rs:25-38, the block loop.
* `ktxstatsStringW`: ktxstats.rs:15-41 `ktxstats_string`

## Not modelled

* The external crates listed above, beyond being functions: they are assumed to terminate, not to panic and to depend on
  their argument only.
* Error messages: an error is its kind (`Err` in `Rust/Res.lean`, with the message in a comment).
* Memory use, and running time beyond termination (C01), the number of loop rounds (C102) and the size of the results (C75).
* The exponent limits of `f32`; C93 shows that they are not reached.
* `Debug`/`Clone`/`PartialEq` derivations and the hand-written `Debug` of `Print` (qw/message/print.rs:21-28), the re-exports of `lib.rs`, tests, benches and examples.
* Data of 2^63 bytes or more, which Rust slices cannot have. Theorems that need the bound state it.
* 32-bit targets, except for the offset arithmetic of C92: `usize` has 64 bits.

## Simplifications

* `while let Ok(info) = frame::Info::from_data_and_index(..)` loops share one combinator, `frameLoop`, whose body decides
  between going on and `break`.
* The cursor is kept as position and unread bytes instead of buffer and position.
* The `HashMap` entry API is `Map.get`, `Map.set` and `Map.update` on association lists; the iteration order of `Env.order`
  makes the list order unobservable.
* `sort_by` is insertion sort. Stable sorting determines the result (`stablySorted_unique`, `C44_unique`), so any stable
  sort gives the same list.
* bstr's `find`, `rfind` and `contains_str` are the naive searches for the first and last occurrence.
* Logging-free helper closures are inlined where they are used once.

## Defects of the code found on the way

The model follows the code, so the theorems describe these as they are. Each has a witness or an exact condition.

* `frame::Info` compares the frame size with the length of all the data rather than with what is left, so most truncated
  demos make the frame walkers panic (C06).
* `serverinfo` and everything that consults it panic on data shorter than 1280 bytes; `is_valid` panics on data of 1024 to
  1279 bytes that ends in the end-of-demo print (C13, C15).
* The client scan panics when less than 512 bytes follow the last client (C19).
* More than 256 clients share numbers (C20) and overwrite each other as players (C45).
* `ktxstats_string` panics when the marker is near the beginning, when a block size is below 2 or beyond the data, and when
  the last block is missing (C41).
* `match_duration` panics when the match date print follows the last end-of-match print (C37) and on recorded durations
  that are negative, too large or not a number (C39).
* The `u16` sum of pings overflows (C33), as do the `u8` flag counters (C30), the `u8` color counters (C51), team totals
  (C49) and the `u32` duration total (C35).
* On 32-bit targets a frame size close to 2^32 makes the frame walk panic or, in release builds, run for ever (C92).
* Names such as `died`, or names with spaces inside which a phrase could begin, mislead the obituary parser (C25, C84).
* Ties make `players` and `teams` depend on the hash seed (C46, C52).
* `utc_offset` accepts `++100`, `+-000` and `+0199`; the second entries for AST and LHST are dead (C53, C54).
* `matchdate` panics on a multi-byte character at byte 19 or 20 of the date (C56).

## Trusted base

* The Lean 4.33 kernel and Mathlib's definitions of the rationals, `⌊·⌋` and `Int.log` (used in `Rust/Float.lean`,
  `Rust/ParseFloat.lean` and `Spec/Duration.lean`).
* The axioms `propext`, `Quot.sound` and `Classical.choice`; none of them in some theorems. `AXIOMS.md` lists them per
  theorem. No `sorry`, no `native_decide`, no `bv_decide`, no axioms of our own.
* The faithfulness of `Rust/*` and `Model/*` to the code and the standard library, by reading. Supporting evidence:
  * The primitives are characterised independently: searches by `FirstAt`/`LastAt`, UTF-8 by the encoding `Spec.utf8`,
    stable sorting and rounding to even by relations that determine the result, decimal printing by `Decimal`.
  * The model was executed outside the proofs on all seven demos in the repository (`Conformance.lean`,
    `tools/conformance.py`). All 81 values that the unit tests expect came out: serverinfo and client strings,
    clients, players, teams, frags, pings, durations, dates, the statistics text, the server, validity, pauses, aborts, file
    names. For two demos only the statistics are in the repository; these are put into a demo with nothing else. Crate
    functions were replaced by simple stand-ins, and the compiled copy computes floors, logarithms, powers and suffixes
    in a faster way. Numbers are read by the model of `str::parse::<f64>`. Flag events are not covered: the demo that their test reads is not in the repository.
  * The unit tests that need no demo are evaluated in `UnitTests.lean`.
* The specification files, which are short and meant to be read.

## Hypotheses and real demos

A theorem can be true, with hypotheses that an example meets, and still say nothing about the demos that servers record.
`tools/hypotheses.py` checks some of the hypotheses on the seven demos in the repository, without using the model:

* Met by all seven: whole frames with nothing left, the spawn command with 13056 bytes after it, a date before the end of the
  match, the end marker nowhere but at the end (the 4on4 demo has none), and stats, where there are any, at offset 18 or later.
* Chat (C89): 2231 frames contain only chat. All of them are sent to single players, none to all. An earlier version of C89
  asked for chat to all players, after a string and before a frame to all, and so covered none of them. The present one covers
  all 2231; the results about clients, stats and players cover 2199 of them, which lie outside header and stats, and the
  equality of durations 1673, which have no time of their own; `C89_time` covers the others.
* Anonymous teamkills: the 2on2 demo has 5 and the 4on4 demo 1, so theorems that exclude them do not apply to these two demos
  as a whole: `C27_insert`, `C27_only_medium_prints`, `C61_frags`, `C68_obituary`, `C68_one_name`, `C68_two_names`, `C69_frags`,
  `C80_frags`, `C89_frags`, `C94_frags_named`, and `C89_many` as far as scores are concerned.
  `C27_far`, `C61_frags_closed`, `C68_obituary_closed`, `C69_frags_closed`, `C80_frags_closed`, `C89_match`, `C89_many_match` and
  `C94_frags_closed` allow them outside the searched frames; no chat in the seven demos lies there.
* All seven demos meet every hypothesis of C97 that the script can check: header, userinfo strings, different names, names that
  cannot be mistaken for obituaries, pings, date, times and stats (four demos). Every frame that begins with a medium print
  announces an obituary. Of the 6 anonymous teamkills 5 are charged to a team mate with a score update nearby; for one there is
  no such update and nobody is charged. `Told`, used by C88 and C97, allows both. The script approximates the conversion of
  text; that the parsed userinfo strings stand for the clients is an assumption about an external crate.
* The recorder of C82, C83, C85 and C86 is idealised: no demo has its form. C97 is what applies to recorded demos.
* No demo has frames without content, which C95 is about.

The other hypotheses were checked only on the examples beside the theorems.

## Wrong programs

`seeded/LOG.jsonl` lists edits of the model as a realistic bug would make them. For the
earlier ones the whole project was rebuilt, for the later ones the modules of the properties concerned, and the theorems that no
longer hold were collected. `theorems_failed` names the property theorems whose proof, or a lemma used in
it, no longer checks; `failed_declarations` the declarations where Lean reported an error. When the theorems of the broken
claim survived, they were tightened, and `theorems_tightened` names them.
