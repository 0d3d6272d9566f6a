{
 "C01": {
  "model": "all loops: `frameLoop`, `printsBody`, `flagBody`, `pingBody`, `clientScan`, `blockLoop`, and every public function built on them",
  "proof": "Each loop has fuel and an explicit outcome `hang`. An induction shows that every round consumes input, so fuel beyond the data length is never used up; further lemmas show that more fuel does not change the result.",
  "limits": "`data.length < 2^63`, which every Rust slice satisfies (needed only for the stats blocks, whose 64-bit offset arithmetic wraps in release builds). Recursion inside external crates is not covered."
 },
 "C02": {
  "model": "`FrameInfo.fromDataAndIndex`, `frameLoop`",
  "proof": "Encoder `Spec.Frame.encode` written from the format; decoding an encoded frame at any position is computed, then induction over the frame list.",
  "limits": "Frames must be well-formed (`Frame.WF`: mask of four bytes exactly for kind 3, payload below 2^32 bytes, fixed payload of the unsized kinds)."
 },
 "C03": {
  "model": "`frameLoop`",
  "proof": "Existence by strong induction on the length, uniqueness because the header determines the frame; the remainder is classified by case analysis.",
  "limits": "None. Together with C02 it makes every theorem stated on `Splits` apply to every byte string."
 },
 "C04": {
  "model": "`printsBody`, `prints`, `Cursor.readPrint`",
  "proof": "Refinement of the two loops to the relation `LeadingPrints` and to `Collapses`; both relations are shown to be total and functional.",
  "limits": "The demo must not end in a cut-off frame (`Stops`); C06 covers the other case."
 },
 "C05": {
  "model": "`prints`",
  "proof": "Invariant of the loops.",
  "limits": "None."
 },
 "C06": {
  "model": "every frame walker: `prints`, `frags…`, `flagEvents…`, `ping…`, durations",
  "proof": "Case split on the remainder of C03.",
  "limits": "The absence of panics that users expect is false: witnesses are proved beside the exact conditions."
 },
 "C07": {
  "model": "`offsetsBetween`",
  "proof": "Iff against first occurrences.",
  "limits": "None."
 },
 "C08": {
  "model": "`isAborted`",
  "proof": "Iff against `Occurs`.",
  "limits": "None."
 },
 "C09": {
  "model": "`hasEndOfDemoPrint`",
  "proof": "Iff.",
  "limits": "None."
 },
 "C10": {
  "model": "`isPaused`",
  "proof": "Iff; the function is total in the model because both slices are in range.",
  "limits": "None."
 },
 "C11": {
  "model": "`isValid`, `isPaused`",
  "proof": "Corollary of C09, C10 and C12.",
  "limits": "None."
 },
 "C12": {
  "model": "`isValid`, `clients`, `serverinfo` and the name lists",
  "proof": "Unfolding; `C12_exact` gives the exact condition for validity.",
  "limits": "None."
 },
 "C13": {
  "model": "`isValid`",
  "proof": "Exact panic condition and totality otherwise. Never panicking is false; witnesses for both causes.",
  "limits": "None."
 },
 "C14": {
  "model": "`serverinfoString`, `serverinfo`",
  "proof": "Corollary of C07 on the first 1280 bytes.",
  "limits": "At least 1280 bytes (C15 covers the rest). The decoding of bytes to text is opaque."
 },
 "C15": {
  "model": "`serverinfoString`, `serverinfo`, `filename`, `timestampFromEpoch`, `timestamp`, durations",
  "proof": "Computation of the slice.",
  "limits": "None."
 },
 "C16": {
  "model": "`filename`",
  "proof": "Case analysis.",
  "limits": "`quake_serverinfo::Settings::from` is opaque."
 },
 "C17": {
  "model": "`clientScan`, `clientinfoStrings`",
  "proof": "One search step is shown equivalent to the relation `NextClient`, the loop to `ClientChain`; uniqueness of finished chains gives the iff `C17_exact`.",
  "limits": "Unless the scan panics; C19 says exactly when."
 },
 "C18": {
  "model": "`clientinfoStrings`",
  "proof": "Induction over the layout `ClientSection`.",
  "limits": "Sections up to 24 * 512 bytes, 512 bytes present after the last string."
 },
 "C19": {
  "model": "`clientinfoStrings`",
  "proof": "From the chain relation.",
  "limits": "None."
 },
 "C20": {
  "model": "`clients`",
  "proof": "Enumeration lemma; number is the index modulo 256.",
  "limits": "None."
 },
 "C21": {
  "model": "`playerClients`, `spectatorClients`, `Client.ofClientinfo`",
  "proof": "Filter partition.",
  "limits": "`quake_clientinfo::Clientinfo::from` is opaque."
 },
 "C22": {
  "model": "`playerNames`, `spectatorNames`, `teamNames`",
  "proof": "Permutation of the sorted list, then `dedup`.",
  "limits": "`quake_text::unicode::sort` is a parameter assumed to permute its input (`C22_names`) and to place equal names next to each other (`C22_team_names_nodup`)."
 },
 "C23": {
  "model": "`hasHumanPlayers`, `hasBotPlayers`",
  "proof": "Case analysis.",
  "limits": "None."
 },
 "C24": {
  "model": "`FragEvent.tryFrom`, `patternMatch`, the phrase tables",
  "proof": "The relation `Classifies` is written from the phrases; both directions by case analysis, plus totality and uniqueness.",
  "limits": "None."
 },
 "C25": {
  "model": "`FragEvent.tryFrom`",
  "proof": "From C24: a phrase occurring in another place would need a space or one of the one-word phrases inside a name.",
  "limits": "Names without spaces; second names without apostrophe and not beginning with a one-word phrase. Witnesses show that these limits are needed."
 },
 "C26": {
  "model": "`printFrames`, `fragUpdatesFrom`, `findTeamKiller`, `scorePrint`, `fragsPerPlayerName`",
  "proof": "Refinement of the frame loop to the list of charges; the table is the sum per name by induction over the charges.",
  "limits": "`C26_frags` is for fewer than 2^30 charges (implied by data below 2 GiB, `C26_bound`); `C26_release` and `C26_debug` cover any number of charges. No cut-off frame."
 },
 "C27": {
  "model": "`fragsPerPlayerName`",
  "proof": "From C26: the charges depend only on the frames that lead with a medium print. `C27_far`: with anonymous teamkills, if two or more frames with content lie between each earlier one and the added frame, and the clients are the same.",
  "limits": "With anonymous teamkills the clients are assumed to be the same in both demos."
 },
 "C28": {
  "model": "`findTeamKiller`",
  "proof": "Exact characterisation of the look-ahead by `nearbyUpdates` and `Blamed`.",
  "limits": "The clients can be read."
 },
 "C29": {
  "model": "`FlagEvent.tryFrom`",
  "proof": "Like C24.",
  "limits": "None for the classification; `C29_round_trip` for names without spaces."
 },
 "C30": {
  "model": "`flagBody`, `flagPrints`, `countFlagPrint`, `flagEventsPerPlayerName`",
  "proof": "Refinement to `FlagTexts`; counters by induction over the events.",
  "limits": "Counters are `u8`: exact below 256, modulo 256 in release builds, panic with overflow checks; all three cases are proved."
 },
 "C31": {
  "model": "`flagEventsPerPlayerName`",
  "proof": "From C30.",
  "limits": "None."
 },
 "C32": {
  "model": "`pingBody`, `totalPings`, `averagePing`, `pingPerPlayerNumber`",
  "proof": "Refinement to `sampledPings`; the binary32 quotient of numbers below 2^16 is shown to have the right floor.",
  "limits": "Sample sums below 65536; C33 covers the rest."
 },
 "C33": {
  "model": "`averagePing`",
  "proof": "Computation for both build profiles.",
  "limits": "None."
 },
 "C34": {
  "model": "`pingPerPlayerNumber`",
  "proof": "From C32.",
  "limits": "None."
 },
 "C35": {
  "model": "`totalMs`, `durationUntilOffset`, `demoDuration`, `countdownDuration`",
  "proof": "The loop sums the frames that start before the offset; offsets by `LastAt`/`FirstAt`.",
  "limits": "Frames before the offset complete; totals below 2^32 ms (larger totals: `C35_overflow`, `C35_countdown_overflow`)."
 },
 "C36": {
  "model": "`msToDuration`, `f32Round`, `roundEven`",
  "proof": "The relation `Converted` prescribes three roundings to nearest, ties to even; `C36_conversion` is an iff. Accuracy and monotonicity follow.",
  "limits": "Single precision without exponent limits: the values (0 to 2^32) are far from overflow and subnormal numbers (C93)."
 },
 "C37": {
  "model": "`matchDurationFromSeeking`",
  "proof": "Monotonicity of prefix sums and of the conversion.",
  "limits": "Match date print before the end of the measurement; the witness shows a panic otherwise."
 },
 "C38": {
  "model": "`countdownDuration`, `matchDuration`",
  "proof": "Case analysis.",
  "limits": "At least 1280 bytes."
 },
 "C39": {
  "model": "`matchDurationFromKtxstats`, `matchDuration`",
  "proof": "Case analysis on the recorded text; rounding of the parsed number as in C36.",
  "limits": "`str::parse::<f64>` is a parameter. At least 1280 bytes."
 },
 "C40": {
  "model": "`BlockInfo.tryFrom`, `blockLoop`, `ktxstatsString`",
  "proof": "Induction over the blocks.",
  "limits": "Data below 2^63 bytes."
 },
 "C41": {
  "model": "`ktxstatsString`",
  "proof": "Refinement of the loop to `ReadsBlocks`, which is total and functional.",
  "limits": "Data below 2^63 bytes."
 },
 "C42": {
  "model": "`ktxstatsV3`, `server`, `Server.ofStats`",
  "proof": "Unfolding; decimal printing is characterised by `Decimal`.",
  "limits": "`KtxstatsV3::try_from` is opaque."
 },
 "C43": {
  "model": "`players`",
  "proof": "Case analysis.",
  "limits": "None."
 },
 "C44": {
  "model": "`playersFromKtxstats`, `players`, `playerCmp`, `sortBy`",
  "proof": "The model's insertion sort is stable and sorted; stable sorting has only one result, so the choice of algorithm does not matter.",
  "limits": "The standard library's sort is assumed to be stable (documented)."
 },
 "C45": {
  "model": "`playersFromParsing`",
  "proof": "Map join lemma.",
  "limits": "None."
 },
 "C46": {
  "model": "`players`",
  "proof": "Sorting two permutations of a list without ties gives the same list; witness with a tie.",
  "limits": "None."
 },
 "C47": {
  "model": "`Player.ofKtx`",
  "proof": "Field by field, with the wrap-around of the `as` casts.",
  "limits": "None."
 },
 "C48": {
  "model": "`teamMap`, `teamsFromPlayers`, `teams`, `teamsFromKtxstats`",
  "proof": "Grouping invariant.",
  "limits": "The call returns."
 },
 "C49": {
  "model": "`Team.ofPlayers`",
  "proof": "Sums with both overflow behaviours; the ping through its three roundings.",
  "limits": "`C49_totals`: sum of pings below 2^23 for the exact mean; `C49_any_ping`: any sum, through single precision (modulo 2^32 in release builds)."
 },
 "C50": {
  "model": "`teamsFromPlayers`",
  "proof": "Sort lemma.",
  "limits": "`str::to_lowercase` is a parameter."
 },
 "C51": {
  "model": "`majorityColor`, `maxColor`, `colorCount`",
  "proof": "Invariant of the maximum search.",
  "limits": "None: `C51_any_color` says what happens when the 8-bit counters wrap."
 },
 "C52": {
  "model": "`teamsFromPlayers`, `teams`",
  "proof": "C48 and C51 determine every team; witnesses for both kinds of ties.",
  "limits": "None."
 },
 "C53": {
  "model": "`utcOffset`, `utcOffsetByAbbr`, the table",
  "proof": "The whole finite table by kernel computation, related to minutes by `OffsetText`.",
  "limits": "None."
 },
 "C54": {
  "model": "`utcOffsetByOffset`",
  "proof": "Iff on the filtered and padded text.",
  "limits": "None."
 },
 "C55": {
  "model": "`matchdateString`",
  "proof": "Search lemmas.",
  "limits": "None."
 },
 "C56": {
  "model": "`matchdate`, `replaceTzAbbrWithOffset`",
  "proof": "Case analysis on byte offsets; `C56_instant` for whole dates.",
  "limits": "`C56_instant` assumes `ReadsDates`: chrono parses `YYYY-MM-DD HH:MM:SS±hh:mm` to the instant it denotes."
 },
 "C57": {
  "model": "`timestampFromEpoch`, `timestamp`",
  "proof": "Case analysis.",
  "limits": "None."
 },
 "C58": {
  "model": "`readByte`, `readU16`, `readU32`, `readBstring`, the three message readers `MessageType.number` and its likes (Model/Numbers.lean) are the numbers declared in the enums.",
  "proof": "Computation. Protocol numbers: every byte is checked against the declared numbers, every kind against the byte.",
  "limits": "None."
 },
 "C59": {
  "model": "`Cursor.readExact` and everything built on it",
  "proof": "All loops compared under both behaviours of a failing `read_exact`.",
  "limits": "None."
 },
 "C60": {
  "model": "every function with arithmetic",
  "proof": "Relation `panics or equal` between the two build profiles through all loops.",
  "limits": "None."
 },
 "C61": {
  "model": "`prints`, `fragsPerPlayerName`, `flagEventsPerPlayerName`",
  "proof": "Splitting of concatenated frames; `C61_frags_closed`: the two frames searched for a killer lie in the old demo.",
  "limits": "Frags: data below 2 GiB; with anonymous teamkills two or more frames with content follow each one before the new frames. Flags: counters below 256."
 },
 "C62": {
  "model": "`players`, `teams`, `playerNames`, `teamNames`, `hasHumanPlayers`",
  "proof": "Corollary of C22, C23, C45 and C48.",
  "limits": "At most 256 clients, no readable match stats."
 },
 "C63": {
  "model": "`clientinfoStrings`, `clients`",
  "proof": "One search step depends on at most 768 bytes; induction over the scan.",
  "limits": "13056 bytes present from the spawn command on."
 },
 "C64": {
  "model": "all data functions",
  "proof": "Combination of C06, C19, C26, C30, C33, C35, C41, C45 and C49.",
  "limits": "Conditions `CompleteDemo`; with overflow checks also bounds on the counters."
 },
 "C65": {
  "model": "`fragsPerPlayerName`",
  "proof": "Sum invariant of the table over the charges.",
  "limits": "As C26."
 },
 "C66": {
  "model": "`prints`, `flagEventsPerPlayerName`, `pingPerPlayerNumber`, `fragsPerPlayerName`",
  "proof": "Each report is a function of the bodies by C04, C30, C32, C26; transport along equality of bodies, including the panic of an unreadable client list.",
  "limits": "Equal results are proved, panics included; demos that stop in a cut-off frame are C06. Equality of the client lists is a hypothesis for the scores, because the client scan searches raw bytes."
 },
 "C67": {
  "model": "`pingPerPlayerNumber`",
  "proof": "The sampled updates are a function of the filtered prefix; uniqueness of the leading updates.",
  "limits": "Includes overflow outcomes. For cut-off demos see C06."
 },
 "C68": {
  "model": "`fragsPerPlayerName`, `flagEventsPerPlayerName`, `FragEvent.tryFrom`, `FlagEvent.tryFrom`",
  "proof": "C26 and C30 for both demos, C84 for the names, sums of charges over the concatenation.",
  "limits": "With anonymous teamkills two or more frames with content follow each one before the inserted frame (`C68_obituary_closed`). Flags: the counter shown before is below 255 (C30 says what happens then)."
 },
 "C69": {
  "model": "`fragsPerPlayerName`, `flagEventsPerPlayerName`",
  "proof": "Charges and flag texts of a permutation are permutations; sums and counts are invariant.",
  "limits": "Scores: demos below 2 GB; frames without anonymous teamkills (`C69_frags`) or parts that contain the frames searched (`C69_frags_closed`)."
 },
 "C70": {
  "model": "`serverinfoString`, `serverinfo`, `filename`, `timestampFromEpoch`, `matchdateString`, `matchdate`, `timestamp`, `countdownDuration`, `isAborted`",
  "proof": "Locality of the first-match searches; frames that start after the date print do not count.",
  "limits": "At least 1280 bytes before (below, the serverinfo panics: C15). The countdown theorem appends whole frames."
 },
 "C71": {
  "model": "`isValid`, `clientinfo`, `serverinfo`",
  "proof": "C63 and C70 reduce the verdict to one on the front part.",
  "limits": "Panics included: the equation is between outcomes."
 },
 "C72": {
  "model": "`demoDuration`, `totalMs`, `msToDuration`",
  "proof": "Frames before an offset are stable under appending; monotone conversion (C36).",
  "limits": "The monotonicity needs totals below 2^32 ms; the first theorem covers all outcomes."
 },
 "C73": {
  "model": "`fragsPerPlayerName`, `FragEvent.tryFrom`",
  "proof": "Events are mapped to charges (C84, C111, C26) by induction on the sequence.",
  "limits": "Without anonymous teamkills (C28) and for data below 2 GB."
 },
 "C74": {
  "model": "`fragsPerPlayerName`, `flagEventsPerPlayerName`",
  "proof": "Names of the charges by cases of the meaning; keys of the table are the charged names, by induction, also when sums wrap.",
  "limits": "For demos that split into frames; others report nothing (C06)."
 },
 "C75": {
  "model": "`prints`, `fragsPerPlayerName`, `flagEventsPerPlayerName`, `demoDuration`, `countdownDuration`, `matchDurationFromSeeking`, `clientinfoStrings`, `clients`, `playersFromParsing`, `teams`, `ktxstatsString`",
  "proof": "Each leading print is a disjoint part of its frame; collapsing only removes; each charge adds at most one entry. A flag text comes from a print of four bytes or more. A frame has at least two bytes and lasts at most 255 ms. After the first client string each begins behind the terminator of the last, and has seven bytes or more; the search ends 12288 bytes after the spawn command. Players are told apart by an 8-bit number. The bodies of stats blocks are disjoint parts of the data (induction over the loop).",
  "limits": "Durations up to the conversion of C36."
 },
 "C76": {
  "model": "`flagEventsPerPlayerName`",
  "proof": "Pairing of the prints by induction on the reported events, then C30.",
  "limits": "A witness shows that the second of two whole messages in one frame is not counted. Counters wrap at 256 (C30)."
 },
 "C77": {
  "model": "`players`, `playersFromParsing`",
  "proof": "Composition of C32, C35 and C73.",
  "limits": "Without anonymous teamkills; some ping must have been sampled, otherwise the report fails."
 },
 "C78": {
  "model": "`teams`, `teamsFromPlayers`",
  "proof": "C77, then C48 and C49; the sum of the scores is bounded by the size of the demo so that it does not wrap.",
  "limits": "As C77. Two players of the same name are both given the score of the name."
 },
 "C79": {
  "model": "all result types",
  "proof": "Invariants of the frame loops: every entry ever stored is in range.",
  "limits": "For players from match stats the numbers are those of the decoded JSON, which have these types (hypothesis `StatsInRange`)."
 },
 "C80": {
  "model": "`fragsPerPlayerName`, `flagEventsPerPlayerName`, `demoDuration`",
  "proof": "C61 around the frame; a frame charges at most one player with one or minus two points. An example reaches three points. Flag counters are sums over the frames (C30), measured time is a sum over the frames before the end (C35).",
  "limits": "No anonymous teamkill is open before the frame (`C80_frags_closed`); C94 covers the other frames with a larger bound. The replacement has to keep the framing intact."
 },
 "C81": {
  "model": "`pingPerPlayerNumber`, `teamsFromPlayers`",
  "proof": "From the exact means in C32 and C49.",
  "limits": "Larger sums overflow (C33) or lose precision (C49)."
 },
 "C82": {
  "model": "`fragsPerPlayerName`, `flagEventsPerPlayerName`, `pingPerPlayerNumber`, `prints`, `demoDuration`",
  "proof": "The recorder (`Spec/Recorder.lean`) is a function from matches to bytes; each happening is shown to be a frame that reports it, then C04, C32, C35, C73 and C76.",
  "limits": "The text conversion has to read single bytes back as the characters they encode. Flag counts below 256, ping sums below 65536, durations for recordings without end-of-match print and standby. Anonymous teamkills are not written. The recorder is idealised: no demo in the repository has this form (see Hypotheses and real demos)."
 },
 "C83": {
  "model": "`serverinfoString`, `clientinfoStrings`, `isValid`, `players`, `fragsPerPlayerName`, `flagEventsPerPlayerName`, `prints`, `demoDuration`",
  "proof": "The markers are shown to occur first where the recorder writes them (no earlier occurrence, not even across the borders of frames); then C12, C14, C18, C77 and C82.",
  "limits": "The text conversion has to read single bytes back. The match must not contain the key `\\name\\`. For flags, the word `flag` must not be in serverinfo and userinfo; for the duration and players no end-of-match print, standby and stats marker. The recorder is idealised: no demo in the repository has this form (see Hypotheses and real demos)."
 },
 "C84": {
  "model": "FragEvent.tryFrom, patternMatch, FlagEvent.tryFrom with all phrase tables.",
  "proof": "An occurrence of a phrase in name ++ text begins inside the name or is an occurrence in the text (occursAt_after). The finite remainder (which phrases occur in which phrases, and which could begin in front of a second name and end in it or behind it) is decided once by the kernel (startsNot, unmatched) and lifted to all names by startsNot_spec, absent_spec and unmatched_spec. C73, C76, C77, C82 and C83 are stated for these names and those of C111. For flag messages no phrase fits across the border of name and phrase (flag_edges).",
  "limits": "The condition for obituaries is sufficient, not necessary. C111 gives the condition that is both, for players who appear at both places, and shows that the one for flag messages is; the exact condition for every text is C24."
 },
 "C85": {
  "model": "ktxstatsString, ktxstatsV3, server, players, and the walkers of C83 over the frames of the pieces.",
  "proof": "Every header of a piece has a NUL at least every third byte (statsHeader), so a word without NUL and of three bytes or more occurs in one of the pieces or outside (occurs_sep, stats_occurs by induction on the pieces). So the marker is last found in the first piece, and C40 gives the text; C42-C44 give server and players. The same lemma shows that the key \\\\name\\\\ does not arise (C85_proper), and C83 gives the rest. C85_witness is a piece of 34 bytes that is taken for a ping update.",
  "limits": "Stats in the middle of a match are covered by C40, not by C85. JSON parsing is an uninterpreted function of the environment. The recorder is idealised: no demo in the repository has this form (see Hypotheses and real demos)."
 },
 "C86": {
  "model": "matchdateString, matchdate, countdownDuration, demoDuration, matchDuration, timestamp.",
  "proof": "A word without the bytes 6 and 0 cannot reach over the header of a frame to all players (occursAt_sep, firstAt_message), so the date is first found in its frame and the end last in its (course_first, course_last); the sum of the frames before an offset inside a frame is computed by induction (msBefore_mid). C35, C36, C38, C39, C55-C57 and C85 give the results; the error bound of C86_match adds those of C36.",
  "limits": "Assumes that the environment reads dates (ReadsDates, as in C56). Announcements to all players only. The recorder is idealised: no demo in the repository has this form (see Hypotheses and real demos)."
 },
 "C87": {
  "model": "demoDuration, countdownDuration, matchDurationFromSeeking, matchDuration, flagEventsPerPlayerName, fragsPerPlayerName, pingPerPlayerNumber, players, teams, timestamp.",
  "proof": "Each exact condition follows from the value theorems (C30, C32-C39, C43, C49, C57) together with the panic conditions of the walks (C06, C26), by excluding the remaining cases: the results are disjoint, and no call hangs (Halt).",
  "limits": "The composed calls are characterised by those they call; for clients and the match stats see C18, C19, C40-C42."
 },
 "C88": {
  "model": "fragsPerPlayerName, findTeamKiller, players, teams.",
  "proof": "The frames and those after them determine the charges (Told, by induction over the frames); with different names and numbers (C20) the betrayed killer is the blamed client (C28), and nobody is blamed when no update is for a team mate. The remainder as C73, C77, C78.",
  "limits": "A witness shows that another team mate is charged when the score update of that mate comes first, and nobody when the update comes later."
 },
 "C89": {
  "model": "All of the listed results.",
  "proof": "A text that neither occurs in the chat frame nor lies across its borders occurs exactly where it did before, moved by the size of the chat if it comes after; hence so do first and last occurrences. Milliseconds before a moved offset are equal apart from the time of the chat (`C89_time`, `C89_match_time`; bounds for any number of messages in `C89_many_time`). The others by C27, C31, C41, C63, C67, C70. Any number of chat frames by induction (`C89_many`, `C89_many_header`, `C89_many_match`). `borders_of` shows that the borders are free of the texts after a string when the chat and the next frame go to all or to player 1. Scores with anonymous teamkills by `C27_far`: the search for the killer sees the same frames.",
  "limits": "That no text lies across a border is a hypothesis; all 2231 frames of chat in the repository's demos meet it (`tools/hypotheses.py`). Scores when chat comes among the two frames with content after an anonymous teamkill are not covered; `C89_unknown_witness` shows that they can change. The list of prints, which contains the chat, is the subject of C04."
 },
 "C90": {
  "model": "`players`, `players_from_ktxstats`, `players_from_parsing`, `teams_from_players`.",
  "proof": "A ranked list of names and frags is unique (the ranking is antisymmetric on such pairs); team names are the names occurring, without repetition, and totals are sums over a permutation. The recording by C83 and C85.",
  "limits": "Pings, colors and logins are not compared: the stats have their own."
 },
 "C91": {
  "model": "A second model of `FragEvent::try_from`, `pattern_match`, `FlagEvent::try_from` and `is_message_suffix` (Model/Utf8Events.lean) with byte offsets from `find` on the encoded text and slices that panic off a boundary.",
  "proof": "UTF-8 is self-synchronising: lead bytes differ from continuation bytes and tell the length, so an occurrence of encoded text starts at a boundary and decodes to the text. The two models are then equal, phrase by phrase.",
  "limits": "This removes the assumption that searching characters and searching bytes agree from the trusted base."
 },
 "C92": {
  "model": "Second models (Model/Width.lean) of the functions with `usize` arithmetic of `w` bits that wraps or panics and slices that panic.",
  "proof": "Every offset found by searching leaves room for the needle, and a frame is accepted only if its size is at most the data's; the sums are below 2^w, so the second models equal the first. The witness by induction on the number of rounds. Block sizes too large or too small lead to a slice out of range on both targets.",
  "limits": "Stats blocks are modelled with 64-bit arithmetic that may wrap from the beginning (C41); Model/Width.lean has them with any width."
 },
 "C93": {
  "model": "Rounding to binary32 as in IEEE 754 with subnormal numbers and infinity (Rust/Ieee.lean), next to the unbounded one used in the model (Rust/Float.lean).",
  "proof": "Numbers from 1 to 2^64 have quotients between 2^-64 and 2^64; there the two roundings coincide.",
  "limits": "This removes the restriction to normal numbers from the trusted base."
 },
 "C94": {
  "model": "`frags_per_player_name`, `flag_events_per_player_name`, `ping_per_player_number`, `demo_duration`, `clients`, `ktxstats_string`, `players`, `teams`.",
  "proof": "Only the charge for an anonymous teamkill depends on later frames, and only on the next two that are not empty, so at most two frames before the run are charged otherwise; the bounds add up over the parts. The rest by additivity, locality and C41.",
  "limits": "The bound for the scores needs the same clients in both demos, which C94_clients gives for damage after the client strings. C94_witness shows a case in which the bound is reached."
 },
 "C95": {
  "model": "As C04, C26, C30 and C32.",
  "proof": "Forall2 over the frames restricted to the non-empty ones (`forall2_spoken`), induction over the charges (`charges_spoken`), the look-ahead of `nearbyUpdates` skips empty frames.",
  "limits": "Demos that stop in a cut-off frame are C06. Equality of the clients is a hypothesis for the scores, because the client scan searches raw bytes (C94_clients gives it for changes after the client strings)."
 },
 "C96": {
  "model": "As C02, C04, C26, C30, C32 and C12.",
  "proof": "What a part of a frame announces (`announced_part`), induction over the frames (`cut_at`), then C06 and C95; the prints of a longer demo begin with those of its first frames (`dedup_prefix`).",
  "limits": "The scores need the same clients, which C63 gives for cuts after the client strings."
 },
 "C97": {
  "model": "All of the functions named, in their entirety. `Spec.Served` relates match and demo by what is found in the demo.",
  "proof": "From C12, C14, C16, C20-C23, C35-C38, C40-C44, C48-C51, C55, C56 and C88, whose hypotheses `Served` contains.",
  "limits": "serverinfo and userinfo strings, stats text and dates are parsed by external crates. The seven demos of the repository meet the hypotheses (see Hypotheses and real demos)."
 },
 "C98": {
  "model": "All public functions that take demo data; dependencies are the function fields of `Env`.",
  "proof": "By definitional unfolding (`rfl`), `is_valid` by an induction over the client scan that compares two scans step by step. An example shows for most dependencies that the influence is real.",
  "limits": "A dependency that panics, does not terminate or has side effects is outside the model: `Env` fields are total functions."
 },
 "C99": {
  "model": "`demoDuration`, `countdownDuration`, `matchDurationFromSeeking` in their entirety.",
  "proof": "From C35, C36 and C38: the total over the frames before an offset is monotone in the times, by induction over the frames.",
  "limits": "Demos of whole frames (`Stops`); the recorded duration of match stats is C39."
 },
 "C100": {
  "model": "`matchdate` in its entirety; the calendar is specified in Spec/Time.lean.",
  "proof": "From C53 and C56. Day numbers increase with year, month and day by induction over years and months; the order of fixed-width decimal numbers is that of their digits.",
  "limits": "`chrono` is assumed to read existing dates correctly (`ReadsDates`), which is shown to be satisfiable."
 },
 "C101": {
  "model": "`fragsPerPlayerName`, `teams` and everything below.",
  "proof": "From C97: the scores are sums over the events, which are invariant under permutation and injective renaming; the members of a team are the same up to renaming.",
  "limits": "With match stats, players come from the stats (C97_stats); teams then are the stats' business. Names must be such that messages about them can be understood (`FirstName`, `SecondName` in the definition of `Says`)."
 },
 "C102": {
  "model": "The loops of the model with a given number of rounds (`frameLoop`, `clientScan`, `printsBody`, `flagBody`, `pingBody`, `blockLoop`). `Rounds` (Spec/Work.lean): a loop hangs with fewer than `n` rounds and does not with `n`.",
  "proof": "Induction over the frames; for the searches with a potential that accounts for the two searches that are under way at any frame.",
  "limits": "What a round costs is not modelled: searches in byte strings and texts count as one step. In particular every anonymous teamkill with a score update nearby lets `clients` look for the spawn command from the beginning of the data (frags.rs:121), so a demo with many of these and a late or no spawn command takes time proportional to the number of teamkills times the size."
 },
 "C103": {
  "model": "`clients`, `playerNames`, `spectatorNames`, `hasHumanPlayers`, `players`, `teams`, `filename`, `timestamp` and `countdownDuration` of the model. People and their info strings are specified in Spec/Userinfo.lean (`Person`, `Introduces`, `Seated`), with no reference to how the model finds them.",
  "proof": "The clients from C18 and the meaning of the entries, the reports from C97 by mapping clients to people, the settings from C16, C57 and C38.",
  "limits": "The parsers `quake_clientinfo` and `quake_serverinfo` are dependencies whose source is not in /repo. That they find the entries name, team, topcolor, bottomcolor, *spectator, *bot, mode, serverdemo and epoch is a hypothesis (`ReadsUserinfo`, `ReadsServerinfo`), and a parser that does is defined beside the theorems. Its keys are those that appear in the unit tests of /repo. *auth and *flag are left out."
 },
 "C104": {
  "model": "`matchDuration` of the model with `Env.parseF64` replaced by `parseF64` of Rust/ParseFloat.lean, which models `str::parse::<f64>` after its documented grammar and rounding. Texts and their values are specified in Spec/FloatText.lean.",
  "proof": "`parseNumber` finds a value if and only if the text has it by the grammar (`parseNumber_eq_some`). The error of rounding to 53 bits is at most half a unit in the last place (`round64_error`), and below 2^22 seconds that is less than half a nanosecond, so that the second rounding goes back to the written value.",
  "limits": "`str::parse::<f64>` is part of the standard library, not of /repo: the model follows its documentation, to the nearest number and ties to even, with no limit on the exponent."
 },
 "C105": {
  "model": "`players` and `teams` of the model. That the players are the same is stated in Props/Slots.lean (`SamePlayers`, by the line-ups without slot numbers), that the events are the same in Props/Renaming.lean (`SameEvents` without a change of names).",
  "proof": "From C97 both lists are ordered by rank and contain the same lines. Names are distinct, so the order is determined.",
  "limits": "Match statistics are left out: with them the players come from there (C43)."
 },
 "C106": {
  "model": "`players`, `teams` and `matchDuration` of the model, with `Env.parseF64` as in C104. What the statistics have to say is stated in Props/Concord.lean (`TellsScores`).",
  "proof": "Both lists of players are ordered by rank and have the same lines (C97, C44). Names are distinct, so the order is determined; teams by C90, where the totals cannot overflow because nobody scores more than once per frame; durations by C97 and C104.",
  "limits": "The parser of the statistics (ktxstats crate) is a dependency. The total of the pings in the statistics may overflow, so `C106_teams` assumes that both calls succeed; `C106_found` gives a condition for that."
 },
 "C107": {
  "model": "All functions that take part in C97. The plan of a match, and the recording made from it, are in Spec/Plan.lean; the recorder is that of C82.",
  "proof": "The demo is constructed: an obituary per point, a print per flag event, one ping update for everybody, empty frames for the time. That the words the parser looks for are nowhere else in it follows from the NULs between the parts (`occurs_record`). Then C97 and C103; the flag counters by C83.",
  "limits": "Demo times are converted to single precision as stated in C36, countdown and demo durations are therefore given by `Converted`. Names of players are as in C97 those that can be recognised in obituaries."
 },
 "C108": {
  "model": "All functions that take part in C85, C97 and C107. The plan is that of C107 (Spec/Plan.lean), the stats are written as in C85; which texts can be added is said in Spec/StatsRecorder.lean.",
  "proof": "`C108_cut`: every text can be cut into pieces none of which looks like a print or a ping update, by strong induction on its length. The demo is the recording of C107 with these pieces (C85); it is a demo as servers write them (C107_served) that carries the stats (C85_carries), so C97 applies.",
  "limits": "Durations as in C39 and C107. The text must not contain the key \\name\\, because such a text could be taken for a userinfo string."
 },
 "C109": {
  "model": "All functions that take part in C26, C30, C32 and C45. What it means to mention a player is defined in Spec/Hearsay.lean.",
  "proof": "`C109_parts`, `C109_frags`, `C109_flags`, `C109_pings`, `C109_row`: by C26, C30, C32 and C33 the results are sums over charges, texts and samples, whatever the build. The charges of a player in a part that does not concern them are empty (`charges_concern`, by induction); the others are equal up to permutation.",
  "limits": "The name occurs in a message if it is a part of its text; short names such as \"a\" occur in most messages."
 },
 "C110": {
  "model": "All functions that take part in C05, C14, C32, C35 and C55.",
  "proof": "`C110_prints`, `C110_pings`, `C110_duration`, `C110_serverinfo`, `C110_matchdate`: one direction by what C05, C06, C14, C33 and C55 say about every result and by an invariant of the sum of frame durations; the other by a demo that is constructed from the report: one frame per print, one frame with all pings, idle frames that add up to the duration. `C110_verdicts`: C11, and six demos for the other combinations, which do for every environment (C98). `C110_ranking`: C44 and C47, and the match stats that list the rows.",
  "limits": "Demos are constructed as bytes; whether a server would write them is not asked."
 },
 "C111": {
  "model": "All functions of C24 and C29.",
  "proof": "`C111_clear`, `C111_name`, `C111_unambiguous`, `C111_known`, `C111_flags`: what a message means is taken from C24 and C29. A phrase in a message about clear names lies in a name, across a border between name and phrase, or in the phrases; the ways to cut a phrase at a border are finitely many and checked in the kernel, so that only the intended phrase is left. For the other direction, each condition is derived from one message that is only understood if the name meets it.",
  "limits": "Messages are taken as whole texts."
 },
 "C112": {
  "model": "All functions of C04, C26, C30 and C32.",
  "proof": "`C112_prints`, `C112_pings`, `C112_flags`: what is found in a whole first part and in the second part is together what is found in both, so all that is found in the frames stays the same under each splitting and joining. `C112_frags`: the charge for a frame depends on its first print only. `C112_obituary` follows with C68. An example has the same messages in one frame and in two and other scores.",
  "limits": "Pieces of messages are not moved; times of frames, places of texts and client strings, which are not read by frames, are not considered here (C99, C63)."
 },
 "C113": {
  "model": "All functions of C44 and C48 to C52.",
  "proof": "`C113_row`: the members of the team are the same list, so the sums are, and the majority by C52. `C113_rows`: no sum overflows that did not before, the teams reported are the same set, and both lists are sorted strictly by lower-cased name. `C113_leave`, `C113_regroup` and `C113_stats` are instances; `C113_ranking` by the uniqueness of a stable sort (C44). `C113_order_witness`: the order within a team matters.",
  "limits": "With lower-cased names that coincide the order of the teams is up to chance (C52)."
 },
 "C114": {
  "model": "All functions of C08, C10, C23, C35, C41, C42 and C55.",
  "proof": "The bytes around the word are computed from the frames (`chatSaying_encode`), which gives its last or first occurrence; then `C114_paused`, `C114_bots`, `C114_aborted`, `C114_matchdate` by C10, C23, C08, C55; `C114_duration` and `C114_duration_kept` by C35 and the sum of the durations before an offset; `C114_stats`: the type of the supposed block consists of bytes of the message, so it is not 3 and reading stops with an empty text (C41); `C114_hidden` by C42 and C39; `C114_typed` by induction on the occurrence. `C114_witness` shows the messages at work.",
  "limits": "`C114_hidden` assumes that the JSON reader rejects the empty text, as serde_json does. `C114_stats` needs eleven bytes of other frames before the message and a demo of less than 2^63 bytes. What chat does not change at all is C89."
 },
 "C115": {
  "model": "All functions of C08 to C12, C35, C37, C41, C63 and C70.",
  "proof": "`C115_first` by C70 and C63, `C115_second` by C94 (what lies before the match stats does not matter), `C115_verdicts` by C08, C10, C12 and a lemma on ends of concatenations, `C115_pings` by C67, `C115_duration` by C35, C37 and the sum of durations of a concatenation. `C115_witness`: a match that lasts from the first demo into the second.",
  "limits": "Scores and flag counters add up by C61."
 }
}