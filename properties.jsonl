{"id": "C01", "title": "Every call terminates", "statement": "Every public function returns, errors or panics after finitely many steps on any byte string; none of the frame-walking, message-reading, client-scanning or stats-block loops can run forever.", "quantifier": "every byte string that a Rust slice can hold (less than 2^63 bytes), any content", "why_tests_cant": "Non-termination depends on a loop failing to make progress on some input; a finite set of demos cannot exclude it.", "anchors": ["src/qw/frame.rs Info::from_data_and_index", "src/prints.rs prints", "src/frags.rs frags_per_player_name", "src/flags.rs flag_events_per_player_name", "src/ping.rs ping_per_player_number", "src/clientinfo.rs clientinfo_strings", "src/ktxstats.rs ktxstats_string", "src/duration.rs duration_until_offset"]}
{"id": "C02", "title": "Frame walk is the inverse of the demo encoding", "statement": "On a demo that is a concatenation of well-formed MVD frames the parser visits exactly those frames, in order, each with its duration, target, command, header range and body range, and stops exactly at the end of the data.", "quantifier": "every well-formed demo: any number of frames, any durations, targets, recipient masks and message bodies", "why_tests_cant": "It is a round-trip over unboundedly many frame sequences with 32-bit sizes.", "anchors": ["src/qw/frame.rs Info::from_data_and_index", "src/qw/prot.rs Target, Command"]}
{"id": "C03", "title": "Every byte string has exactly one frame decomposition", "statement": "Any byte string splits in one and only one way into a (possibly empty) sequence of complete frames followed by a remainder that does not begin with a complete frame; this determines what every frame-walking function sees.", "quantifier": "every byte string given as demo data (any length, any content)", "why_tests_cant": "Universal statement over all byte strings.", "anchors": ["src/qw/frame.rs Info::from_data_and_index"]}
{"id": "C04", "title": "prints returns exactly the leading prints of each frame", "statement": "prints(data) lists, in demo order, every non-empty print message in the unbroken run of print messages at the start of each frame body, with its level and exact text bytes, and collapses only adjacent repetitions.", "quantifier": "every byte string given as demo data (any length, any content) whose frame walk does not end in a truncated frame", "why_tests_cant": "Ranges over all frame contents.", "anchors": ["src/prints.rs prints", "src/qw/message/print.rs read_print", "src/qw/prot.rs PrintId"]}
{"id": "C05", "title": "Shape of returned prints", "statement": "Every print returned has non-empty text without a NUL byte, its text occurs verbatim in the demo data, and no two neighbouring prints are equal.", "quantifier": "every byte string given as demo data (any length, any content)", "why_tests_cant": "Invariant over all outputs for all inputs.", "anchors": ["src/prints.rs prints", "src/qw/primitives.rs read_bstring"]}
{"id": "C06", "title": "Truncated demos: when frame walkers panic", "statement": "prints, frags_per_player_name, flag_events_per_player_name, ping_per_player_number and the duration functions should return normally on a demo cut off in the middle. In fact they panic when the cut frame's declared size is at most the total data length: prints on exactly those inputs and on no other, frags_per_player_name and flag_events_per_player_name on all of them, ping_per_player_number unless eight frames with pings come before the cut, and the duration functions if the cut frame starts before the point up to which they measure.", "quantifier": "every byte string given as demo data (any length, any content)", "why_tests_cant": "The exact set of failing inputs cannot be enumerated by tests; the existing test only covers a frame larger than the data.", "anchors": ["src/qw/frame.rs Info::from_data_and_index lines 51-53", "src/prints.rs prints"]}
{"id": "C07", "title": "offsets_between is exact", "statement": "The range between two markers is non-empty, starts right after the first occurrence of the first marker, ends at the first occurrence of the second marker after that, and is absent exactly when one of the markers is missing or nothing lies between them.", "quantifier": "every data, first marker and second marker, including empty markers", "why_tests_cant": "Universal over three byte strings.", "anchors": ["src/bytesextra.rs offsets_between"]}
{"id": "C08", "title": "is_aborted is exact", "statement": "is_aborted(data) is true exactly when the 'Match stopped by majority vote' print appears somewhere in the data.", "quantifier": "every byte string given as demo data (any length, any content)", "why_tests_cant": "Substring characterisation over all inputs.", "anchors": ["src/aborted.rs is_aborted"]}
{"id": "C09", "title": "End-of-demo detection is exact", "statement": "The end-of-demo check succeeds exactly when the data is the end-of-demo marker preceded by at least one byte.", "quantifier": "every byte string given as demo data (any length, any content)", "why_tests_cant": "Boundary at exact length and all prefixes.", "anchors": ["src/validate.rs has_end_of_demo_print"]}
{"id": "C10", "title": "is_paused is exact and never panics", "statement": "is_paused(data) is true exactly when the demo does not end with the end-of-demo print and contains 'Server is paused' or 'paused the game'.", "quantifier": "every byte string given as demo data (any length, any content)", "why_tests_cant": "Substring characterisation over all inputs.", "anchors": ["src/paused.rs is_paused"]}
{"id": "C11", "title": "A valid demo is never reported paused", "statement": "If is_valid(data) is true then is_paused(data) is false.", "quantifier": "every byte string given as demo data (any length, any content)", "why_tests_cant": "Relation between two functions over all inputs.", "anchors": ["src/validate.rs is_valid", "src/paused.rs is_paused"]}
{"id": "C12", "title": "is_valid guarantees usable metadata", "statement": "If is_valid(data) is true then the data is at least 1280 bytes, ends with the end-of-demo marker, and serverinfo, serverinfo_string, clientinfo, player_clients, spectator_clients, player_names, spectator_names, team_names and has_human_players succeed and there is at least one client. has_clients answers true exactly when the scan finds at least one userinfo string, and panics exactly when the scan does.", "quantifier": "every byte string given as demo data (any length, any content)", "why_tests_cant": "Cross-function guarantee on all inputs.", "anchors": ["src/validate.rs is_valid", "src/serverinfo.rs serverinfo, serverinfo_string", "src/clientinfo.rs clientinfo, clientinfo_strings", "src/clients.rs clients, has_bot_players, has_human_players, player_clients, player_names, spectator_clients, spectator_names, team_names", "src/validate.rs has_clients"]}
{"id": "C13", "title": "is_valid decides every input without panicking", "statement": "is_valid should return false, not panic, for any data that is not a valid demo. In fact it panics exactly when the data ends with the end-of-demo marker and either is 1024 to 1279 bytes long, or is longer, has serverinfo and the client scan runs past the end of the data.", "quantifier": "every byte string given as demo data (any length, any content)", "why_tests_cant": "The failing sizes lie between the tested ones.", "anchors": ["src/validate.rs is_valid", "src/serverinfo.rs serverinfo_string line 14", "src/clientinfo.rs line 27"]}
{"id": "C14", "title": "serverinfo_string is exact and local", "statement": "serverinfo_string returns the text between 'fullserverinfo \"' and the next quote within the first 1280 bytes, fails with 'Serverinfo not found' when it is absent there, never depends on bytes after the first 1280, and the raw text is non-empty and contains no quote. serverinfo is the parsed text and fails with it.", "quantifier": "every byte string given as demo data (any length, any content) of at least 1280 bytes", "why_tests_cant": "Universal over content and position.", "anchors": ["src/serverinfo.rs serverinfo_string", "src/bytesextra.rs offsets_between", "src/serverinfo.rs serverinfo"]}
{"id": "C15", "title": "Short data and serverinfo", "statement": "serverinfo and everything derived from it should report an error on short data. In fact they panic on every input shorter than 1280 bytes and on no other.", "quantifier": "every byte string given as demo data (any length, any content)", "why_tests_cant": "All lengths and contents.", "anchors": ["src/serverinfo.rs serverinfo_string line 14", "src/filename.rs filename", "src/timestamp.rs timestamp", "src/duration.rs countdown_duration"]}
{"id": "C16", "title": "filename is the serverdemo setting", "statement": "filename(data) is the serverdemo entry of the demo's serverinfo, and an error exactly when there is no serverinfo or it has no serverdemo entry.", "quantifier": "every byte string given as demo data (any length, any content) of at least 1280 bytes", "why_tests_cant": "Universal over data and settings.", "anchors": ["src/filename.rs filename", "src/serverinfo.rs serverinfo"]}
{"id": "C17", "title": "Client strings are well-formed userinfo strings", "statement": "Every string found by the client scan is delimited by NUL bytes in the data, contains no NUL, contains \\name\\, and is 7 to 256 bytes long; they are returned in data order without overlap.", "quantifier": "every byte string given as demo data (any length, any content)", "why_tests_cant": "Invariant over all outputs for all inputs.", "anchors": ["src/clientinfo.rs clientinfo_strings"]}
{"id": "C18", "title": "The client scan finds every client", "statement": "If after the spawn command the userinfo strings follow, each NUL-delimited, 7 to 256 bytes long, with gaps that contain no \\name\\ and short enough for the look-ahead, then the scan returns exactly these strings in order.", "quantifier": "every sequence of clients, gap contents and surrounding data meeting the format", "why_tests_cant": "Round trip over unbounded layouts.", "anchors": ["src/clientinfo.rs clientinfo_strings"]}
{"id": "C19", "title": "Bounds and failures of the client scan", "statement": "The client scan returns at most 1535 strings, errors exactly when the spawn command is absent, and panics only when a 512-byte look-ahead window starting at the spawn command or at the end of a found string runs past the end of the data.", "quantifier": "every byte string given as demo data (any length, any content)", "why_tests_cant": "Bound over all inputs.", "anchors": ["src/clientinfo.rs clientinfo_strings"]}
{"id": "C20", "title": "Client numbers", "statement": "Clients are numbered by their position, modulo 256; with at most 256 clients the numbers are pairwise different, with more they repeat.", "quantifier": "every byte string given as demo data (any length, any content)", "why_tests_cant": "More than 256 clients never occur in the test demos.", "anchors": ["src/clients.rs clients"]}
{"id": "C21", "title": "Players and spectators partition the clients", "statement": "player_clients and spectator_clients split the client list: every client is in exactly one of them, order is preserved, and exactly the clients whose spectator setting is present and non-zero are spectators. All client functions succeed, fail and panic together with the scan of the userinfo strings. clientinfo returns the parsed userinfo strings, one each.", "quantifier": "every byte string given as demo data (any length, any content)", "why_tests_cant": "Universal over client lists.", "anchors": ["src/clients.rs player_clients, spectator_clients", "src/client.rs From<&Clientinfo>", "src/clientinfo.rs clientinfo"]}
{"id": "C22", "title": "Name lists", "statement": "player_names and spectator_names contain exactly the names of the players/spectators with multiplicity; team_names contains exactly the players' team names, with no two neighbours equal, and with no duplicates at all when the name sort places equal names next to each other. The lists are in whatever order the name sort establishes.", "quantifier": "every byte string given as demo data (any length, any content) and every behaviour of the external name sort that permutes its input", "why_tests_cant": "Universal over client lists and sort behaviours.", "anchors": ["src/clients.rs player_names, spectator_names, team_names"]}
{"id": "C23", "title": "Bots and humans", "statement": "If has_bot_players and has_human_players both answer false, there are no players; has_human_players answers whether some player is not a bot; has_bot_players answers whether some player is a bot or the data contains a bot entry of the match stats.", "quantifier": "every byte string given as demo data (any length, any content)", "why_tests_cant": "Universal over client lists and data.", "anchors": ["src/clients.rs has_bot_players, has_human_players"]}
{"id": "C24", "title": "Obituary classification is total and exact", "statement": "Every obituary text is classified by the first matching class in the order death, weapon suicide, suicide, teamkill, teamkill by unknown, frag, and names are the exact text before (or between) the first occurrence of the phrase; texts matching no phrase are rejected.", "quantifier": "every Unicode text", "why_tests_cant": "Interactions of 72 phrases with arbitrary player names.", "anchors": ["src/qw/fragevent.rs FragEvent::try_from, pattern_match", "src/qw/fragprint.rs X_DEATH, X_SUICIDE_BY_WEAPON, X_SUICIDE, X_TEAMKILL_UNKNOWN, UNKNOWN_TEAMKILL_X, X_FRAG_Y, Y_FRAG_X"]}
{"id": "C25", "title": "Obituaries round-trip for ordinary names", "statement": "For every phrase in the game's obituary table, the message built from player names without spaces or apostrophes, not beginning with a one-word phrase, is attributed to the right killer and victim. Names such as 'died' are misattributed.", "quantifier": "every phrase and all such names", "why_tests_cant": "Unbounded names times 72 phrases.", "anchors": ["src/qw/fragevent.rs FragEvent, FragEvent::try_from", "src/qw/fragprint.rs X_DEATH, X_SUICIDE_BY_WEAPON, X_SUICIDE, X_TEAMKILL_UNKNOWN, UNKNOWN_TEAMKILL_X, X_FRAG_Y, Y_FRAG_X"]}
{"id": "C26", "title": "frags_per_player_name is the sum of the obituaries", "statement": "The frags reported for a name equal +1 per frag, -1 per death, weapon suicide and teamkill, -2 per suicide, over all frames that begin with a medium-level obituary print; a name is listed exactly when some obituary is attributed to it. A score that leaves the 32-bit range on the way is reduced to 32 bits in a release build and a panic with overflow checks.", "quantifier": "every well-formed demo: any number of frames, any durations, targets, recipient masks and message bodies", "why_tests_cant": "Sum over unbounded histories.", "anchors": ["src/frags.rs frags_per_player_name"]}
{"id": "C27", "title": "Only leading medium prints score", "statement": "Frames whose first message is not a medium-level print, for example chat, can be inserted or removed anywhere without changing the frags of any player, except where they come within the two frames after an anonymous teamkill that are searched for the killer.", "quantifier": "every well-formed demo: any number of frames, any durations, targets, recipient masks and message bodies; where there are anonymous teamkills, frames that leave the list of clients as it is", "why_tests_cant": "Non-interference over all demos.", "anchors": ["src/frags.rs frags_per_player_name lines 27-35"]}
{"id": "C28", "title": "Anonymous teamkills blame a team mate", "statement": "A teamkill whose killer is unknown is charged only to a client on the victim's team with a different name whose score was updated in the obituary's frame or the next two non-empty frames; otherwise to nobody.", "quantifier": "every byte string given as demo data (any length, any content)", "why_tests_cant": "Ranges over all frame neighbourhoods and client lists.", "anchors": ["src/frags.rs find_team_killer"]}
{"id": "C29", "title": "Flag message classification is total and exact", "statement": "Every flag message text is classified by the first matching class in order captured, defends flag, defends carrier against aggressive enemy, defends carrier, got flag, returned flag, assist; the player is the text before the phrase; the aggressive-enemy messages are never counted as plain carrier defends.", "quantifier": "every Unicode text", "why_tests_cant": "Interactions of 14 phrases with arbitrary names.", "anchors": ["src/qw/flagevent.rs FlagEvent::try_from", "src/qw/flagprint.rs X_CAPTURED_FLAG, X_DEFENDS_FLAG, X_DEFENDS_CARRIER, X_DEFENDS_CARRIER_AGGR, X_GOT_FLAG, X_RETURNED_FLAG, X_FRAGS_CARRIER"]}
{"id": "C30", "title": "Flag counters count", "statement": "Each counter reported by flag_events_per_player_name is the number of flag messages of that kind for that player when that number is below 256; at 256 it wraps to 0 in release builds and panics in builds with overflow checks.", "quantifier": "every well-formed demo: any number of frames, any durations, targets, recipient masks and message bodies", "why_tests_cant": "Needs 256 identical events and all demos.", "anchors": ["src/flags.rs flag_events_per_player_name"]}
{"id": "C31", "title": "Frames without flag text are irrelevant to flag events", "statement": "Frames whose body does not contain the bytes 'flag' can be inserted or removed anywhere without changing flag_events_per_player_name.", "quantifier": "every well-formed demo: any number of frames, any durations, targets, recipient masks and message bodies", "why_tests_cant": "Non-interference over all demos.", "anchors": ["src/flags.rs flag_events_per_player_name lines 30-34"]}
{"id": "C32", "title": "Pings are floor averages of the first eight samples", "statement": "The ping reported for a player number is the integer part of the mean of that player's ping updates in the first eight frames that begin with a ping update, provided the sum fits in 16 bits.", "quantifier": "every well-formed demo: any number of frames, any durations, targets, recipient masks and message bodies", "why_tests_cant": "Floating point division and unbounded samples.", "anchors": ["src/ping.rs ping_per_player_number", "src/qw/message/update_ping.rs read_update_ping"]}
{"id": "C33", "title": "Ping sum overflow", "statement": "A player whose ping samples sum to 65536 or more should still get their mean ping. In fact the sum panics in builds with overflow checks and is reduced modulo 65536 otherwise.", "quantifier": "all ping samples", "why_tests_cant": "Needs pings above 8191 ms.", "anchors": ["src/ping.rs line 54"]}
{"id": "C34", "title": "Pings are reported or the call fails", "statement": "ping_per_player_number fails exactly when no frame begins with a complete ping update; otherwise it reports exactly the player numbers that occur in the sampled updates.", "quantifier": "every byte string given as demo data (any length, any content) whose frame walk does not end in a truncated frame", "why_tests_cant": "Universal.", "anchors": ["src/ping.rs ping_per_player_number"]}
{"id": "C35", "title": "Durations sum the frames before an offset", "statement": "The demo duration is the sum of the millisecond durations of all frames starting before the last 'The match is over' text, else before the last standby status change, else of all frames, converted to seconds.", "quantifier": "every well-formed demo: any number of frames, any durations, targets, recipient masks and message bodies of less than 2^32 ms", "why_tests_cant": "Sum over unbounded frames, three-way choice.", "anchors": ["src/duration.rs demo_duration, duration_until_offset"]}
{"id": "C36", "title": "Duration conversion is accurate and monotone", "statement": "Converting a millisecond total to a duration is monotone and its relative error is at most 2^-23 (plus half a nanosecond); below 2^24 ms it differs from the exact value by at most 2^-24 relative plus half a nanosecond.", "quantifier": "every 32-bit millisecond total", "why_tests_cant": "4 billion values, floating point rounding.", "anchors": ["src/duration.rs line 73"]}
{"id": "C37", "title": "The countdown never exceeds the demo", "statement": "countdown_duration <= demo_duration whenever the match date print starts no later than the point up to which the demo is measured, so the match duration by seeking is their difference and does not panic; when it starts later the subtraction can panic.", "quantifier": "every byte string of at least 1280 bytes given as demo data (shorter ones panic, C15), any content; the difference: less than 2^32 ms", "why_tests_cant": "Ordering of two independent searches plus float rounding.", "anchors": ["src/duration.rs match_duration_from_seeking"]}
{"id": "C38", "title": "Hoonymode durations", "statement": "In hoonymode the countdown is zero and the match duration equals the demo duration, whatever the match stats contain.", "quantifier": "every byte string of at least 1280 bytes given as demo data (shorter ones panic, C15), any content", "why_tests_cant": "Universal.", "anchors": ["src/duration.rs countdown_duration, match_duration"]}
{"id": "C39", "title": "Match duration source", "statement": "Outside hoonymode match_duration is the duration recorded in the match stats when these can be read, and otherwise falls back to seeking; a recorded duration that is negative, not a number or too large panics. match_duration_from_ktxstats is this recorded duration in every mode, and fails when the stats cannot be read, record no duration, or record one that is no number.", "quantifier": "every byte string given as demo data, any content, of at least 1280 bytes for match_duration (which panics on shorter ones, C15) and of any length for match_duration_from_ktxstats; all number texts", "why_tests_cant": "Universal over stats content.", "anchors": ["src/duration.rs match_duration, match_duration_from_ktxstats"]}
{"id": "C40", "title": "Match stats blocks round-trip", "statement": "If the last '{\"version\": ' in the data begins a chain of demo-info blocks the last of which is numbered 0, ktxstats_string returns the concatenation of the block contents, however many blocks there are.", "quantifier": "every block chain, contents and surrounding data", "why_tests_cant": "Unbounded number and size of blocks.", "anchors": ["src/ktxstats.rs ktxstats_string", "src/qw/block.rs Info::try_from"]}
{"id": "C41", "title": "ktxstats_string errors and panics", "statement": "ktxstats_string fails with 'ktxstats not found' exactly when the marker is absent, fails when the content is not UTF-8, and should not panic. In fact it panics when the marker lies in the first bytes of the data, when a block size is below 2 (in release builds only for blocks of stats), when a block claims more bytes than there are, and when a block with another number than 0 is followed by less than the ten bytes of a frame header; exactly then.", "quantifier": "every byte string given as demo data (any content, less than 2^63 bytes)", "why_tests_cant": "Universal.", "anchors": ["src/ktxstats.rs ktxstats_string", "src/qw/block.rs line 22"]}
{"id": "C42", "title": "server is read off the match stats", "statement": "server(data) copies hostname, ip and port of the match stats and its address is 'ip:port' with the decimal port.", "quantifier": "every byte string given as demo data (any length, any content)", "why_tests_cant": "Universal.", "anchors": ["src/server.rs server"]}
{"id": "C43", "title": "players prefers match stats", "statement": "players(data) is computed from the match stats when they can be read and parsed and otherwise from the demo's messages.", "quantifier": "every byte string given as demo data (any length, any content)", "why_tests_cant": "Universal.", "anchors": ["src/players.rs players"]}
{"id": "C44", "title": "Player ranking", "statement": "players are sorted by frags, highest first, ties by name in code point order, and no player is lost or invented.", "quantifier": "every byte string given as demo data (any length, any content)", "why_tests_cant": "Sortedness and permutation for all lists.", "anchors": ["src/player.rs sort", "src/players.rs players_from_ktxstats, players_from_parsing"]}
{"id": "C45", "title": "Parsed players are the non-spectator clients", "statement": "With at most 256 clients, players read from demo messages are exactly the non-spectator clients, each with the frags of its name and the ping of its number (0 when unknown).", "quantifier": "every byte string given as demo data (any length, any content)", "why_tests_cant": "Joins three maps for all inputs.", "anchors": ["src/players.rs players_from_parsing"]}
{"id": "C46", "title": "players is deterministic up to ties", "statement": "The player list does not depend on hash map iteration order when no two players share both name and frags; otherwise two runs may differ.", "quantifier": "every hash iteration order", "why_tests_cant": "Random hash seeds cannot be exhausted by tests.", "anchors": ["src/players.rs players_from_parsing line 47"]}
{"id": "C47", "title": "Match-stats player conversion", "statement": "A player taken from match stats keeps name, team and frags; colors are reduced modulo 256; the ping is reinterpreted as unsigned; it is a bot exactly when it has a bot entry or a ping of 10; an empty login gives no auth name.", "quantifier": "every match-stats player", "why_tests_cant": "Universal over field values including negatives.", "anchors": ["src/player.rs From<&ktxstats::v3::Player>"]}
{"id": "C48", "title": "Teams partition the players", "statement": "Every player is in exactly one team, the one named by the player's team; teams have pairwise different names, are never empty, and keep the players' order. The teams of a demo are made of exactly the players of the demo, those of match stats of exactly the players of the stats.", "quantifier": "every player list, demo and match stats and every hash iteration order", "why_tests_cant": "Universal.", "anchors": ["src/team.rs teams_from_players", "src/teams.rs teams", "src/teams.rs teams_from_ktxstats"]}
{"id": "C49", "title": "Team totals", "statement": "A team's frags are the sum of its players' frags when that sum fits 32 bits, and its ping is their mean ping rounded half up when the pings add up to less than 2^23 ms (beyond, the 32-bit float quotient may be off); frags over all teams add up to the frags over all players; making the teams panics exactly when overflow checks are on and adding up the players of some team overflows.", "quantifier": "every player list with sums in range", "why_tests_cant": "Universal plus float rounding.", "anchors": ["src/team.rs From<&[Player]>"]}
{"id": "C50", "title": "Team order", "statement": "Teams are sorted by lower-cased name.", "quantifier": "every player list, hash iteration order and lower-casing function", "why_tests_cant": "Universal.", "anchors": ["src/team.rs teams_from_players line 55"]}
{"id": "C51", "title": "Team color", "statement": "A team's color is the color of one of its players; with one or two players that of the first; with more (no color worn 256 times or more) one that no other color of the team outnumbers.", "quantifier": "every player list and hash iteration order", "why_tests_cant": "Universal.", "anchors": ["src/team.rs majority_color"]}
{"id": "C52", "title": "teams is deterministic up to ties", "statement": "For given players the team list does not depend on hash map iteration order when lower-cased team names differ pairwise and each team of three or more has a strictly most common color; for a demo the same holds if moreover no two players share name and frags; otherwise two runs may differ.", "quantifier": "every hash iteration order", "why_tests_cant": "Random hash seeds cannot be exhausted by tests.", "anchors": ["src/team.rs teams_from_players, majority_color"]}
{"id": "C53", "title": "Time zone abbreviations", "statement": "Every abbreviation in the table yields a well-formed offset, sign hh:mm with at most 14 hours and minutes below 60, that stands for the minutes listed for it in the specification; a second listing of the same abbreviation (AST, LHST) is never used; any other text not beginning with a sign is no time zone.", "quantifier": "all table entries and all other texts", "why_tests_cant": "Finite table plus universal claim on other texts.", "anchors": ["src/timezone.rs UTC_OFFSET_BY_ABBR, utc_offset"]}
{"id": "C54", "title": "Numeric time zones", "statement": "For texts sign hh, sign hhmm and sign hh:mm up to 12:00 the offset is normalised to sign hh:mm; four digits above 1200 and longer numbers are rejected; the lookup never panics; the accepted texts are characterised exactly. Not every accepted text gives a well-formed offset: '++100' and '+0199' are accepted.", "quantifier": "every Unicode text", "why_tests_cant": "Universal over texts.", "anchors": ["src/timezone.rs utc_offset_by_offset"]}
{"id": "C55", "title": "Match date text", "statement": "matchdate_string returns the text from after the first 'matchdate: ' print to the next newline when it has 22 to 25 bytes and is UTF-8, and an error otherwise: \"not found\" exactly without such a print, \"invalid\" without a newline or with another length, a decoding error for other bytes; it never panics.", "quantifier": "every byte string given as demo data (any length, any content)", "why_tests_cant": "Universal.", "anchors": ["src/matchdate.rs matchdate_string"]}
{"id": "C56", "title": "Match date conversion", "statement": "matchdate yields the instant denoted by the printed date and time and its time zone; it panics exactly when byte 20 of the text is inside a multi-byte character, or byte 19 is and a known time zone follows; all other bad text is an error, for an unknown time zone one that says so.", "quantifier": "every byte string given as demo data (any length, any content)", "why_tests_cant": "Universal.", "anchors": ["src/matchdate.rs matchdate, replace_tz_abbr_with_offset"]}
{"id": "C57", "title": "timestamp prefers the epoch", "statement": "timestamp(data) is the epoch of the serverinfo when present and otherwise the match date. timestamp_from_epoch succeeds exactly when the serverinfo has an epoch.", "quantifier": "every byte string given as demo data (any length, any content) of at least 1280 bytes", "why_tests_cant": "Universal.", "anchors": ["src/timestamp.rs timestamp, timestamp_from_epoch"]}
{"id": "C58", "title": "Number primitives and protocol numbers round-trip", "statement": "Reading a byte, 16-bit or 32-bit little-endian number or NUL-terminated string from the bytes that encode it returns it and consumes exactly those bytes; reading fails exactly when too few bytes (no terminator) are left. A number is read as the kind of message, print level or hidden message that it is declared for, and as unknown exactly if it is declared for none; target and command of a frame are in its lowest three bits, and frames with a target are to be read.", "quantifier": "all numbers, strings and following bytes; all bytes and 16-bit numbers", "why_tests_cant": "Universal.", "anchors": ["src/qw/primitives.rs read_byte, read_u16, read_u32, read_bstring", "src/qw/prot.rs Target, Command, MessageType, HiddenMessage, PrintId"]}
{"id": "C59", "title": "Results do not depend on end-of-input details of the standard library", "statement": "Whether a failed exact read leaves the cursor in place or moves it to the end (this differs between Rust releases) never changes the result of any function.", "quantifier": "every byte string given as demo data (any length, any content)", "why_tests_cant": "Both library behaviours on all inputs.", "anchors": ["src/qw/primitives.rs read_byte, read_u16, read_u32, read_bstring", "src/ping.rs ping_per_player_number", "src/frags.rs frags_per_player_name"]}
{"id": "C60", "title": "Debug and release builds agree", "statement": "Whatever a build with overflow checks returns (a value or an error), the release build returns too: the two differ only where the checked build panics. The functions without checked arithmetic behave identically in both.", "quantifier": "every byte string given as demo data, every list of players", "why_tests_cant": "Relates two builds on all inputs; a test suite runs one build on a few demos.", "anchors": ["src/frags.rs frags_per_player_name", "src/flags.rs flag_events_per_player_name", "src/ping.rs ping_per_player_number", "src/ktxstats.rs ktxstats_string, ktxstats_v3", "src/duration.rs countdown_duration, demo_duration, match_duration", "src/players.rs players", "src/teams.rs teams"]}
{"id": "C61", "title": "A longer demo adds to what was reported", "statement": "Appending frames to a demo appends its prints (collapsing a repetition where the parts meet), adds up the scores of each player and adds up each player's flag counters. With anonymous teamkills that are not open at the end of the old demo, the scores are the old ones plus the charges for the new frames.", "quantifier": "all sequences of well-formed frames fs and more below 2 GB; with anonymous teamkills, the same clients; for flags, totals below 256", "why_tests_cant": "Relates three runs over all demos.", "anchors": ["src/prints.rs prints", "src/frags.rs frags_per_player_name", "src/flags.rs flag_events_per_player_name"]}
{"id": "C62", "title": "Names, players and teams tell the same story", "statement": "Without match stats and with at most 256 clients: player_names lists exactly the names of players, team_names lists exactly the names of teams, and has_human_players says whether some player is not a bot.", "quantifier": "every byte string given as demo data for which players returns a list", "why_tests_cant": "Relates the results of four functions over all demos.", "anchors": ["src/clients.rs clients, has_human_players, player_names, team_names", "src/players.rs players", "src/teams.rs teams"]}
{"id": "C63", "title": "Client information is local", "statement": "Once the data contains 24*512+768 bytes from the first spawn command on, appending anything changes neither the userinfo strings nor the clients, player, spectator and team names, nor has_human_players.", "quantifier": "every byte string with a spawn command and that many bytes after it, every continuation", "why_tests_cant": "Relates the result on a prefix to the result on all its continuations.", "anchors": ["src/clientinfo.rs clientinfo, clientinfo_strings", "src/clients.rs clients, has_human_players, player_names, spectator_names, team_names"]}
{"id": "C64", "title": "Complete demos do not panic", "statement": "A demo of whole frames, whose clients and match stats lie within the data, below 2 GiB: in a release build prints, clients, frags, flag events and demo duration are returned, and pings, players and teams are returned or reported missing for lack of pings. With overflow checks the same holds when no counter overflows.", "quantifier": "every sequence of well-formed frames meeting these conditions", "why_tests_cant": "Absence of panics over all complete demos.", "anchors": ["src/prints.rs prints", "src/frags.rs frags_per_player_name", "src/flags.rs flag_events_per_player_name", "src/ping.rs ping_per_player_number", "src/players.rs players", "src/teams.rs teams", "src/duration.rs demo_duration", "src/ktxstats.rs ktxstats_string"]}
{"id": "C65", "title": "Frag ledger balances", "statement": "The frag table lists each name once, and its scores add up to the sum of the individual charges of all frames. The sum grows by at most one and falls by at most two per frame.", "quantifier": "every demo, every client list, fewer than 2^30 charges", "why_tests_cant": "A conservation law over all event sequences: no charge is lost, duplicated or credited twice, whatever names collide.", "anchors": ["src/frags.rs frags_per_player_name"]}
{"id": "C66", "title": "Times and recipients of messages do not matter", "statement": "Two demos whose frames carry the same message bodies, in the same order, have the same prints, flag statistics and pings, and with the same client list the same scores, whatever the frame times, frame commands and recipient sets are.", "quantifier": "all pairs of demos with pointwise equal frame bodies", "why_tests_cant": "Relates two runs on every pair of demos that differ only in frame headers; tests compare single demos with fixed results.", "anchors": ["src/prints.rs prints", "src/flags.rs flag_events_per_player_name", "src/ping.rs ping_per_player_number", "src/frags.rs frags_per_player_name"]}
{"id": "C67", "title": "Pings come from the first eight ping frames only", "statement": "The pings depend only on the first eight frames that begin with a ping update. Whatever is recorded after these, and whatever other frames are inserted or removed, the result is the same.", "quantifier": "all pairs of demos whose first eight ping frames agree", "why_tests_cant": "Tests sample one demo; an off-by-one in the sample limit or a sample taken from another frame shows only for particular positions.", "anchors": ["src/ping.rs ping_per_player_number"]}
{"id": "C68", "title": "One message, one change", "statement": "Inserting, anywhere in a demo except among the frames that are searched for an unknown killer, a frame that announces an obituary changes the score of exactly one player by its worth: +1 for a killer, -1 for a death, a suicide by weapon or a teamkill, -2 for a suicide by command; no other score changes. Inserting a frame with one flag message adds exactly one to the counter of its kind for its player.", "quantifier": "all demos below 2 GB, positions, names that can be recognised (C84) and phrases; with anonymous teamkills, the same clients", "why_tests_cant": "Quantifies over every demo around the message and every name; tests fix both.", "anchors": ["src/frags.rs frags_per_player_name", "src/flags.rs PlayerFlagEvents, flag_events_per_player_name", "src/qw/fragevent.rs FragEvent::try_from, pattern_match", "src/qw/flagevent.rs FlagEvent::try_from"]}
{"id": "C69", "title": "The order of frames does not matter for totals", "statement": "Rearranging the frames of a demo changes no score and no flag counter; with overflow checks either both demos panic or neither does. For scores, an anonymous teamkill and the two frames searched for the killer have to be kept together.", "quantifier": "all demos and all permutations of their frames, for scores below 2 GB and without anonymous teamkills; all permutations of parts in which no teamkill is open at the end, with the same clients", "why_tests_cant": "A symmetry over all permutations of all demos.", "anchors": ["src/frags.rs frags_per_player_name", "src/flags.rs flag_events_per_player_name"]}
{"id": "C70", "title": "Recording on does not change the header", "statement": "Appending data changes neither the serverinfo, the file name and the epoch, nor the match date and the timestamp once the date line is complete, nor the countdown once the match has started; an aborted demo remains aborted.", "quantifier": "all data and all appended data; header: at least 1280 bytes of old data; countdown: whole frames of at least 1280 bytes", "why_tests_cant": "Relates runs on all data and all extensions; tests see finished files only.", "anchors": ["src/serverinfo.rs serverinfo, serverinfo_string", "src/filename.rs filename", "src/matchdate.rs matchdate, matchdate_string", "src/timestamp.rs timestamp, timestamp_from_epoch", "src/duration.rs countdown_duration", "src/aborted.rs is_aborted"]}
{"id": "C71", "title": "Validity is decided by the two ends", "statement": "If the spawn command and 13056 bytes from it are in the front part, and the end marker is at the end, `is_valid` does not depend on what lies between.", "quantifier": "all front parts with room for the client scan, all pairs of middles", "why_tests_cant": "Independence from arbitrary content cannot be sampled.", "anchors": ["src/validate.rs is_valid", "src/clientinfo.rs clientinfo, clientinfo_strings", "src/serverinfo.rs serverinfo, serverinfo_string"]}
{"id": "C72", "title": "A demo that goes on is not reported shorter", "statement": "After the last end-of-match print the demo duration is settled: appended frames without another such print do not change it. A demo measured at least as far as before is not reported shorter.", "quantifier": "all demos of whole frames and all appended frames; comparing durations: totals below 2^32 ms", "why_tests_cant": "Monotonicity across all extensions, including the three roundings.", "anchors": ["src/duration.rs demo_duration"]}
{"id": "C73", "title": "A match written down is scored as it was played", "statement": "If the frames of a demo report a sequence of events (each event by one of the known phrases with names that can be recognised (C84 or C111), in a medium-level print at the front of its frame; frames without an event by no such print, or by one that is not an obituary), the reported scores are the scores of the event sequence, and exactly the players with a scoring event are listed.", "quantifier": "all event sequences, all phrases, all names that can be recognised (C84 or C111), all demos below 2 GB that report them", "why_tests_cant": "End-to-end refinement from played events to the table; tests check a handful of recorded demos.", "anchors": ["src/frags.rs frags_per_player_name", "src/qw/fragevent.rs FragEvent::try_from, pattern_match", "src/qw/fragprint.rs X_DEATH, X_SUICIDE_BY_WEAPON, X_SUICIDE, X_TEAMKILL_UNKNOWN, UNKNOWN_TEAMKILL_X, X_FRAG_Y, Y_FRAG_X"]}
{"id": "C74", "title": "No name is invented", "statement": "Every name in the score table is part of the text of an obituary in the demo or the name of a client. Every name in the flag table is the beginning of a flag text in the demo.", "quantifier": "all demos, all results, with and without overflow checks", "why_tests_cant": "A universal statement about all reported names; tests look at expected names only.", "anchors": ["src/frags.rs frags_per_player_name", "src/flags.rs PlayerFlagEvents, flag_events_per_player_name"]}
{"id": "C75", "title": "Reports are not larger than the demo", "statement": "The texts of the prints, plus three bytes each, together are no longer than the data; the score table has at most one entry per frame, and every frame takes at least two bytes. The table of flag events has at most one entry per four bytes of data. A duration found by adding up frames is at most 127.5 ms per byte. There are at most 1537 clients, and at most one for eight bytes of data; players found by parsing are moreover at most 256. There are no more teams than players. The text of the match statistics is no longer than the data.", "quantifier": "all data; match statistics: data shorter than 2^63 bytes, as every Rust slice is", "why_tests_cant": "Bounds for arbitrary, also hostile, data.", "anchors": ["src/prints.rs prints", "src/frags.rs frags_per_player_name", "src/flags.rs PlayerFlagEvents, flag_events_per_player_name", "src/duration.rs countdown_duration, demo_duration, match_duration_from_seeking", "src/clientinfo.rs clientinfo_strings", "src/clients.rs clients", "src/players.rs players_from_parsing", "src/teams.rs teams", "src/ktxstats.rs ktxstats_string"]}
{"id": "C76", "title": "A game of capture the flag is counted as it was played", "statement": "If the frames of a demo report flag events (each event in two high-level prints, the last one of a frame possibly in one; frames without events by not containing the word flag), every counter of every player is the number of events of that kind, and exactly the players with an event are listed.", "quantifier": "all event sequences with fewer than 256 events of a kind per player, all names that no flag phrase is a part of, all phrases, all demos that report them", "why_tests_cant": "End-to-end refinement from played events to counters, over all groupings of prints in frames.", "anchors": ["src/flags.rs flag_events_per_player_name", "src/qw/flagevent.rs FlagEvent::try_from"]}
{"id": "C77", "title": "The players of a match, end to end", "statement": "In a demo without match stats, with at most 256 clients, whose frames report a sequence of events and sample pings, the players are the clients that are no spectators, each with the score of its name and its mean ping, ranked by score.", "quantifier": "all client lists up to 256, all event sequences, all sampled pings with sums below 65536 per player, all demos below 2 GB", "why_tests_cant": "Joins four parsers; the composition is only checked on recorded demos.", "anchors": ["src/players.rs players", "src/clients.rs clients", "src/frags.rs frags_per_player_name, find_team_killer", "src/ping.rs ping_per_player_number"]}
{"id": "C78", "title": "The teams of a match, end to end", "statement": "In such a demo, if the players have different names, there is a team for every team name of a player, and its frags are the sum of the scores of its players. With at most 255 players the teams are always found.", "quantifier": "as C77", "why_tests_cant": "Joins all parsers behind the team report.", "anchors": ["src/teams.rs teams", "src/players.rs players, players_from_ktxstats, players_from_parsing"]}
{"id": "C79", "title": "Reported numbers are in range", "statement": "Scores are 32-bit numbers, flag counters 8-bit numbers, pings of players found by parsing at most 65535, client numbers and colors 8-bit numbers, frags and pings of teams 32-bit numbers, durations found by adding up frames at most 4294967.5 s.", "quantifier": "all data, all results, with and without overflow checks", "why_tests_cant": "Type invariants over all inputs, including hostile ones and wrapped sums.", "anchors": ["src/frags.rs frags_per_player_name", "src/flags.rs PlayerFlagEvents, flag_events_per_player_name", "src/ping.rs ping_per_player_number", "src/clients.rs clients", "src/players.rs players", "src/teams.rs teams, teams_from_ktxstats", "src/duration.rs countdown_duration, demo_duration, match_duration_from_seeking"]}
{"id": "C80", "title": "One bad frame does little harm", "statement": "If one frame of a demo is replaced by another, the scores of at most two players change, and each by at most three points, unless the frame is among those searched for an unknown killer (then C94). Flag counters change only for players that the old or the new frame is about, and by no more than the number of texts in it. The measured time changes by at most 255 ms, if the end is still found at the same place after the frame.", "quantifier": "all demos below 2 GB, all frames, all replacements; flags: counters below 256; duration: totals below 2^32 ms; with anonymous teamkills, the same clients", "why_tests_cant": "Sensitivity to a change is a statement about pairs of inputs.", "anchors": ["src/frags.rs frags_per_player_name", "src/flags.rs flag_events_per_player_name", "src/duration.rs demo_duration"]}
{"id": "C81", "title": "Mean pings lie between the extremes", "statement": "The ping of a player lies between the smallest and the largest of the sampled pings; the ping of a team between the pings of two of its players.", "quantifier": "all demos, all samples with sums below 65536 per player; all teams with a total below 2^23", "why_tests_cant": "Rounding and truncation for all sums and numbers of samples.", "anchors": ["src/ping.rs ping_per_player_number", "src/teams.rs teams, teams_from_ktxstats"]}
{"id": "C82", "title": "What a recorder writes down is read back", "statement": "A recorder writes every happening of a match (obituary, flag event, ping update, chat, announcement, other message) as one frame, addressed to all players, to one of them or to several. Of the demo it writes, the parser reports the scores of the obituaries, the flag counters of the flag events, the mean pings of the first eight moments with pings, the announcements as prints without repetitions, and the time that passed as demo duration.", "quantifier": "all matches: any number of happenings in any order, all names that can be recognised (C84), all phrases, all times, all recipients; demos below 2 GB; flags: fewer than 256 events of a kind per player, no other message with the word flag; pings: sums below 65536; duration: no announcement of the end (else C86), totals below 2^32 ms", "why_tests_cant": "A writer and a reader are inverse for all matches; round-trip tests can only sample matches.", "anchors": ["src/frags.rs frags_per_player_name", "src/flags.rs flag_events_per_player_name", "src/ping.rs ping_per_player_number", "src/prints.rs prints", "src/duration.rs demo_duration"]}
{"id": "C83", "title": "A complete recording is read back", "statement": "A recording consists of the serverinfo, the userinfo strings of 1 to 24 clients, the frames of a match and the end-of-demo message, each written as servers write it. The demo is valid and not paused; the serverinfo and the userinfo strings are read back exactly; scores, flag counters, prints, duration, the ranked players and the teams are those of the match.", "quantifier": "all recordings: all serverinfo texts up to 1200 characters, all client lists, all matches of at least 1280 bytes; restrictions as in C82; players and teams: no match stats (else C85), teams: different names", "why_tests_cant": "Joins every parser of the crate on one input; a test can only sample recordings.", "anchors": ["src/serverinfo.rs serverinfo, serverinfo_string", "src/clientinfo.rs clientinfo_strings", "src/validate.rs is_valid", "src/players.rs players", "src/frags.rs frags_per_player_name", "src/prints.rs prints"]}
{"id": "C84", "title": "Obituaries round-trip for names with spaces", "statement": "Players choose names with spaces and apostrophes. For every name inside which no phrase could begin, whatever follows the name, the obituary built from the name and any phrase is attributed to that name; the same for the second name if it also does not begin with a phrase, with a one-word phrase or with 'his teammate' / 'her teammate'; and the same for flag messages about every name that no flag phrase is a part of. All names without spaces are included. The other names can be misattributed.", "quantifier": "every phrase of the obituary and flag tables and all such names of any length", "why_tests_cant": "There are infinitely many names and the phrases interact: whether a name with spaces is cut depends on every phrase that could overlap its end, on the order of the phrases and on the text after the second name.", "anchors": ["src/qw/fragevent.rs FragEvent, lines 18-72", "src/qw/fragprint.rs lines 1-94", "src/qw/flagevent.rs FlagEvent, lines 19-49"]}
{"id": "C85", "title": "Match stats in a recording are read back and disturb nothing", "statement": "A server writes the match stats (a JSON text beginning with the marker '{\"version\": ') at the end of the match, cut anywhere into pieces, also inside a character. The text is read back exactly, server and players come from it when it can be parsed, and a proper recording (C83) stays proper: scores, prints and duration are those without the stats. The last part needs that no piece has a size whose low byte is 8 or 36, because pieces are sent in message frames and such a size looks like the number of a print or a ping update.", "quantifier": "all recordings, all texts that contain the marker only at the beginning, all cuts into 1 to 256 pieces below 64 KB whose first contains the marker; demos below 2 GB; staying proper: sizes as stated, no key \\name\\ in the text", "why_tests_cant": "Pieces can be cut anywhere and their headers lie between them; whether a word the parser searches for arises across a header depends on all sizes and numbers.", "anchors": ["src/ktxstats.rs ktxstats_string, ktxstats_v3", "src/players.rs players", "src/server.rs server"]}
{"id": "C86", "title": "Date and times of a recorded match are read back", "statement": "The course of a match is recorded as countdown, announcement of the date ('matchdate: …'), game, announcement of the end ('The match is over'), and whatever follows. The date is read back exactly, and if it exists and its time zone is known, the match date is the instant it stands for. The countdown is the time until the date is announced, the demo duration the time until the end is announced, and the match duration without match stats is the time of the game, up to single-precision rounding; in hoonymode there is no countdown; with match stats the match lasts as long as these say. The timestamp is the epoch of the serverinfo, without one the match date.", "quantifier": "all recordings (C83) and courses in which no other date is announced before and no other end after; dates of 22 to 25 ASCII characters; times below 2^32 ms; demos below 2 GB", "why_tests_cant": "The offsets of the announcements depend on everything recorded before; whether the searched words arise across frame headers depends on all sizes and times; rounding errors depend on the sums.", "anchors": ["src/matchdate.rs matchdate, matchdate_string", "src/duration.rs countdown_duration, demo_duration, match_duration", "src/timestamp.rs timestamp", "src/timezone.rs utc_offset, utc_offset_by_abbr, utc_offset_by_offset"]}
{"id": "C87", "title": "Exactly when a call panics or fails", "statement": "The conditions are exact. A duration panics exactly when a frame is cut off before the place it measures to or the total exceeds 32 bits with overflow checks on; the match duration by seeking also when the countdown exceeds the demo duration; the match duration also when the recorded number is negative, too large or no number. Flag statistics panic exactly when the data ends in a cut-off frame or a count exceeds 255; scores exactly when it ends in one, when clients are needed and reading them panics, or when a score leaves 32 bits; pings exactly when it ends in one with fewer than eight frames of pings before it, or when the samples of a player exceed 16 bits; players and teams exactly when one of the calls they depend on does, or the totals of a team overflow. The only errors are: no match date for the countdown, no samples for pings, and for players and teams those of clients and pings when there are no usable stats, and for the timestamp those of the match date when there is no epoch.", "quantifier": "all byte sequences (below 2^63 bytes for the match duration), both build profiles", "why_tests_cant": "A panic takes down the caller. That a condition is necessary is a statement about all other inputs.", "anchors": ["src/duration.rs countdown_duration, demo_duration, match_duration, match_duration_from_seeking", "src/flags.rs flag_events_per_player_name", "src/frags.rs frags_per_player_name", "src/ping.rs ping_per_player_number", "src/players.rs players", "src/teams.rs teams", "src/timestamp.rs timestamp"]}
{"id": "C88", "title": "Anonymous teamkills in a match are charged to the killer", "statement": "In a match in which some teamkills are reported without naming the killer ('a was telefragged by his teammate'), scores, players and teams are still those of the match as played, if after each such report the first score update for a team mate of the victim, in the rest of the frame or at the beginning of one of the next two frames that are not empty, is the killer's. Updates for the victim and for opponents may come before. A teamkill without any such update for a team mate is charged to nobody. With at most 255 players the teams are always found.", "quantifier": "all demos of whole frames below 2 GB, all matches, at most 256 clients with different names", "why_tests_cant": "The blame depends on the client list and on the order of score updates in other frames.", "anchors": ["src/frags.rs frags_per_player_name", "src/players.rs players", "src/teams.rs teams", "src/qw/fragevent.rs FragEvent::try_from, pattern_match"]}
{"id": "C89", "title": "Chat changes nothing that is reported", "statement": "A frame of chat messages, to any receivers and between any two frames, changes none of the results, and so does any number of such frames: validity, aborted, paused, serverinfo, clients, names, bots, scores, flag events, pings, date, match stats, players and teams, and the durations if no time passes with the chat. Time recorded with the chat is added to the durations it lies in, and nothing else. Chat about flags is not counted as a flag event. Chat between an anonymous teamkill and the score update that tells the killer can hide the killer. The other exception are messages that contain one of the eight texts that the parser looks for anywhere in the file: with those a player can make an unfinished demo appear paused, shorten the duration or claim that bots took part.", "quantifier": "all demos of whole frames, all positions but the very first and last, all receivers, all chat messages without the eight texts, where none of these texts or the end marker lies across a border of the chat frame, with or without it; client results: the chat comes 13056 bytes after the spawn command or later; date: not within the line with the date; stats: none or later; scores: no anonymous teamkills, or no chat among the frames that are searched for the killer; durations: totals below 2^32 ms", "why_tests_cant": "Texts are searched in the raw bytes, across frame boundaries and regardless of the kind of message; that chat of any content, number and position moves the occurrences without adding or hiding any needs an argument about all of them.", "anchors": ["src/validate.rs has_end_of_demo_print, is_valid", "src/aborted.rs is_aborted", "src/paused.rs is_paused", "src/clients.rs clients, has_bot_players, has_human_players, player_names, spectator_names, team_names", "src/frags.rs frags_per_player_name", "src/flags.rs flag_events_per_player_name", "src/ping.rs ping_per_player_number", "src/duration.rs countdown_duration, demo_duration, match_duration", "src/matchdate.rs matchdate, matchdate_string", "src/ktxstats.rs ktxstats_string, ktxstats_v3", "src/players.rs players", "src/teams.rs teams"]}
{"id": "C90", "title": "Players and teams are the same with and without match stats", "statement": "If the match stats list the players found in the demo's messages, in any order and with the same frags, then `players_from_ktxstats` and `players_from_parsing` give the same score board (names and frags, in the same order, ties included). Teams depend only on who plays for which team with how many frags: both ways give the same teams with the same frags, and in the same order unless two team names differ only in case. A recorded match is reported with the same score board and teams whether or not the recording ends with such stats.", "quantifier": "all demos, all stats, all player lists; for teams: team totals within 32 bits", "why_tests_cant": "The two sources take different paths through the code; tests compare each with fixed expectations for a few demos, not the two with each other for all contents.", "anchors": ["src/players.rs players, players_from_ktxstats, players_from_parsing", "src/teams.rs teams", "src/ktxstats.rs ktxstats_v3, ktxstats_string"]}
{"id": "C91", "title": "Messages are cut at character boundaries", "statement": "Searching a message for a phrase on its UTF-8 bytes finds it exactly where it occurs as text, never inside or across other characters, so cutting out the names at the byte offsets found never panics and gives exactly the characters before, between or after the phrases. Obituaries, flag messages and flag message endings are therefore classified the same way on bytes, as Rust does it, as on characters.", "quantifier": "all messages, with characters of any encoded length; all phrases of the tables", "why_tests_cant": "A slice off a character boundary panics only for particular multi-byte characters next to particular phrases; tests use a few mostly ASCII messages.", "anchors": ["src/qw/fragevent.rs FragEvent, FragEvent::try_from", "src/qw/flagevent.rs FlagEvent, FlagEvent::try_from", "src/flags.rs is_message_suffix"]}
{"id": "C92", "title": "Offset arithmetic is safe on 64-bit targets", "statement": "On a 64-bit target no sum of offsets in the frame walk, the client scan, serverinfo, match date and `offsets_between` overflows, and no slice at an offset found by searching is out of range. On a 32-bit target the frame walk can overflow: a frame announcing 2^32-6 bytes makes a release build go on for ever at the same place when adding up durations, and panics with overflow checks; it cannot if no four neighbouring bytes of the data are a number of 2^32-10 or more. Match stats are read alike on both, whatever the block sizes, except that with overflow checks a 32-bit target panics at a block size near 2^32.", "quantifier": "all data shorter than half the address space, all loop bodies; 64 and 32 bit `usize`", "why_tests_cant": "Overflow happens only for size fields near 2^32 on a target the tests are not run on.", "anchors": ["src/qw/frame.rs Info::from_data_and_index", "src/bytesextra.rs offsets_between", "src/serverinfo.rs serverinfo_string", "src/clientinfo.rs clientinfo_strings", "src/matchdate.rs matchdate_string", "src/validate.rs has_end_of_demo_print", "src/duration.rs duration_until_offset", "src/ktxstats.rs ktxstats_string", "src/qw/block.rs Info::try_from"]}
{"id": "C93", "title": "Floating-point computations stay in range", "statement": "Converting a 64-bit number to `f32`, and dividing two such numbers, gives zero or a normal number: neither infinity nor the reduced precision of subnormal numbers comes up in mean pings and durations. Rounding a mean to a whole number gives a number `f32` has.", "quantifier": "all unsigned 64-bit numbers and all non-zero divisors", "why_tests_cant": "The ends of the floating-point range are not reached by tests, and for all inputs not by the code.", "anchors": ["src/ping.rs ping_per_player_number", "src/team.rs Team::from, teams_from_players, majority_color", "src/duration.rs duration_until_offset"]}
{"id": "C94", "title": "Lost, repeated and damaged frames do limited harm", "statement": "When a run of k frames of a demo is replaced by k' other frames (none: frames are lost; k = 0: frames are too many), at most k+k'+4 players get another score, a player's score rises by at most 2k+k'+2 and falls by at most k+2k'+2 points; unless an anonymous teamkill is open before the run the additional 4 and 2 are not needed. Flag counters differ by exactly the flag messages in the replaced frames, the duration by the time of these frames if the end-of-match print comes later, pings not at all if eight ping frames come before, clients not at all if the client strings come before, and server, players and teams not at all if readable match stats come after.", "quantifier": "all demos of complete frames, all runs of frames replaced and all replacements, anywhere; anonymous teamkills included; demos below 2 GB, scores: the same clients, flags: counters below 256, duration: totals below 2^32 ms", "why_tests_cant": "Damage can be anywhere and of any kind; tests use undamaged demos.", "anchors": ["src/frags.rs frags_per_player_name", "src/flags.rs PlayerFlagEvents, flag_events_per_player_name", "src/ping.rs ping_per_player_number", "src/duration.rs demo_duration", "src/ktxstats.rs ktxstats_string, ktxstats_v3", "src/players.rs players", "src/clients.rs clients, player_names, team_names"]}
{"id": "C95", "title": "Frames without messages do not matter", "statement": "Prints, flag events, pings and scores (anonymous teamkills and panics included) depend only on the sequence of the bodies of the frames that carry something: inserting or removing empty frames anywhere, at any times and for any recipients, changes none of them, provided that the clients read from the raw data are the same. A frame with even a single byte between an anonymous teamkill and the score update that tells the killer can hide the killer.", "quantifier": "every pair of demos that consist of whole frames with the same non-empty bodies", "why_tests_cant": "Real demos contain empty frames at arbitrary positions; a test has them at some positions only.", "anchors": ["src/frags.rs frags_per_player_name", "src/frags.rs find_team_killer", "src/prints.rs prints", "src/ping.rs ping_per_player_number", "src/flags.rs flag_events_per_player_name"]}
{"id": "C96", "title": "Interrupted downloads", "statement": "A demo of whole frames that is cut at any byte consists of its first frames and a proper part of the next one. If that part contains the whole header and the frame is not longer than the cut demo, then prints, flag events and scores panic, and so do the pings unless eight frames with pings come before the cut. Otherwise prints, flag events, pings and (with the same clients) scores are those of the whole frames before the cut. Cut before the end of the measurement the demo is not reported longer than it is (for totals below 2^32 ms), cut after the frame with the last end-of-match print its duration is that of the whole demo. Whatever prints a cut demo shows are the first prints of the whole demo. If the end-of-demo print occurs only at the end, is_valid answers false, without panic, wherever the demo is cut.", "quantifier": "every sequence of well-formed frames and every position of the cut", "why_tests_cant": "There is one cut for every byte of every demo.", "anchors": ["src/qw/frame.rs Info::from_data_and_index", "src/prints.rs prints", "src/frags.rs frags_per_player_name", "src/flags.rs flag_events_per_player_name", "src/ping.rs ping_per_player_number", "src/validate.rs is_valid"]}
{"id": "C97", "title": "Demos as servers write them", "statement": "Take a demo of whole frames, at least 1280 bytes, with a serverinfo string in the header, userinfo strings after the first spawn command with other messages between them, different client names, medium prints at the beginning of frames that announce obituaries or nothing recognisable, anonymous teamkills with or without a score update of a team mate nearby, ping updates at the beginning of frames, a date announcement, and an end not before it; other messages stand anywhere. Then serverinfo, file name and timestamp are those of the serverinfo string, the clients those of the userinfo strings in order, the scores the sums of the charges of the announced events, the players without match stats the clients that are no spectators with score and mean ping in order of rank, the teams theirs in order of lower-cased name, each with its players in order of rank and the sum of scores, found if there are at most 255 players, and with at most 128 the rounded mean ping and the color of most; the date is the announced one, and countdown, demo and match last as long as the frames say, up to rounding. With match stats, their text is found, and server, players and match duration are taken from them. With the end marker the demo is valid and not paused. In hoonymode there is no countdown and the match is the whole demo.", "quantifier": "every match, every demo of this form, every other content of the frames", "why_tests_cant": "Real demos contain thousands of other messages between those that are looked at; tests use seven demos.", "anchors": ["src/serverinfo.rs serverinfo", "src/clients.rs clients", "src/clientinfo.rs clientinfo, clientinfo_strings", "src/frags.rs frags_per_player_name", "src/ping.rs ping_per_player_number", "src/players.rs players", "src/teams.rs teams", "src/matchdate.rs matchdate, matchdate_string", "src/duration.rs countdown_duration, demo_duration, match_duration", "src/ktxstats.rs ktxstats_string", "src/server.rs server", "src/validate.rs is_valid"]}
{"id": "C98", "title": "What a dependency can influence", "statement": "Replacing an external crate or library function by any other function of its type changes only the functions named here. quake_text to_unicode: client strings and all that is read from them, frags, flag events, players, teams. to_utf8: serverinfo text, settings, filename, timestamp, countdown and match duration. unicode sort: the three lists of names. quake_serverinfo: settings, filename, timestamp, countdown and match duration. quake_clientinfo: clients and what is read from them, frags, players, teams. ktxstats: parsed stats, server, players, teams, but not the match duration. str::to_lowercase: teams. f64 parsing: match duration. Date parsing: matchdate and timestamp. Overflow checks have no part in prints, serverinfo, clients, validity and dates. Whether a demo is valid depends on none of them.", "quantifier": "every byte string given as demo data, every environment, every replacement of a dependency by a total function", "why_tests_cant": "It is a statement about all implementations of a dependency; a test runs one version of each crate.", "anchors": ["Cargo.toml dependencies", "src/serverinfo.rs serverinfo, serverinfo_string", "src/clientinfo.rs clientinfo, clientinfo_strings", "src/ktxstats.rs ktxstats_string, ktxstats_v3", "src/matchdate.rs matchdate", "src/duration.rs countdown_duration, demo_duration, match_duration", "src/teams.rs teams", "src/validate.rs is_valid"]}
{"id": "C99", "title": "Durations depend on frame headers and the places of two texts", "statement": "Two demos whose frames have the same sizes and times, that are measured to the same offset and whose first match date announcements stand at the same offset, have the same demo duration, countdown and match duration by seeking, whatever the frames contain, also when the total does not fit into 32 bits. If the frames of one are as large as and no shorter in time than those of the other, its demo duration and countdown are no shorter.", "quantifier": "all pairs of demos of whole frames that agree in this way, any number of frames", "why_tests_cant": "A relation between two arbitrary demos.", "anchors": ["src/duration.rs demo_duration, countdown_duration, match_duration_from_seeking, duration_until_offset"]}
{"id": "C100", "title": "Match dates come in the order of their texts", "statement": "Of two demos whose match dates are printed in the same time zone, the one whose text comes first in the dictionary has the earlier match date, across months, years and leap days, and only equal texts give equal match dates. The same date and time printed in two time zones are as far apart as the zones.", "quantifier": "all pairs of existing dates and times with four-digit years, all time zones of the table, every demo in which they are found", "why_tests_cant": "There are about 3 * 10^11 dates and times; the claim is about all pairs.", "anchors": ["src/matchdate.rs matchdate", "src/timezone.rs utc_offset"]}
{"id": "C101", "title": "Names, wordings and the order of events do not matter for scores", "statement": "If the same things happen in two matches, in any order and told with any wording or weapon, anonymously or not, and every player of the one has another name in the other, then everybody has the same score in both demos, and nobody else has any. If the players are in the same teams, in any slots, without match stats both demos have the same teams with the same totals.", "quantifier": "all pairs of demos as servers write them (C97), of every length, with all other messages anywhere; all injective changes of names; all orders of events", "why_tests_cant": "The claim relates arbitrary pairs of demos, of which tests can compare a few; that no name, weapon, slot or place in the demo is treated specially is not visible from any number of examples.", "anchors": ["src/frags.rs frags_per_player_name", "src/qw/fragevent.rs FragEvent::try_from, pattern_match", "src/players.rs players, players_from_ktxstats, players_from_parsing", "src/teams.rs teams"]}
{"id": "C102", "title": "The work is proportional to the number of frames", "statement": "A walk over a demo reads one frame header per frame and at most two more, whatever is done with the frames. When scores are counted, all searches for the killers in anonymous teamkills together read at most four headers per frame, even though a search passes over any number of empty frames. The scan for clients looks at no more than 2049 places, however long the demo is, the loops over the messages of all frames together read at most one message per byte, and the loop over the blocks of match statistics reads at most one block per 18 bytes and two more, whatever sizes are written there.", "quantifier": "every byte string given as demo data, of any length, split into frames in the only possible way (C03); searches: demos in which the first loop does not panic (C06); every loop body", "why_tests_cant": "Tests show that some demos are read quickly; that none makes a loop go round more than a constant number of times per frame is a claim about all demos, including crafted ones.", "anchors": ["src/frags.rs frags_per_player_name, find_team_killer", "src/prints.rs prints", "src/flags.rs flag_events_per_player_name, is_message_suffix", "src/ping.rs ping_per_player_number", "src/duration.rs duration_until_offset", "src/clientinfo.rs clientinfo, clientinfo_strings", "src/qw/frame.rs Info::from_data_and_index", "src/ktxstats.rs ktxstats_v3, ktxstats_string"]}
{"id": "C103", "title": "What people are called is read off their info strings", "statement": "If the demo lists the info strings of the people on the server, then the clients are these people in this order, numbered by slot: name, team, shirt and pants colours, whether they watch and whether they are bots are what the entries of their strings say, in any order and among any other entries. The name lists, the reported players with their scores and mean pings and the teams with their totals are then those of the people who do not watch. Likewise the file name, the time stamp and hoonymode are read off the entries of the server settings.", "quantifier": "every list of at most 256 people and every way to write them down as info strings; every demo of a match as of C97; every decoding of client strings that keeps one-byte characters; every decoding of the server settings; every parser of info strings that finds the entries", "why_tests_cant": "Info strings come in any order, with any other keys and values and any number of people; tests try single strings.", "anchors": ["src/clientinfo.rs clientinfo, clientinfo_strings", "src/client.rs Client", "src/clients.rs clients, has_human_players, player_names, spectator_names", "src/players.rs players", "src/teams.rs teams", "src/serverinfo.rs serverinfo, serverinfo_string", "src/filename.rs filename", "src/timestamp.rs timestamp", "src/duration.rs countdown_duration"]}
{"id": "C104", "title": "The recorded duration is read exactly", "statement": "If the match statistics in the demo record a duration as decimal seconds with at most nine digits after the point, less than 2^22 seconds, the reported match duration is exactly that many nanoseconds. For any decimal number, with or without a power of ten, below 2^64 - 2^10 it is off by at most half a nanosecond and one part in 2^53. Infinity, NaN, numbers from 2^64 - 2^10 on and negative numbers greater than 2^-1075 in size make the parser panic; negative numbers not greater than that are no time at all. Any other text is ignored and the time is measured from the messages instead.", "quantifier": "every demo of at least 1280 bytes that is not in hoonymode and has match statistics that record a duration; every text of a duration, of any length", "why_tests_cant": "Texts of numbers are unbounded and rounding depends on all their digits; tests try one or two durations.", "anchors": ["src/duration.rs match_duration, match_duration_from_ktxstats", "src/ktxstats.rs ktxstats_string"]}
{"id": "C105", "title": "It does not matter in which slots people play, nor who watches", "statement": "If two demos show the same people playing the same match, then the reported players are equal in every field and in their order, and so are the teams. The people may be in other slots, others may watch, the events may come in another order with other wordings, and the pings may be sampled otherwise as long as each player's mean is the same.", "quantifier": "every two demos of a match as of C97 without match statistics whose players, scores and mean pings agree, in any slots and with any spectators; every environment", "why_tests_cant": "It relates any two demos of the same match; tests look at one demo at a time.", "anchors": ["src/players.rs players", "src/teams.rs teams", "src/clients.rs clients", "src/frags.rs frags_per_player_name, find_team_killer", "src/ping.rs ping_per_player_number", "src/player.rs Player::from, sort"]}
{"id": "C106", "title": "Match statistics and messages tell the same match", "statement": "If the match statistics of one demo list the people who play in another demo of the match, with their teams and scores in any order, then both demos give the same score board: names, teams and scores in the same order, and the same teams with the same totals, in the same order unless two team names differ only in case. With at most 255 players and pings up to 65535 ms the teams are found in both demos. If the statistics give the length of the match to the millisecond, up to 48 days, the match durations differ by no more than the rounding of single precision numbers; with statistics the duration is exact.", "quantifier": "every two demos of a match as of C97, one with match statistics and one without, in any environment; every way to write the duration as decimal seconds", "why_tests_cant": "It relates the two independent ways in which the code finds players, teams and durations, for every match; the tests use demos whose results they compare with constants.", "anchors": ["src/players.rs players", "src/teams.rs teams", "src/duration.rs match_duration", "src/ktxstats.rs ktxstats_v3, ktxstats_string", "src/player.rs Player::from, sort", "src/team.rs Team::from, teams_from_players"]}
{"id": "C107", "title": "Every match can be recorded and is read back", "statement": "For all people, whatever their names, teams and colours, and whether they play or watch, for all scores of those who play, all pings, all counts of flag events, every date and for all times of countdown and game there is a valid demo from which exactly these players with these scores and pings, their teams with these totals and the mean of these pings, rounded to the nearest number, these flag counters, the names of those who watch, the settings of the server, the date and the times are read; the duration of the match up to the rounding of C97, and in hoonymode, where there is no countdown, the time of the whole demo. More generally every recording as of C83 and C86 is a demo as servers write them, so that all that is proved about these (C97, C101, C103, C105, C106) applies to it.", "quantifier": "1 to 24 people with different names that can be recognised, printable userinfo strings of at most 256 characters, up to a million points altogether, pings of 16 bits, up to 255 flag events of each kind for each of them (the counters are read back if the word flag is not in the other texts), dates of 22 to 25 characters, up to 2^32 milliseconds; every decoding of client strings that keeps one-byte characters and every parser of info strings that finds the entries", "why_tests_cant": "It says of every possible result that the parser can report it, and thus that nothing is cut off, capped or mixed up; tests show this for the results of their demos.", "anchors": ["src/players.rs players", "src/teams.rs teams", "src/frags.rs frags_per_player_name, find_team_killer", "src/clientinfo.rs clientinfo, clientinfo_strings", "src/clients.rs clients", "src/validate.rs is_valid", "src/matchdate.rs matchdate_string", "src/duration.rs countdown_duration, demo_duration", "src/flags.rs flag_events_per_player_name", "src/ping.rs ping_per_player_number"]}
{"id": "C108", "title": "Every match can be recorded with any match stats, and both are read back", "statement": "For every match as of C107 and for all match stats there is a valid demo with both. The text of the stats, and the server, the players and (except in hoonymode) the duration they tell, are read from it, even if they contradict the recorded match. What is not asked of the stats is still that of the match: the settings of the server, the names of those who play and of those who watch, the score of everybody who plays as counted from the obituaries, the pings, the date, the times of countdown and demo, and the counters of flag events. In hoonymode there is no countdown, and the match lasts as long as the demo.", "quantifier": "all plans as of C107; all texts of at most ten million bytes that begin with the marker '{\"version\": ' and contain neither the marker again nor the key \\name\\ or 'The match is over'; duration: any recorded number from 0 below 2^64; flag counters: the word flag not in the given texts; every decoding of client strings that keeps one-byte characters, every parser of info strings that finds the entries, every parser of stats", "why_tests_cant": "It says for all pairs of a match and stats what comes from which; tests have demos in which both agree, so that they cannot tell them apart.", "anchors": ["src/ktxstats.rs ktxstats_string, ktxstats_v3", "src/players.rs players", "src/server.rs server", "src/duration.rs match_duration, countdown_duration, demo_duration", "src/frags.rs frags_per_player_name", "src/matchdate.rs matchdate_string", "src/validate.rs is_valid", "src/flags.rs flag_events_per_player_name", "src/ping.rs ping_per_player_number"]}
{"id": "C109", "title": "A player's row depends only on what is said about them", "statement": "The score of a player depends only on the messages that mention them, not on the order of these, nor on anything else in the demo. When team mates are killed by someone unnamed, it also depends on the parts of the demo in which this happens, and on the clients. The flag events of a player depend only on the frames with texts about flags that begin with their name, the ping of a player number only on its own samples. So in two demos with the same clients, that say the same about one of the players, the row of this player in the list of players is the same.", "quantifier": "all pairs of demos, cut off or not, of any size, made up of parts none of which ends within two frames of an anonymous teamkill; all names and player numbers; parts or frames that mention the player: equal payloads up to permutation; every build and every library version, as long as both calls return a result (an overflow may panic in a debug build); rows: at most 256 clients", "why_tests_cant": "It compares all pairs of demos that agree about one player and are otherwise arbitrary; tests compare the output for some demos with an expected value.", "anchors": ["src/frags.rs frags_per_player_name", "src/flags.rs flag_events_per_player_name", "src/ping.rs ping_per_player_number", "src/players.rs players_from_parsing"]}
{"id": "C110", "title": "Exactly which reports are possible", "statement": "Callers can tell from a report alone whether some demo has it. Lists of prints are possible exactly if no text is empty or contains a NUL, every text fits into a frame and neighbours differ. Pings per player number are possible exactly if there is at least one and each is below 65536. Durations of demos are exactly the numbers of milliseconds below 2^32 as they are converted. Serverinfo texts are exactly the conversions of one to 1263 bytes without a quote. Match dates are exactly the texts of 22 to 25 bytes without a newline. A demo can be valid, paused and aborted in every combination except valid and paused. Rankings made from match stats are exactly the ranked lists of rows whose colors have 8 bits and frags and pings 32, in which a ping of 10 belongs to a bot, no auth name is empty and no country is told.", "quantifier": "all reports: lists of prints of any length, all partial functions from player numbers to pings, all durations, all texts; all demos of any size; every build and every library version", "why_tests_cant": "It says which values can be reported at all, by any of infinitely many demos, and that everything else is possible; tests compare the output for some demos with an expected value.", "anchors": ["src/prints.rs prints", "src/ping.rs ping_per_player_number", "src/duration.rs demo_duration", "src/serverinfo.rs serverinfo_string", "src/matchdate.rs matchdate_string"]}
{"id": "C111", "title": "Exactly which names are always understood", "statement": "For a set of player names, every obituary that can be written about its players, with every phrase and every pair of names, is understood as it was meant exactly if each of the names is clear: no phrase with one name and no end of a phrase is a part of it, no phrase with two names is a part of it and a following space, it does not end with ` was` or ` suicides` and is not `suicides`, `stomps` or `squishes`, and it does not begin with what follows the first space of a phrase with one name or of certain phrases with two names, or with `his teammate` or `her teammate`. No two events between players with clear names are announced with the same text. Every flag message about a player is understood exactly if no phrase of a flag message is a part of the name.", "quantifier": "all sets of names, all names of any length, every obituary and flag phrase, every pair of names", "why_tests_cant": "It is an equivalence over all names: that no other name is ever misunderstood, and that each of the others is in some message. There are infinitely many names of both kinds and 72 obituary phrases that interact with them and with each other.", "anchors": ["src/qw/fragevent.rs FragEvent", "src/qw/fragprint.rs X_DEATH", "src/qw/fragprint.rs X_FRAG_Y", "src/qw/flagevent.rs FlagEvent"]}
{"id": "C112", "title": "How messages are packed into frames", "statement": "Servers put several messages into one frame or spread them over several frames. Prints are the same however whole prints are distributed over frames. So are pings, if not more than eight frames begin with pings either way, flag events, if frames are cut between pairs of high-level prints and the word flag is in both parts, and scores, if what is split off or appended does not begin with a medium-level print that is not empty and no teamkill is anonymous. This restriction is needed: an obituary behind another print of the same frame is not counted, in a frame of its own it is; the score of the player charged differs by exactly its worth, all others stay the same.", "quantifier": "all demos of whole frames, any number of splittings and joinings at any places as described, all messages", "why_tests_cant": "It relates the reports of infinitely many pairs of demos that differ in the borders of frames, by induction over the splittings; tests contain the frames of the servers that recorded them.", "anchors": ["src/prints.rs prints", "src/ping.rs ping_per_player_number", "src/flags.rs flag_events_per_player_name", "src/frags.rs frags_per_player_name"]}
{"id": "C113", "title": "A team's row depends only on its own players", "statement": "Players, frags and ping of a team depend only on the players of that team and their order, not on the other players, the number of teams or the order in which a hash map is walked; so does the color, if the team has at most two players or one color is worn by more players than any other. When the players of some teams leave, or stand in another order that keeps the order within the teams, the remaining teams are reported as before and in the same order. Grouping the players listed under the teams once more gives the same teams. Leaving players out of the match stats leaves them out of the ranking and the others keep their order.", "quantifier": "all lists of players, all sets of teams that leave, all hash orders; team names that differ also in lower case", "why_tests_cant": "It relates the reports of infinitely many pairs of rosters, for every iteration order of the hash maps; tests have a few rosters and one order.", "anchors": ["src/team.rs teams_from_players", "src/team.rs Team::from", "src/teams.rs teams_from_ktxstats", "src/players.rs players_from_ktxstats"]}
{"id": "C114", "title": "What a single chat message can make the parser report", "statement": "A chat message is searched like everything else. Saying \"Server is paused\" or \"paused the game\" makes a demo without the end marker appear paused; saying `\"bot\": {` makes bots appear; saying \"The match is over\" after the last announcement of it sets the duration of the demo to the time of the message, and said before it adds only the time of its frame; saying how match stats begin, after them and behind at least three other bytes, makes their text empty, so that there is no server and players and duration are read off the messages. A message with the bytes of the server's announcement in it sets the date, if the server has not sent it before, or makes the match appear aborted; a message without the byte 8 contains neither.", "quantifier": "all demos, all messages, wherever they are sent", "why_tests_cant": "It is a statement about every message at every place of every demo; tests have demos in which nobody says these words.", "anchors": ["src/paused.rs is_paused", "src/aborted.rs is_aborted", "src/matchdate.rs matchdate_string", "src/duration.rs demo_duration", "src/ktxstats.rs ktxstats_string", "src/clients.rs has_bot_players"]}
{"id": "C115", "title": "Two demos in one file", "statement": "If a file consists of two demos, one after the other, then server info, file name, epoch, match date and all clients and names are those of the first; match stats are those of the second, and with them server, players, teams and the recorded duration. Pings are those of the first, if it has eight frames with pings. The file is valid exactly if the first is and the second has the end marker; it is aborted if either is, and paused only if the second has no end marker. The demo duration is that of the first demo plus the time until the end of the second match, and without match stats the duration of the match is counted from the beginning of the first match.", "quantifier": "all pairs of demos; the first has its client strings well before its end, the second has the words in question", "why_tests_cant": "It relates infinitely many pairs of demos to their concatenation; tests parse single demos.", "anchors": ["src/serverinfo.rs serverinfo", "src/clientinfo.rs clientinfo_strings", "src/ktxstats.rs ktxstats_string", "src/validate.rs is_valid", "src/paused.rs is_paused", "src/aborted.rs is_aborted", "src/duration.rs demo_duration", "src/duration.rs match_duration_from_seeking"]}
