{
 "claims": [
  {
   "property": "C01",
   "status": "proved",
   "theorems": [
    "Mvd.C01_terminates",
    "Mvd.C01_terminates_other",
    "Mvd.C01_frame_loop",
    "Mvd.C01_message_loops",
    "Mvd.C01_client_scan",
    "Mvd.C01_block_loop"
   ],
   "note": "`data.length < 2^63`, which every Rust slice satisfies (needed only for the stats blocks, whose 64-bit offset arithmetic wraps in release builds). Recursion inside external crates is not covered."
  },
  {
   "property": "C02",
   "status": "proved",
   "theorems": [
    "Mvd.C02_frame_walk",
    "Mvd.C02_frame_walk_whole",
    "Mvd.C02_frame_at"
   ],
   "note": "Frames must be well-formed (`Frame.WF`: mask of four bytes exactly for kind 3, payload below 2^32 bytes, fixed payload of the unsized kinds)."
  },
  {
   "property": "C03",
   "status": "proved",
   "theorems": [
    "Mvd.C03_unique_split",
    "Mvd.C03_remainder",
    "Mvd.C03_walk_any"
   ],
   "note": "None. Together with C02 it makes every theorem stated on `Splits` apply to every byte string."
  },
  {
   "property": "C04",
   "status": "proved",
   "theorems": [
    "Mvd.C04_prints",
    "Mvd.C04_leading_prints",
    "Mvd.C04_collapse_unique"
   ],
   "note": "The demo must not end in a cut-off frame (`Stops`); C06 covers the other case."
  },
  {
   "property": "C05",
   "status": "proved",
   "theorems": [
    "Mvd.C05_print_shape"
   ],
   "note": "None."
  },
  {
   "property": "C06",
   "status": "proved",
   "theorems": [
    "Mvd.C06_demo_duration",
    "Mvd.C06_countdown_duration",
    "Mvd.C06_match_duration",
    "Mvd.C06_flags",
    "Mvd.C06_frags",
    "Mvd.C06_ping",
    "Mvd.C06_ping_enough",
    "Mvd.C06_prints",
    "Mvd.C06_prints_witness"
   ],
   "note": "The absence of panics that users expect is false: witnesses are proved beside the exact conditions."
  },
  {
   "property": "C07",
   "status": "proved",
   "theorems": [
    "Mvd.C07_offsets_between",
    "Mvd.C07_no_range"
   ],
   "note": "None."
  },
  {
   "property": "C08",
   "status": "proved",
   "theorems": [
    "Mvd.C08_is_aborted"
   ],
   "note": "None."
  },
  {
   "property": "C09",
   "status": "proved",
   "theorems": [
    "Mvd.C09_end_of_demo"
   ],
   "note": "None."
  },
  {
   "property": "C10",
   "status": "proved",
   "theorems": [
    "Mvd.C10_is_paused"
   ],
   "note": "None."
  },
  {
   "property": "C11",
   "status": "proved",
   "theorems": [
    "Mvd.C11_valid_not_paused"
   ],
   "note": "None."
  },
  {
   "property": "C12",
   "status": "proved",
   "theorems": [
    "Mvd.C12_valid",
    "Mvd.C12_exact",
    "Mvd.C12_has_clients"
   ],
   "note": "None."
  },
  {
   "property": "C13",
   "status": "proved",
   "theorems": [
    "Mvd.C13_valid_panics",
    "Mvd.C13_witness",
    "Mvd.C13_witness_scan"
   ],
   "note": "None."
  },
  {
   "property": "C14",
   "status": "proved",
   "theorems": [
    "Mvd.C14_serverinfo_string",
    "Mvd.C14_serverinfo_error",
    "Mvd.C14_settings",
    "Mvd.C14_serverinfo_local"
   ],
   "note": "At least 1280 bytes (C15 covers the rest). The decoding of bytes to text is opaque."
  },
  {
   "property": "C15",
   "status": "proved",
   "theorems": [
    "Mvd.C15_short_data",
    "Mvd.C15_short_data_derived"
   ],
   "note": "None."
  },
  {
   "property": "C16",
   "status": "proved",
   "theorems": [
    "Mvd.C16_filename",
    "Mvd.C16_filename_errors"
   ],
   "note": "`quake_serverinfo::Settings::from` is opaque."
  },
  {
   "property": "C17",
   "status": "proved",
   "theorems": [
    "Mvd.C17_client_strings",
    "Mvd.C17_exact"
   ],
   "note": "Unless the scan panics; C19 says exactly when."
  },
  {
   "property": "C18",
   "status": "proved",
   "theorems": [
    "Mvd.C18_finds_every_client"
   ],
   "note": "Sections up to 24 * 512 bytes, 512 bytes present after the last string."
  },
  {
   "property": "C19",
   "status": "proved",
   "theorems": [
    "Mvd.C19_bound",
    "Mvd.C19_error",
    "Mvd.C19_panic",
    "Mvd.C19_panic_simple",
    "Mvd.C19_witness"
   ],
   "note": "None."
  },
  {
   "property": "C20",
   "status": "proved",
   "theorems": [
    "Mvd.C20_client_numbers"
   ],
   "note": "None."
  },
  {
   "property": "C21",
   "status": "proved",
   "theorems": [
    "Mvd.C21_partition",
    "Mvd.C21_failure",
    "Mvd.C21_infos",
    "Mvd.C21_client_fields"
   ],
   "note": "`quake_clientinfo::Clientinfo::from` is opaque."
  },
  {
   "property": "C22",
   "status": "proved",
   "theorems": [
    "Mvd.C22_names",
    "Mvd.C22_sorted",
    "Mvd.C22_team_names_nodup"
   ],
   "note": "`quake_text::unicode::sort` is a parameter assumed to permute its input (`C22_names`) and to place equal names next to each other (`C22_team_names_nodup`)."
  },
  {
   "property": "C23",
   "status": "proved",
   "theorems": [
    "Mvd.C23_bots_humans"
   ],
   "note": "None."
  },
  {
   "property": "C24",
   "status": "proved",
   "theorems": [
    "Mvd.C24_classification",
    "Mvd.C24_total",
    "Mvd.C24_rejects",
    "Mvd.C24_unique"
   ],
   "note": "None."
  },
  {
   "property": "C25",
   "status": "proved",
   "theorems": [
    "Mvd.C25_one_name",
    "Mvd.C25_two_names",
    "Mvd.C25_witnesses"
   ],
   "note": "Names without spaces; second names without apostrophe and not beginning with a one-word phrase. Witnesses show that these limits are needed."
  },
  {
   "property": "C26",
   "status": "proved",
   "theorems": [
    "Mvd.C26_release",
    "Mvd.C26_debug",
    "Mvd.C26_charges",
    "Mvd.C26_frags",
    "Mvd.C26_panic",
    "Mvd.C26_bound",
    "Mvd.C26_overflow_witness"
   ],
   "note": "`C26_frags` is for fewer than 2^30 charges (implied by data below 2 GiB, `C26_bound`); `C26_release` and `C26_debug` cover any number of charges. No cut-off frame."
  },
  {
   "property": "C27",
   "status": "proved",
   "theorems": [
    "Mvd.C27_only_medium_prints",
    "Mvd.C27_insert",
    "Mvd.C27_far"
   ],
   "note": "With anonymous teamkills the clients are assumed to be the same in both demos."
  },
  {
   "property": "C28",
   "status": "proved",
   "theorems": [
    "Mvd.C28_exact",
    "Mvd.C28_sound"
   ],
   "note": "The clients can be read."
  },
  {
   "property": "C29",
   "status": "proved",
   "theorems": [
    "Mvd.C29_classification",
    "Mvd.C29_total",
    "Mvd.C29_unique",
    "Mvd.C29_aggressive",
    "Mvd.C29_round_trip"
   ],
   "note": "None for the classification; `C29_round_trip` for names without spaces."
  },
  {
   "property": "C30",
   "status": "proved",
   "theorems": [
    "Mvd.C30_texts",
    "Mvd.C30_counts",
    "Mvd.C30_wraps",
    "Mvd.C30_panics",
    "Mvd.C30_few",
    "Mvd.C30_witness"
   ],
   "note": "Counters are `u8`: exact below 256, modulo 256 in release builds, panic with overflow checks; all three cases are proved."
  },
  {
   "property": "C31",
   "status": "proved",
   "theorems": [
    "Mvd.C31_only_flag_frames",
    "Mvd.C31_insert"
   ],
   "note": "None."
  },
  {
   "property": "C32",
   "status": "proved",
   "theorems": [
    "Mvd.C32_pings"
   ],
   "note": "Sample sums below 65536; C33 covers the rest."
  },
  {
   "property": "C33",
   "status": "proved",
   "theorems": [
    "Mvd.C33_wraps",
    "Mvd.C33_panics",
    "Mvd.C33_witness"
   ],
   "note": "None."
  },
  {
   "property": "C34",
   "status": "proved",
   "theorems": [
    "Mvd.C34_updates",
    "Mvd.C34_error",
    "Mvd.C34_players"
   ],
   "note": "None."
  },
  {
   "property": "C35",
   "status": "proved",
   "theorems": [
    "Mvd.C35_measured",
    "Mvd.C35_demo_duration",
    "Mvd.C35_demo_duration_accuracy",
    "Mvd.C35_all_frames",
    "Mvd.C35_overflow",
    "Mvd.C35_countdown_duration",
    "Mvd.C35_countdown_overflow",
    "Mvd.C35_no_countdown",
    "Mvd.C35_overflow_witness",
    "Mvd.C35_countdown_overflow_witness"
   ],
   "note": "Frames before the offset complete; totals below 2^32 ms (larger totals: `C35_overflow`, `C35_countdown_overflow`)."
  },
  {
   "property": "C36",
   "status": "proved",
   "theorems": [
    "Mvd.C36_conversion",
    "Mvd.C36_monotone",
    "Mvd.C36_accuracy",
    "Mvd.C36_accuracy_short"
   ],
   "note": "Single precision without exponent limits: the values (0 to 2^32) are far from overflow and subnormal numbers (C93)."
  },
  {
   "property": "C37",
   "status": "proved",
   "theorems": [
    "Mvd.C37_countdown_le_demo",
    "Mvd.C37_no_matchdate",
    "Mvd.C37_panic",
    "Mvd.C37_witness"
   ],
   "note": "Match date print before the end of the measurement; the witness shows a panic otherwise."
  },
  {
   "property": "C38",
   "status": "proved",
   "theorems": [
    "Mvd.C38_hoonymode"
   ],
   "note": "At least 1280 bytes."
  },
  {
   "property": "C39",
   "status": "proved",
   "theorems": [
    "Mvd.C39_recorded",
    "Mvd.C39_panic",
    "Mvd.C39_fallback",
    "Mvd.C39_unique",
    "Mvd.C39_stats_panic",
    "Mvd.C39_stats",
    "Mvd.C39_stats_errors",
    "Mvd.C39_witness"
   ],
   "note": "`str::parse::<f64>` is a parameter. At least 1280 bytes."
  },
  {
   "property": "C40",
   "status": "proved",
   "theorems": [
    "Mvd.C40_round_trip",
    "Mvd.C40_marker"
   ],
   "note": "Data below 2^63 bytes."
  },
  {
   "property": "C41",
   "status": "proved",
   "theorems": [
    "Mvd.C41_not_found",
    "Mvd.C41_outcome",
    "Mvd.C41_early",
    "Mvd.C41_reads",
    "Mvd.C41_reads_unique",
    "Mvd.C41_panic_iff",
    "Mvd.C41_ok_iff",
    "Mvd.C41_early_witness",
    "Mvd.C41_size_witness",
    "Mvd.C41_cut_witness",
    "Mvd.C41_gap_witness"
   ],
   "note": "Data below 2^63 bytes."
  },
  {
   "property": "C42",
   "status": "proved",
   "theorems": [
    "Mvd.C42_stats",
    "Mvd.C42_server",
    "Mvd.C42_no_server",
    "Mvd.C42_decimal_unique"
   ],
   "note": "`KtxstatsV3::try_from` is opaque."
  },
  {
   "property": "C43",
   "status": "proved",
   "theorems": [
    "Mvd.C43_from_stats",
    "Mvd.C43_from_messages",
    "Mvd.C43_panic"
   ],
   "note": "None."
  },
  {
   "property": "C44",
   "status": "proved",
   "theorems": [
    "Mvd.C44_from_stats",
    "Mvd.C44_unique",
    "Mvd.C44_ranked"
   ],
   "note": "The standard library's sort is assumed to be stable (documented)."
  },
  {
   "property": "C45",
   "status": "proved",
   "theorems": [
    "Mvd.C45_from_messages",
    "Mvd.C45_all",
    "Mvd.C45_failure"
   ],
   "note": "None."
  },
  {
   "property": "C46",
   "status": "proved",
   "theorems": [
    "Mvd.C46_deterministic",
    "Mvd.C46_failure",
    "Mvd.C46_witness"
   ],
   "note": "None."
  },
  {
   "property": "C47",
   "status": "proved",
   "theorems": [
    "Mvd.C47_conversion",
    "Mvd.C47_unique"
   ],
   "note": "None."
  },
  {
   "property": "C48",
   "status": "proved",
   "theorems": [
    "Mvd.C48_partition",
    "Mvd.C48_all",
    "Mvd.C48_demo",
    "Mvd.C48_stats"
   ],
   "note": "The call returns."
  },
  {
   "property": "C49",
   "status": "proved",
   "theorems": [
    "Mvd.C49_any_ping",
    "Mvd.C49_totals",
    "Mvd.C49_ping",
    "Mvd.C49_wraps",
    "Mvd.C49_conserved",
    "Mvd.C49_outcome",
    "Mvd.C49_overflow_witness",
    "Mvd.C49_ping_witness"
   ],
   "note": "`C49_totals`: sum of pings below 2^23 for the exact mean; `C49_any_ping`: any sum, through single precision (modulo 2^32 in release builds)."
  },
  {
   "property": "C50",
   "status": "proved",
   "theorems": [
    "Mvd.C50_order"
   ],
   "note": "`str::to_lowercase` is a parameter."
  },
  {
   "property": "C51",
   "status": "proved",
   "theorems": [
    "Mvd.C51_any_color",
    "Mvd.C51_wraps_witness",
    "Mvd.C51_color",
    "Mvd.C51_overflow_witness"
   ],
   "note": "None: `C51_any_color` says what happens when the 8-bit counters wrap."
  },
  {
   "property": "C52",
   "status": "proved",
   "theorems": [
    "Mvd.C52_deterministic",
    "Mvd.C52_panic",
    "Mvd.C52_teams",
    "Mvd.C52_from_stats",
    "Mvd.C52_color_witness",
    "Mvd.C52_order_witness"
   ],
   "note": "None."
  },
  {
   "property": "C53",
   "status": "proved",
   "theorems": [
    "Mvd.C53_abbreviation",
    "Mvd.C53_other",
    "Mvd.C53_functional",
    "Mvd.C53_shadowed",
    "Mvd.C53_denotes"
   ],
   "note": "None."
  },
  {
   "property": "C54",
   "status": "proved",
   "theorems": [
    "Mvd.C54_accepted",
    "Mvd.C54_total",
    "Mvd.C54_normalised",
    "Mvd.C54_denotes",
    "Mvd.C54_rejected",
    "Mvd.C54_witness"
   ],
   "note": "None."
  },
  {
   "property": "C55",
   "status": "proved",
   "theorems": [
    "Mvd.C55_no_newline",
    "Mvd.C55_text",
    "Mvd.C55_bad",
    "Mvd.C55_outcome",
    "Mvd.C55_missing"
   ],
   "note": "None."
  },
  {
   "property": "C56",
   "status": "proved",
   "theorems": [
    "Mvd.C56_no_text",
    "Mvd.C56_conversion",
    "Mvd.C56_unknown_zone",
    "Mvd.C56_panic_iff",
    "Mvd.C56_instant",
    "Mvd.C56_panic_witness"
   ],
   "note": "`C56_instant` assumes `ReadsDates`: chrono parses `YYYY-MM-DD HH:MM:SS±hh:mm` to the instant it denotes."
  },
  {
   "property": "C57",
   "status": "proved",
   "theorems": [
    "Mvd.C57_epoch",
    "Mvd.C57_epoch_exact",
    "Mvd.C57_matchdate",
    "Mvd.C57_short",
    "Mvd.C57_example"
   ],
   "note": "None."
  },
  {
   "property": "C58",
   "status": "proved",
   "theorems": [
    "Mvd.C58_byte",
    "Mvd.C58_u16",
    "Mvd.C58_u32",
    "Mvd.C58_string",
    "Mvd.C58_print",
    "Mvd.C58_updates",
    "Mvd.C58_message_errors",
    "Mvd.C58_message_number",
    "Mvd.C58_print_number",
    "Mvd.C58_hidden_number",
    "Mvd.C58_frame_number"
   ],
   "note": "None."
  },
  {
   "property": "C59",
   "status": "proved",
   "theorems": [
    "Mvd.C59_eof"
   ],
   "note": "None."
  },
  {
   "property": "C60",
   "status": "proved",
   "theorems": [
    "Mvd.C60_same",
    "Mvd.C60_independent"
   ],
   "note": "None."
  },
  {
   "property": "C61",
   "status": "proved",
   "theorems": [
    "Mvd.C61_frags_closed",
    "Mvd.C61_prints",
    "Mvd.C61_frags",
    "Mvd.C61_flags"
   ],
   "note": "Frags: data below 2 GiB; with anonymous teamkills two or more frames with content follow each one before the new frames. Flags: counters below 256."
  },
  {
   "property": "C62",
   "status": "proved",
   "theorems": [
    "Mvd.C62_without_stats"
   ],
   "note": "At most 256 clients, no readable match stats."
  },
  {
   "property": "C63",
   "status": "proved",
   "theorems": [
    "Mvd.C63_client_strings",
    "Mvd.C63_clients"
   ],
   "note": "13056 bytes present from the spawn command on."
  },
  {
   "property": "C64",
   "status": "proved",
   "theorems": [
    "Mvd.C64_fits",
    "Mvd.C64_release",
    "Mvd.C64_checked"
   ],
   "note": "Conditions `CompleteDemo`; with overflow checks also bounds on the counters."
  },
  {
   "property": "C65",
   "status": "proved",
   "theorems": [
    "Mvd.C65_total",
    "Mvd.C65_bounds"
   ],
   "note": "As C26."
  },
  {
   "property": "C66",
   "status": "proved",
   "theorems": [
    "Mvd.C66_prints",
    "Mvd.C66_flags",
    "Mvd.C66_pings",
    "Mvd.C66_frags"
   ],
   "note": "Equal results are proved, panics included; demos that stop in a cut-off frame are C06. Equality of the client lists is a hypothesis for the scores, because the client scan searches raw bytes."
  },
  {
   "property": "C67",
   "status": "proved",
   "theorems": [
    "Mvd.C67_window",
    "Mvd.C67_later"
   ],
   "note": "Includes overflow outcomes. For cut-off demos see C06."
  },
  {
   "property": "C68",
   "status": "proved",
   "theorems": [
    "Mvd.C68_obituary",
    "Mvd.C68_two_names",
    "Mvd.C68_one_name",
    "Mvd.C68_flag",
    "Mvd.C68_obituary_closed"
   ],
   "note": "With anonymous teamkills two or more frames with content follow each one before the inserted frame (`C68_obituary_closed`). Flags: the counter shown before is below 255 (C30 says what happens then)."
  },
  {
   "property": "C69",
   "status": "proved",
   "theorems": [
    "Mvd.C69_frags_closed",
    "Mvd.C69_frags",
    "Mvd.C69_flags"
   ],
   "note": "Scores: demos below 2 GB; frames without anonymous teamkills (`C69_frags`) or parts that contain the frames searched (`C69_frags_closed`)."
  },
  {
   "property": "C70",
   "status": "proved",
   "theorems": [
    "Mvd.C70_header",
    "Mvd.C70_matchdate",
    "Mvd.C70_aborted",
    "Mvd.C70_countdown"
   ],
   "note": "At least 1280 bytes before (below, the serverinfo panics: C15). The countdown theorem appends whole frames."
  },
  {
   "property": "C71",
   "status": "proved",
   "theorems": [
    "Mvd.C71_valid_local"
   ],
   "note": "Panics included: the equation is between outcomes."
  },
  {
   "property": "C72",
   "status": "proved",
   "theorems": [
    "Mvd.C72_settled",
    "Mvd.C72_monotone"
   ],
   "note": "The monotonicity needs totals below 2^32 ms; the first theorem covers all outcomes."
  },
  {
   "property": "C73",
   "status": "proved",
   "theorems": [
    "Mvd.C73_scores"
   ],
   "note": "Without anonymous teamkills (C28) and for data below 2 GB."
  },
  {
   "property": "C74",
   "status": "proved",
   "theorems": [
    "Mvd.C74_frag_names",
    "Mvd.C74_flag_names"
   ],
   "note": "For demos that split into frames; others report nothing (C06)."
  },
  {
   "property": "C75",
   "status": "proved",
   "theorems": [
    "Mvd.C75_clients",
    "Mvd.C75_people",
    "Mvd.C75_players",
    "Mvd.C75_teams",
    "Mvd.C75_stats",
    "Mvd.C75_prints",
    "Mvd.C75_frags",
    "Mvd.C75_flags",
    "Mvd.C75_durations"
   ],
   "note": "Durations up to the conversion of C36."
  },
  {
   "property": "C76",
   "status": "proved",
   "theorems": [
    "Mvd.C76_counts",
    "Mvd.C76_witness"
   ],
   "note": "A witness shows that the second of two whole messages in one frame is not counted. Counters wrap at 256 (C30)."
  },
  {
   "property": "C77",
   "status": "proved",
   "theorems": [
    "Mvd.C77_players"
   ],
   "note": "Without anonymous teamkills; some ping must have been sampled, otherwise the report fails."
  },
  {
   "property": "C78",
   "status": "proved",
   "theorems": [
    "Mvd.C78_teams",
    "Mvd.C78_found"
   ],
   "note": "As C77. Two players of the same name are both given the score of the name."
  },
  {
   "property": "C79",
   "status": "proved",
   "theorems": [
    "Mvd.C79_frags",
    "Mvd.C79_flags",
    "Mvd.C79_pings",
    "Mvd.C79_clients",
    "Mvd.C79_players",
    "Mvd.C79_teams",
    "Mvd.C79_durations"
   ],
   "note": "For players from match stats the numbers are those of the decoded JSON, which have these types (hypothesis `StatsInRange`)."
  },
  {
   "property": "C80",
   "status": "proved",
   "theorems": [
    "Mvd.C80_frags_closed",
    "Mvd.C80_flags",
    "Mvd.C80_duration",
    "Mvd.C80_frags"
   ],
   "note": "No anonymous teamkill is open before the frame (`C80_frags_closed`); C94 covers the other frames with a larger bound. The replacement has to keep the framing intact."
  },
  {
   "property": "C81",
   "status": "proved",
   "theorems": [
    "Mvd.C81_player",
    "Mvd.C81_team"
   ],
   "note": "Larger sums overflow (C33) or lose precision (C49)."
  },
  {
   "property": "C82",
   "status": "proved",
   "theorems": [
    "Mvd.C82_prints",
    "Mvd.C82_frags",
    "Mvd.C82_flags",
    "Mvd.C82_pings",
    "Mvd.C82_duration"
   ],
   "note": "The text conversion has to read single bytes back as the characters they encode. Flag counts below 256, ping sums below 65536, durations for recordings without end-of-match print and standby. Anonymous teamkills are not written. The recorder is idealised: no demo in the repository has this form (see Hypotheses and real demos)."
  },
  {
   "property": "C83",
   "status": "proved",
   "theorems": [
    "Mvd.C83_serverinfo",
    "Mvd.C83_clients",
    "Mvd.C83_valid",
    "Mvd.C83_frags",
    "Mvd.C83_prints",
    "Mvd.C83_flags",
    "Mvd.C83_duration",
    "Mvd.C83_players",
    "Mvd.C83_teams"
   ],
   "note": "The text conversion has to read single bytes back. The match must not contain the key `\\name\\`. For flags, the word `flag` must not be in serverinfo and userinfo; for the duration and players no end-of-match print, standby and stats marker. The recorder is idealised: no demo in the repository has this form (see Hypotheses and real demos)."
  },
  {
   "property": "C84",
   "status": "proved",
   "theorems": [
    "Mvd.C84_one_name",
    "Mvd.C84_two_names",
    "Mvd.C84_plain",
    "Mvd.C84_flags",
    "Mvd.C84_witnesses"
   ],
   "note": "The condition for obituaries is sufficient, not necessary. C111 gives the condition that is both, for players who appear at both places, and shows that the one for flag messages is; the exact condition for every text is C24."
  },
  {
   "property": "C85",
   "status": "proved",
   "theorems": [
    "Mvd.C85_carries",
    "Mvd.C85_text",
    "Mvd.C85_stats",
    "Mvd.C85_proper",
    "Mvd.C85_undisturbed",
    "Mvd.C85_witness"
   ],
   "note": "Stats in the middle of a match are covered by C40, not by C85. JSON parsing is an uninterpreted function of the environment. The recorder is idealised: no demo in the repository has this form (see Hypotheses and real demos)."
  },
  {
   "property": "C86",
   "status": "proved",
   "theorems": [
    "Mvd.C86_date",
    "Mvd.C86_instant",
    "Mvd.C86_countdown",
    "Mvd.C86_demo",
    "Mvd.C86_match",
    "Mvd.C86_hoonymode",
    "Mvd.C86_recorded",
    "Mvd.C86_timestamp"
   ],
   "note": "Assumes that the environment reads dates (ReadsDates, as in C56). Announcements to all players only. The recorder is idealised: no demo in the repository has this form (see Hypotheses and real demos)."
  },
  {
   "property": "C87",
   "status": "proved",
   "theorems": [
    "Mvd.C87_demo_duration",
    "Mvd.C87_countdown_duration",
    "Mvd.C87_seeking",
    "Mvd.C87_match_duration",
    "Mvd.C87_flags",
    "Mvd.C87_frags",
    "Mvd.C87_pings",
    "Mvd.C87_players",
    "Mvd.C87_teams",
    "Mvd.C87_timestamp",
    "Mvd.C87_witness"
   ],
   "note": "The composed calls are characterised by those they call; for clients and the match stats see C18, C19, C40-C42."
  },
  {
   "property": "C88",
   "status": "proved",
   "theorems": [
    "Mvd.C88_scores",
    "Mvd.C88_players",
    "Mvd.C88_teams",
    "Mvd.C88_found",
    "Mvd.C88_witness"
   ],
   "note": "A witness shows that another team mate is charged when the score update of that mate comes first, and nobody when the update comes later."
  },
  {
   "property": "C89",
   "status": "proved",
   "theorems": [
    "Mvd.C89_words",
    "Mvd.C89_verdicts",
    "Mvd.C89_frags",
    "Mvd.C89_flags",
    "Mvd.C89_pings",
    "Mvd.C89_duration",
    "Mvd.C89_header",
    "Mvd.C89_countdown",
    "Mvd.C89_matchdate",
    "Mvd.C89_stats",
    "Mvd.C89_frags_unknown",
    "Mvd.C89_match",
    "Mvd.C89_words_witness",
    "Mvd.C89_time",
    "Mvd.C89_match_time",
    "Mvd.C89_many_time",
    "Mvd.C89_many",
    "Mvd.C89_many_header",
    "Mvd.C89_many_match",
    "Mvd.C89_unknown_witness"
   ],
   "note": "That no text lies across a border is a hypothesis; all 2231 frames of chat in the repository's demos meet it (`tools/hypotheses.py`). Scores when chat comes among the two frames with content after an anonymous teamkill are not covered; `C89_unknown_witness` shows that they can change. The list of prints, which contains the chat, is the subject of C04."
  },
  {
   "property": "C90",
   "status": "proved",
   "theorems": [
    "Mvd.C90_players",
    "Mvd.C90_teams",
    "Mvd.C90_recording"
   ],
   "note": "Pings, colors and logins are not compared: the stats have their own."
  },
  {
   "property": "C91",
   "status": "proved",
   "theorems": [
    "Mvd.C91_occurs",
    "Mvd.C91_frag_event",
    "Mvd.C91_flag_event",
    "Mvd.C91_suffix",
    "Mvd.C91_classification"
   ],
   "note": "This removes the assumption that searching characters and searching bytes agree from the trusted base."
  },
  {
   "property": "C92",
   "status": "proved",
   "theorems": [
    "Mvd.C92_frames",
    "Mvd.C92_frames_32",
    "Mvd.C92_durations",
    "Mvd.C92_offsets_between",
    "Mvd.C92_serverinfo",
    "Mvd.C92_clients",
    "Mvd.C92_matchdate",
    "Mvd.C92_end",
    "Mvd.C92_witness_32",
    "Mvd.C92_stats",
    "Mvd.C92_stats_32",
    "Mvd.C92_stats_witness"
   ],
   "note": "Stats blocks are modelled with 64-bit arithmetic that may wrap from the beginning (C41); Model/Width.lean has them with any width."
  },
  {
   "property": "C93",
   "status": "proved",
   "theorems": [
    "Mvd.C93_cast",
    "Mvd.C93_quotient",
    "Mvd.C93_round"
   ],
   "note": "This removes the restriction to normal numbers from the trusted base."
  },
  {
   "property": "C94",
   "status": "proved",
   "theorems": [
    "Mvd.C94_frags_closed",
    "Mvd.C94_frags",
    "Mvd.C94_frags_named",
    "Mvd.C94_flags",
    "Mvd.C94_pings",
    "Mvd.C94_duration",
    "Mvd.C94_clients",
    "Mvd.C94_stats",
    "Mvd.C94_witness"
   ],
   "note": "The bound for the scores needs the same clients in both demos, which C94_clients gives for damage after the client strings. C94_witness shows a case in which the bound is reached."
  },
  {
   "property": "C95",
   "status": "proved",
   "theorems": [
    "Mvd.C95_prints",
    "Mvd.C95_flags",
    "Mvd.C95_pings",
    "Mvd.C95_frags",
    "Mvd.C95_witness"
   ],
   "note": "Demos that stop in a cut-off frame are C06. Equality of the clients is a hypothesis for the scores, because the client scan searches raw bytes (C94_clients gives it for changes after the client strings)."
  },
  {
   "property": "C96",
   "status": "proved",
   "theorems": [
    "Mvd.C96_cut",
    "Mvd.C96_prefix",
    "Mvd.C96_invalid",
    "Mvd.C96_shorter",
    "Mvd.C96_settled"
   ],
   "note": "The scores need the same clients, which C63 gives for cuts after the client strings."
  },
  {
   "property": "C97",
   "status": "proved",
   "theorems": [
    "Mvd.C97_header",
    "Mvd.C97_clients",
    "Mvd.C97_valid",
    "Mvd.C97_scores",
    "Mvd.C97_players",
    "Mvd.C97_teams",
    "Mvd.C97_stats",
    "Mvd.C97_date",
    "Mvd.C97_recorded",
    "Mvd.C97_times",
    "Mvd.C97_hoonymode",
    "Mvd.C97_lineup"
   ],
   "note": "serverinfo and userinfo strings, stats text and dates are parsed by external crates. The seven demos of the repository meet the hypotheses (see Hypotheses and real demos)."
  },
  {
   "property": "C98",
   "status": "proved",
   "theorems": [
    "Mvd.C98_valid",
    "Mvd.C98_unicode",
    "Mvd.C98_utf8",
    "Mvd.C98_sort",
    "Mvd.C98_settings",
    "Mvd.C98_clientinfo",
    "Mvd.C98_ktxstats",
    "Mvd.C98_lowercase",
    "Mvd.C98_float",
    "Mvd.C98_profile",
    "Mvd.C98_std",
    "Mvd.C98_date"
   ],
   "note": "A dependency that panics, does not terminate or has side effects is outside the model: `Env` fields are total functions."
  },
  {
   "property": "C99",
   "status": "proved",
   "theorems": [
    "Mvd.C99_longer",
    "Mvd.C99_longer_countdown",
    "Mvd.C99_demo",
    "Mvd.C99_countdown",
    "Mvd.C99_match"
   ],
   "note": "Demos of whole frames (`Stops`); the recorded duration of match stats is C39."
  },
  {
   "property": "C100",
   "status": "proved",
   "theorems": [
    "Mvd.C100_order",
    "Mvd.C100_zones"
   ],
   "note": "`chrono` is assumed to read existing dates correctly (`ReadsDates`), which is shown to be satisfiable."
  },
  {
   "property": "C101",
   "status": "proved",
   "theorems": [
    "Mvd.C101_scores",
    "Mvd.C101_teams"
   ],
   "note": "With match stats, players come from the stats (C97_stats); teams then are the stats' business. Names must be such that messages about them can be understood (`FirstName`, `SecondName` in the definition of `Says`)."
  },
  {
   "property": "C102",
   "status": "proved",
   "theorems": [
    "Mvd.C102_walk",
    "Mvd.C102_searches",
    "Mvd.C102_clients",
    "Mvd.C102_messages",
    "Mvd.C102_blocks"
   ],
   "note": "What a round costs is not modelled: searches in byte strings and texts count as one step. In particular every anonymous teamkill with a score update nearby lets `clients` look for the spawn command from the beginning of the data (frags.rs:121), so a demo with many of these and a late or no spawn command takes time proportional to the number of teamkills times the size."
  },
  {
   "property": "C103",
   "status": "proved",
   "theorems": [
    "Mvd.C103_clients",
    "Mvd.C103_names",
    "Mvd.C103_match",
    "Mvd.C103_players",
    "Mvd.C103_pings",
    "Mvd.C103_teams",
    "Mvd.C103_settings"
   ],
   "note": "The parsers `quake_clientinfo` and `quake_serverinfo` are dependencies whose source is not in /repo. That they find the entries name, team, topcolor, bottomcolor, *spectator, *bot, mode, serverdemo and epoch is a hypothesis (`ReadsUserinfo`, `ReadsServerinfo`), and a parser that does is defined beside the theorems. Its keys are those that appear in the unit tests of /repo. *auth and *flag are left out."
  },
  {
   "property": "C104",
   "status": "proved",
   "theorems": [
    "Mvd.C104_exact",
    "Mvd.C104_close",
    "Mvd.C104_panic",
    "Mvd.C104_tiny",
    "Mvd.C104_other",
    "Mvd.C104_witness"
   ],
   "note": "`str::parse::<f64>` is part of the standard library, not of /repo: the model follows its documentation, to the nearest number and ties to even, with no limit on the exponent."
  },
  {
   "property": "C105",
   "status": "proved",
   "theorems": [
    "Mvd.C105_players",
    "Mvd.C105_teams",
    "Mvd.C105_witness"
   ],
   "note": "Match statistics are left out: with them the players come from there (C43)."
  },
  {
   "property": "C106",
   "status": "proved",
   "theorems": [
    "Mvd.C106_players",
    "Mvd.C106_teams",
    "Mvd.C106_found",
    "Mvd.C106_duration",
    "Mvd.C106_witness"
   ],
   "note": "The parser of the statistics (ktxstats crate) is a dependency. The total of the pings in the statistics may overflow, so `C106_teams` assumes that both calls succeed; `C106_found` gives a condition for that."
  },
  {
   "property": "C107",
   "status": "proved",
   "theorems": [
    "Mvd.C107_served",
    "Mvd.C107_every_match",
    "Mvd.C107_read_back"
   ],
   "note": "Demo times are converted to single precision as stated in C36, countdown and demo durations are therefore given by `Converted`. Names of players are as in C97 those that can be recognised in obituaries."
  },
  {
   "property": "C108",
   "status": "proved",
   "theorems": [
    "Mvd.C108_cut",
    "Mvd.C108_read_back"
   ],
   "note": "Durations as in C39 and C107. The text must not contain the key \\name\\, because such a text could be taken for a userinfo string."
  },
  {
   "property": "C109",
   "status": "proved",
   "theorems": [
    "Mvd.C109_parts",
    "Mvd.C109_frags",
    "Mvd.C109_flags",
    "Mvd.C109_pings",
    "Mvd.C109_row"
   ],
   "note": "The name occurs in a message if it is a part of its text; short names such as \"a\" occur in most messages."
  },
  {
   "property": "C110",
   "status": "proved",
   "theorems": [
    "Mvd.C110_prints",
    "Mvd.C110_pings",
    "Mvd.C110_duration",
    "Mvd.C110_serverinfo",
    "Mvd.C110_matchdate",
    "Mvd.C110_verdicts",
    "Mvd.C110_ranking"
   ],
   "note": "Demos are constructed as bytes; whether a server would write them is not asked."
  },
  {
   "property": "C111",
   "status": "proved",
   "theorems": [
    "Mvd.C111_clear",
    "Mvd.C111_unambiguous",
    "Mvd.C111_name",
    "Mvd.C111_known",
    "Mvd.C111_flags",
    "Mvd.C111_clear_names",
    "Mvd.C111_says",
    "Mvd.C111_unclear_names",
    "Mvd.C111_misunderstood",
    "Mvd.C111_ambiguous",
    "Mvd.C111_flag_names"
   ],
   "note": "Messages are taken as whole texts."
  },
  {
   "property": "C112",
   "status": "proved",
   "theorems": [
    "Mvd.C112_prints",
    "Mvd.C112_pings",
    "Mvd.C112_flags",
    "Mvd.C112_frags",
    "Mvd.C112_obituary"
   ],
   "note": "Pieces of messages are not moved; times of frames, places of texts and client strings, which are not read by frames, are not considered here (C99, C63)."
  },
  {
   "property": "C113",
   "status": "proved",
   "theorems": [
    "Mvd.C113_row",
    "Mvd.C113_rows",
    "Mvd.C113_leave",
    "Mvd.C113_regroup",
    "Mvd.C113_ranking",
    "Mvd.C113_stats",
    "Mvd.C113_order_witness"
   ],
   "note": "With lower-cased names that coincide the order of the teams is up to chance (C52)."
  },
  {
   "property": "C114",
   "status": "proved",
   "theorems": [
    "Mvd.C114_paused",
    "Mvd.C114_bots",
    "Mvd.C114_aborted",
    "Mvd.C114_duration",
    "Mvd.C114_duration_kept",
    "Mvd.C114_matchdate",
    "Mvd.C114_stats",
    "Mvd.C114_hidden",
    "Mvd.C114_typed",
    "Mvd.C114_witness"
   ],
   "note": "`C114_hidden` assumes that the JSON reader rejects the empty text, as serde_json does. `C114_stats` needs eleven bytes of other frames before the message and a demo of less than 2^63 bytes. What chat does not change at all is C89."
  },
  {
   "property": "C115",
   "status": "proved",
   "theorems": [
    "Mvd.C115_first",
    "Mvd.C115_second",
    "Mvd.C115_verdicts",
    "Mvd.C115_duration",
    "Mvd.C115_pings",
    "Mvd.C115_witness"
   ],
   "note": "Scores and flag counters add up by C61."
  }
 ]
}