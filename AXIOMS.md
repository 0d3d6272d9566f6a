# Axioms per theorem

Printed by `#print axioms` (regenerate with `tools/axioms.py`).

## Classical.choice, Quot.sound, propext

* `Mvd.C01_terminates`
* `Mvd.C01_terminates_other`
* `Mvd.C01_frame_loop`
* `Mvd.C01_message_loops`
* `Mvd.C01_client_scan`
* `Mvd.C02_frame_walk`
* `Mvd.C02_frame_walk_whole`
* `Mvd.C02_frame_at`
* `Mvd.C03_unique_split`
* `Mvd.C03_remainder`
* `Mvd.C03_walk_any`
* `Mvd.C04_prints`
* `Mvd.C04_leading_prints`
* `Mvd.C04_collapse_unique`
* `Mvd.C05_print_shape`
* `Mvd.C06_demo_duration`
* `Mvd.C06_countdown_duration`
* `Mvd.C06_match_duration`
* `Mvd.C06_flags`
* `Mvd.C06_frags`
* `Mvd.C06_ping`
* `Mvd.C06_ping_enough`
* `Mvd.C06_prints`
* `Mvd.C07_offsets_between`
* `Mvd.C07_no_range`
* `Mvd.C08_is_aborted`
* `Mvd.C09_end_of_demo`
* `Mvd.C10_is_paused`
* `Mvd.C12_valid`
* `Mvd.C12_exact`
* `Mvd.C13_valid_panics`
* `Mvd.C14_serverinfo_string`
* `Mvd.C14_serverinfo_error`
* `Mvd.C14_serverinfo_local`
* `Mvd.C15_short_data`
* `Mvd.C15_short_data_derived`
* `Mvd.C16_filename`
* `Mvd.C16_filename_errors`
* `Mvd.C17_client_strings`
* `Mvd.C17_exact`
* `Mvd.C18_finds_every_client`
* `Mvd.C19_bound`
* `Mvd.C19_error`
* `Mvd.C19_panic`
* `Mvd.C19_panic_simple`
* `Mvd.C22_names`
* `Mvd.C22_team_names_nodup`
* `Mvd.C23_bots_humans`
* `Mvd.C24_classification`
* `Mvd.C24_total`
* `Mvd.C24_rejects`
* `Mvd.C24_unique`
* `Mvd.C25_one_name`
* `Mvd.C25_two_names`
* `Mvd.C26_release`
* `Mvd.C26_debug`
* `Mvd.C26_charges`
* `Mvd.C26_frags`
* `Mvd.C26_panic`
* `Mvd.C26_bound`
* `Mvd.C26_overflow_witness`
* `Mvd.C27_only_medium_prints`
* `Mvd.C27_insert`
* `Mvd.C27_far`
* `Mvd.C28_exact`
* `Mvd.C28_sound`
* `Mvd.C29_classification`
* `Mvd.C29_total`
* `Mvd.C29_unique`
* `Mvd.C29_aggressive`
* `Mvd.C29_round_trip`
* `Mvd.C30_texts`
* `Mvd.C30_counts`
* `Mvd.C30_wraps`
* `Mvd.C30_panics`
* `Mvd.C30_few`
* `Mvd.C30_witness`
* `Mvd.C31_only_flag_frames`
* `Mvd.C31_insert`
* `Mvd.C32_pings`
* `Mvd.C33_wraps`
* `Mvd.C33_panics`
* `Mvd.C33_witness`
* `Mvd.C34_updates`
* `Mvd.C34_error`
* `Mvd.C34_players`
* `Mvd.C35_measured`
* `Mvd.C35_demo_duration`
* `Mvd.C35_demo_duration_accuracy`
* `Mvd.C35_all_frames`
* `Mvd.C35_overflow`
* `Mvd.C35_countdown_duration`
* `Mvd.C35_countdown_overflow`
* `Mvd.C35_no_countdown`
* `Mvd.C35_overflow_witness`
* `Mvd.C35_countdown_overflow_witness`
* `Mvd.C36_conversion`
* `Mvd.C36_monotone`
* `Mvd.C36_accuracy`
* `Mvd.C36_accuracy_short`
* `Mvd.C37_countdown_le_demo`
* `Mvd.C37_no_matchdate`
* `Mvd.C37_panic`
* `Mvd.C37_witness`
* `Mvd.C38_hoonymode`
* `Mvd.C39_recorded`
* `Mvd.C39_panic`
* `Mvd.C39_fallback`
* `Mvd.C39_unique`
* `Mvd.C39_stats_panic`
* `Mvd.C39_stats`
* `Mvd.C39_stats_errors`
* `Mvd.C39_witness`
* `Mvd.C40_round_trip`
* `Mvd.C40_marker`
* `Mvd.C41_not_found`
* `Mvd.C41_outcome`
* `Mvd.C41_early`
* `Mvd.C41_reads`
* `Mvd.C41_reads_unique`
* `Mvd.C41_panic_iff`
* `Mvd.C41_ok_iff`
* `Mvd.C42_server`
* `Mvd.C42_decimal_unique`
* `Mvd.C43_from_stats`
* `Mvd.C43_from_messages`
* `Mvd.C43_panic`
* `Mvd.C44_from_stats`
* `Mvd.C44_unique`
* `Mvd.C44_ranked`
* `Mvd.C45_from_messages`
* `Mvd.C45_failure`
* `Mvd.C46_deterministic`
* `Mvd.C46_failure`
* `Mvd.C46_witness`
* `Mvd.C48_partition`
* `Mvd.C48_all`
* `Mvd.C48_demo`
* `Mvd.C48_stats`
* `Mvd.C49_any_ping`
* `Mvd.C49_totals`
* `Mvd.C49_ping`
* `Mvd.C49_wraps`
* `Mvd.C49_conserved`
* `Mvd.C49_outcome`
* `Mvd.C49_overflow_witness`
* `Mvd.C49_ping_witness`
* `Mvd.C50_order`
* `Mvd.C51_any_color`
* `Mvd.C51_wraps_witness`
* `Mvd.C51_color`
* `Mvd.C51_overflow_witness`
* `Mvd.C52_deterministic`
* `Mvd.C52_panic`
* `Mvd.C52_teams`
* `Mvd.C52_from_stats`
* `Mvd.C52_color_witness`
* `Mvd.C52_order_witness`
* `Mvd.C53_abbreviation`
* `Mvd.C53_other`
* `Mvd.C53_functional`
* `Mvd.C54_accepted`
* `Mvd.C54_total`
* `Mvd.C54_normalised`
* `Mvd.C54_rejected`
* `Mvd.C55_no_newline`
* `Mvd.C55_text`
* `Mvd.C55_bad`
* `Mvd.C55_outcome`
* `Mvd.C55_missing`
* `Mvd.C56_conversion`
* `Mvd.C56_unknown_zone`
* `Mvd.C56_panic_iff`
* `Mvd.C56_instant`
* `Mvd.C57_epoch`
* `Mvd.C57_epoch_exact`
* `Mvd.C57_matchdate`
* `Mvd.C57_short`
* `Mvd.C58_byte`
* `Mvd.C58_u16`
* `Mvd.C58_u32`
* `Mvd.C58_string`
* `Mvd.C58_print`
* `Mvd.C58_updates`
* `Mvd.C58_message_errors`
* `Mvd.C59_eof`
* `Mvd.C60_same`
* `Mvd.C61_frags_closed`
* `Mvd.C61_prints`
* `Mvd.C61_frags`
* `Mvd.C61_flags`
* `Mvd.C62_without_stats`
* `Mvd.C63_client_strings`
* `Mvd.C63_clients`
* `Mvd.C64_fits`
* `Mvd.C64_release`
* `Mvd.C64_checked`
* `Mvd.C65_total`
* `Mvd.C65_bounds`
* `Mvd.C66_prints`
* `Mvd.C66_flags`
* `Mvd.C66_pings`
* `Mvd.C66_frags`
* `Mvd.C67_window`
* `Mvd.C67_later`
* `Mvd.C68_obituary`
* `Mvd.C68_two_names`
* `Mvd.C68_one_name`
* `Mvd.C68_flag`
* `Mvd.C68_obituary_closed`
* `Mvd.C69_frags_closed`
* `Mvd.C69_frags`
* `Mvd.C69_flags`
* `Mvd.C70_header`
* `Mvd.C70_matchdate`
* `Mvd.C70_aborted`
* `Mvd.C70_countdown`
* `Mvd.C71_valid_local`
* `Mvd.C72_settled`
* `Mvd.C72_monotone`
* `Mvd.C73_scores`
* `Mvd.C74_frag_names`
* `Mvd.C74_flag_names`
* `Mvd.C75_clients`
* `Mvd.C75_people`
* `Mvd.C75_players`
* `Mvd.C75_teams`
* `Mvd.C75_stats`
* `Mvd.C75_prints`
* `Mvd.C75_frags`
* `Mvd.C75_flags`
* `Mvd.C75_durations`
* `Mvd.C76_counts`
* `Mvd.C77_players`
* `Mvd.C78_teams`
* `Mvd.C78_found`
* `Mvd.C79_frags`
* `Mvd.C79_pings`
* `Mvd.C79_players`
* `Mvd.C79_teams`
* `Mvd.C79_durations`
* `Mvd.C80_frags_closed`
* `Mvd.C80_flags`
* `Mvd.C80_duration`
* `Mvd.C80_frags`
* `Mvd.C81_player`
* `Mvd.C81_team`
* `Mvd.C82_prints`
* `Mvd.C82_frags`
* `Mvd.C82_flags`
* `Mvd.C82_pings`
* `Mvd.C82_duration`
* `Mvd.C83_serverinfo`
* `Mvd.C83_clients`
* `Mvd.C83_valid`
* `Mvd.C83_frags`
* `Mvd.C83_prints`
* `Mvd.C83_flags`
* `Mvd.C83_duration`
* `Mvd.C83_players`
* `Mvd.C83_teams`
* `Mvd.C84_one_name`
* `Mvd.C84_two_names`
* `Mvd.C84_flags`
* `Mvd.C85_carries`
* `Mvd.C85_text`
* `Mvd.C85_stats`
* `Mvd.C85_proper`
* `Mvd.C85_undisturbed`
* `Mvd.C85_witness`
* `Mvd.C86_date`
* `Mvd.C86_instant`
* `Mvd.C86_countdown`
* `Mvd.C86_demo`
* `Mvd.C86_match`
* `Mvd.C86_hoonymode`
* `Mvd.C86_recorded`
* `Mvd.C86_timestamp`
* `Mvd.C87_demo_duration`
* `Mvd.C87_countdown_duration`
* `Mvd.C87_seeking`
* `Mvd.C87_match_duration`
* `Mvd.C87_flags`
* `Mvd.C87_frags`
* `Mvd.C87_pings`
* `Mvd.C87_players`
* `Mvd.C87_teams`
* `Mvd.C87_timestamp`
* `Mvd.C87_witness`
* `Mvd.C88_scores`
* `Mvd.C88_players`
* `Mvd.C88_teams`
* `Mvd.C88_found`
* `Mvd.C89_words`
* `Mvd.C89_verdicts`
* `Mvd.C89_frags`
* `Mvd.C89_flags`
* `Mvd.C89_pings`
* `Mvd.C89_duration`
* `Mvd.C89_header`
* `Mvd.C89_countdown`
* `Mvd.C89_matchdate`
* `Mvd.C89_stats`
* `Mvd.C89_frags_unknown`
* `Mvd.C89_match`
* `Mvd.C89_words_witness`
* `Mvd.C89_time`
* `Mvd.C89_match_time`
* `Mvd.C89_many_time`
* `Mvd.C89_many`
* `Mvd.C89_many_header`
* `Mvd.C89_many_match`
* `Mvd.C90_players`
* `Mvd.C90_teams`
* `Mvd.C90_recording`
* `Mvd.C91_occurs`
* `Mvd.C91_frag_event`
* `Mvd.C91_flag_event`
* `Mvd.C91_suffix`
* `Mvd.C91_classification`
* `Mvd.C92_frames`
* `Mvd.C92_frames_32`
* `Mvd.C92_durations`
* `Mvd.C92_offsets_between`
* `Mvd.C92_serverinfo`
* `Mvd.C92_clients`
* `Mvd.C92_matchdate`
* `Mvd.C92_stats_32`
* `Mvd.C93_cast`
* `Mvd.C93_quotient`
* `Mvd.C93_round`
* `Mvd.C94_frags_closed`
* `Mvd.C94_frags`
* `Mvd.C94_frags_named`
* `Mvd.C94_flags`
* `Mvd.C94_pings`
* `Mvd.C94_duration`
* `Mvd.C94_clients`
* `Mvd.C94_stats`
* `Mvd.C95_prints`
* `Mvd.C95_flags`
* `Mvd.C95_pings`
* `Mvd.C95_frags`
* `Mvd.C96_cut`
* `Mvd.C96_prefix`
* `Mvd.C96_invalid`
* `Mvd.C96_shorter`
* `Mvd.C96_settled`
* `Mvd.C97_header`
* `Mvd.C97_clients`
* `Mvd.C97_valid`
* `Mvd.C97_scores`
* `Mvd.C97_players`
* `Mvd.C97_teams`
* `Mvd.C97_stats`
* `Mvd.C97_date`
* `Mvd.C97_recorded`
* `Mvd.C97_times`
* `Mvd.C97_hoonymode`
* `Mvd.C97_lineup`
* `Mvd.C98_valid`
* `Mvd.C98_unicode`
* `Mvd.C98_utf8`
* `Mvd.C98_sort`
* `Mvd.C98_settings`
* `Mvd.C98_clientinfo`
* `Mvd.C98_ktxstats`
* `Mvd.C98_lowercase`
* `Mvd.C98_float`
* `Mvd.C98_profile`
* `Mvd.C98_std`
* `Mvd.C98_date`
* `Mvd.C99_longer`
* `Mvd.C99_longer_countdown`
* `Mvd.C99_demo`
* `Mvd.C99_countdown`
* `Mvd.C99_match`
* `Mvd.C100_order`
* `Mvd.C100_zones`
* `Mvd.C101_scores`
* `Mvd.C101_teams`
* `Mvd.C102_walk`
* `Mvd.C102_searches`
* `Mvd.C102_clients`
* `Mvd.C102_messages`
* `Mvd.C102_blocks`
* `Mvd.C103_clients`
* `Mvd.C103_match`
* `Mvd.C103_players`
* `Mvd.C103_pings`
* `Mvd.C103_teams`
* `Mvd.C103_settings`
* `Mvd.C104_exact`
* `Mvd.C104_close`
* `Mvd.C104_panic`
* `Mvd.C104_tiny`
* `Mvd.C104_other`
* `Mvd.C104_witness`
* `Mvd.C105_players`
* `Mvd.C105_teams`
* `Mvd.C105_witness`
* `Mvd.C106_players`
* `Mvd.C106_teams`
* `Mvd.C106_found`
* `Mvd.C106_duration`
* `Mvd.C106_witness`
* `Mvd.C107_served`
* `Mvd.C107_every_match`
* `Mvd.C107_read_back`
* `Mvd.C108_cut`
* `Mvd.C108_read_back`
* `Mvd.C109_parts`
* `Mvd.C109_frags`
* `Mvd.C109_flags`
* `Mvd.C109_pings`
* `Mvd.C109_row`
* `Mvd.C110_prints`
* `Mvd.C110_pings`
* `Mvd.C110_duration`
* `Mvd.C110_serverinfo`
* `Mvd.C110_matchdate`
* `Mvd.C110_verdicts`
* `Mvd.C110_ranking`
* `Mvd.C111_clear`
* `Mvd.C111_unambiguous`
* `Mvd.C111_name`
* `Mvd.C111_known`
* `Mvd.C111_flags`
* `Mvd.C111_clear_names`
* `Mvd.C111_says`
* `Mvd.C111_unclear_names`
* `Mvd.C111_flag_names`
* `Mvd.C112_prints`
* `Mvd.C112_pings`
* `Mvd.C112_flags`
* `Mvd.C112_frags`
* `Mvd.C112_obituary`
* `Mvd.C113_row`
* `Mvd.C113_rows`
* `Mvd.C113_leave`
* `Mvd.C113_regroup`
* `Mvd.C113_ranking`
* `Mvd.C113_stats`
* `Mvd.C113_order_witness`
* `Mvd.C114_paused`
* `Mvd.C114_bots`
* `Mvd.C114_aborted`
* `Mvd.C114_duration`
* `Mvd.C114_duration_kept`
* `Mvd.C114_matchdate`
* `Mvd.C114_stats`
* `Mvd.C114_hidden`
* `Mvd.C115_first`
* `Mvd.C115_second`
* `Mvd.C115_verdicts`
* `Mvd.C115_duration`
* `Mvd.C115_pings`
* `Mvd.C115_witness`

## Quot.sound, propext

* `Mvd.C01_block_loop`
* `Mvd.C06_prints_witness`
* `Mvd.C12_has_clients`
* `Mvd.C13_witness`
* `Mvd.C13_witness_scan`
* `Mvd.C14_settings`
* `Mvd.C19_witness`
* `Mvd.C20_client_numbers`
* `Mvd.C21_partition`
* `Mvd.C21_failure`
* `Mvd.C21_infos`
* `Mvd.C21_client_fields`
* `Mvd.C41_early_witness`
* `Mvd.C41_size_witness`
* `Mvd.C41_cut_witness`
* `Mvd.C41_gap_witness`
* `Mvd.C42_stats`
* `Mvd.C42_no_server`
* `Mvd.C45_all`
* `Mvd.C47_conversion`
* `Mvd.C47_unique`
* `Mvd.C54_denotes`
* `Mvd.C56_panic_witness`
* `Mvd.C57_example`
* `Mvd.C58_frame_number`
* `Mvd.C60_independent`
* `Mvd.C76_witness`
* `Mvd.C79_flags`
* `Mvd.C79_clients`
* `Mvd.C84_plain`
* `Mvd.C88_witness`
* `Mvd.C89_unknown_witness`
* `Mvd.C92_end`
* `Mvd.C92_witness_32`
* `Mvd.C92_stats`
* `Mvd.C92_stats_witness`
* `Mvd.C94_witness`
* `Mvd.C95_witness`
* `Mvd.C103_names`
* `Mvd.C114_witness`

## none

* `Mvd.C25_witnesses`
* `Mvd.C58_hidden_number`
* `Mvd.C84_witnesses`
* `Mvd.C111_misunderstood`

## propext

* `Mvd.C11_valid_not_paused`
* `Mvd.C22_sorted`
* `Mvd.C53_shadowed`
* `Mvd.C53_denotes`
* `Mvd.C54_witness`
* `Mvd.C56_no_text`
* `Mvd.C58_message_number`
* `Mvd.C58_print_number`
* `Mvd.C111_ambiguous`
* `Mvd.C114_typed`
