# Axioms of the theorems in MANIFEST.json

Written by `tools/axioms.py`. All names are in the namespace `Dxl.Props`.

## none (3 theorems)

* `c75_join_test`
* `c79_says`
* `c79_direct`

## `propext` (13 theorems)

* `c04_refuted`
* `c06_refuted`
* `c29_refuted`
* `c43_set_baud_rate`
* `c56_refuted`
* `c75_join_panic`
* `c75_join_hang`
* `c79_known`
* `c79_direction`
* `c79_same_result`
* `c79_distinct`
* `c79_all_become`
* `c83_set_baud_rate`

## `propext`, `Quot.sound` (126 theorems)

* `c03_refuted`
* `c05_refuted`
* `c06_unstuff_exact_partial`
* `c07_unstuff_confined`
* `c09_refuted`
* `c17_tiny_buffer`
* `c18_refuted_device`
* `c18_refuted_empty_body`
* `c18_refuted_status`
* `c21_zero_baud_panics`
* `c22_construction`
* `c23_survives_partial`
* `c23_refuted`
* `c24_refuted`
* `c24_refuted_stuffing`
* `c25_read_owned_partial`
* `c25_refuted`
* `c27_unsigned_decode`
* `c28_refuted`
* `c28_refuted_longer`
* `c29_failure_partial`
* `c29_success_drops_all_partial`
* `c33_status_packet`
* `c33_accessors`
* `c34_refuted`
* `c35_refuted`
* `c37_long_data_panics_partial`
* `c37_refuted`
* `c38_duplicates_panic`
* `c39_refuted`
* `c41_refuted`
* `c45_broadcast_read_fails`
* `c46_refuted`
* `c48_complete`
* `c49_refuted`
* `c49_numbers_partial`
* `c49_header_partial`
* `c50_constructors`
* `c50_write_limit`
* `c51_refuted`
* `c54_refuted`
* `c55_read_refines`
* `c55_set_baud_rate`
* `c55_baud_rate`
* `c55_make_deadline`
* `c56_connections`
* `c56_read_result_partial`
* `c56_no_panic_partial`
* `c63_stuffing_needed`
* `c68_same_write`
* `c68_sent_write`
* `c68_write_lines`
* `c68_small`
* `c68_scan_end`
* `c68_garbage_example`
* `c68_refuted_garbage`
* `c70_read`
* `c70_read_signed`
* `c70_broadcast`
* `c70_sync_next`
* `c70_bulk_next`
* `c70_bulk_drop`
* `c75_join_ok`
* `c76_refuted_device`
* `c77_exclusive`
* `c77_use`
* `c77_all_end`
* `c77_bounded`
* `c80_packet`
* `c80_status_timeout`
* `c80_status`
* `c80_transfer`
* `c80_read_bytes`
* `c80_sync`
* `c80_bulk`
* `c80_device_raw`
* `c80_device`
* `c81_slices`
* `c81_response_size`
* `c81_response_size_16`
* `c83_small`
* `c83_poisoned`
* `c83_wrap`
* `c83_fuel`
* `c83_write_status_small`
* `c83_open`
* `c86_scan_stop`
* `c86_scan_not_fused`
* `c87_not_for_empty_values`
* `c88_again`
* `c88_many`
* `c89_line_aborts`
* `c93_compiles`
* `c93_compiles_nonempty`
* `c94_bulk_write_hangs`
* `c98_by_hand`
* `c98_sent`
* `c98_session`
* `c98_lost`
* `c101_enough`
* `c101_noop`
* `c101_failed_discard`
* `c101_too_large`
* `c102_static_buffer`
* `c103_same`
* `c103_small`
* `c104_same_receive`
* `c104_same_construct`
* `c104_unchecked`
* `c104_spins`
* `c105_read_bytes`
* `c105_sync`
* `c105_bulk`
* `c105_sync_scope`
* `c105_bulk_scope`
* `c105_decode_aborts`
* `c106_same_method`
* `c106_same_scope`
* `c106_same_construct`
* `c107_next_bytes`
* `c107_next`
* `c107_next_item`
* `c107_next_bulk`
* `c107_bulk`
* `c107_scan_next`
* `c107_scan`

## `propext`, `Classical.choice`, `Quot.sound` (544 theorems)

* `c01_checksum_is_crc16`
* `c01_checksum_in_pieces`
* `c02_odd_errors_detected`
* `c02_bursts_detected`
* `c02_two_bit_errors_detected`
* `c02_two_bit_bound_is_sharp`
* `c03_wire_body_partial`
* `c03_sent_packet_partial`
* `c03_stuff_exact_partial`
* `c03_stuff_inplace_partial`
* `c04_round_trip_partial`
* `c04_round_trip_one_kind_partial`
* `c05_no_header_in_body_partial`
* `c05_header_iff_partial`
* `c06_unstuff_conforming_partial`
* `c06_unstuff_conforming_no_run_partial`
* `c07_stuff_confined`
* `c07_stuff_panics_only_on_bad_length`
* `c08_instruction_layout`
* `c08_status_layout`
* `c09_reported_partial`
* `c09_gap_panics`
* `c09_fits`
* `c09_status_partial`
* `c10_length_field_partial`
* `c10_refuted`
* `c10_exact_partial`
* `c10_status_exact_partial`
* `c11_failed_encode_sends_nothing`
* `c11_failed_discard_sends_nothing`
* `c11_write_only_after_discard`
* `c11_status_sends_nothing`
* `c12_response_from_new_bytes`
* `c12_old_bytes_irrelevant`
* `c13_chunking_irrelevant`
* `c13_timing_irrelevant`
* `c14_packet_after_garbage`
* `c14_garbage_irrelevant`
* `c15_in_order_once_each`
* `c15_interruptions`
* `c16_returned_is_valid`
* `c16_bad_crc_reported`
* `c16_corrupted_packet`
* `c17_too_big_reported`
* `c17_next_packet`
* `c18_device_panics_iff_partial`
* `c18_read_panics_iff_partial`
* `c18_status_panics_iff_partial`
* `c18_missing_error_byte_unreported_partial`
* `c19_terminates`
* `c19_reads_progress`
* `c20_unanswered`
* `c20_deadline`
* `c20_response_deadline`
* `c21_transfer_time`
* `c21_response_timeout`
* `c22_bookkeeping`
* `c22_invariants_reachable`
* `c23_transfer_exact_partial`
* `c23_transfer_partial`
* `c24_understood_partial`
* `c24_reg_write_partial`
* `c24_sync_write_partial`
* `c24_clear_error_partial`
* `c24_fixed_understood`
* `c24_understood_exact_partial`
* `c26_first_instruction`
* `c26_returned_is_first`
* `c26_error_after_statuses`
* `c26_terminates`
* `c27_unsigned_encode`
* `c27_signed_encode`
* `c27_signed_decode`
* `c27_representation_unique`
* `c28_round_trip_partial`
* `c28_onto`
* `c28_decode_onto_partial`
* `c28_decode_array_partial`
* `c29_holds_iff_empty_partial`
* `c30_read_bytes`
* `c30_read`
* `c30_read_value`
* `c30_ping`
* `c30_read_bytes_complete`
* `c30_read_complete`
* `c30_ping_complete`
* `c30_read_rejects`
* `c30_ping_rejects`
* `c31_confirmed_by_some_motor_partial`
* `c31_checked_by_caller_partial`
* `c31_refuted`
* `c32_broadcast_does_not_wait`
* `c32_send_only`
* `c33_write_answered`
* `c33_write_bytes_answered`
* `c33_motor_error`
* `c33_motor_error_only`
* `c34_reg_write_one_byte_partial`
* `c34_reg_write_larger_fails_partial`
* `c34_reg_write_empty_partial`
* `c35_sync_write_one_byte_partial`
* `c35_sync_write_larger_fails_partial`
* `c35_sync_write_no_motors_partial`
* `c36_sync_write_bytes`
* `c36_panics`
* `c37_layout_partial`
* `c37_duplicates_are_sent_partial`
* `c38_layout`
* `c39_bytes_partial`
* `c39_data_partial`
* `c39_bytes_delivered`
* `c39_data_delivered`
* `c40_sync_bytes_partial`
* `c40_sync_data_partial`
* `c40_bulk_partial`
* `c40_sync_bytes_discards`
* `c40_scan_partial`
* `c40_scan_hangs`
* `c40_refuted`
* `c41_bytes_partial`
* `c41_bytes_delivered`
* `c42_none_iff`
* `c42_scan_delivered`
* `c42_scan_exact`
* `c43_getters`
* `c43_baud_rate`
* `c43_agrees_with_port`
* `c44_only_first`
* `c44_finish`
* `c44_exactly_one`
* `c45_parse`
* `c45_reads_unicast`
* `c46_ping_partial`
* `c46_scan_partial`
* `c46_read_bytes_partial`
* `c46_read_partial`
* `c46_write_bytes_partial`
* `c46_write_partial`
* `c46_reg_write_bytes_partial`
* `c46_action_partial`
* `c46_reboot_partial`
* `c46_factory_reset_partial`
* `c46_clear_revolution_counter_partial`
* `c46_clear_error_partial`
* `c46_sync_read_partial`
* `c47_decode_total`
* `c47_read_total`
* `c47_no_panic`
* `c48_commands`
* `c50_read_limit`
* `c50_default_limits`
* `c50_default_sharp`
* `c51_received_exact_partial`
* `c51_received_partial`
* `c51_sent`
* `c52_serves_partial`
* `c52_ignores_others`
* `c52_waits`
* `c52_big_read_panics`
* `c52_unimplemented_panics`
* `c52_refuted`
* `c53_sync_write_partial`
* `c53_sync_write_others_partial`
* `c53_bulk_write_first_partial`
* `c53_unlisted_read`
* `c53_first_read_partial`
* `c53_later_read_unanswered`
* `c53_bulk_write_hangs`
* `c53_refuted_sync_write`
* `c53_refuted_bulk_write`
* `c53_refuted_read`
* `c54_session_partial`
* `c54_read_back_partial`
* `c54_new_motor_partial`
* `c55_read_deadline`
* `c55_read_once`
* `c56_stream_partial`
* `c56_connected_once`
* `c56_bus_partial`
* `c56_read_progress`
* `c57_resync`
* `c58_network`
* `c58_each`
* `c58_isolated`
* `c58_read_back`
* `c58_broadcast_read_back`
* `c58_registered_read_back`
* `c59_sync_read`
* `c59_sync_read_bytes`
* `c59_bulk_read_bytes`
* `c59_scan`
* `c60_text`
* `c60_identifies`
* `c60_injective`
* `c60_motor_error_debug`
* `c60_buffer_too_small`
* `c61_asked`
* `c61_answered`
* `c61_ordered`
* `c61_confirmed`
* `c61_broadcast`
* `c61_unanswered`
* `c61_scan`
* `c61_open_fails`
* `c61_broadcast_read`
* `c61_exit`
* `c62_verdict_unique`
* `c62_verdict_exists`
* `c62_send`
* `c62_read_bytes`
* `c62_read`
* `c62_ping`
* `c62_write`
* `c62_write_all`
* `c62_read_bytes_panics_iff`
* `c62_read_panics_iff`
* `c62_ping_panics_iff`
* `c62_write_panics_iff`
* `c63_stuffing_enough`
* `c63_write_buffer`
* `c63_write_buffer_status`
* `c64_heard_unique`
* `c64_read_raw`
* `c64_decode`
* `c64_read`
* `c64_write_status`
* `c65_sync_bytes`
* `c65_sync_data`
* `c65_bulk`
* `c65_finished`
* `c65_scan`
* `c66_conversation`
* `c66_until_failure`
* `c66_memories`
* `c66_read_back`
* `c66_no_fd`
* `c66_stale`
* `c67_sync_read_partial`
* `c67_sync_read_bytes_partial`
* `c67_bulk_read_bytes_partial`
* `c67_scan`
* `c67_read_bytes_in_time`
* `c67_read_bytes_late`
* `c67_read_in_time`
* `c67_read_late`
* `c67_ping_in_time`
* `c67_ping_late`
* `c67_write_in_time`
* `c67_write_late`
* `c67_read_bytes_enough_partial`
* `c67_read_enough_partial`
* `c67_ping_enough_partial`
* `c67_write_enough_partial`
* `c67_read_bytes_default_partial`
* `c67_read_default_partial`
* `c67_write_default_partial`
* `c67_refuted_stuffing`
* `c67_refuted_buffered`
* `c68_same_read`
* `c68_same_status`
* `c68_same_scan`
* `c68_sent_read`
* `c68_sent_status`
* `c68_sent_scan`
* `c68_read_partial`
* `c68_counts_partial`
* `c68_exchange`
* `c68_session`
* `c68_text`
* `c68_text_unique`
* `c69_levels`
* `c69_more`
* `c69_line`
* `c69_line_unique`
* `c69_same`
* `c69_shown`
* `c69_announcement`
* `c69_sent`
* `c69_opened`
* `c70_write`
* `c70_reg_write_one_byte`
* `c70_sync_write_one_byte`
* `c70_read_byte_array`
* `c70_write_byte_array`
* `c70_sync_drop`
* `c70_sync_drop_impl`
* `c70_single`
* `c71_runs`
* `c71_each`
* `c71_read_back`
* `c71_number_read_back`
* `c72_read`
* `c72_read_bytes`
* `c72_write_bytes`
* `c72_reg_write_bytes`
* `c72_write`
* `c72_reg_write`
* `c72_sync_read_one`
* `c72_sync_read_bytes_one`
* `c72_bulk_read_bytes_one`
* `c72_sync_read`
* `c72_sync_read_bytes`
* `c72_bulk_read_bytes`
* `c72_ping`
* `c72_ping_bytes`
* `c73_stdout`
* `c73_file`
* `c74_fits`
* `c74_read`
* `c74_read_bytes`
* `c74_write`
* `c74_write_bytes`
* `c74_reg_write`
* `c74_reg_write_bytes`
* `c74_ping`
* `c74_sync_read`
* `c74_sync_read_bytes`
* `c74_bulk_read_bytes`
* `c74_ten`
* `c75_motor`
* `c75_motor_ends`
* `c75_group_read_never_ends`
* `c75_line`
* `c75_line_ends`
* `c75_read`
* `c75_read_bytes`
* `c75_write`
* `c75_write_bytes`
* `c75_reg_write`
* `c75_reg_write_bytes`
* `c75_ping`
* `c75_sync_read`
* `c75_sync_read_bytes`
* `c75_bulk_read_bytes`
* `c76_read_bytes`
* `c76_read`
* `c76_ping`
* `c76_write`
* `c76_device_partial`
* `c77_rejected`
* `c77_open_fails`
* `c77_runs`
* `c78_not_valid`
* `c78_reported`
* `c78_client`
* `c78_device`
* `c78_sharp`
* `c79_text`
* `c81_write_same`
* `c81_write_overflow`
* `c81_status_same`
* `c81_status_overflow`
* `c81_read_same`
* `c81_read_16_same`
* `c81_read_16_over`
* `c81_sync_write_bytes_same`
* `c81_sync_write_same`
* `c81_bulk_write_same`
* `c81_sync_write_bytes_overflow`
* `c81_sync_write_bytes_16`
* `c81_sync_write_overflow`
* `c81_bulk_write_overflow`
* `c82_sync_write_bytes_refused`
* `c82_sync_write_bytes_too_many`
* `c82_sync_write_bytes_sent`
* `c82_sync_write_bytes_honest`
* `c82_sync_write_refused`
* `c82_sync_write_too_many`
* `c82_bulk_write_refused`
* `c82_bulk_write_sent`
* `c82_sync_write_sent`
* `c82_sync_write_byte`
* `c82_bulk_write_honest`
* `c82_sync_write_honest`
* `c83_write_same`
* `c83_write`
* `c83_read`
* `c83_recovers`
* `c83_never_ends`
* `c83_ends`
* `c83_device_ends`
* `c83_status_ends`
* `c83_transfer`
* `c83_script_read`
* `c83_script_write`
* `c83_write_status`
* `c83_instruction`
* `c83_write_ends`
* `c83_transfer_ends`
* `c84_session`
* `c84_call`
* `c84_outcome`
* `c84_sends`
* `c84_ping`
* `c84_read_bytes`
* `c84_read`
* `c84_confirmed`
* `c85_packet`
* `c85_packet_not_early`
* `c85_response`
* `c85_read_bytes`
* `c85_read`
* `c85_ping`
* `c85_write`
* `c85_write_all`
* `c85_no_later`
* `c85_no_earlier`
* `c85_read_bytes_not_early`
* `c85_read_not_early`
* `c85_ping_not_early`
* `c85_write_not_early`
* `c85_scan_next`
* `c85_scan_end`
* `c85_sync_next_bytes`
* `c85_sync_next`
* `c85_bulk_next`
* `c85_sync_bytes_not_early`
* `c85_sync_not_early`
* `c85_bulk_not_early`
* `c85_device_no_later`
* `c85_device_not_early`
* `c85_sync_bytes_silent`
* `c85_sync_silent`
* `c85_bulk_silent`
* `c85_scan_silent`
* `c85_scan_loop_silent`
* `c86_sync_bytes_stop`
* `c86_sync_stop`
* `c86_bulk_stop`
* `c86_sync_bytes_size`
* `c86_sync_size`
* `c86_bulk_size`
* `c86_ended`
* `c87_next`
* `c87_instruct`
* `c87_sent`
* `c87_iterators`
* `c87_session`
* `c87_session_instruct`
* `c87_history`
* `c87_remade`
* `c87_data`
* `c87_typed`
* `c87_stale`
* `c88_retry`
* `c88_write`
* `c88_value_partial`
* `c88_delivered_partial`
* `c88_value_refuted`
* `c88_action`
* `c89_sync_bytes`
* `c89_sync`
* `c89_bulk`
* `c89_scan`
* `c89_usable`
* `c89_zero_baud`
* `c90_sync_read`
* `c90_sync_read_bytes`
* `c90_bulk_read_bytes`
* `c91_sync_read`
* `c91_sync_read_bytes`
* `c91_bulk_read_bytes`
* `c91_scan`
* `c92_error_text`
* `c92_ping_text`
* `c92_bytes_text`
* `c92_instruction_text`
* `c92_data_text`
* `c92_handle_text`
* `c92_errors`
* `c92_response`
* `c92_values`
* `c92_data`
* `c92_layout`
* `c92_handles`
* `c92_sync_iterators`
* `c92_bulk_iterators`
* `c92_hidden`
* `c93_encode`
* `c93_decode`
* `c94_ends`
* `c94_sync_write_bytes`
* `c94_sync_write`
* `c94_bulk_write_written`
* `c94_bulk_write_panics`
* `c95_call`
* `c95_timeout`
* `c95_follow`
* `c95_shifted`
* `c95_slow_motor`
* `c96_turns`
* `c96_rounds`
* `c96_extra`
* `c96_pause`
* `c96_polling`
* `c96_pace`
* `c97_call`
* `c97_call_large`
* `c97_session`
* `c97_group`
* `c97_scan`
* `c97_device`
* `c97_device_large`
* `c99_first`
* `c99_follow`
* `c99_pause`
* `c99_wrong_value`
* `c100_call`
* `c100_listen`
* `c100_sync`
* `c100_bulk`
* `c100_scan`
* `c100_program`
* `c100_scan_goes_on`
* `c100_no_limit`
* `c101_listen`
* `c101_instruct`
* `c101_session`
* `c101_made`
* `c102_stuff`
* `c102_maximum`
* `c102_round_trip`
* `c102_loop`
* `c102_buffer_sizes`
* `c102_pass`
* `c103_moved`
* `c103_bytewise`
* `c103_at_once`
* `c103_garbage`
* `c104_same_send`
* `c104_same_status`
* `c104_same_call`
* `c104_first_four`
* `c104_no_header`
* `c104_framed`
* `c104_same_method`
* `c104_same_scope`
* `c105_sync_caught`
* `c105_bulk_caught`
* `c106_first_four`
* `c106_framed`
* `c107_sync_bytes`
* `c107_sync_drop`
* `c107_sync`
