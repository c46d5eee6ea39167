{
 "claims": [
  {
   "property": "C01",
   "status": "proved",
   "theorems": [
    "Dxl.Props.c01_checksum_is_crc16",
    "Dxl.Props.c01_checksum_in_pieces"
   ],
   "note": "All initial values and all byte strings; table lookup never out of bounds."
  },
  {
   "property": "C02",
   "status": "proved",
   "theorems": [
    "Dxl.Props.c02_odd_errors_detected",
    "Dxl.Props.c02_bursts_detected",
    "Dxl.Props.c02_two_bit_errors_detected",
    "Dxl.Props.c02_two_bit_bound_is_sharp"
   ],
   "note": "Three error classes, for all lengths; the two-bit bound 32767 is shown to be sharp."
  },
  {
   "property": "C03",
   "status": "partial",
   "theorems": [
    "Dxl.Props.c03_wire_body_partial",
    "Dxl.Props.c03_sent_packet_partial",
    "Dxl.Props.c03_refuted",
    "Dxl.Props.c03_stuff_exact_partial",
    "Dxl.Props.c03_stuff_inplace_partial"
   ],
   "note": "False as stated (c03_refuted: a run of 3 FF before FD is not stuffed). Proved: holds exactly for bodies in which every FF FF FD ends a run of 2, 5, 8, ... FFs; in particular for all bodies without FF FF FF FD. c03_stuff_exact_partial says what every body is turned into (Spec.StuffedForm, without reference to the model); all other properties use that form."
  },
  {
   "property": "C04",
   "status": "partial",
   "theorems": [
    "Dxl.Props.c04_round_trip_partial",
    "Dxl.Props.c04_round_trip_one_kind_partial",
    "Dxl.Props.c04_refuted"
   ],
   "note": "False as stated (c04_refuted). c04_round_trip_partial says exactly which data survive stuffing followed by unstuffing, for every length (Spec.Survives): a part where no FD ends a run of 2, 5, 8, ... FFs; possibly one such run with FD and directly behind it runs of 3, 6, 9, ... FFs with FD each; and a part where every FF FF FD ends a run of 2, 5, 8, ... FFs."
  },
  {
   "property": "C05",
   "status": "partial",
   "theorems": [
    "Dxl.Props.c05_no_header_in_body_partial",
    "Dxl.Props.c05_refuted",
    "Dxl.Props.c05_header_iff_partial"
   ],
   "note": "False as stated (c05_refuted: a write of FF FF FF FD 00). c05_header_iff_partial says exactly which bodies have the header prefix in their sent form; c05_no_header_in_body_partial is the simple sufficient condition that every FF FF FD ends a run of 2, 5, 8, ... FFs."
  },
  {
   "property": "C06",
   "status": "partial",
   "theorems": [
    "Dxl.Props.c06_unstuff_exact_partial",
    "Dxl.Props.c06_unstuff_conforming_partial",
    "Dxl.Props.c06_unstuff_conforming_no_run_partial",
    "Dxl.Props.c06_refuted"
   ],
   "note": "False as stated (c06_refuted). Proved: holds exactly under the run condition of C03. c06_unstuff_exact_partial says what any received body is turned into (Spec.Unstuffs, without reference to the model); all other properties use it."
  },
  {
   "property": "C07",
   "status": "proved",
   "theorems": [
    "Dxl.Props.c07_stuff_confined",
    "Dxl.Props.c07_stuff_panics_only_on_bad_length",
    "Dxl.Props.c07_unstuff_confined"
   ],
   "note": "All buffers, lengths and both build profiles."
  },
  {
   "property": "C08",
   "status": "proved",
   "theorems": [
    "Dxl.Props.c08_instruction_layout",
    "Dxl.Props.c08_status_layout"
   ],
   "note": "All packets, encoders, buffers and bus states satisfying the write buffer invariant (reachable: C22)."
  },
  {
   "property": "C09",
   "status": "partial",
   "theorems": [
    "Dxl.Props.c09_reported_partial",
    "Dxl.Props.c09_gap_panics",
    "Dxl.Props.c09_fits",
    "Dxl.Props.c09_status_partial",
    "Dxl.Props.c09_refuted"
   ],
   "note": "False as stated (c09_refuted). The failing cases are exactly characterised (CrcGap): reported outside, with exact sizes, panic inside. For instruction and status packets."
  },
  {
   "property": "C10",
   "status": "partial",
   "theorems": [
    "Dxl.Props.c10_length_field_partial",
    "Dxl.Props.c10_refuted",
    "Dxl.Props.c10_exact_partial",
    "Dxl.Props.c10_status_exact_partial"
   ],
   "note": "False as stated (c10_refuted, 65600 byte body in a release build). Proved for write buffers up to 65542 bytes; c10_exact_partial and c10_status_exact_partial say exactly what happens to any packet that fits the buffer: the length field is right iff the stuffed body is at most 65533 bytes, and debug builds panic iff it is one or two bytes below a multiple of 65536."
  },
  {
   "property": "C11",
   "status": "proved",
   "theorems": [
    "Dxl.Props.c11_failed_encode_sends_nothing",
    "Dxl.Props.c11_failed_discard_sends_nothing",
    "Dxl.Props.c11_write_only_after_discard",
    "Dxl.Props.c11_status_sends_nothing"
   ],
   "note": "All failures of write_instruction and write_status."
  },
  {
   "property": "C12",
   "status": "proved",
   "theorems": [
    "Dxl.Props.c12_response_from_new_bytes",
    "Dxl.Props.c12_old_bytes_irrelevant"
   ],
   "note": "Both forms: the response consists of bytes that arrived after the discard, and the earlier contents of the read buffer make no difference. Ports whose discard does nothing are covered separately in the statement."
  },
  {
   "property": "C13",
   "status": "proved",
   "theorems": [
    "Dxl.Props.c13_chunking_irrelevant",
    "Dxl.Props.c13_timing_irrelevant"
   ],
   "note": "Refinement of the read loop to a parser of the byte stream; all streams, splits, buffer states and sizes."
  },
  {
   "property": "C14",
   "status": "proved",
   "theorems": [
    "Dxl.Props.c14_packet_after_garbage",
    "Dxl.Props.c14_garbage_irrelevant"
   ],
   "note": "All garbage, packets, chunkings."
  },
  {
   "property": "C15",
   "status": "proved",
   "theorems": [
    "Dxl.Props.c15_in_order_once_each",
    "Dxl.Props.c15_interruptions"
   ],
   "note": "Induction over the packets; also with timeouts and I/O errors in between (c15_interruptions)."
  },
  {
   "property": "C16",
   "status": "proved",
   "theorems": [
    "Dxl.Props.c16_returned_is_valid",
    "Dxl.Props.c16_bad_crc_reported",
    "Dxl.Props.c16_corrupted_packet"
   ],
   "note": "c16_returned_is_valid is the converse of C14. Corruption classes are those of C02, outside prefix and length field."
  },
  {
   "property": "C17",
   "status": "proved",
   "theorems": [
    "Dxl.Props.c17_too_big_reported",
    "Dxl.Props.c17_next_packet",
    "Dxl.Props.c17_tiny_buffer"
   ],
   "note": "All announced lengths and buffer sizes; buffers below 10 bytes never receive anything."
  },
  {
   "property": "C18",
   "status": "partial",
   "theorems": [
    "Dxl.Props.c18_refuted_device",
    "Dxl.Props.c18_device_panics_iff_partial",
    "Dxl.Props.c18_read_panics_iff_partial",
    "Dxl.Props.c18_status_panics_iff_partial",
    "Dxl.Props.c18_refuted_empty_body",
    "Dxl.Props.c18_refuted_status",
    "Dxl.Props.c18_missing_error_byte_unreported_partial"
   ],
   "note": "False as stated (c18_refuted_*: CRC-valid packet with length field 2, or status packet with length field 3). Proved: the exact set of inputs that panic, for packets, status responses and instructions (devices); everything else returns."
  },
  {
   "property": "C19",
   "status": "proved",
   "theorems": [
    "Dxl.Props.c19_terminates",
    "Dxl.Props.c19_reads_progress"
   ],
   "note": "All states and finite inputs; number of reads bounded by the size of the input."
  },
  {
   "property": "C20",
   "status": "proved",
   "theorems": [
    "Dxl.Props.c20_unanswered",
    "Dxl.Props.c20_deadline",
    "Dxl.Props.c20_response_deadline"
   ],
   "note": "All arrival schedules, with the deadline behaviour of the serial2 port."
  },
  {
   "property": "C21",
   "status": "proved",
   "theorems": [
    "Dxl.Props.c21_transfer_time",
    "Dxl.Props.c21_zero_baud_panics",
    "Dxl.Props.c21_response_timeout"
   ],
   "note": "All u32 sizes and non-zero u32 baud rates; a baud rate of zero panics (c21_zero_baud_panics)."
  },
  {
   "property": "C22",
   "status": "proved",
   "theorems": [
    "Dxl.Props.c22_bookkeeping",
    "Dxl.Props.c22_invariants_reachable",
    "Dxl.Props.c22_construction"
   ],
   "note": "Op lists all public operations of client, device and iterators; induction over the history, every outcome including panics."
  },
  {
   "property": "C23",
   "status": "partial",
   "theorems": [
    "Dxl.Props.c23_transfer_exact_partial",
    "Dxl.Props.c23_transfer_partial",
    "Dxl.Props.c23_survives_partial",
    "Dxl.Props.c23_refuted"
   ],
   "note": "False as stated because of C04 (c23_refuted). c23_transfer_exact_partial: ID and instruction always arrive, and the parameters are the same exactly if the body is one of those that survive (see C04), in particular without FF FF FF FD."
  },
  {
   "property": "C24",
   "status": "partial",
   "theorems": [
    "Dxl.Props.c24_understood_partial",
    "Dxl.Props.c24_reg_write_partial",
    "Dxl.Props.c24_sync_write_partial",
    "Dxl.Props.c24_clear_error_partial",
    "Dxl.Props.c24_refuted",
    "Dxl.Props.c24_refuted_stuffing",
    "Dxl.Props.c24_fixed_understood",
    "Dxl.Props.c24_understood_exact_partial"
   ],
   "note": "False as stated (c24_refuted: clear_error; c24_refuted_stuffing). c24_fixed_understood: ping, scan, reads, action, reboot, factory reset, clear revolution counter are always understood. c24_understood_exact_partial: any other instruction is understood exactly if its body survives the stuffing (Spec.Survives), and otherwise decoded as something else or rejected. reg_write, sync_write and clear_error separately."
  },
  {
   "property": "C25",
   "status": "partial",
   "theorems": [
    "Dxl.Props.c25_read_owned_partial",
    "Dxl.Props.c25_refuted"
   ],
   "note": "False as stated: a bulk write is returned as a bulk read (c25_refuted). Proved: everything else is the same, for every state and input."
  },
  {
   "property": "C26",
   "status": "proved",
   "theorems": [
    "Dxl.Props.c26_first_instruction",
    "Dxl.Props.c26_returned_is_first",
    "Dxl.Props.c26_error_after_statuses",
    "Dxl.Props.c26_terminates"
   ],
   "note": "Both directions, with termination, the deadline and errors."
  },
  {
   "property": "C27",
   "status": "proved",
   "theorems": [
    "Dxl.Props.c27_unsigned_encode",
    "Dxl.Props.c27_unsigned_decode",
    "Dxl.Props.c27_signed_encode",
    "Dxl.Props.c27_signed_decode",
    "Dxl.Props.c27_representation_unique"
   ],
   "note": "Every byte count (u8..u128, i8..i128 are 1, 2, 4, 8, 16), every value in range, every buffer; stated against a positional little-endian / two's complement spec."
  },
  {
   "property": "C28",
   "status": "partial",
   "theorems": [
    "Dxl.Props.c28_round_trip_partial",
    "Dxl.Props.c28_onto",
    "Dxl.Props.c28_refuted",
    "Dxl.Props.c28_refuted_longer",
    "Dxl.Props.c28_decode_onto_partial",
    "Dxl.Props.c28_decode_array_partial"
   ],
   "note": "False as stated (c28_refuted: a shorter slice panics, c28_refuted_longer: a longer one is accepted). Proved: concatenation and round trip for all nested arrays, and exactly what decode does on every slice."
  },
  {
   "property": "C29",
   "status": "partial",
   "theorems": [
    "Dxl.Props.c29_failure_partial",
    "Dxl.Props.c29_success_drops_all_partial",
    "Dxl.Props.c29_refuted",
    "Dxl.Props.c29_holds_iff_empty_partial"
   ],
   "note": "False as stated (c29_refuted): finish() reads the array out and then drops the initializer, so each element is dropped although handed out. Proved: no leak or double drop on failure, and the exact behaviour on success."
  },
  {
   "property": "C30",
   "status": "proved",
   "theorems": [
    "Dxl.Props.c30_read_bytes",
    "Dxl.Props.c30_read",
    "Dxl.Props.c30_read_value",
    "Dxl.Props.c30_ping",
    "Dxl.Props.c30_read_bytes_complete",
    "Dxl.Props.c30_read_complete",
    "Dxl.Props.c30_ping_complete",
    "Dxl.Props.c30_read_rejects",
    "Dxl.Props.c30_ping_rejects"
   ],
   "note": "Soundness (what was sent, which calls were made, that the first packet to arrive is the answer) and completeness (any first status packet gives exactly the stated result) for read_bytes, read and ping."
  },
  {
   "property": "C31",
   "status": "partial",
   "theorems": [
    "Dxl.Props.c31_confirmed_by_some_motor_partial",
    "Dxl.Props.c31_checked_by_caller_partial",
    "Dxl.Props.c31_refuted"
   ],
   "note": "False as stated (c31_refuted): the packet ID of the confirmation is never compared. Proved: it is a valid empty status packet without error from the motor named in the response, so callers can check."
  },
  {
   "property": "C32",
   "status": "proved",
   "theorems": [
    "Dxl.Props.c32_broadcast_does_not_wait",
    "Dxl.Props.c32_send_only"
   ],
   "note": "All outcomes; also the broadcast_* functions."
  },
  {
   "property": "C33",
   "status": "proved",
   "theorems": [
    "Dxl.Props.c33_write_answered",
    "Dxl.Props.c33_write_bytes_answered",
    "Dxl.Props.c33_motor_error",
    "Dxl.Props.c33_status_packet",
    "Dxl.Props.c33_motor_error_only",
    "Dxl.Props.c33_accessors"
   ],
   "note": "Both directions, and the accessors on all bytes."
  },
  {
   "property": "C34",
   "status": "partial",
   "theorems": [
    "Dxl.Props.c34_reg_write_one_byte_partial",
    "Dxl.Props.c34_reg_write_larger_fails_partial",
    "Dxl.Props.c34_reg_write_empty_partial",
    "Dxl.Props.c34_refuted"
   ],
   "note": "Refuted: reg_write passes parameter count 3 whatever the type, so it fails without sending for every type of two or more bytes (c34_refuted, c34_reg_write_larger_fails_partial) and sends a stale byte for types without bytes. Proved for types of one byte. regWriteBytes is right: c46_reg_write_bytes_partial."
  },
  {
   "property": "C35",
   "status": "partial",
   "theorems": [
    "Dxl.Props.c35_sync_write_one_byte_partial",
    "Dxl.Props.c35_sync_write_larger_fails_partial",
    "Dxl.Props.c35_sync_write_no_motors_partial",
    "Dxl.Props.c35_refuted"
   ],
   "note": "Refuted: sync_write uses length 1 whatever the type, so it fails without sending for every type of two or more bytes; with no motors the length field is 1. Proved for types of one byte."
  },
  {
   "property": "C36",
   "status": "proved",
   "theorems": [
    "Dxl.Props.c36_sync_write_bytes",
    "Dxl.Props.c36_panics"
   ],
   "note": "Layout and panic. If the packet with the promised sizes would not fit the write buffer the error is BufferTooSmall instead of a panic; nothing is sent either way."
  },
  {
   "property": "C37",
   "status": "partial",
   "theorems": [
    "Dxl.Props.c37_layout_partial",
    "Dxl.Props.c37_long_data_panics_partial",
    "Dxl.Props.c37_refuted",
    "Dxl.Props.c37_duplicates_are_sent_partial"
   ],
   "note": "Refuted: repeated motor IDs are not checked although documented to panic. Layout and the panic on long data are proved for all lists."
  },
  {
   "property": "C38",
   "status": "proved",
   "theorems": [
    "Dxl.Props.c38_duplicates_panic",
    "Dxl.Props.c38_layout"
   ],
   "note": "Full: panic iff two reads have the same ID, otherwise the layout."
  },
  {
   "property": "C39",
   "status": "partial",
   "theorems": [
    "Dxl.Props.c39_bytes_partial",
    "Dxl.Props.c39_data_partial",
    "Dxl.Props.c39_bytes_delivered",
    "Dxl.Props.c39_data_delivered",
    "Dxl.Props.c39_refuted"
   ],
   "note": "Full statement (C39_statement) is false: a malformed packet (C18) or baud rate zero (C21) makes the iterator panic. c39_bytes_partial/c39_data_partial hold for every list, bus, stream and number of calls: one item per motor in order with right ID and size, then None, remaining() exact, each item accounted for in the stream, and a panic happens only in exactly those cases. c39_*_delivered: replies that come in time are all delivered in order."
  },
  {
   "property": "C40",
   "status": "partial",
   "theorems": [
    "Dxl.Props.c40_sync_bytes_partial",
    "Dxl.Props.c40_sync_data_partial",
    "Dxl.Props.c40_bulk_partial",
    "Dxl.Props.c40_sync_bytes_discards",
    "Dxl.Props.c40_scan_partial",
    "Dxl.Props.c40_scan_hangs",
    "Dxl.Props.c40_refuted"
   ],
   "note": "SyncReadBytes, SyncRead and BulkReadBytes: proved to terminate and to await one response per remaining motor (c40_sync_bytes_partial, c40_sync_data_partial, c40_bulk_partial). Scan: refuted (c40_refuted): on a port that keeps failing with an error other than a time-out, or with a read buffer below 10 bytes, the loop never ends (c40_scan_hangs); it terminates otherwise (c40_scan_partial)."
  },
  {
   "property": "C41",
   "status": "partial",
   "theorems": [
    "Dxl.Props.c41_bytes_partial",
    "Dxl.Props.c41_bytes_delivered",
    "Dxl.Props.c41_refuted"
   ],
   "note": "As C39: full statement refuted by the panics of C18/C21; everything else proved (c41_bytes_partial, c41_bytes_delivered)."
  },
  {
   "property": "C42",
   "status": "proved",
   "theorems": [
    "Dxl.Props.c42_none_iff",
    "Dxl.Props.c42_scan_delivered",
    "Dxl.Props.c42_scan_exact"
   ],
   "note": "c42_none_iff characterises None for every bus and stream. c42_scan_delivered and c42_scan_exact: any number of replies, any chunking, each within the wait of the scan; replies may follow garbage."
  },
  {
   "property": "C43",
   "status": "proved",
   "theorems": [
    "Dxl.Props.c43_getters",
    "Dxl.Props.c43_baud_rate",
    "Dxl.Props.c43_agrees_with_port",
    "Dxl.Props.c43_set_baud_rate"
   ],
   "note": "Same histories as C22."
  },
  {
   "property": "C44",
   "status": "proved",
   "theorems": [
    "Dxl.Props.c44_only_first",
    "Dxl.Props.c44_finish",
    "Dxl.Props.c44_exactly_one"
   ],
   "note": "In full, for the interleaving model of Model/StaticBuffer.lean (any number of evaluations and steps)."
  },
  {
   "property": "C45",
   "status": "proved",
   "theorems": [
    "Dxl.Props.c45_parse",
    "Dxl.Props.c45_broadcast_read_fails",
    "Dxl.Props.c45_reads_unicast"
   ],
   "note": "In full. clap and how it hands over the argument are not modelled."
  },
  {
   "property": "C46",
   "status": "partial",
   "theorems": [
    "Dxl.Props.c46_ping_partial",
    "Dxl.Props.c46_scan_partial",
    "Dxl.Props.c46_read_bytes_partial",
    "Dxl.Props.c46_read_partial",
    "Dxl.Props.c46_write_bytes_partial",
    "Dxl.Props.c46_write_partial",
    "Dxl.Props.c46_reg_write_bytes_partial",
    "Dxl.Props.c46_action_partial",
    "Dxl.Props.c46_reboot_partial",
    "Dxl.Props.c46_factory_reset_partial",
    "Dxl.Props.c46_clear_revolution_counter_partial",
    "Dxl.Props.c46_clear_error_partial",
    "Dxl.Props.c46_refuted",
    "Dxl.Props.c46_sync_read_partial"
   ],
   "note": "Refuted because of clear_error, which sends 01 45 52 43 4C instead of 02 45 52 43 4C; every other method is proved, each as one _partial theorem of the conjunction."
  },
  {
   "property": "C47",
   "status": "proved",
   "theorems": [
    "Dxl.Props.c47_decode_total",
    "Dxl.Props.c47_read_total",
    "Dxl.Props.c47_no_panic"
   ],
   "note": "Added while modelling the device."
  },
  {
   "property": "C48",
   "status": "proved",
   "theorems": [
    "Dxl.Props.c48_commands",
    "Dxl.Props.c48_complete"
   ],
   "note": "In full for the commands that open a port; opening the port and parsing of other arguments are not modelled."
  },
  {
   "property": "C49",
   "status": "partial",
   "theorems": [
    "Dxl.Props.c49_refuted",
    "Dxl.Props.c49_numbers_partial",
    "Dxl.Props.c49_header_partial"
   ],
   "note": "Partial because c49_refuted: the header prefix check panics on slices below 4 bytes. All other checks are proved exact (c49_numbers_partial), the header check for slices of at least 4 bytes (c49_header_partial)."
  },
  {
   "property": "C50",
   "status": "proved",
   "theorems": [
    "Dxl.Props.c50_constructors",
    "Dxl.Props.c50_read_limit",
    "Dxl.Props.c50_write_limit",
    "Dxl.Props.c50_default_limits",
    "Dxl.Props.c50_default_sharp"
   ],
   "note": "Client and Device constructors (open, open_with_buffers, new, with_buffers); limits of the default buffers, both sides of the boundary."
  },
  {
   "property": "C51",
   "status": "partial",
   "theorems": [
    "Dxl.Props.c51_received_exact_partial",
    "Dxl.Props.c51_received_partial",
    "Dxl.Props.c51_sent",
    "Dxl.Props.c51_refuted"
   ],
   "note": "Partial: c51_refuted shows the claim false for some data because of the stuffing bug (C23). c51_received_exact_partial: ID and error always arrive, and the parameters are the same exactly if the body survives stuffing (C04). c51_sent: the device does send the packet given room."
  },
  {
   "property": "C52",
   "status": "partial",
   "theorems": [
    "Dxl.Props.c52_serves_partial",
    "Dxl.Props.c52_ignores_others",
    "Dxl.Props.c52_waits",
    "Dxl.Props.c52_big_read_panics",
    "Dxl.Props.c52_unimplemented_panics",
    "Dxl.Props.c52_refuted"
   ],
   "note": "c52_serves_partial is exact for every state and every packet that fits the write buffer; refuted in full because reads of 118 to 200 bytes, which the table allows, panic with the default buffers (c52_refuted, c52_big_read_panics). Factory reset, reboot and clear panic. Nothing is missing from the partial statement but the buffer size."
  },
  {
   "property": "C53",
   "status": "partial",
   "theorems": [
    "Dxl.Props.c53_sync_write_partial",
    "Dxl.Props.c53_sync_write_others_partial",
    "Dxl.Props.c53_bulk_write_first_partial",
    "Dxl.Props.c53_unlisted_read",
    "Dxl.Props.c53_first_read_partial",
    "Dxl.Props.c53_later_read_unanswered",
    "Dxl.Props.c53_bulk_write_hangs",
    "Dxl.Props.c53_refuted_sync_write",
    "Dxl.Props.c53_refuted_bulk_write",
    "Dxl.Props.c53_refuted_read"
   ],
   "note": "Refuted in each part: the position of the ID is searched in the raw bytes of a sync write, the stride of a bulk write forgets the 5 byte header, and replies of other motors are awaited with Device::read, which skips status packets. What does hold: sync writes whose earlier data do not contain the ID, the first entry of a bulk write, the first listed motor of a read, motors that are not listed."
  },
  {
   "property": "C54",
   "status": "partial",
   "theorems": [
    "Dxl.Props.c54_session_partial",
    "Dxl.Props.c54_read_back_partial",
    "Dxl.Props.c54_new_motor_partial",
    "Dxl.Props.c54_refuted"
   ],
   "note": "c54_session_partial: refinement of whole sessions to the memory of Spec/Servo.lean, by induction on the session; the only gap to the English claim is data that do not survive the stuffing (C04), for which c54_refuted is a counterexample."
  },
  {
   "property": "C55",
   "status": "proved",
   "theorems": [
    "Dxl.Props.c55_read_refines",
    "Dxl.Props.c55_read_deadline",
    "Dxl.Props.c55_read_once",
    "Dxl.Props.c55_set_baud_rate",
    "Dxl.Props.c55_baud_rate",
    "Dxl.Props.c55_make_deadline"
   ],
   "note": "The serial2 crate itself is an environment (Tty), described in Model/Serial2.lean; c55_read_refines is a refinement to Port.read. An Instant overflow, for example with Duration::MAX, is a panic of make_deadline (c55_make_deadline)."
  },
  {
   "property": "C56",
   "status": "partial",
   "theorems": [
    "Dxl.Props.c56_stream_partial",
    "Dxl.Props.c56_connections",
    "Dxl.Props.c56_connected_once",
    "Dxl.Props.c56_bus_partial",
    "Dxl.Props.c56_read_result_partial",
    "Dxl.Props.c56_read_progress",
    "Dxl.Props.c56_refuted",
    "Dxl.Props.c56_no_panic_partial"
   ],
   "note": "Interleaving model of any number of threads; invariants over runs of any length. False in full: read panics if more bytes wait than fit in its slice, and poisons the mutex for all writers (c56_refuted); if that never happens nothing panics (c56_no_panic_partial). Devices with equal IDs do not hear each other (c56_connections, exact)."
  },
  {
   "property": "C57",
   "status": "proved",
   "theorems": [
    "Dxl.Props.c57_resync"
   ],
   "note": "c57_resync, by induction on the noise: after n calls, with 4n <= length of noise, and the loss of k packets, of which all but the last end within read-buffer-size bytes after the noise, the following calls return exactly the rest of the packets. Example: a false header that swallows the first of three packets. The packets are assumed to be received before the deadline of the calls (stream D b), as in C14."
  },
  {
   "property": "C58",
   "status": "proved",
   "theorems": [
    "Dxl.Props.c58_network",
    "Dxl.Props.c58_each",
    "Dxl.Props.c58_isolated",
    "Dxl.Props.c58_read_back",
    "Dxl.Props.c58_broadcast_read_back",
    "Dxl.Props.c58_registered_read_back"
   ],
   "note": "c58_network: any calls to any number of motors are calls to independent memories; c58_each, c58_isolated: what one motor sees; c58_read_back, c58_broadcast_read_back, c58_registered_read_back: what is written to one, to all, or registered and done by one action, is read back. Example: two motors, a broadcast write and a read. The hypotheses of Network are on the line (packets arrive, in time, after garbage or status packets), the room in the buffers, and bodies that survive the stuffing (in the statement)."
  },
  {
   "property": "C59",
   "status": "proved",
   "theorems": [
    "Dxl.Props.c59_sync_read",
    "Dxl.Props.c59_sync_read_bytes",
    "Dxl.Props.c59_bulk_read_bytes",
    "Dxl.Props.c59_scan"
   ],
   "note": "c59_sync_read (every data type), c59_sync_read_bytes, c59_bulk_read_bytes, c59_scan: from the method call of the client and the write_status calls of the devices to the items. OnTime is the hypothesis that each answer arrives within the response time-out after the previous one (exact time-outs are C21); scan also needs that nothing else arrives. Example with three devices, stuffed bytes, an alert and an error."
  },
  {
   "property": "C60",
   "status": "proved",
   "theorems": [
    "Dxl.Props.c60_text",
    "Dxl.Props.c60_identifies",
    "Dxl.Props.c60_injective",
    "Dxl.Props.c60_motor_error_debug",
    "Dxl.Props.c60_buffer_too_small"
   ],
   "note": "InvalidHeaderPrefix holds two arrays of four bytes; FourBytes says their length. {:#02X} pads to a width that includes 0x, so byte 5 is 0x5: Written 16 1."
  },
  {
   "property": "C61",
   "status": "proved",
   "theorems": [
    "Dxl.Props.c61_asked",
    "Dxl.Props.c61_answered",
    "Dxl.Props.c61_ordered",
    "Dxl.Props.c61_confirmed",
    "Dxl.Props.c61_broadcast",
    "Dxl.Props.c61_unanswered",
    "Dxl.Props.c61_scan",
    "Dxl.Props.c61_open_fails",
    "Dxl.Props.c61_broadcast_read",
    "Dxl.Props.c61_exit"
   ],
   "note": "The time a command took, at the start of its line of output, is left out. Commands with up to 86 bytes of parameters (those that fit the 128 byte buffer however stuffed) are covered by the converse direction. A write or reboot is confirmed by the answer of any motor (C31). The ping of all motors is covered for motors that answer without error."
  },
  {
   "property": "C62",
   "status": "proved",
   "theorems": [
    "Dxl.Props.c62_verdict_unique",
    "Dxl.Props.c62_verdict_exists",
    "Dxl.Props.c62_send",
    "Dxl.Props.c62_read_bytes",
    "Dxl.Props.c62_read",
    "Dxl.Props.c62_ping",
    "Dxl.Props.c62_write",
    "Dxl.Props.c62_write_all",
    "Dxl.Props.c62_read_bytes_panics_iff",
    "Dxl.Props.c62_read_panics_iff",
    "Dxl.Props.c62_ping_panics_iff",
    "Dxl.Props.c62_write_panics_iff"
   ],
   "note": "For the types the crate implements Data for; reg_write of larger types is C34. The order of the checks is that of the definitions Verdict and answer; c62_verdict_unique and c62_verdict_exists say that exactly one case applies."
  },
  {
   "property": "C63",
   "status": "proved",
   "theorems": [
    "Dxl.Props.c63_stuffing_enough",
    "Dxl.Props.c63_stuffing_needed",
    "Dxl.Props.c63_write_buffer",
    "Dxl.Props.c63_write_buffer_status"
   ],
   "note": "For all lengths, data and buffers; the sizes are exact (equivalences, with worst cases for every length)."
  },
  {
   "property": "C64",
   "status": "proved",
   "theorems": [
    "Dxl.Props.c64_heard_unique",
    "Dxl.Props.c64_read_raw",
    "Dxl.Props.c64_decode",
    "Dxl.Props.c64_read",
    "Dxl.Props.c64_write_status"
   ],
   "note": "Outcome and remaining bytes of reading an instruction, for every stream; the cases are unique (c64_heard_unique), exhaustive by c64_read_raw. The English statement describes the code as it is (panics included)."
  },
  {
   "property": "C65",
   "status": "proved",
   "theorems": [
    "Dxl.Props.c65_sync_bytes",
    "Dxl.Props.c65_sync_data",
    "Dxl.Props.c65_bulk",
    "Dxl.Props.c65_finished",
    "Dxl.Props.c65_scan"
   ],
   "note": "Each step of the four iterators, with the cases of C62 (unique by c62_verdict_unique); panics included in the statement."
  },
  {
   "property": "C66",
   "status": "proved",
   "theorems": [
    "Dxl.Props.c66_conversation",
    "Dxl.Props.c66_until_failure",
    "Dxl.Props.c66_memories",
    "Dxl.Props.c66_read_back",
    "Dxl.Props.c66_no_fd",
    "Dxl.Props.c66_stale"
   ],
   "note": "c66_stale exhibits what the claim says about time-outs. Two motors with the same ID are excluded (C56)."
  },
  {
   "property": "C67",
   "status": "partial",
   "theorems": [
    "Dxl.Props.c67_sync_read_partial",
    "Dxl.Props.c67_sync_read_bytes_partial",
    "Dxl.Props.c67_bulk_read_bytes_partial",
    "Dxl.Props.c67_scan",
    "Dxl.Props.c67_read_bytes_in_time",
    "Dxl.Props.c67_read_bytes_late",
    "Dxl.Props.c67_read_in_time",
    "Dxl.Props.c67_read_late",
    "Dxl.Props.c67_ping_in_time",
    "Dxl.Props.c67_ping_late",
    "Dxl.Props.c67_write_in_time",
    "Dxl.Props.c67_write_late",
    "Dxl.Props.c67_read_bytes_enough_partial",
    "Dxl.Props.c67_read_enough_partial",
    "Dxl.Props.c67_ping_enough_partial",
    "Dxl.Props.c67_write_enough_partial",
    "Dxl.Props.c67_read_bytes_default_partial",
    "Dxl.Props.c67_read_default_partial",
    "Dxl.Props.c67_write_default_partial",
    "Dxl.Props.c67_refuted_stuffing",
    "Dxl.Props.c67_refuted_buffered"
   ],
   "note": "Refuted as stated, in two ways: bytes stuffed into the answer are not allowed for (c67_refuted_stuffing), and the wait starts when write_all returns, which may be before the instruction is transmitted (c67_refuted_buffered). Proved for all baud rates, delays, latencies and ways of delivery: an answer handed over before the deadline is returned (c67_*_in_time) and one whose last byte comes later times out (c67_*_late); 34 ms from the return of write_all less the time of the stuffed bytes suffice (c67_*_enough_partial); bounds for the default buffers (c67_*_default_partial); group reads and scan likewise. Missing: nothing that is true."
  },
  {
   "property": "C68",
   "status": "partial",
   "theorems": [
    "Dxl.Props.c68_same_write",
    "Dxl.Props.c68_same_read",
    "Dxl.Props.c68_same_status",
    "Dxl.Props.c68_same_scan",
    "Dxl.Props.c68_sent_write",
    "Dxl.Props.c68_write_lines",
    "Dxl.Props.c68_sent_read",
    "Dxl.Props.c68_sent_status",
    "Dxl.Props.c68_sent_scan",
    "Dxl.Props.c68_read_partial",
    "Dxl.Props.c68_counts_partial",
    "Dxl.Props.c68_small",
    "Dxl.Props.c68_exchange",
    "Dxl.Props.c68_scan_end",
    "Dxl.Props.c68_session",
    "Dxl.Props.c68_text",
    "Dxl.Props.c68_text_unique",
    "Dxl.Props.c68_garbage_example",
    "Dxl.Props.c68_refuted_garbage"
   ],
   "note": "Proved for all states: logging changes nothing (c68_same_*), the packets logged as sent are those written (c68_sent_*, c68_session), texts (c68_text*), scans. False as stated (c68_refuted_garbage): garbage behind a packet of an earlier call is shown with bytes of that packet. c68_read_partial and c68_exchange give the exact log where no such packet is in front, c68_counts_partial the counts and packets in every case."
  },
  {
   "property": "C69",
   "status": "proved",
   "theorems": [
    "Dxl.Props.c69_levels",
    "Dxl.Props.c69_more",
    "Dxl.Props.c69_line",
    "Dxl.Props.c69_line_unique",
    "Dxl.Props.c69_same",
    "Dxl.Props.c69_shown",
    "Dxl.Props.c69_announcement",
    "Dxl.Props.c69_sent",
    "Dxl.Props.c69_opened"
   ],
   "note": "Proved for all commands, ports and numbers of -v options: same run with and without messages (c69_same, c69_shown), levels (c69_levels, c69_more), lines (c69_line, c69_line_unique), announcements (c69_announcement, c69_sent), packets shown as sent (c69_sent). env_logger is modelled by its filter; the time in lines of information and colours are not modelled."
  },
  {
   "property": "C70",
   "status": "proved",
   "theorems": [
    "Dxl.Props.c70_write",
    "Dxl.Props.c70_reg_write_one_byte",
    "Dxl.Props.c70_sync_write_one_byte",
    "Dxl.Props.c70_read",
    "Dxl.Props.c70_read_byte_array",
    "Dxl.Props.c70_write_byte_array",
    "Dxl.Props.c70_read_signed",
    "Dxl.Props.c70_broadcast",
    "Dxl.Props.c70_sync_next",
    "Dxl.Props.c70_sync_drop",
    "Dxl.Props.c70_sync_drop_impl",
    "Dxl.Props.c70_bulk_next",
    "Dxl.Props.c70_bulk_drop",
    "Dxl.Props.c70_single"
   ],
   "note": "Equalities of the state transformers of Model/Instructions.lean (Props/Same.lean). For reg_write and sync_write only types of one byte, as the property says; C34 and C35 say what happens for the others. c70_sync_drop assumes that the decoder of a user-defined type does not panic on slices of its size; c70_sync_drop_impl discharges this for the types of the crate."
  },
  {
   "property": "C71",
   "status": "proved",
   "theorems": [
    "Dxl.Props.c71_runs",
    "Dxl.Props.c71_each",
    "Dxl.Props.c71_read_back",
    "Dxl.Props.c71_number_read_back"
   ],
   "note": "Each run opens a port of its own; the motors keep their state. That packets arrive (and in time) is a hypothesis of each run, as in C58. `reboot` and the broadcast ping are not served by the simulated motor (C52) and are covered by C61 only. The bounds in `ValueText` and `Prints` (C61) were added here: without them a number and the same number plus 256 had the same little-endian bytes."
  },
  {
   "property": "C72",
   "status": "proved",
   "theorems": [
    "Dxl.Props.c72_read",
    "Dxl.Props.c72_read_bytes",
    "Dxl.Props.c72_write_bytes",
    "Dxl.Props.c72_reg_write_bytes",
    "Dxl.Props.c72_write",
    "Dxl.Props.c72_reg_write",
    "Dxl.Props.c72_sync_read_one",
    "Dxl.Props.c72_sync_read_bytes_one",
    "Dxl.Props.c72_bulk_read_bytes_one",
    "Dxl.Props.c72_sync_read",
    "Dxl.Props.c72_sync_read_bytes",
    "Dxl.Props.c72_bulk_read_bytes",
    "Dxl.Props.c72_ping",
    "Dxl.Props.c72_ping_bytes"
   ],
   "note": "Executions are those of C66 (interleavings of atomic steps of the simulated line); a run counts if the test body comes to its end. That the two group reads answer only once is how the simulated motor is written (C52)."
  },
  {
   "property": "C73",
   "status": "proved",
   "theorems": [
    "Dxl.Props.c73_stdout",
    "Dxl.Props.c73_file"
   ],
   "note": "What clap_complete generates is a parameter; files are told apart by the names given."
  },
  {
   "property": "C74",
   "status": "proved",
   "theorems": [
    "Dxl.Props.c74_fits",
    "Dxl.Props.c74_read",
    "Dxl.Props.c74_read_bytes",
    "Dxl.Props.c74_write",
    "Dxl.Props.c74_write_bytes",
    "Dxl.Props.c74_reg_write",
    "Dxl.Props.c74_reg_write_bytes",
    "Dxl.Props.c74_ping",
    "Dxl.Props.c74_sync_read",
    "Dxl.Props.c74_sync_read_bytes",
    "Dxl.Props.c74_bulk_read_bytes",
    "Dxl.Props.c74_ten"
   ],
   "note": "Executions of the threads of a test with the sizes of the slices they read into. c74_fits: any clients, devices and motors. c74_ten: the bound of nine motors for test_ping is sharp."
  },
  {
   "property": "C75",
   "status": "proved",
   "theorems": [
    "Dxl.Props.c75_motor",
    "Dxl.Props.c75_motor_ends",
    "Dxl.Props.c75_group_read_never_ends",
    "Dxl.Props.c75_line",
    "Dxl.Props.c75_join_ok",
    "Dxl.Props.c75_join_panic",
    "Dxl.Props.c75_join_hang",
    "Dxl.Props.c75_join_test",
    "Dxl.Props.c75_line_ends",
    "Dxl.Props.c75_read",
    "Dxl.Props.c75_read_bytes",
    "Dxl.Props.c75_write",
    "Dxl.Props.c75_write_bytes",
    "Dxl.Props.c75_reg_write",
    "Dxl.Props.c75_reg_write_bytes",
    "Dxl.Props.c75_ping",
    "Dxl.Props.c75_sync_read",
    "Dxl.Props.c75_sync_read_bytes",
    "Dxl.Props.c75_bulk_read_bytes"
   ],
   "note": "That a motor can only panic outside of its port is C74 (the port itself does not panic). The hypotheses on the IDs are those of C74. Packets that are damaged, too long or cut are outside of the claim: the motor panics on them, as the examples show. A thread is run for any number of iterations, which stands for the flag being set at any time. c75_group_read_never_ends is about the motors after the first of a group read, as long as they hear no other instruction."
  },
  {
   "property": "C76",
   "status": "partial",
   "theorems": [
    "Dxl.Props.c76_read_bytes",
    "Dxl.Props.c76_read",
    "Dxl.Props.c76_ping",
    "Dxl.Props.c76_write",
    "Dxl.Props.c76_refuted_device",
    "Dxl.Props.c76_device_partial"
   ],
   "note": "The part about devices is false: a wrong bit in the length field can cut an instruction short if the following two bytes happen to be the CRC of the part (c76_refuted_device). c76_device_partial says that this is the worst that can happen if the header prefix is found only at the start of the packet: same motor, same instruction number, the first of the parameters. The part about clients holds in full, and more: ping and the calls that wait for a confirmation never succeed (c76_ping, c76_write), and a read succeeds only with the right data, which then end in FF FF FD (the stuffed byte was taken for the CRC). That this happens is shown with luckyAnswer. What arrives may also be only a first part of the damaged packet."
  },
  {
   "property": "C77",
   "status": "proved",
   "theorems": [
    "Dxl.Props.c77_rejected",
    "Dxl.Props.c77_open_fails",
    "Dxl.Props.c77_runs",
    "Dxl.Props.c77_exclusive",
    "Dxl.Props.c77_use",
    "Dxl.Props.c77_all_end",
    "Dxl.Props.c77_bounded"
   ],
   "note": "Settings: exactly when a string is accepted and what it means. Threads: mutual exclusion, no use of a port that is not open, progress and boundedness over all interleavings, with panics and poisoning. The mutex is modelled as documented."
  },
  {
   "property": "C78",
   "status": "proved",
   "theorems": [
    "Dxl.Props.c78_not_valid",
    "Dxl.Props.c78_reported",
    "Dxl.Props.c78_client",
    "Dxl.Props.c78_device",
    "Dxl.Props.c78_sharp"
   ],
   "note": "Proved for all packets, damage in the stated classes, and calls; the bounds are shown to be sharp. Damage of header prefix and length field is excluded here (one wrong bit there: C76)."
  },
  {
   "property": "C79",
   "status": "proved",
   "theorems": [
    "Dxl.Props.c79_known",
    "Dxl.Props.c79_says",
    "Dxl.Props.c79_direction",
    "Dxl.Props.c79_same_result",
    "Dxl.Props.c79_distinct",
    "Dxl.Props.c79_direct",
    "Dxl.Props.c79_text",
    "Dxl.Props.c79_all_become"
   ],
   "note": "Proved for all errors and all sequences of conversions. The rest of the model writes converted errors directly; here the conversions themselves are modelled, one definition per impl From."
  },
  {
   "property": "C80",
   "status": "proved",
   "theorems": [
    "Dxl.Props.c80_packet",
    "Dxl.Props.c80_status_timeout",
    "Dxl.Props.c80_status",
    "Dxl.Props.c80_transfer",
    "Dxl.Props.c80_read_bytes",
    "Dxl.Props.c80_sync",
    "Dxl.Props.c80_bulk",
    "Dxl.Props.c80_device_raw",
    "Dxl.Props.c80_device"
   ],
   "note": "Proved for every state of the bus (no invariant needed) and every call that borrows. The model returns copies; the theorem says that the copy and the memory agree when the call returns. That Rust then allows no other access until the borrow ends is the borrow checker and not modelled."
  },
  {
   "property": "C81",
   "status": "proved",
   "theorems": [
    "Dxl.Props.c81_write_same",
    "Dxl.Props.c81_write_overflow",
    "Dxl.Props.c81_status_same",
    "Dxl.Props.c81_status_overflow",
    "Dxl.Props.c81_slices",
    "Dxl.Props.c81_read_same",
    "Dxl.Props.c81_read_16_same",
    "Dxl.Props.c81_read_16_over",
    "Dxl.Props.c81_response_size",
    "Dxl.Props.c81_response_size_16",
    "Dxl.Props.c81_sync_write_bytes_same",
    "Dxl.Props.c81_sync_write_same",
    "Dxl.Props.c81_bulk_write_same",
    "Dxl.Props.c81_sync_write_bytes_overflow",
    "Dxl.Props.c81_sync_write_bytes_16",
    "Dxl.Props.c81_sync_write_overflow",
    "Dxl.Props.c81_bulk_write_overflow"
   ],
   "note": "All word sizes from 16 bits and both builds. c81_*_same: equal to the model in natural numbers, so that all other theorems apply; c81_*_overflow: nothing is sent; c81_read_16_* and c81_response_size_16: the two places that do overflow on 16-bit machines, and exactly when; c81_sync_write_bytes_16: the one count whose stride overflows there. A slice of bytes has fewer than 2^(w-1) elements, as in Rust."
  },
  {
   "property": "C82",
   "status": "proved",
   "theorems": [
    "Dxl.Props.c82_sync_write_bytes_refused",
    "Dxl.Props.c82_sync_write_bytes_too_many",
    "Dxl.Props.c82_sync_write_bytes_sent",
    "Dxl.Props.c82_sync_write_bytes_honest",
    "Dxl.Props.c82_sync_write_refused",
    "Dxl.Props.c82_sync_write_too_many",
    "Dxl.Props.c82_bulk_write_refused",
    "Dxl.Props.c82_bulk_write_sent",
    "Dxl.Props.c82_sync_write_sent",
    "Dxl.Props.c82_sync_write_byte",
    "Dxl.Props.c82_bulk_write_honest",
    "Dxl.Props.c82_sync_write_honest"
   ],
   "note": "For every len(), every list of items, every pair of slices as_ref() returns and every pair of lists a bulk_write sees. An iterator that never ends is not in the model. In sync_write every item is given two bytes (see C35), and c82_sync_write_sent says that its second is what the encoder of the data wrote."
  },
  {
   "property": "C83",
   "status": "proved",
   "theorems": [
    "Dxl.Props.c83_write_same",
    "Dxl.Props.c83_write",
    "Dxl.Props.c83_read",
    "Dxl.Props.c83_small",
    "Dxl.Props.c83_poisoned",
    "Dxl.Props.c83_recovers",
    "Dxl.Props.c83_wrap",
    "Dxl.Props.c83_never_ends",
    "Dxl.Props.c83_ends",
    "Dxl.Props.c83_device_ends",
    "Dxl.Props.c83_status_ends",
    "Dxl.Props.c83_transfer",
    "Dxl.Props.c83_fuel",
    "Dxl.Props.c83_script_read",
    "Dxl.Props.c83_script_write",
    "Dxl.Props.c83_write_status",
    "Dxl.Props.c83_write_status_small",
    "Dxl.Props.c83_set_baud_rate",
    "Dxl.Props.c83_open",
    "Dxl.Props.c83_instruction",
    "Dxl.Props.c83_write_ends",
    "Dxl.Props.c83_transfer_ends"
   ],
   "note": "Reading loops have a fuel argument: hang with every fuel is non-termination, and c83_fuel shows that a result does not depend on it. c83_read excludes, in release builds only, a claim of so many bytes that read_len overflows; that case is c83_wrap. Other methods, iterators and scan with arbitrary ports: C84."
  },
  {
   "property": "C84",
   "status": "proved",
   "theorems": [
    "Dxl.Props.c84_session",
    "Dxl.Props.c84_call",
    "Dxl.Props.c84_outcome",
    "Dxl.Props.c84_sends",
    "Dxl.Props.c84_ping",
    "Dxl.Props.c84_read_bytes",
    "Dxl.Props.c84_read",
    "Dxl.Props.c84_confirmed"
   ],
   "note": "Times are not compared: the replayed script has its results at time 0, and deadlines in the log are left out. Ports that panic or claim too many bytes are C83 (single packets only). Calls that do not return are excluded (Use.Return); for when they return see C83. c84_confirmed: the motor of a confirmation is not checked by the code (C31)."
  },
  {
   "property": "C85",
   "status": "proved",
   "theorems": [
    "Dxl.Props.c85_packet",
    "Dxl.Props.c85_packet_not_early",
    "Dxl.Props.c85_response",
    "Dxl.Props.c85_read_bytes",
    "Dxl.Props.c85_read",
    "Dxl.Props.c85_ping",
    "Dxl.Props.c85_write",
    "Dxl.Props.c85_write_all",
    "Dxl.Props.c85_no_later",
    "Dxl.Props.c85_no_earlier",
    "Dxl.Props.c85_read_bytes_not_early",
    "Dxl.Props.c85_read_not_early",
    "Dxl.Props.c85_ping_not_early",
    "Dxl.Props.c85_write_not_early",
    "Dxl.Props.c85_scan_next",
    "Dxl.Props.c85_scan_end",
    "Dxl.Props.c85_sync_next_bytes",
    "Dxl.Props.c85_sync_next",
    "Dxl.Props.c85_bulk_next",
    "Dxl.Props.c85_sync_bytes_not_early",
    "Dxl.Props.c85_sync_not_early",
    "Dxl.Props.c85_bulk_not_early",
    "Dxl.Props.c85_device_no_later",
    "Dxl.Props.c85_device_not_early",
    "Dxl.Props.c85_sync_bytes_silent",
    "Dxl.Props.c85_sync_silent",
    "Dxl.Props.c85_bulk_silent",
    "Dxl.Props.c85_scan_silent",
    "Dxl.Props.c85_scan_loop_silent"
   ],
   "note": "With a clock that only the port advances (computation takes no time). A read buffer of less than 10 bytes makes every wait end at once with an error (C17). c85_scan_loop_silent records that dropping a finished scan waits once more."
  },
  {
   "property": "C86",
   "status": "proved",
   "theorems": [
    "Dxl.Props.c86_sync_bytes_stop",
    "Dxl.Props.c86_sync_stop",
    "Dxl.Props.c86_bulk_stop",
    "Dxl.Props.c86_scan_stop",
    "Dxl.Props.c86_sync_bytes_size",
    "Dxl.Props.c86_sync_size",
    "Dxl.Props.c86_bulk_size",
    "Dxl.Props.c86_ended",
    "Dxl.Props.c86_scan_not_fused"
   ],
   "note": "For calls of next that return; a next that panics on a malformed packet (C39) is outside. The bound on the iterations of the drop loops is any number larger than the responses left."
  },
  {
   "property": "C87",
   "status": "proved",
   "theorems": [
    "Dxl.Props.c87_next",
    "Dxl.Props.c87_instruct",
    "Dxl.Props.c87_sent",
    "Dxl.Props.c87_iterators",
    "Dxl.Props.c87_session",
    "Dxl.Props.c87_session_instruct",
    "Dxl.Props.c87_history",
    "Dxl.Props.c87_remade",
    "Dxl.Props.c87_data",
    "Dxl.Props.c87_typed",
    "Dxl.Props.c87_stale",
    "Dxl.Props.c87_not_for_empty_values"
   ],
   "note": "Encoders given by the caller to write_instruction, transfer_single or write_status must overwrite their slice or fail; c87_stale and c87_not_for_empty_values show that this is needed (reg_write and sync_write of a type without bytes send an old byte). Return values of the iterators are compared together with the new index."
  },
  {
   "property": "C88",
   "status": "partial",
   "theorems": [
    "Dxl.Props.c88_again",
    "Dxl.Props.c88_many",
    "Dxl.Props.c88_retry",
    "Dxl.Props.c88_write",
    "Dxl.Props.c88_value_partial",
    "Dxl.Props.c88_delivered_partial",
    "Dxl.Props.c88_value_refuted",
    "Dxl.Props.c88_action"
   ],
   "note": "State of the motor and success: proved in full (c88_retry, c88_write, c88_action). Values of reads: for bytes that survive the stuffing (c88_value_partial); c88_value_refuted shows that a read can return other bytes, of the same number, without an error. c88_delivered_partial also asks for bodies that survive. Loss means that a packet does not arrive: a damaged instruction makes the simulated motor panic (its loop unwraps all errors but time-outs). No answer from before the first try or of another motor may arrive (OnlyFrom): the protocol has no sequence numbers and write-like calls accept an answer of any motor (C31)."
  },
  {
   "property": "C89",
   "status": "proved",
   "theorems": [
    "Dxl.Props.c89_sync_bytes",
    "Dxl.Props.c89_sync",
    "Dxl.Props.c89_bulk",
    "Dxl.Props.c89_scan",
    "Dxl.Props.c89_usable",
    "Dxl.Props.c89_zero_baud",
    "Dxl.Props.c89_line_aborts"
   ],
   "note": "Code is any tree of calls of next (LoopCode), so also code that keeps state. `bads` says which of the responses make a call panic, each by the first packet that arrives in its time (Deadly/Hopeless). For a scan the destructor is bounded by a number of items, as in C41: a scan with a motor that never stops answering has no end. Proved concretely: two malformed responses abort the process (c89_line_aborts)."
  },
  {
   "property": "C90",
   "status": "proved",
   "theorems": [
    "Dxl.Props.c90_sync_read",
    "Dxl.Props.c90_sync_read_bytes",
    "Dxl.Props.c90_bulk_read_bytes"
   ],
   "note": "The answers are those of devices that use write_status (as in C59). Lost means that no byte of it arrives, or only bytes without a packet header, which then count as the garbage before the next answer. No motor repeats an ID after the lost answer (bulk_read_bytes refuses repeated IDs itself)."
  },
  {
   "property": "C91",
   "status": "proved",
   "theorems": [
    "Dxl.Props.c91_sync_read",
    "Dxl.Props.c91_sync_read_bytes",
    "Dxl.Props.c91_bulk_read_bytes",
    "Dxl.Props.c91_scan"
   ],
   "note": "The answers are those of devices that use write_status (as in C59). Damage to the header prefix or to the length field is not covered: then the packet is lost (C90), or bytes after it are taken for part of it (C16, C78)."
  },
  {
   "property": "C92",
   "status": "proved",
   "theorems": [
    "Dxl.Props.c92_error_text",
    "Dxl.Props.c92_ping_text",
    "Dxl.Props.c92_bytes_text",
    "Dxl.Props.c92_instruction_text",
    "Dxl.Props.c92_data_text",
    "Dxl.Props.c92_handle_text",
    "Dxl.Props.c92_errors",
    "Dxl.Props.c92_response",
    "Dxl.Props.c92_values",
    "Dxl.Props.c92_data",
    "Dxl.Props.c92_layout",
    "Dxl.Props.c92_handles",
    "Dxl.Props.c92_sync_iterators",
    "Dxl.Props.c92_bulk_iterators",
    "Dxl.Props.c92_hidden"
   ],
   "note": "c92_error_text, c92_ping_text, c92_bytes_text, c92_instruction_text, c92_data_text, c92_handle_text: the texts for {:?}. c92_layout: the texts for {:#?}. c92_errors, c92_response, c92_values: different values print differently, for {:?} and {:#?}; c92_data: the data types of the crate satisfy the hypotheses of c92_response. c92_handles: clients and devices. c92_sync_iterators, c92_bulk_iterators: iterators, for {:?} only. c92_hidden: what cannot be seen: the buffers of a client, and the difference between the iterators of sync_read and sync_read_bytes. The formatter builders of core are modelled from the source of the standard library."
  },
  {
   "property": "C93",
   "status": "proved",
   "theorems": [
    "Dxl.Props.c93_compiles",
    "Dxl.Props.c93_compiles_nonempty",
    "Dxl.Props.c93_encode",
    "Dxl.Props.c93_decode"
   ],
   "note": "ENCODED_SIZE is modelled as the compiler evaluates it (Model/EncodedSize.lean), with a panic for a program that does not compile. c93_compiles: which types compile, and the size. c93_compiles_nonempty: without empty arrays the bound is on the bytes only. c93_encode, c93_decode: the implementation of every type that compiles. Corner cases as examples: [[u8; 0]; 65536] and [[u64; 8192]; 0] do not compile although their values have no bytes."
  },
  {
   "property": "C94",
   "status": "proved",
   "theorems": [
    "Dxl.Props.c94_ends",
    "Dxl.Props.c94_sync_write_bytes",
    "Dxl.Props.c94_sync_write",
    "Dxl.Props.c94_bulk_write_written",
    "Dxl.Props.c94_bulk_write_panics",
    "Dxl.Props.c94_bulk_write_hangs"
   ],
   "note": "Iterators are functions from the number of the call of next() to its result, and loops are given a number of rounds, with hang if that is not enough (Model/Endless.lean); the theorems hold for every number of rounds from a stated one on, and c94_bulk_write_hangs for every number. c94_ends: for iterators that end the calls equal those of Model/Words.lean."
  },
  {
   "property": "C95",
   "status": "proved",
   "theorems": [
    "Dxl.Props.c95_call",
    "Dxl.Props.c95_timeout",
    "Dxl.Props.c95_follow",
    "Dxl.Props.c95_shifted",
    "Dxl.Props.c95_slow_motor"
   ],
   "note": "The slow motor with constant delay is for a port that writes at once; the statements about one call and about sequences allow any write times. Scripts of the port without failures, on which discarding works."
  },
  {
   "property": "C96",
   "status": "proved",
   "theorems": [
    "Dxl.Props.c96_turns",
    "Dxl.Props.c96_rounds",
    "Dxl.Props.c96_extra",
    "Dxl.Props.c96_pause",
    "Dxl.Props.c96_polling",
    "Dxl.Props.c96_pace"
   ],
   "note": "Group reads: sync_read, sync_read_bytes, bulk_read_bytes. Packets arrive whole or in pieces at any times that meet the waits of the turns. c96_turns: a loop takes one packet per turn; c96_extra: one packet too many; c96_rounds, c96_polling: any number of rounds; c96_pace: rounds with a fixed delay and gap, where the only hypotheses on times are those on delay and gap."
  },
  {
   "property": "C97",
   "status": "proved",
   "theorems": [
    "Dxl.Props.c97_call",
    "Dxl.Props.c97_call_large",
    "Dxl.Props.c97_session",
    "Dxl.Props.c97_group",
    "Dxl.Props.c97_scan",
    "Dxl.Props.c97_device",
    "Dxl.Props.c97_device_large"
   ],
   "note": "Packets come back whole or in pieces, at any times within the waits; c97_call, c97_call_large, c97_session: calls for one motor; c97_group: group reads, one round; c97_scan: up to the end of the scan; c97_device, c97_device_large: what a device reads next is described by Hears (C64) applied to what comes after the echo. In c97_device the status packet is shorter than 65543 bytes."
  },
  {
   "property": "C98",
   "status": "proved",
   "theorems": [
    "Dxl.Props.c98_by_hand",
    "Dxl.Props.c98_sent",
    "Dxl.Props.c98_session",
    "Dxl.Props.c98_lost"
   ],
   "note": "c98_by_hand: all methods that send first (Instructs of C87); c98_sent: any encoder; c98_session: any number of calls. The comparison is with the same client at the same time with the same past calls of its port, only with other received bytes. Needs a port whose discard is not a no-op, and no read errors in the script (a read by hand would take the error, a discard does not). c98_lost: what a listening call has left to read after one read by hand."
  },
  {
   "property": "C99",
   "status": "proved",
   "theorems": [
    "Dxl.Props.c99_first",
    "Dxl.Props.c99_follow",
    "Dxl.Props.c99_pause",
    "Dxl.Props.c99_wrong_value"
   ],
   "note": "c99_first: the call itself; c99_follow: the calls right after it (Take of C95: each takes the next answer); c99_wrong_value: a case in which such a call succeeds with a wrong value; c99_pause: after a pause. The answers are status packets of motors with other IDs than 254, in any pieces; the port works smoothly (discards and writes succeed)."
  },
  {
   "property": "C100",
   "status": "proved",
   "theorems": [
    "Dxl.Props.c100_call",
    "Dxl.Props.c100_listen",
    "Dxl.Props.c100_sync",
    "Dxl.Props.c100_bulk",
    "Dxl.Props.c100_scan",
    "Dxl.Props.c100_program",
    "Dxl.Props.c100_scan_goes_on",
    "Dxl.Props.c100_no_limit"
   ],
   "note": "Spends (Spec/Duration.lean): at most so many write_all calls, and at most so much time beside them. c100_call: every method that sends (Waits lists them with the size of the awaited response); c100_sync, c100_bulk: iterators, any use and drop; c100_scan: a step and the drop of a scan; c100_listen: the methods of a device that wait; c100_program: any program (Working), by induction. c100_scan_goes_on, c100_no_limit: a whole scan has no limit. The times hold for every outcome, also panics; that the calls return at all is C19 and C40. A port whose read returns after its deadline is not considered (see C83 for what is assumed of ports)."
  },
  {
   "property": "C101",
   "status": "proved",
   "theorems": [
    "Dxl.Props.c101_listen",
    "Dxl.Props.c101_instruct",
    "Dxl.Props.c101_session",
    "Dxl.Props.c101_made",
    "Dxl.Props.c101_enough",
    "Dxl.Props.c101_noop",
    "Dxl.Props.c101_failed_discard",
    "Dxl.Props.c101_too_large"
   ],
   "note": "Roomier (Spec/Roomier.lean): two buses with the same to read, the second with larger buffers. c101_listen: calls that only read (Listens) give the same outcome at the same time and are Roomier again; c101_instruct: calls that send (Instructs) too, or NoRoom: the smaller write buffer is reported too small, or a panic (the checksum that does not fit, C09; a panic ends the comparison, also one with another cause); c101_session, c101_made: any sequence of calls from any buffers. c101_enough: 65542 bytes are always enough. c101_noop, c101_failed_discard, c101_too_large: each condition is needed."
  },
  {
   "property": "C102",
   "status": "proved",
   "theorems": [
    "Dxl.Props.c102_stuff",
    "Dxl.Props.c102_maximum",
    "Dxl.Props.c102_round_trip",
    "Dxl.Props.c102_static_buffer",
    "Dxl.Props.c102_loop",
    "Dxl.Props.c102_buffer_sizes",
    "Dxl.Props.c102_pass"
   ],
   "note": "Every test is proved to pass in the model; test_buffer_too_small for all word sizes from 8 bits, clocks and fuel from 2. Messages of the assertions and the compile-only tests of bulk_write.rs are left out."
  },
  {
   "property": "C103",
   "status": "proved",
   "theorems": [
    "Dxl.Props.c103_same",
    "Dxl.Props.c103_moved",
    "Dxl.Props.c103_bytewise",
    "Dxl.Props.c103_at_once",
    "Dxl.Props.c103_garbage",
    "Dxl.Props.c103_small"
   ],
   "note": "The reader is repeated with a counter and proved equal to the model of the other properties; the count is exact for every call."
  },
  {
   "property": "C104",
   "status": "proved",
   "theorems": [
    "Dxl.Props.c104_same_send",
    "Dxl.Props.c104_same_status",
    "Dxl.Props.c104_same_receive",
    "Dxl.Props.c104_same_call",
    "Dxl.Props.c104_same_construct",
    "Dxl.Props.c104_first_four",
    "Dxl.Props.c104_no_header",
    "Dxl.Props.c104_framed",
    "Dxl.Props.c104_unchecked",
    "Dxl.Props.c104_spins",
    "Dxl.Props.c104_same_method",
    "Dxl.Props.c104_same_scope"
   ],
   "note": "The constructors, the packet level, every method of Client and Device (the pairs listed in BufferMethod) and any code that uses an iterator. The port is the script port; any port with list buffers is C83, any port with any buffer type is C106. Memory: a lent slice is a list of bytes that is handed back with its changes when the borrow ends."
  },
  {
   "property": "C105",
   "status": "proved",
   "theorems": [
    "Dxl.Props.c105_read_bytes",
    "Dxl.Props.c105_sync",
    "Dxl.Props.c105_bulk",
    "Dxl.Props.c105_sync_scope",
    "Dxl.Props.c105_bulk_scope",
    "Dxl.Props.c105_sync_caught",
    "Dxl.Props.c105_bulk_caught",
    "Dxl.Props.c105_decode_aborts"
   ],
   "note": "A conversion that does not end is not modelled. Aborts are modelled for panic = \"unwind\"."
  },
  {
   "property": "C106",
   "status": "proved",
   "theorems": [
    "Dxl.Props.c106_same_method",
    "Dxl.Props.c106_same_scope",
    "Dxl.Props.c106_same_construct",
    "Dxl.Props.c106_first_four",
    "Dxl.Props.c106_framed"
   ],
   "note": "Every method listed in AllMethod, both constructors, and any code that uses an iterator. A lent slice is a list of bytes that is handed back with its changes when the borrow ends."
  },
  {
   "property": "C107",
   "status": "proved",
   "theorems": [
    "Dxl.Props.c107_next_bytes",
    "Dxl.Props.c107_next",
    "Dxl.Props.c107_next_item",
    "Dxl.Props.c107_next_bulk",
    "Dxl.Props.c107_sync_bytes",
    "Dxl.Props.c107_sync_drop",
    "Dxl.Props.c107_sync",
    "Dxl.Props.c107_bulk",
    "Dxl.Props.c107_scan_next",
    "Dxl.Props.c107_scan"
   ],
   "note": "The scope theorems cover all four iterators. For SyncRead<T> the decoding of T is any function that ends (the hypothesis of c107_next and c107_sync), and may panic."
  }
 ]
}
