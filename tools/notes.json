{
 "C01": "All initial values and all byte strings; table lookup never out of bounds.",
 "C02": "Three error classes, for all lengths; the two-bit bound 32767 is shown to be sharp.",
 "C03": "False as stated (c03_refuted: a run of 3 FF before FD is not stuffed). Proved: holds exactly for bodies in which every FF FF FD ends a run of 2, 5, 8, ... FFs; in particular for all bodies without FF FF FF FD. c03_stuff_exact_partial says what every body is turned into (Spec.StuffedForm, without reference to the model); all other properties use that form.",
 "C04": "False as stated (c04_refuted). c04_round_trip_partial says exactly which data survive stuffing followed by unstuffing, for every length (Spec.Survives): a part where no FD ends a run of 2, 5, 8, ... FFs; possibly one such run with FD and directly behind it runs of 3, 6, 9, ... FFs with FD each; and a part where every FF FF FD ends a run of 2, 5, 8, ... FFs.",
 "C05": "False as stated (c05_refuted: a write of FF FF FF FD 00). c05_header_iff_partial says exactly which bodies have the header prefix in their sent form; c05_no_header_in_body_partial is the simple sufficient condition that every FF FF FD ends a run of 2, 5, 8, ... FFs.",
 "C06": "False as stated (c06_refuted). Proved: holds exactly under the run condition of C03. c06_unstuff_exact_partial says what any received body is turned into (Spec.Unstuffs, without reference to the model); all other properties use it.",
 "C07": "All buffers, lengths and both build profiles.",
 "C08": "All packets, encoders, buffers and bus states satisfying the write buffer invariant (reachable: C22).",
 "C09": "False as stated (c09_refuted). The failing cases are exactly characterised (CrcGap): reported outside, with exact sizes, panic inside. For instruction and status packets.",
 "C10": "False as stated (c10_refuted, 65600 byte body in a release build). Proved for write buffers up to 65542 bytes; c10_exact_partial and c10_status_exact_partial say exactly what happens to any packet that fits the buffer: the length field is right iff the stuffed body is at most 65533 bytes, and debug builds panic iff it is one or two bytes below a multiple of 65536.",
 "C100": "Spends (Spec/Duration.lean): at most so many write_all calls, and at most so much time beside them. c100_call: every method that sends (Waits lists them with the size of the awaited response); c100_sync, c100_bulk: iterators, any use and drop; c100_scan: a step and the drop of a scan; c100_listen: the methods of a device that wait; c100_program: any program (Working), by induction. c100_scan_goes_on, c100_no_limit: a whole scan has no limit. The times hold for every outcome, also panics; that the calls return at all is C19 and C40. A port whose read returns after its deadline is not considered (see C83 for what is assumed of ports).",
 "C101": "Roomier (Spec/Roomier.lean): two buses with the same to read, the second with larger buffers. c101_listen: calls that only read (Listens) give the same outcome at the same time and are Roomier again; c101_instruct: calls that send (Instructs) too, or NoRoom: the smaller write buffer is reported too small, or a panic (the checksum that does not fit, C09; a panic ends the comparison, also one with another cause); c101_session, c101_made: any sequence of calls from any buffers. c101_enough: 65542 bytes are always enough. c101_noop, c101_failed_discard, c101_too_large: each condition is needed.",
 "C102": "Every test is proved to pass in the model; test_buffer_too_small for all word sizes from 8 bits, clocks and fuel from 2. Messages of the assertions and the compile-only tests of bulk_write.rs are left out.",
 "C103": "The reader is repeated with a counter and proved equal to the model of the other properties; the count is exact for every call.",
 "C104": "The constructors, the packet level, every method of Client and Device (the pairs listed in BufferMethod) and any code that uses an iterator. The port is the script port; any port with list buffers is C83, any port with any buffer type is C106. Memory: a lent slice is a list of bytes that is handed back with its changes when the borrow ends.",
 "C105": "A conversion that does not end is not modelled. Aborts are modelled for panic = \"unwind\".",
 "C106": "Every method listed in AllMethod, both constructors, and any code that uses an iterator. A lent slice is a list of bytes that is handed back with its changes when the borrow ends.",
 "C107": "The scope theorems cover all four iterators. For SyncRead<T> the decoding of T is any function that ends (the hypothesis of c107_next and c107_sync), and may panic.",
 "C11": "All failures of write_instruction and write_status.",
 "C12": "Both forms: the response consists of bytes that arrived after the discard, and the earlier contents of the read buffer make no difference. Ports whose discard does nothing are covered separately in the statement.",
 "C13": "Refinement of the read loop to a parser of the byte stream; all streams, splits, buffer states and sizes.",
 "C14": "All garbage, packets, chunkings.",
 "C15": "Induction over the packets; also with timeouts and I/O errors in between (c15_interruptions).",
 "C16": "c16_returned_is_valid is the converse of C14. Corruption classes are those of C02, outside prefix and length field.",
 "C17": "All announced lengths and buffer sizes; buffers below 10 bytes never receive anything.",
 "C18": "False as stated (c18_refuted_*: CRC-valid packet with length field 2, or status packet with length field 3). Proved: the exact set of inputs that panic, for packets, status responses and instructions (devices); everything else returns.",
 "C19": "All states and finite inputs; number of reads bounded by the size of the input.",
 "C20": "All arrival schedules, with the deadline behaviour of the serial2 port.",
 "C21": "All u32 sizes and non-zero u32 baud rates; a baud rate of zero panics (c21_zero_baud_panics).",
 "C22": "Op lists all public operations of client, device and iterators; induction over the history, every outcome including panics.",
 "C23": "False as stated because of C04 (c23_refuted). c23_transfer_exact_partial: ID and instruction always arrive, and the parameters are the same exactly if the body is one of those that survive (see C04), in particular without FF FF FF FD.",
 "C24": "False as stated (c24_refuted: clear_error; c24_refuted_stuffing). c24_fixed_understood: ping, scan, reads, action, reboot, factory reset, clear revolution counter are always understood. c24_understood_exact_partial: any other instruction is understood exactly if its body survives the stuffing (Spec.Survives), and otherwise decoded as something else or rejected. reg_write, sync_write and clear_error separately.",
 "C25": "False as stated: a bulk write is returned as a bulk read (c25_refuted). Proved: everything else is the same, for every state and input.",
 "C26": "Both directions, with termination, the deadline and errors.",
 "C27": "Every byte count (u8..u128, i8..i128 are 1, 2, 4, 8, 16), every value in range, every buffer; stated against a positional little-endian / two's complement spec.",
 "C28": "False as stated (c28_refuted: a shorter slice panics, c28_refuted_longer: a longer one is accepted). Proved: concatenation and round trip for all nested arrays, and exactly what decode does on every slice.",
 "C29": "False as stated (c29_refuted): finish() reads the array out and then drops the initializer, so each element is dropped although handed out. Proved: no leak or double drop on failure, and the exact behaviour on success.",
 "C30": "Soundness (what was sent, which calls were made, that the first packet to arrive is the answer) and completeness (any first status packet gives exactly the stated result) for read_bytes, read and ping.",
 "C31": "False as stated (c31_refuted): the packet ID of the confirmation is never compared. Proved: it is a valid empty status packet without error from the motor named in the response, so callers can check.",
 "C32": "All outcomes; also the broadcast_* functions.",
 "C33": "Both directions, and the accessors on all bytes.",
 "C34": "Refuted: reg_write passes parameter count 3 whatever the type, so it fails without sending for every type of two or more bytes (c34_refuted, c34_reg_write_larger_fails_partial) and sends a stale byte for types without bytes. Proved for types of one byte. regWriteBytes is right: c46_reg_write_bytes_partial.",
 "C35": "Refuted: sync_write uses length 1 whatever the type, so it fails without sending for every type of two or more bytes; with no motors the length field is 1. Proved for types of one byte.",
 "C36": "Layout and panic. If the packet with the promised sizes would not fit the write buffer the error is BufferTooSmall instead of a panic; nothing is sent either way.",
 "C37": "Refuted: repeated motor IDs are not checked although documented to panic. Layout and the panic on long data are proved for all lists.",
 "C38": "Full: panic iff two reads have the same ID, otherwise the layout.",
 "C39": "Full statement (C39_statement) is false: a malformed packet (C18) or baud rate zero (C21) makes the iterator panic. c39_bytes_partial/c39_data_partial hold for every list, bus, stream and number of calls: one item per motor in order with right ID and size, then None, remaining() exact, each item accounted for in the stream, and a panic happens only in exactly those cases. c39_*_delivered: replies that come in time are all delivered in order.",
 "C40": "SyncReadBytes, SyncRead and BulkReadBytes: proved to terminate and to await one response per remaining motor (c40_sync_bytes_partial, c40_sync_data_partial, c40_bulk_partial). Scan: refuted (c40_refuted): on a port that keeps failing with an error other than a time-out, or with a read buffer below 10 bytes, the loop never ends (c40_scan_hangs); it terminates otherwise (c40_scan_partial).",
 "C41": "As C39: full statement refuted by the panics of C18/C21; everything else proved (c41_bytes_partial, c41_bytes_delivered).",
 "C42": "c42_none_iff characterises None for every bus and stream. c42_scan_delivered and c42_scan_exact: any number of replies, any chunking, each within the wait of the scan; replies may follow garbage.",
 "C43": "Same histories as C22.",
 "C44": "In full, for the interleaving model of Model/StaticBuffer.lean (any number of evaluations and steps).",
 "C45": "In full. clap and how it hands over the argument are not modelled.",
 "C46": "Refuted because of clear_error, which sends 01 45 52 43 4C instead of 02 45 52 43 4C; every other method is proved, each as one _partial theorem of the conjunction.",
 "C47": "Added while modelling the device.",
 "C48": "In full for the commands that open a port; opening the port and parsing of other arguments are not modelled.",
 "C49": "Partial because c49_refuted: the header prefix check panics on slices below 4 bytes. All other checks are proved exact (c49_numbers_partial), the header check for slices of at least 4 bytes (c49_header_partial).",
 "C50": "Client and Device constructors (open, open_with_buffers, new, with_buffers); limits of the default buffers, both sides of the boundary.",
 "C51": "Partial: c51_refuted shows the claim false for some data because of the stuffing bug (C23). c51_received_exact_partial: ID and error always arrive, and the parameters are the same exactly if the body survives stuffing (C04). c51_sent: the device does send the packet given room.",
 "C52": "c52_serves_partial is exact for every state and every packet that fits the write buffer; refuted in full because reads of 118 to 200 bytes, which the table allows, panic with the default buffers (c52_refuted, c52_big_read_panics). Factory reset, reboot and clear panic. Nothing is missing from the partial statement but the buffer size.",
 "C53": "Refuted in each part: the position of the ID is searched in the raw bytes of a sync write, the stride of a bulk write forgets the 5 byte header, and replies of other motors are awaited with Device::read, which skips status packets. What does hold: sync writes whose earlier data do not contain the ID, the first entry of a bulk write, the first listed motor of a read, motors that are not listed.",
 "C54": "c54_session_partial: refinement of whole sessions to the memory of Spec/Servo.lean, by induction on the session; the only gap to the English claim is data that do not survive the stuffing (C04), for which c54_refuted is a counterexample.",
 "C55": "The serial2 crate itself is an environment (Tty), described in Model/Serial2.lean; c55_read_refines is a refinement to Port.read. An Instant overflow, for example with Duration::MAX, is a panic of make_deadline (c55_make_deadline).",
 "C56": "Interleaving model of any number of threads; invariants over runs of any length. False in full: read panics if more bytes wait than fit in its slice, and poisons the mutex for all writers (c56_refuted); if that never happens nothing panics (c56_no_panic_partial). Devices with equal IDs do not hear each other (c56_connections, exact).",
 "C57": "c57_resync, by induction on the noise: after n calls, with 4n <= length of noise, and the loss of k packets, of which all but the last end within read-buffer-size bytes after the noise, the following calls return exactly the rest of the packets. Example: a false header that swallows the first of three packets. The packets are assumed to be received before the deadline of the calls (stream D b), as in C14.",
 "C58": "c58_network: any calls to any number of motors are calls to independent memories; c58_each, c58_isolated: what one motor sees; c58_read_back, c58_broadcast_read_back, c58_registered_read_back: what is written to one, to all, or registered and done by one action, is read back. Example: two motors, a broadcast write and a read. The hypotheses of Network are on the line (packets arrive, in time, after garbage or status packets), the room in the buffers, and bodies that survive the stuffing (in the statement).",
 "C59": "c59_sync_read (every data type), c59_sync_read_bytes, c59_bulk_read_bytes, c59_scan: from the method call of the client and the write_status calls of the devices to the items. OnTime is the hypothesis that each answer arrives within the response time-out after the previous one (exact time-outs are C21); scan also needs that nothing else arrives. Example with three devices, stuffed bytes, an alert and an error.",
 "C60": "InvalidHeaderPrefix holds two arrays of four bytes; FourBytes says their length. {:#02X} pads to a width that includes 0x, so byte 5 is 0x5: Written 16 1.",
 "C61": "The time a command took, at the start of its line of output, is left out. Commands with up to 86 bytes of parameters (those that fit the 128 byte buffer however stuffed) are covered by the converse direction. A write or reboot is confirmed by the answer of any motor (C31). The ping of all motors is covered for motors that answer without error.",
 "C62": "For the types the crate implements Data for; reg_write of larger types is C34. The order of the checks is that of the definitions Verdict and answer; c62_verdict_unique and c62_verdict_exists say that exactly one case applies.",
 "C63": "For all lengths, data and buffers; the sizes are exact (equivalences, with worst cases for every length).",
 "C64": "Outcome and remaining bytes of reading an instruction, for every stream; the cases are unique (c64_heard_unique), exhaustive by c64_read_raw. The English statement describes the code as it is (panics included).",
 "C65": "Each step of the four iterators, with the cases of C62 (unique by c62_verdict_unique); panics included in the statement.",
 "C66": "c66_stale exhibits what the claim says about time-outs. Two motors with the same ID are excluded (C56).",
 "C67": "Refuted as stated, in two ways: bytes stuffed into the answer are not allowed for (c67_refuted_stuffing), and the wait starts when write_all returns, which may be before the instruction is transmitted (c67_refuted_buffered). Proved for all baud rates, delays, latencies and ways of delivery: an answer handed over before the deadline is returned (c67_*_in_time) and one whose last byte comes later times out (c67_*_late); 34 ms from the return of write_all less the time of the stuffed bytes suffice (c67_*_enough_partial); bounds for the default buffers (c67_*_default_partial); group reads and scan likewise. Missing: nothing that is true.",
 "C68": "Proved for all states: logging changes nothing (c68_same_*), the packets logged as sent are those written (c68_sent_*, c68_session), texts (c68_text*), scans. False as stated (c68_refuted_garbage): garbage behind a packet of an earlier call is shown with bytes of that packet. c68_read_partial and c68_exchange give the exact log where no such packet is in front, c68_counts_partial the counts and packets in every case.",
 "C69": "Proved for all commands, ports and numbers of -v options: same run with and without messages (c69_same, c69_shown), levels (c69_levels, c69_more), lines (c69_line, c69_line_unique), announcements (c69_announcement, c69_sent), packets shown as sent (c69_sent). env_logger is modelled by its filter; the time in lines of information and colours are not modelled.",
 "C70": "Equalities of the state transformers of Model/Instructions.lean (Props/Same.lean). For reg_write and sync_write only types of one byte, as the property says; C34 and C35 say what happens for the others. c70_sync_drop assumes that the decoder of a user-defined type does not panic on slices of its size; c70_sync_drop_impl discharges this for the types of the crate.",
 "C71": "Each run opens a port of its own; the motors keep their state. That packets arrive (and in time) is a hypothesis of each run, as in C58. `reboot` and the broadcast ping are not served by the simulated motor (C52) and are covered by C61 only. The bounds in `ValueText` and `Prints` (C61) were added here: without them a number and the same number plus 256 had the same little-endian bytes.",
 "C72": "Executions are those of C66 (interleavings of atomic steps of the simulated line); a run counts if the test body comes to its end. That the two group reads answer only once is how the simulated motor is written (C52).",
 "C73": "What clap_complete generates is a parameter; files are told apart by the names given.",
 "C74": "Executions of the threads of a test with the sizes of the slices they read into. c74_fits: any clients, devices and motors. c74_ten: the bound of nine motors for test_ping is sharp.",
 "C75": "That a motor can only panic outside of its port is C74 (the port itself does not panic). The hypotheses on the IDs are those of C74. Packets that are damaged, too long or cut are outside of the claim: the motor panics on them, as the examples show. A thread is run for any number of iterations, which stands for the flag being set at any time. c75_group_read_never_ends is about the motors after the first of a group read, as long as they hear no other instruction.",
 "C76": "The part about devices is false: a wrong bit in the length field can cut an instruction short if the following two bytes happen to be the CRC of the part (c76_refuted_device). c76_device_partial says that this is the worst that can happen if the header prefix is found only at the start of the packet: same motor, same instruction number, the first of the parameters. The part about clients holds in full, and more: ping and the calls that wait for a confirmation never succeed (c76_ping, c76_write), and a read succeeds only with the right data, which then end in FF FF FD (the stuffed byte was taken for the CRC). That this happens is shown with luckyAnswer. What arrives may also be only a first part of the damaged packet.",
 "C77": "Settings: exactly when a string is accepted and what it means. Threads: mutual exclusion, no use of a port that is not open, progress and boundedness over all interleavings, with panics and poisoning. The mutex is modelled as documented.",
 "C78": "Proved for all packets, damage in the stated classes, and calls; the bounds are shown to be sharp. Damage of header prefix and length field is excluded here (one wrong bit there: C76).",
 "C79": "Proved for all errors and all sequences of conversions. The rest of the model writes converted errors directly; here the conversions themselves are modelled, one definition per impl From.",
 "C80": "Proved for every state of the bus (no invariant needed) and every call that borrows. The model returns copies; the theorem says that the copy and the memory agree when the call returns. That Rust then allows no other access until the borrow ends is the borrow checker and not modelled.",
 "C81": "All word sizes from 16 bits and both builds. c81_*_same: equal to the model in natural numbers, so that all other theorems apply; c81_*_overflow: nothing is sent; c81_read_16_* and c81_response_size_16: the two places that do overflow on 16-bit machines, and exactly when; c81_sync_write_bytes_16: the one count whose stride overflows there. A slice of bytes has fewer than 2^(w-1) elements, as in Rust.",
 "C82": "For every len(), every list of items, every pair of slices as_ref() returns and every pair of lists a bulk_write sees. An iterator that never ends is not in the model. In sync_write every item is given two bytes (see C35), and c82_sync_write_sent says that its second is what the encoder of the data wrote.",
 "C83": "Reading loops have a fuel argument: hang with every fuel is non-termination, and c83_fuel shows that a result does not depend on it. c83_read excludes, in release builds only, a claim of so many bytes that read_len overflows; that case is c83_wrap. Other methods, iterators and scan with arbitrary ports: C84.",
 "C84": "Times are not compared: the replayed script has its results at time 0, and deadlines in the log are left out. Ports that panic or claim too many bytes are C83 (single packets only). Calls that do not return are excluded (Use.Return); for when they return see C83. c84_confirmed: the motor of a confirmation is not checked by the code (C31).",
 "C85": "With a clock that only the port advances (computation takes no time). A read buffer of less than 10 bytes makes every wait end at once with an error (C17). c85_scan_loop_silent records that dropping a finished scan waits once more.",
 "C86": "For calls of next that return; a next that panics on a malformed packet (C39) is outside. The bound on the iterations of the drop loops is any number larger than the responses left.",
 "C87": "Encoders given by the caller to write_instruction, transfer_single or write_status must overwrite their slice or fail; c87_stale and c87_not_for_empty_values show that this is needed (reg_write and sync_write of a type without bytes send an old byte). Return values of the iterators are compared together with the new index.",
 "C88": "State of the motor and success: proved in full (c88_retry, c88_write, c88_action). Values of reads: for bytes that survive the stuffing (c88_value_partial); c88_value_refuted shows that a read can return other bytes, of the same number, without an error. c88_delivered_partial also asks for bodies that survive. Loss means that a packet does not arrive: a damaged instruction makes the simulated motor panic (its loop unwraps all errors but time-outs). No answer from before the first try or of another motor may arrive (OnlyFrom): the protocol has no sequence numbers and write-like calls accept an answer of any motor (C31).",
 "C89": "Code is any tree of calls of next (LoopCode), so also code that keeps state. `bads` says which of the responses make a call panic, each by the first packet that arrives in its time (Deadly/Hopeless). For a scan the destructor is bounded by a number of items, as in C41: a scan with a motor that never stops answering has no end. Proved concretely: two malformed responses abort the process (c89_line_aborts).",
 "C90": "The answers are those of devices that use write_status (as in C59). Lost means that no byte of it arrives, or only bytes without a packet header, which then count as the garbage before the next answer. No motor repeats an ID after the lost answer (bulk_read_bytes refuses repeated IDs itself).",
 "C91": "The answers are those of devices that use write_status (as in C59). Damage to the header prefix or to the length field is not covered: then the packet is lost (C90), or bytes after it are taken for part of it (C16, C78).",
 "C92": "c92_error_text, c92_ping_text, c92_bytes_text, c92_instruction_text, c92_data_text, c92_handle_text: the texts for {:?}. c92_layout: the texts for {:#?}. c92_errors, c92_response, c92_values: different values print differently, for {:?} and {:#?}; c92_data: the data types of the crate satisfy the hypotheses of c92_response. c92_handles: clients and devices. c92_sync_iterators, c92_bulk_iterators: iterators, for {:?} only. c92_hidden: what cannot be seen: the buffers of a client, and the difference between the iterators of sync_read and sync_read_bytes. The formatter builders of core are modelled from the source of the standard library.",
 "C93": "ENCODED_SIZE is modelled as the compiler evaluates it (Model/EncodedSize.lean), with a panic for a program that does not compile. c93_compiles: which types compile, and the size. c93_compiles_nonempty: without empty arrays the bound is on the bytes only. c93_encode, c93_decode: the implementation of every type that compiles. Corner cases as examples: [[u8; 0]; 65536] and [[u64; 8192]; 0] do not compile although their values have no bytes.",
 "C94": "Iterators are functions from the number of the call of next() to its result, and loops are given a number of rounds, with hang if that is not enough (Model/Endless.lean); the theorems hold for every number of rounds from a stated one on, and c94_bulk_write_hangs for every number. c94_ends: for iterators that end the calls equal those of Model/Words.lean.",
 "C95": "The slow motor with constant delay is for a port that writes at once; the statements about one call and about sequences allow any write times. Scripts of the port without failures, on which discarding works.",
 "C96": "Group reads: sync_read, sync_read_bytes, bulk_read_bytes. Packets arrive whole or in pieces at any times that meet the waits of the turns. c96_turns: a loop takes one packet per turn; c96_extra: one packet too many; c96_rounds, c96_polling: any number of rounds; c96_pace: rounds with a fixed delay and gap, where the only hypotheses on times are those on delay and gap.",
 "C97": "Packets come back whole or in pieces, at any times within the waits; c97_call, c97_call_large, c97_session: calls for one motor; c97_group: group reads, one round; c97_scan: up to the end of the scan; c97_device, c97_device_large: what a device reads next is described by Hears (C64) applied to what comes after the echo. In c97_device the status packet is shorter than 65543 bytes.",
 "C98": "c98_by_hand: all methods that send first (Instructs of C87); c98_sent: any encoder; c98_session: any number of calls. The comparison is with the same client at the same time with the same past calls of its port, only with other received bytes. Needs a port whose discard is not a no-op, and no read errors in the script (a read by hand would take the error, a discard does not). c98_lost: what a listening call has left to read after one read by hand.",
 "C99": "c99_first: the call itself; c99_follow: the calls right after it (Take of C95: each takes the next answer); c99_wrong_value: a case in which such a call succeeds with a wrong value; c99_pause: after a pause. The answers are status packets of motors with other IDs than 254, in any pieces; the port works smoothly (discards and writes succeed)."
}
