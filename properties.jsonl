{"id": "C01", "title": "Checksum is the protocol CRC-16 and can be computed in pieces", "statement": "checksum::calculate_checksum(init, data) equals the bit-serial CRC-16 with generator x^16+x^15+x^2+1 (0x8005, MSB first, no reflection) started at init; and checksumming a concatenation equals checksumming the second part starting from the checksum of the first.", "quantifier": "every 16-bit initial value, every byte string of every length, every split point", "why_tests_cant": "A 256-entry table has 2^16 x unbounded inputs; a test samples a handful of strings.", "anchors": ["src/checksum.rs: calculate_checksum, TABLE"]}
{"id": "C02", "title": "Checksum error detection", "statement": "Two messages of equal length whose bits (message and CRC field together) differ in an odd number of places are never both accepted; nor are two that differ in the message by a burst of at most 16 bits, nor by exactly two bits fewer than 32767 bit positions apart, with the CRC field intact.", "quantifier": "every valid message of every length and every error pattern in the class", "why_tests_cant": "Error patterns times messages are unbounded; tests flip a few bits of one message.", "anchors": ["src/checksum.rs: calculate_checksum", "src/bus/mod.rs: Bus::read_packet_deadline"]}
{"id": "C03", "title": "Byte stuffing follows the protocol", "statement": "When a packet is sent, the bytes between the length field and the CRC are exactly instruction+parameters with one 0xFD inserted after every occurrence of FF FF FD.", "quantifier": "every instruction byte and parameter string of every length", "why_tests_cant": "Overlapping FF runs and positions are unbounded; the defect needs an FF-run of length not 2 mod 3.", "anchors": ["src/bus/bytestuff.rs: stuffing_required, stuff_inplace", "src/bus/mod.rs: Bus::write_packet"]}
{"id": "C04", "title": "Stuffing then unstuffing is the identity", "statement": "Unstuffing the stuffed form of any data gives back the data.", "quantifier": "every byte string of every length", "why_tests_cant": "Needs all interleavings of FF/FD runs; the shortest counterexample has 8 bytes.", "anchors": ["src/bus/bytestuff.rs: stuff_inplace, unstuff_inplace"]}
{"id": "C05", "title": "A sent body never contains the packet header prefix", "statement": "The instruction+parameter bytes of a packet put on the wire never contain FF FF FD 00, so that this pattern always marks the start of a packet (documented at HEADER_PREFIX).", "quantifier": "every packet that can be sent", "why_tests_cant": "Universal statement over all payloads.", "anchors": ["src/bus/mod.rs: HEADER_PREFIX, Bus::write_packet", "src/bus/bytestuff.rs: stuff_inplace"]}
{"id": "C06", "title": "Interoperability of unstuffing with a conforming sender", "statement": "A received body that was stuffed according to the protocol (FD inserted after every FF FF FD) is unstuffed to the original body.", "quantifier": "every body of every length", "why_tests_cant": "Universal over bodies; depends on run lengths modulo 3.", "anchors": ["src/bus/bytestuff.rs: unstuff_inplace", "src/bus/mod.rs: Bus::read_packet_deadline"]}
{"id": "C07", "title": "In-place stuffing and unstuffing are memory-safe and confined", "statement": "unstuff_inplace and stuff_inplace never index out of bounds and never trip their debug assertions; stuff_inplace reports BufferTooSmall exactly when the stuffed data does not fit, leaving the buffer unchanged in that case, and never touches bytes past the stuffed length.", "quantifier": "every buffer, every length within the buffer", "why_tests_cant": "In-place backwards copy with moving offsets: correctness for all offsets is an invariant, not a sample.", "anchors": ["src/bus/bytestuff.rs: stuff_inplace, unstuff_inplace, stuffing_required"]}
{"id": "C08", "title": "Layout of a sent packet", "statement": "If write_instruction or write_status succeeds, exactly one buffer was handed to the serial port, and it is FF FF FD 00, the packet ID, the 16-bit little-endian count of the bytes that follow, the stuffed body, and the little-endian CRC of everything before it.", "quantifier": "every packet ID, instruction ID, parameter encoder, buffer size, previous history of the bus", "why_tests_cant": "Holds only through the write-buffer invariant over all previous operations.", "anchors": ["src/bus/mod.rs: Bus::write_packet, Bus::write_status"]}
{"id": "C09", "title": "A too small write buffer is reported, not a panic", "statement": "If the packet (after stuffing, including the CRC) does not fit in the write buffer, the call returns BufferTooSmall; it never panics.", "quantifier": "every write buffer size of at least 10 bytes, every packet", "why_tests_cant": "The failing sizes are the one or two just below the exact stuffed size; tests do not sweep sizes against stuffing.", "anchors": ["src/bus/mod.rs: Bus::write_packet", "src/bus/bytestuff.rs: stuff_inplace", "src/error.rs: BufferTooSmallError"]}
{"id": "C10", "title": "The length field always equals the number of bytes that follow it", "statement": "A packet that is sent has a 16-bit length field equal to its real length; packets too long for the field are refused.", "quantifier": "every packet size including those above 65533 bytes and both build profiles", "why_tests_cant": "Needs packets above 64 KiB.", "anchors": ["src/bus/mod.rs: Bus::write_packet"]}
{"id": "C11", "title": "A failed send puts nothing on the wire", "statement": "If sending fails because of the buffer or the parameter encoder, no call is made to the serial port and received data is kept; if discarding the input buffer fails, nothing is written.", "quantifier": "every bus state, packet and failure", "why_tests_cant": "All states and failure points.", "anchors": ["src/bus/mod.rs: Bus::write_packet"]}
{"id": "C12", "title": "No stale answers", "statement": "After an instruction was sent, a response is built only from bytes the serial port delivered after its input buffer was discarded: nothing buffered earlier in the client can be returned.", "quantifier": "every bus history and input schedule", "why_tests_cant": "Depends on every possible leftover in the buffers.", "anchors": ["src/bus/mod.rs: Bus::write_packet, Bus::read_packet_deadline"]}
{"id": "C13", "title": "Reception does not depend on how bytes are chunked", "statement": "The result of reading a packet and the bytes left for later are a function of the byte stream only, not of how the serial port splits it into reads nor of what was already buffered.", "quantifier": "every byte stream, every split into reads, every buffer state and size", "why_tests_cant": "Exponentially many splits.", "anchors": ["src/bus/mod.rs: Bus::read_packet_deadline, remove_garbage, consume_read_bytes, find_header"]}
{"id": "C14", "title": "Garbage before a packet is skipped", "statement": "If garbage not containing the header prefix precedes a valid packet that fits the read buffer, the packet is returned.", "quantifier": "every garbage string, packet and chunking", "why_tests_cant": "Unbounded garbage; partial prefixes at chunk borders.", "anchors": ["src/bus/mod.rs: find_header, remove_garbage"]}
{"id": "C15", "title": "Packets are delivered in order, once each", "statement": "Reading repeatedly from a stream of valid packets separated by garbage returns exactly those packets, in order, none lost, none duplicated.", "quantifier": "every number of packets, every garbage, every chunking", "why_tests_cant": "Needs induction over the number of packets.", "anchors": ["src/bus/mod.rs: Bus::read_packet_deadline"]}
{"id": "C16", "title": "A corrupted packet is never returned, and does not cost its successor", "statement": "A frame whose CRC does not match is reported as InvalidChecksum, never returned; exactly its bytes are dropped, and the next packet is received.", "quantifier": "every frame, corruption in the detectable classes of C02 outside prefix and length field, chunking", "why_tests_cant": "Universal over frames and corruption patterns.", "anchors": ["src/bus/mod.rs: Bus::read_packet_deadline"]}
{"id": "C17", "title": "Packets larger than the read buffer", "statement": "A header announcing a packet that does not fit the read buffer gives BufferFull with the right sizes, drops just that header, and later packets can still be received.", "quantifier": "every announced length, buffer size, stream", "why_tests_cant": "Universal over sizes and streams.", "anchors": ["src/bus/mod.rs: Bus::read_packet_deadline"]}
{"id": "C18", "title": "No received bytes can crash the program", "statement": "Whatever bytes arrive, reading a packet, a status response or an instruction returns Ok or Err and never panics.", "quantifier": "every byte stream, chunking and buffer", "why_tests_cant": "All byte streams; the crashing ones have a valid CRC over a length field of 2 or a status packet of length 3.", "anchors": ["src/bus/mod.rs: Bus::read_packet_deadline", "src/bus/packet.rs: Packet::instruction_id, StatusPacket::error"]}
{"id": "C19", "title": "Reading makes progress", "statement": "Reading a packet never asks the serial port to read into an empty slice, and returns after finitely many port reads if the port eventually has nothing more to deliver.", "quantifier": "every read buffer size, bus state and finite input", "why_tests_cant": "Termination over all inputs.", "anchors": ["src/bus/mod.rs: Bus::read_packet_deadline"]}
{"id": "C20", "title": "Deadlines are respected", "statement": "Every serial port read made for one response carries the same deadline, namely call time + timeout, and the call does not return later than that.", "quantifier": "every schedule of arrivals", "why_tests_cant": "All arrival schedules.", "anchors": ["src/client.rs: read_status_response_timeout", "src/bus/mod.rs: read_packet_deadline", "src/serial_port/serial2.rs: read"]}
{"id": "C21", "title": "Transfer time and response timeout", "statement": "message_transfer_time(size, baud) is the least whole number of nanoseconds not below size*10/baud seconds, without overflow; the response timeout is that of 11+n bytes plus 34 ms.", "quantifier": "every u32 size, every non-zero u32 baud rate, every u16 expected count", "why_tests_cant": "2^64 pairs.", "anchors": ["src/bus/mod.rs: message_transfer_time", "src/client.rs: read_status_response"]}
{"id": "C22", "title": "Buffer bookkeeping is always consistent", "statement": "After any sequence of operations, whatever their outcome, the used bytes do not exceed the read bytes, which do not exceed the read buffer, the buffers keep their sizes and the write buffer starts with the header prefix.", "quantifier": "every history of API calls", "why_tests_cant": "Unbounded histories.", "anchors": ["src/bus/mod.rs: Bus"]}
{"id": "C23", "title": "End-to-end packet transfer", "statement": "A packet sent by one side and received by the other through any chunking arrives with the same packet ID, instruction, and parameters.", "quantifier": "every packet, buffer sizes, chunking", "why_tests_cant": "Universal over payloads and splits.", "anchors": ["src/bus/mod.rs: write_packet, read_packet_deadline"]}
{"id": "C24", "title": "Client and device agree on every instruction", "statement": "Each instruction sent by a Client method is decoded by Device::read as the corresponding Instructions variant with the same arguments.", "quantifier": "every client method and all its arguments", "why_tests_cant": "All addresses, values, id lists, data.", "anchors": ["src/device.rs: Instruction::try_from", "src/instructions/*.rs"]}
{"id": "C25", "title": "read_owned equals read", "statement": "Device::read_owned returns the same instruction as Device::read on the same input.", "quantifier": "every received packet", "why_tests_cant": "One variant out of 13 is wrong only for one instruction ID.", "anchors": ["src/device.rs: read_owned, TryFrom"]}
{"id": "C26", "title": "A device only sees instructions", "statement": "Device::read_raw_instruction_timeout skips status packets and returns the first instruction packet of the stream.", "quantifier": "every stream of packets", "why_tests_cant": "Any number of status packets may precede.", "anchors": ["src/device.rs: read_raw_instruction_timeout"]}
{"id": "C27", "title": "Integers are encoded little-endian and round-trip", "statement": "Data::encode for u8..u128 and i8..i128 writes the little-endian two's complement bytes, decode inverts it, and decode rejects every other length.", "quantifier": "every value of every integer type, every buffer", "why_tests_cant": "Up to 2^128 values.", "anchors": ["src/bus/data.rs: impl_data_for_number"]}
{"id": "C28", "title": "Arrays round-trip and reject other lengths", "statement": "Data for arrays of any (nested) element type concatenates the encodings; decode inverts it, and decode of a slice of any other length returns an error.", "quantifier": "every element type, array length, value, slice length", "why_tests_cant": "Unbounded types and lengths.", "anchors": ["src/bus/data.rs: impl Data for [T; N]"]}
{"id": "C29", "title": "Array decoding drops every element exactly once", "statement": "Each element value made while decoding an array is owned by exactly one place: dropped once if decoding fails, handed to the caller and not dropped if it succeeds.", "quantifier": "every element type with a destructor, array length, failure position", "why_tests_cant": "Only visible with owning element types; a test would be undefined behaviour.", "anchors": ["src/bus/data.rs: ArrayInitializer::{push,finish,drop}"]}
{"id": "C30", "title": "A successful read is the answer of the addressed motor", "statement": "If read_bytes, read or ping returns Ok, the response came from a valid status packet with the requested motor ID, no motor error, and exactly the requested number of bytes, which are the data returned.", "quantifier": "every input stream and bus state", "why_tests_cant": "All streams.", "anchors": ["src/instructions/read.rs", "src/instructions/ping.rs", "src/client.rs: transfer_single"]}
{"id": "C31", "title": "A successful write-like call is confirmed by the addressed motor", "statement": "If write, write_bytes, reg_write, action, reboot, clear_*, factory_reset return Ok for a non-broadcast motor ID, the confirming status packet carries that motor ID.", "quantifier": "every input stream and bus state", "why_tests_cant": "A test with a well-behaved motor cannot see the missing check.", "anchors": ["src/instructions/mod.rs: read_response_if_not_broadcast"]}
{"id": "C32", "title": "Broadcasts do not wait", "statement": "The same calls with the broadcast ID return a response from the broadcast ID without reading from the serial port.", "quantifier": "every bus state", "why_tests_cant": "All states.", "anchors": ["src/instructions/mod.rs: read_response_if_not_broadcast"]}
{"id": "C33", "title": "Motor errors and alerts", "statement": "A status packet gives MotorError exactly if the low 7 bits of its error field are non-zero; otherwise Ok with the alert flag equal to bit 7.", "quantifier": "every error byte, packet and input", "why_tests_cant": "256 bytes times all packets.", "anchors": ["src/error.rs: MotorError::check", "src/client.rs: read_status_response_timeout"]}
{"id": "C34", "title": "reg_write registers the value for every data type", "statement": "Client::reg_write(id, address, &value) sends a REG_WRITE with the address followed by the encoded value.", "quantifier": "every Data type and value", "why_tests_cant": "Every type of size other than 1 fails; tests use u8.", "anchors": ["src/instructions/reg_write.rs: reg_write"]}
{"id": "C35", "title": "sync_write sends the value for every data type", "statement": "Client::sync_write sends a SYNC_WRITE whose length field is the encoded size and with each motor ID followed by its encoded value.", "quantifier": "every Data type, list of motors and values", "why_tests_cant": "Every type of size other than 1 fails.", "anchors": ["src/instructions/sync_write.rs: sync_write"]}
{"id": "C36", "title": "sync_write_bytes layout and length check", "statement": "Sends address, count, then ID and data of each motor; panics before anything is put on the wire if some data length differs from count.", "quantifier": "every list of motors and data", "why_tests_cant": "All lists.", "anchors": ["src/instructions/sync_write.rs: sync_write_bytes"]}
{"id": "C37", "title": "bulk_write layout and documented panics", "statement": "Sends for each write its ID, address, length and data; panics before sending if a motor ID is repeated or a data length exceeds 65535 (documented).", "quantifier": "every list of writes", "why_tests_cant": "All lists.", "anchors": ["src/instructions/bulk_write.rs: bulk_write"]}
{"id": "C38", "title": "bulk_read layout and duplicate check", "statement": "Panics before sending exactly if two reads have the same motor ID, otherwise sends ID, address and count of each read.", "quantifier": "every list of reads", "why_tests_cant": "All lists.", "anchors": ["src/instructions/bulk_read.rs: write_bulk_read_instruction"]}
{"id": "C39", "title": "sync_read yields one item per motor, in order", "statement": "The iterator yields exactly as many items as motors requested; the k-th Ok item comes from the k-th motor with exactly the requested number of bytes; remaining() counts what is left.", "quantifier": "every ID list, input stream and prefix of calls", "why_tests_cant": "Unbounded lists.", "anchors": ["src/instructions/sync_read.rs: SyncRead, SyncReadBytes"]}
{"id": "C40", "title": "Dropping a read iterator or scan finishes", "statement": "Dropping a SyncRead, SyncReadBytes, BulkReadBytes consumes one response per remaining motor and terminates; dropping a Scan terminates.", "quantifier": "every bus, input, and port behaviour", "why_tests_cant": "Needs an unbounded faulty port to see.", "anchors": ["src/instructions/sync_read.rs: Drop", "src/instructions/bulk_read.rs: Drop", "src/instructions/ping.rs: Drop for Scan"]}
{"id": "C41", "title": "bulk_read yields one item per read, in order", "statement": "Like C39 with a separate count per motor.", "quantifier": "every list of reads and stream", "why_tests_cant": "Unbounded lists.", "anchors": ["src/instructions/bulk_read.rs: BulkReadBytes"]}
{"id": "C42", "title": "scan reports every motor", "statement": "scan_next returns None exactly if reading timed out; a scan of a stream of ping replies from n motors yields exactly those n responses in order.", "quantifier": "every number of motors and chunking", "why_tests_cant": "Induction over motors.", "anchors": ["src/instructions/ping.rs: Scan"]}
{"id": "C43", "title": "Baud rate bookkeeping", "statement": "baud_rate() is always the rate given to the serial port by the last successful set_baud_rate (or at construction); a failed call changes nothing.", "quantifier": "every history of calls", "why_tests_cant": "Histories.", "anchors": ["src/bus/mod.rs: set_baud_rate"]}
{"id": "C44", "title": "static_buffer hands out each buffer at most once", "statement": "Among any number of concurrent evaluations of one occurrence of static_buffer!, exactly the first to swap gets the buffer, all others panic.", "quantifier": "every number of threads and interleaving", "why_tests_cant": "All interleavings.", "anchors": ["src/bus/mod.rs: static_buffer!"]}
{"id": "C45", "title": "CLI motor ID handling", "statement": "The CLI parses 'broadcast' in any case and 254 as broadcast, other numbers 0..255 as unicast, and rejects all else; read commands never reach the bus with the broadcast ID.", "quantifier": "every argument string", "why_tests_cant": "All strings.", "anchors": ["dynamixel2-cli/src/bin/dynamixel2/options.rs: MotorId"]}
{"id": "C46", "title": "Instruction layouts of the protocol", "statement": "ping, scan, read, read_bytes, write, write_bytes, reg_write_bytes, action, reboot, factory_reset, clear_revolution_counter, clear_error, sync_read and their broadcast variants send exactly one packet with the body the protocol specifies for that request, once, before reading anything, whatever the responses.", "quantifier": "every ID, address, count, data, data type, bus and response", "why_tests_cant": "All inputs; tests compare single packets.", "anchors": ["src/instructions/*.rs", "src/instructions/clear.rs: CLEAR_ERROR"]}
{"id": "C47", "title": "A device decodes or rejects every instruction packet", "statement": "Device::read decodes every instruction packet with an admissible number of parameters to the variant of its instruction number with its parameters (unknown numbers and kinds to the variants for unknown things, nothing else to those), rejects every other with InvalidParameterCount, takes exactly that packet from the stream, and panics only where the packet reader does.", "quantifier": "every instruction number, parameters, stream and chunking", "why_tests_cant": "All bodies of all lengths.", "anchors": ["src/device.rs: Instruction::try_from"]}
{"id": "C48", "title": "Each CLI command sends the request it stands for", "statement": "Every command of the tool except a read with the broadcast ID sends exactly one packet, the request it stands for with its arguments, to the ID of its motor argument, before reading anything and whatever the responses; a broadcast ping then only reads.", "quantifier": "every command with every argument, every bus state and response", "why_tests_cant": "All arguments; the tool has no tests.", "anchors": ["dynamixel2-cli/src/bin/dynamixel2/main.rs: do_main"]}
{"id": "C49", "title": "Checks decide what they are named after", "statement": "Each public check of error.rs (buffer size, motor error, packet ID with and without broadcast exemption, instruction, exact/maximum/minimum parameter count, header prefix) succeeds exactly when the named condition holds, and otherwise returns the error carrying what was received and what was expected; none panics.", "quantifier": "every received and expected value, every slice length", "why_tests_cant": "All inputs; several checks are public API that the crate itself does not call.", "anchors": ["src/error.rs"]}
{"id": "C50", "title": "Constructors give a fresh bus with sufficient buffers", "statement": "Every constructor of Client and Device gives a bus with no pending input, buffers of the requested sizes (128 bytes by default) and the given or the port's baud rate, passes on errors of the port, and panics exactly if the write buffer is below 10 bytes. With default buffers, after any history of calls: read_bytes never succeeds for more than 117 bytes and returns every unstuffed answer up to that; write_bytes of more than 116 bytes is refused without touching the port, up to 116 unstuffed bytes are sent, and up to 86 whatever they are.", "quantifier": "every port, baud rate, buffer sizes, packet", "why_tests_cant": "All sizes and ports; needs the boundary on both sides.", "anchors": ["src/client.rs: Client::open..with_buffers", "src/device.rs: Device::open..with_buffers", "src/bus/mod.rs: Bus::with_buffers"]}
{"id": "C51", "title": "Status packets of a device reach a client", "statement": "What a Device sends with write_status is received by a Client with the same ID, error byte and parameters (as MotorError if the error number is not zero), after any header-free garbage, in any chunking, and exactly that packet is taken from the stream.", "quantifier": "every ID, error, parameters, buffers, garbage, chunking", "why_tests_cant": "All data and chunkings.", "anchors": ["src/device.rs: write_status", "src/bus/mod.rs: write_status", "src/client.rs: read_status_response_timeout"]}
{"id": "C52", "title": "The simulated motor is a memory", "statement": "The simulated motor of the integration tests (MockDevice) with ID i treats ping, read, write, reg write and action like a memory of 200 bytes with one registered write: for every instruction addressed to i that arrives within its 10 ms, after any number of status packets and garbage, it changes its table exactly as the memory does and sends exactly one status packet, with ID i and the memory's answer (error 7 for accesses outside of the table). Instructions for other IDs change nothing and are not answered; silence changes nothing.", "quantifier": "every state, request, data, statuses, garbage, chunking", "why_tests_cant": "All memory contents and requests; the tests use it as the oracle.", "anchors": ["tests/common/mock/mock_device.rs: MockDevice::process", "tests/common/mock/mock_device.rs: ControlTable"]}
{"id": "C53", "title": "The simulated motor takes its own part of sync and bulk instructions", "statement": "For a sync write or bulk write the simulated motor stores exactly its own part of the data, if it has one, and does not answer. For a sync read or bulk read it answers exactly once, after the motors listed before it have answered, if it is listed, and does nothing otherwise.", "quantifier": "every list of motors, data, state", "why_tests_cant": "All lists of motors and data.", "anchors": ["tests/common/mock/mock_device.rs: MockDevice::process"]}
{"id": "C54", "title": "A client and the simulated motor together are a memory", "statement": "In any session of a Client and a MockDevice on one line, with any sequence of ping, read, read_bytes, write, write_bytes, reg_write_bytes and action calls, for this motor or for others, with garbage and status packets on the line and idle rounds of the motor, as long as what is written arrives in time and fits the buffers: every result the caller sees is the answer of an abstract memory (MotorError 7 for accesses outside), and the motor's table is the content of that memory. In particular, what is successfully written is read back, for every data type, after any calls that do not write there.", "quantifier": "every session: any length, order, data, types, garbage, timing", "why_tests_cant": "All sequences of calls; the integration tests exercise a handful.", "anchors": ["src/instructions/*.rs", "src/client.rs", "src/device.rs", "tests/common/mock/mock_device.rs"]}
{"id": "C55", "title": "The serial2 port keeps the contract of SerialPort", "statement": "read of the serial2 implementation never blocks past its deadline, returns TimedOut without reading anything if the deadline is already past, and otherwise gives what the port of the model gives (so that theorems about ports apply to it), with exactly one read of the device, and none if the timeout is refused; set_baud_rate sets the baud rate and leaves all other line settings as they were, or fails and changes nothing; make_deadline panics exactly if the clock can not represent the deadline.", "quantifier": "every input, timing, setting, and failure of the operating system calls", "why_tests_cant": "Needs hardware, and failures at every call.", "anchors": ["src/serial_port/serial2.rs"]}
{"id": "C56", "title": "The simulated line of the integration tests is a bus", "statement": "On the line made by new_client_device for devices with different IDs, every message written by a port reaches every other port exactly once, whole, and in the order of writing, and never the writer itself, whatever the threads do; reads return between one byte and as many as asked for, or time out after their deadline; no thread panics.", "quantifier": "every number of ports, messages, interleaving of the threads", "why_tests_cant": "All interleavings; the tests rely on it.", "anchors": ["tests/common/mock/mock_serial_port.rs", "tests/common/mock/mod.rs: new_client_device"]}
{"id": "C57", "title": "Back in step after any noise", "statement": "Whatever bytes come before a sequence of packets sent back to back (noise, the remains of a packet, something that looks like a header with any length field): only packets that start within as many bytes after the noise as the read buffer holds can be lost; every later packet is returned, in order and exactly once, and the noise costs at most one failing call per four bytes of it. No length field in the noise makes the bus skip or wait for more.", "quantifier": "every noise, every sequence of packets of any length that fit the read buffer and contain the header prefix only at their start, every division of the bytes into reads, every size of read buffer of at least 10 bytes", "why_tests_cant": "All byte sequences, chunkings and buffer sizes.", "anchors": ["src/bus/bus.rs: read_packet_deadline, consume_read_bytes, find_header"]}
{"id": "C58", "title": "A client and many simulated motors", "statement": "On a line with a client and any number of simulated motors, where packets arrive in time and all data survive the byte stuffing (see C23), every sequence of calls to the client behaves like the same calls to independent memories: the result of a call for one motor is the answer of the memory with its ID; a call changes only the motor it is for; a write, registered write or action for all (ID 254) is served by every motor and confirmed without waiting for an answer. So what is written to a motor, or to all, or registered and then done by one action for all, is read back from it whatever is done with the other motors in between.", "quantifier": "every number of motors, every sequence of ping, read, write, reg_write and action calls of any data type, every garbage and status packets between them, every interleaving of idle turns of the motors", "why_tests_cant": "All sequences of calls and states of the motors.", "anchors": ["src/instructions: ping, read, write, reg_write, action", "tests/common/mock/mock_device.rs", "src/device.rs", "src/client.rs"]}
{"id": "C59", "title": "Group reads collect what the devices sent", "statement": "If the client sends a sync_read, sync_read_bytes, bulk_read_bytes or scan, and each device answers with write_status, the answers arriving one after another in time, possibly after garbage, then the iterator returns exactly one item per device in order (the value the device encoded with its ID and alert, or the error it reported) and then None. Data are those that survive the byte stuffing (see C23).", "quantifier": "every number of devices, every data type and value, every error byte, every state of the buses, every arrival times within the time-outs", "why_tests_cant": "All combinations of devices, values and timing; the mock of the tests can not answer group reads.", "anchors": ["src/instructions/sync_read.rs", "src/instructions/bulk_read.rs", "src/instructions/ping.rs: Scan", "src/device.rs: write_status"]}
{"id": "C60", "title": "Error messages name the error", "statement": "The text shown for a TransferError consists of the fixed words for its kind and the values it carries (motor number, byte values, IDs, counts, sizes, checksums, header bytes), written in base 10 or base 16, and nothing else; the text of an embedded I/O error appears unchanged. If the texts of different I/O errors differ, texts of different errors differ: the error can be read off its text.", "quantifier": "every error value, every text of I/O errors", "why_tests_cant": "All values of all fields.", "anchors": ["src/error.rs: Display implementations", "src/bus/mod.rs: BufferTooSmall"]}
{"id": "C61", "title": "What a run of the command line tool says", "statement": "A run of the tool for an opened serial port ends with exit code 0 only if its request was sent and was answered (or was an order for all motors). For ping and the reads, the text printed is the parameters of the first packet after the request, which was a status packet of the motor asked, without error; a warning is printed exactly if its alert bit is set. For reboot and the writes it is Ok. Conversely such an answer in time is printed with exit code 0, and every other status packet, or none in time, gives exactly one line with the error, and exit code 1. A ping of all motors prints one block per answer, in order, until no more come. If the port can not be opened, or a read is for all motors, nothing is sent, one line says so, and the exit code is 1. The exit code is 1 exactly if an error is printed, except for the ping of all motors, which lists errors of motors and yet exits with 0.", "quantifier": "every command and argument, every baud rate, every behaviour of the serial port", "why_tests_cant": "The tool has no tests; all arguments, answers and timings.", "anchors": ["dynamixel2-cli/src/bin/dynamixel2/main.rs", "dynamixel2-cli/src/bin/dynamixel2/options.rs"]}
{"id": "C62", "title": "Every outcome of a call for one motor", "statement": "The outcome of ping, read, read_bytes and the write-like calls is determined by the sizes of the buffers, the build profile, the baud rate and what the serial port does, in every case: the error of sending (too large, discard or write failure); otherwise, of the bytes that arrive from the end of the write until 34 ms plus the transfer time of the response later, the first packet decides: none complete gives the error of the port or a time-out; one too large for the read buffer, with a wrong CRC, that is no status packet, that reports a motor error, is from another motor (reads and ping only) or has the wrong number of parameters gives that error with the values concerned, in this order; anything else the data. The call returns by that time. It panics exactly for a packet whose CRC just does not fit the write buffer, a length field overflow in a debug build, zero baud, or if the first packet is a valid one without instruction byte or a status packet without error byte. A write-like call for all motors returns success as soon as it is sent.", "quantifier": "every call, argument, buffer size, baud rate and behaviour of the serial port (chunks, times, failures)", "why_tests_cant": "All byte streams, timings and failures.", "anchors": ["src/client.rs: transfer_single, read_status_response", "src/instructions/*.rs", "src/bus/bus.rs: write_instruction, read_packet_deadline"]}
{"id": "C63", "title": "How much room is enough for any data", "statement": "Stuffing data of n bytes never needs more than n / 3 * 4 + n % 3 bytes (maximum_stuffed_len in the unit tests), and for every n some data need exactly that: in a smaller buffer stuffing fails, reports that size and leaves the data alone. So a write buffer of 10 + n + n / 3 bytes is enough for every instruction packet with n parameters, and one of 11 + n + (n + 1) / 3 bytes for every status packet, and no smaller one is.", "quantifier": "every number of bytes, data, buffer, instruction and error byte", "why_tests_cant": "The worst case over all data, for all lengths.", "anchors": ["src/bus/bytestuff.rs: stuff_inplace, maximum_stuffed_len", "src/bus/mod.rs: write_packet"]}
{"id": "C64", "title": "Every outcome of the calls of a device", "statement": "The outcome of Device::read (and read_raw_instruction_timeout) is determined by the read buffer and what the serial port does, in every case: status packets that arrive are skipped, even those without an error byte; of the other packets that arrive in time the first decides: none complete gives the error of the port or a time-out and leaves what may be the start of a packet; one that is too large for the read buffer or has a wrong CRC gives that error with the values concerned; a valid one without an instruction byte panics; an instruction with a number of parameters that its kind forbids gives an error with that number and the allowed one; any other instruction is returned as sent. What follows the deciding packet is left for the next call, and the call returns by the deadline. The outcome of write_status depends in the same way as that of an instruction on sizes, profile and port.", "quantifier": "every bus, buffer size, deadline, stream of bytes, timing and failure of the port", "why_tests_cant": "All byte streams, timings and failures.", "anchors": ["src/device.rs: read, read_raw_instruction_timeout, write_status", "src/instructions/packet.rs", "src/bus/bus.rs: read_packet_deadline"]}
{"id": "C65", "title": "Every outcome of a step of the iterators over responses", "statement": "What next of SyncReadBytes, SyncRead, BulkReadBytes and Scan returns is determined by what arrives until the deadline (34 ms plus the transfer time of the response, or of 253 responses for a scan): if no packet is complete, the error of the port (which ends a scan if it is a time-out); if the first one is too large, has a wrong CRC, is no status packet, reports a motor error, is from another motor than asked (not for scans) or has the wrong number of parameters, that error with the values concerned, in this order; otherwise the data. It panics exactly for zero baud, or if the first packet is a valid one without instruction byte or a status packet without error byte. What follows that packet is left for the next step. After the last motor, None is returned without any call of the port.", "quantifier": "every iterator, position, bus, stream of bytes, timing and failure of the port", "why_tests_cant": "All byte streams, timings and failures.", "anchors": ["src/instructions/sync_read.rs: next", "src/instructions/bulk_read.rs: next", "src/instructions/ping.rs: Scan", "src/client.rs: read_status_response"]}
{"id": "C66", "title": "Integration tests have one result, whatever the interleaving", "statement": "In an integration test (run_mock: a client, the simulated line and one thread per simulated motor, with different IDs), for calls of ping, read, read_bytes, write, write_bytes, reg_write_bytes and action for single motors, as long as no call fails to write or to read from its port (such as by a time-out), whatever the interleaving of the threads: the results of the calls are those of independent memories; the packets on the line are the instruction of each call followed by the one answer of the motor it is for; a call for a motor that does not exist always fails; in particular what is written is read back. The instructions fit the 128 byte buffers, and data are those that survive the byte stuffing (see C23), such as data without the byte FD. After a call that timed out, a later call can return the late answer to the earlier one, because the simulated port does not discard it.", "quantifier": "every number of motors, every sequence of calls, data and types, every interleaving of the threads, every time at which reads time out in the threads of the motors", "why_tests_cant": "All interleavings; a test sees one of them.", "anchors": ["tests/common/mock/mod.rs: run_mock", "tests/common/mock/mock_device.rs: run", "tests/common/mock/mock_serial_port.rs", "tests/integration_test.rs"]}
{"id": "C67", "title": "Enough time is allowed for an answer", "statement": "A device whose delay before answering, together with the latency of the serial port, is at most 34 ms from the end of the transmission of the instruction, is heard: read_bytes, read, ping and the write-like calls return its answer, for every baud rate, since the time the answer itself takes on the line (10 bits per byte) is added to the 34 ms. In a sync or bulk read each device has that time after the answer before its own; in a scan, the time for 253 answers is added.", "quantifier": "every baud rate, delay, latency, size and content of the answer, and every way in which the port hands over the bytes in pieces", "why_tests_cant": "Depends on real time, on the data and on the operating system; a test has one baud rate and the data of one motor.", "anchors": ["src/client.rs: read_status_response", "src/bus/mod.rs: message_transfer_time", "src/bus/mod.rs: write_packet", "src/instructions/ping.rs: next_response", "src/serial_port.rs: write_all"]}
{"id": "C68", "title": "The log shows what was on the line", "statement": "With logging, the library does the same as without, in every state. Every packet handed to the serial port is logged, complete and in order, also if writing it then fails, and no other packet is logged as sent. Every complete packet that is received is logged without its checksum, whether or not the checksum is right, and no other packet is logged as received. All bytes that are skipped before a packet are logged, with their number and their values. The end of a scan is logged as a time-out. The text of a line determines the bytes in it.", "quantifier": "every state of the bus, every packet and encoder, every input and every way it arrives, every outcome of the calls of the port, every sequence of calls", "why_tests_cant": "Nothing tests the log; wrong bytes in it only show for garbage after a packet that was received in the same read as the garbage.", "anchors": ["src/bus/mod.rs: write_packet", "src/bus/mod.rs: read_packet_deadline", "src/bus/mod.rs: remove_garbage", "src/instructions/ping.rs: scan_next", "src/log.rs"]}
{"id": "C69", "title": "The command line tool shows what it does", "statement": "Without -v, the tool shows the results, warnings and errors of the command, each error and warning marked as such, and nothing of the library; -v adds debug messages and -vv, or more, adds trace messages. More -v options only add lines, and change nothing else: neither the bytes sent, nor the exit code. A line of the output determines its text and its level, but for information and debug messages. With -v, the tool first names the serial port and baud rate, and then, except for a scan, the command with its motor, address and value. With -vv, exactly the packets that are written to the serial port are shown as sent, in their order, whatever the port does and however the program ends.", "quantifier": "every command, port, input, baud rate and number of -v options", "why_tests_cant": "The tool has no tests.", "anchors": ["dynamixel2-cli/src/bin/dynamixel2/logging.rs: init", "dynamixel2-cli/src/bin/dynamixel2/main.rs: do_main", "dynamixel2-cli/src/bin/dynamixel2/main.rs: open_client", "src/bus/mod.rs: write_packet"]}
{"id": "C70", "title": "Calls that do the same", "statement": "In every state and whatever the serial port does, these pairs send, ask of the port, return and leave behind the same: write of a value and write_bytes of its encoding; read of a type and read_bytes of its size followed by decode; read and write of a byte array and read_bytes and write_bytes; read of a signed number and read of the unsigned number of that size taken as two's complement; action, reboot, clear_revolution_counter, clear_error and factory_reset with the broadcast ID and their broadcast_ variants; next of SyncRead and next of SyncReadBytes followed by decode; dropping either of these; next of (and dropping) BulkReadBytes and SyncReadBytes for the same motors with one count; the part of read_bytes after its request and next of a sync read of one motor. reg_write and sync_write of one-byte values and their bytes variants.", "quantifier": "every state of the client, every behaviour of the port, every type that implements Data", "why_tests_cant": "The equations are between functions of the whole state; a test compares a few results.", "anchors": ["src/instructions/read.rs: read", "src/instructions/write.rs: write", "src/instructions/sync_read.rs: SyncRead", "src/instructions/bulk_read.rs: BulkReadBytes", "src/instructions/action.rs: broadcast_action", "src/bus/data.rs: decode_status_packet"]}
{"id": "C71", "title": "The command line tool and simulated motors", "statement": "On a line with any number of simulated motors, where packets arrive in time and all data survive the byte stuffing (see C23), any sequence of runs of the tool (ping, the reads and the writes, for one motor or, for writes, for all) behaves like the same commands to independent memories: a run for one motor prints the data of its memory, or Ok, and exits with 0, or prints one line with the motor's error and exits with 1; a run changes only the motor it is for, or all of them. So what one run wrote is printed by a later run that reads it, in the format of that command, whatever runs there were in between that did not write there; a number that was written is printed by a read of the same width.", "quantifier": "every number of motors, every sequence of commands with any arguments, every baud rate, every garbage and status packets between them, every interleaving of idle turns of the motors", "why_tests_cant": "The tool has no tests; all sequences of runs and all states of the motors.", "anchors": ["dynamixel2-cli/src/bin/dynamixel2/main.rs: do_main", "tests/common/mock/mock_device.rs", "src/client.rs", "src/device.rs"]}
{"id": "C72", "title": "The integration tests on the simulated line", "statement": "In every interleaving of the client thread and the threads of any number of simulated motors in which the test body runs to its end: test_read, test_read_bytes, test_write_bytes and test_reg_write_bytes pass if no read of the client times out, and panic if one does; test_write and test_reg_write pass if no read times out or if only the last, unchecked call does, and panic otherwise; with two or more motors test_sync_read, test_sync_read_bytes and test_bulk_read_bytes always panic, as their attribute should_panic says (with one motor they pass if no read times out); test_ping passes if and only if the answers of all motors, 14 bytes each, were read before the first time-out.", "quantifier": "every interleaving (no bound on steps or times), every number of motors with distinct IDs, every request that fits the buffers and survives the byte stuffing", "why_tests_cant": "A run of the tests shows one schedule; whether a test can fail or pass by chance is about all of them.", "anchors": ["tests/integration_test.rs", "tests/common/mock/mod.rs: run_mock", "tests/common/mock/mock_serial_port.rs", "tests/common/mock/mock_device.rs", "src/instructions/sync_read.rs: SyncRead", "src/instructions/bulk_read.rs: BulkReadBytes", "src/instructions/ping.rs: Scan"]}
{"id": "C73", "title": "Shell completions go where they should", "statement": "The command for shell completions writes the generated script, with a line break added if it does not end with one. Without a name for the output, or with the name '-' (also if slashes, or slashes and dots, follow it, because paths are compared by their components), it goes to standard output and no file changes; with any other name it goes to that file, which then contains the script and nothing else, and nothing goes to standard output. No other file changes. The exit code is 0 if all of it was written; otherwise it is 1, one error line names what failed, a file that could not be created is as it was, and a file or standard output that could not be written has a prefix of the script.", "quantifier": "every script, name, content of the files and fault of the system", "why_tests_cant": "The tool has no tests; faults of the system are hard to provoke.", "anchors": ["dynamixel2-cli/src/bin/dynamixel2/main.rs: write_shell_completion"]}
{"id": "C74", "title": "No thread of an integration test panics in the simulated port", "statement": "MockSerial::read panics, and poisons the buffer for every writer, if more bytes wait than the slice it is given can hold. If no thread is ever sent more bytes in total than its read buffer can hold, whatever calls of the crate the threads make, no thread panics in a read or a write of its port and no buffer is poisoned. In the integration tests this is so: test_read, test_read_bytes, test_write, test_write_bytes, test_reg_write and test_reg_write_bytes with any motors, test_ping with up to nine motors, and the group reads if the request and one answer fit into 128 bytes. With ten motors the client of test_ping can panic in a read.", "quantifier": "every interleaving of the threads, every number of loop iterations, every set of distinct motor IDs within the stated sizes", "why_tests_cant": "A test runs one of the many interleavings.", "anchors": ["tests/common/mock/mock_serial_port.rs: MockSerial::read, write_all, SharedBuffer", "tests/common/mock/mod.rs: run_mock", "tests/integration_test.rs"]}
{"id": "C75", "title": "No simulated motor panics in an integration test, and the tests without group reads end the way their body ends", "statement": "The thread of a simulated motor panics on an error from its device other than a timeout, on a failed assertion that an answer was written, and on instructions it does not implement. If all it hears are whole, undamaged packets of at most 128 bytes, any number per read and with timeouts anywhere between them, and they are status packets or instructions (for this motor, for another or for all) that ping, write, register a write, act, or read at most 87 bytes from one or several motors, then it never panics. In every execution of the ten integration tests this is what it hears, so no motor panics. run_mock joins every motor thread and panics if one has panicked, so a test whose body passes still fails if a motor panics. In the seven tests without group reads every motor also ends after any number of packets, so the test ends exactly the way its body ends. A motor that is told by a sync read or bulk read to answer after another one never ends once it has heard that instruction, because it skips the status packet that it waits for (C51); its thread cannot be joined, and the three tests of group reads finish only because their body panics first.", "quantifier": "every interleaving of the threads, every number of loop iterations, every content of the packets, every set of distinct motor IDs within the sizes of C74", "why_tests_cant": "A test runs one of the many interleavings, and the tests of group reads never get to the join.", "anchors": ["tests/common/mock/mock_device.rs: MockDevice::run, handle_sync_bulk_read", "tests/common/mock/mod.rs: run_mock", "tests/integration_test.rs"]}
{"id": "C76", "title": "One wrong bit on the line", "statement": "If exactly one bit of a packet is wrong when it is received (anywhere: header prefix, ID, length, body, CRC) and nothing else is received in that time, then the packet is not taken for another one. For a client: read, read_bytes, ping and all calls that wait for an empty confirmation fail, or return exactly what the motor sent (motor ID, alert bit, data). For a device: the instruction is not delivered, or delivered as it was sent.", "quantifier": "every answer with as many data bytes as were asked for and every instruction, in any stuffed form, every bit, every division into reads and every time of arrival, complete or cut off", "why_tests_cant": "All packets times all bits; the interesting case (a wrong length that happens to cut the packet where the bytes are its CRC) is one packet in 65536.", "anchors": ["src/bus/mod.rs: Bus::read_packet_deadline", "src/instructions/read.rs", "src/device.rs: Device::read_raw_instruction_timeout"]}
{"id": "C77", "title": "The integration tests on real motors use the settings asked for, and one at a time", "statement": "With the feature integration-tests each test opens the port at SERIAL_PATH with the baud rate SERIAL_BAUD and talks to the motors DEVICE_IDS; a variable that is not set or not UTF-8 stands for /dev/ttyUSB0, 56700 and 1,2. SERIAL_BAUD has to be a number up to 4294967295 and DEVICE_IDS a list of numbers up to 255 with commas between them (a plus sign is allowed, spaces and empty entries are not); otherwise the test fails before any port is opened. However many tests run at the same time, and also after some of them have panicked and poisoned the mutex, no two have the port open at the same time, a test uses the port only while it has it open, and if every test ends, every test gets its turn and does exactly what it does when it runs alone.", "quantifier": "every content of the variables, every behaviour of the port and of the tests, any number of threads, every interleaving", "why_tests_cant": "A test runs with one environment and one interleaving; a second open of the port at the same time shows only as occasional garbage.", "anchors": ["tests/common/real.rs: run, SERIAL_MUTEX"]}
{"id": "C78", "title": "What the checksum finds on the line", "statement": "If a packet arrives with the header prefix and length as they were sent, but with one, two or three other bits wrong (ID, body or CRC; packets of at most 4099 bytes), or with any wrong bits within ten consecutive data bits on the line (the least significant bit of each byte first; packets of any size), then its CRC is wrong: it is reported with both checksums and exactly this packet is dropped. No call of the client succeeds on it, complete or cut off, and no device gets an instruction from it. The bounds are the best possible: four bits, eleven bits on the line, or two bits in a packet of 4100 bytes can make another valid packet of it.", "quantifier": "every packet, every such damage, every garbage before, every division into reads, every call", "why_tests_cant": "All packets times all damage; the CRC is sent in the order that its polynomial does not have, and each byte the other way round, so the usual guarantees do not apply as they are.", "anchors": ["src/checksum.rs: calculate_checksum", "src/bus/mod.rs: Bus::read_packet_deadline"]}
{"id": "C79", "title": "Converting an error loses nothing", "statement": "Converting an error of the crate with ? or into(), any number of times, never changes what it says: the same numbers, the same motor status, the same error of the serial port, and an error about sending never becomes one about receiving or the other way round. All sequences of conversions to a type give the same result, and one conversion always does it, except for a buffer that is too small, which says nothing about the direction until it is converted. Different errors of one type stay different. The text stays the same, except that 'read ' or 'write ' is put in front of that of a buffer that is too small. Every error can become a TransferError.", "quantifier": "every error of every type, every sequence of conversions", "why_tests_cant": "Infinitely many errors; 23 implementations in any order.", "anchors": ["src/error.rs: impl From", "src/error.rs: impl Display"]}
{"id": "C80", "title": "Results that point into the read buffer", "statement": "When a call returns bytes borrowed from the read buffer (a packet, a status response, the bytes of read_bytes and of the read_next_borrow of sync and bulk reads, the instruction a device reads and its parameters), these bytes are in the read buffer of the bus as it is when the call returns, at the place that the packet format gives them, and together with the CRC they lie in the part of the buffer marked as used: nothing of a later packet is among them, and nothing has overwritten them in the meantime, however many packets were skipped on the way.", "quantifier": "every bus, every received stream, every call that borrows", "why_tests_cant": "A pointer to memory that was reused gives right results as long as nothing else has arrived; device.rs has an unsafe block just there.", "anchors": ["src/bus/mod.rs: Bus::read_packet_deadline", "src/device.rs: Device::read_raw_instruction_timeout (unsafe)", "src/bus/data.rs: decode_status_packet_bytes_borrow"]}
{"id": "C81", "title": "Sizes are machine words", "statement": "With sizes computed as machine words of 16, 32, 64 or any larger number of bits, where an overflow panics in a debug build and wraps in a release build: write_packet, write_status, sync_write_bytes, sync_write and bulk_write do what they do with unbounded numbers whenever the size of the packet is a machine word. If it is not, nothing is sent in either build, although the wrapped size may pass the check against the buffer: the call panics or reports a buffer that is too small, and the serial port is not used. The sums in write_bytes, sync_read and bulk_read cannot overflow. Receiving never overflows with words of more than 16 bits; with words of 16 bits nothing changes either, unless a header announces a length of 65529 or more: then a debug build panics, and a release build panics (65529, 65530) or reports a wrong checksum. There, a size for the timeout of a response is wrong (or panics) from 65525 parameters on.", "quantifier": "every word size from 16 bits, every bus, every input, both builds", "why_tests_cant": "Needs packets of 2^64 bytes, or a 16-bit machine.", "anchors": ["src/bus/packet.rs: message_len", "src/bus/mod.rs: Bus::write_packet, write_status, read_packet_deadline", "src/bus/bytestuff.rs: stuff_inplace", "src/instructions/sync_write.rs", "src/instructions/bulk_write.rs", "src/client.rs: Client::read_status_response"]}
{"id": "C82", "title": "Iterators that do not keep their promises", "statement": "The iterators given to sync_write_bytes, sync_write and bulk_write are types of the caller, whose len(), clone() and as_ref() may give anything. If such a call succeeds, the packet sent is well formed and contains all items the iterator gave, in their order and completely; behind them it holds, up to the announced size, old content of the write buffer. If more items come than were announced (or larger ones, or ones with data of another length than count), nothing is sent. If len() is the number of items, the packet holds the items and nothing else.", "quantifier": "every iterator that ends, every bus, every word size, both builds", "why_tests_cant": "Test iterators are slices and vectors, which keep their promises.", "anchors": ["src/instructions/sync_write.rs", "src/instructions/bulk_write.rs"]}
{"id": "C83", "title": "Any implementation of SerialPort", "statement": "The serial port is a type of the caller, whose methods may do anything: take any time, ignore the deadline, claim more bytes than fit, fail with any error, panic, or not return. Whatever it does: sending either does not use the port, or asks it to discard its input and then to write exactly one frame with the packet, and the result is what came of that. Reading uses the port only while the bytes received are no packet yet, always with the given deadline and a slice that is not empty; a packet it returns was received in a frame with the right checksum, an error is one of the port or of the data received, and the bytes behind the packet are kept; a response that transfer_single returns was received after the instruction was sent. A port that claims more bytes than fit leads to a panic, and to a panic in every later read until the next packet is sent; without checks for overflow, a claim of almost usize::MAX bytes makes the reader forget bytes. The reader does not look at the time: with a port that answers for ever without bringing a packet (a file at its end, noise), it never returns; with a port whose reads take time and fail after the deadline, it does, also in a device that skips status packets, and in a whole exchange. An instruction that a device returns was received in a frame with the right checksum, after nothing but complete status packets and bytes that are no packet. The baud rate from which timeouts are computed changes exactly if the port accepts it; making a bus asks the port for its rate once.", "quantifier": "every implementation of the trait, every bus with a read buffer of at least 10 bytes, every execution, both builds", "why_tests_cant": "Quantifies over all code that a caller may write.", "anchors": ["src/serial_port/mod.rs: SerialPort", "src/bus/mod.rs: Bus::write_packet, read_packet_deadline, write_status, set_baud_rate, with_buffers", "src/client.rs: Client::transfer_single, read_status_response_timeout", "src/device.rs: Device::read_raw_instruction_timeout"]}
{"id": "C84", "title": "Every port behaves like a recorded one", "statement": "Take any port that does not panic and never says that it read more bytes than fit, and any sequence of calls of the methods of Client, Device and the iterators that return with it. Record the calls of the port and their results. A port that only replays this record makes each of these calls have the same outcome, leaves the same state, and is called in the same way. So what is proved about all ports that follow a script holds with every such port. In particular: each call sends nothing, or asks the port to discard its input, writes one frame with the instruction's body, and after that only reads; the answer that ping, read_bytes and read return is the first packet in the bytes that the port delivered after the instruction was written and comes from the motor that was addressed, a confirmation of a write is the first such packet and comes from the motor named in it, and the bytes behind it are kept.", "quantifier": "every implementation of the trait whose methods do not panic and do not claim too much, every bus with consistent buffer indices, every finite sequence of calls that return, both builds", "why_tests_cant": "Quantifies over all code that a caller may write for the port, and over all sequences of calls.", "anchors": ["src/serial_port/mod.rs: SerialPort", "src/client.rs: Client", "src/device.rs: Device", "src/instructions: all"]}
{"id": "C85", "title": "Waiting ends when there is an answer, and not early", "statement": "A call that waits for a response returns at the first moment at which the bytes that arrived (after the instruction was sent, or already held by an iterator) contain a complete packet or the header of one too large, or the port fails; if that does not happen it returns exactly at the end of the time for the response: 34 ms plus the time to transfer the response (of 253 responses in a scan) after the end of the write or the call of next. So an answer is returned as soon as it is there, however long the time-out is, and no time-out is reported early, unless the port itself reports one. This holds for ping, read, read_bytes, the write-like calls, and each step of a scan, sync read and bulk read; a write-like call for all motors does not wait at all; a device has an instruction as soon as it has arrived, whatever status packets come before, and does not time out early either. On a silent line the times of the motors of a sync or bulk read add up exactly, and every call of next of a scan waits the whole time again, also the one that drop makes after the scan has ended: a loop over a scan takes one wait more than its answers.", "quantifier": "every call, read buffer of at least 10 bytes, baud rate, and behaviour of the serial port (chunks, times, failures)", "why_tests_cant": "Exact times for all chunkings and arrival times; a test sees one of them, and real clocks are not exact.", "anchors": ["src/bus/bus.rs: read_packet_deadline", "src/client.rs: read_status_response, read_status_response_timeout", "src/instructions/*.rs", "src/instructions/ping.rs: next_response, Drop for Scan", "src/device.rs: read_raw_instruction_timeout"]}
{"id": "C86", "title": "A loop over responses can stop anywhere", "statement": "An iterator over the responses of a sync read or bulk read can be dropped after any number of items, whatever they are: dropping it then ends in the same way, and leaves the same client, port and clock, as dropping it at once, so code that runs afterwards cannot tell where a loop was left. The same holds for a scan that has not ended. Dropping a sync or bulk read that has come to its end does nothing. size_hint announces at least no item and at most exactly the number of items that come: that many calls of next return an item, all later ones None, and the announcement goes down by one with each item. A scan announces nothing, and can return None and then another item.", "quantifier": "every list of motors, every state of the bus and every behaviour of the serial port, every number of calls that return", "why_tests_cant": "Quantifies over all places to stop and all behaviours of the line.", "anchors": ["src/instructions/sync_read.rs: Drop, Iterator::next, Iterator::size_hint", "src/instructions/bulk_read.rs: Drop, Iterator::next, Iterator::size_hint", "src/instructions/ping.rs: Scan"]}
{"id": "C87", "title": "The past does not matter", "statement": "What a client or device does depends only on the serial port, the baud rate, the sizes of its buffers and the received bytes it still holds: two that agree in these do the same from then on (same results, same calls of the port), whatever calls were made before, failed or panicked, and whatever the buffers contain otherwise. No byte of an earlier packet is ever sent or returned again. A call that sends an instruction first does not depend on the unread bytes either, so a client taken apart with into_serial_port and made again with buffers of the same sizes behaves the same for every such call. Needed is that the encoder overwrites its slice or fails: that holds for all instructions, and for all data types of the crate with at least one byte; reg_write and sync_write of a type without bytes send one byte of an earlier packet.", "quantifier": "every pair of states, every sequence of calls of all methods of the client, its iterators and the device, every behaviour of the serial port", "why_tests_cant": "A relation between two runs from arbitrary states; stale data shows only for particular earlier packets.", "anchors": ["src/bus/mod.rs: write_packet, read_packet_deadline", "src/client.rs", "src/device.rs", "src/instructions/*.rs", "src/client.rs: into_serial_port"]}
{"id": "C88", "title": "Repeating a call on a line that loses packets", "statement": "A user who repeats a call for one motor (ping, read, read_bytes, write, write_bytes, reg_write_bytes, action) on a line that can lose, repeat and delay its instructions and its answers: at any time the motor's control table and registered write are as before the first try or as after exactly one execution of the request, however often the motor executed it. As soon as one try returns Ok, the request has been executed and was not refused; a write is in the table and the rest of the table is unchanged. A value that is returned is the one in the table, if its bytes survive the stuffing (C23). A try of which nothing is lost has the result that the first would have had, except for an action: after an execution whose answer was lost, every further delivered action reports motor error 7 although the registered write was done. Needed is that no answer from before the first try and no answer of another motor arrives.", "quantifier": "every request, every state of the motor, every number of tries, and every pattern of lost, repeated and late packets", "why_tests_cant": "Quantifies over all patterns of loss and delay of both directions.", "anchors": ["src/client.rs: write_instruction, read_response_if_not_broadcast", "src/instructions/read.rs", "src/instructions/write.rs", "src/instructions/reg_write.rs", "src/instructions/action.rs", "tests/common/mock/mock_device.rs"]}
{"id": "C89", "title": "Panics while an iterator over responses exists", "statement": "Code that loops over the responses to a sync read, bulk read or scan, and stops or panics anywhere: when it panics itself, and none of the responses still to come is malformed (a valid packet without body, or a status packet without error byte; for a typed sync read also a value on which the decoding function panics), the destructor of the iterator waits for all of them and the panic can be caught; the client is then as it would have been without the panic. When the code runs into a malformed response, next panics, that packet is consumed, and the destructor goes on with the other responses; a second malformed response then panics inside the destructor, which aborts the process. When the code ended normally, the destructor panics at the first malformed response and the rest stays unread. A panic of the code followed by a malformed response aborts the process. With a baud rate of zero every loop over two or more motors, and every scan, aborts the process. In each case the scope ends and the buffers of the client are in order.", "quantifier": "every loop body, every state of the client, every list of motors, every behaviour of the serial port", "why_tests_cant": "Quantifies over all loop bodies and all streams of packets; an abort can not be observed by a test in the same process.", "anchors": ["src/instructions/sync_read.rs: Drop for SyncReadBytes, Drop for SyncRead", "src/instructions/bulk_read.rs: Drop for BulkReadBytes", "src/instructions/ping.rs: Drop for Scan", "src/packet.rs: as_status, error, parameters", "src/client.rs: message_transfer_time"]}
{"id": "C90", "title": "A lost answer to a group read costs all answers after it", "statement": "When a sync_read, sync_read_bytes or bulk_read_bytes asks motors with distinct IDs, and the answer of one is lost while any of the later ones arrive in time for the turns in which they are read, then the turns before the lost answer return what the motors sent; from then on every turn reads the answer of a later motor and returns the error that motor reported (as if it was of the motor whose turn it is) or InvalidMessage::InvalidPacketId, never a value; the turns for which no answer is left, at least one, return a time-out; then the iterator ends.", "quantifier": "every number of motors, every position of the first lost answer, every subset of the later ones that arrive, every data type, value and error byte, and all arrival times in time", "why_tests_cant": "All positions and combinations of losses; the mock of the tests can not answer group reads.", "anchors": ["src/instructions/sync_read.rs: next", "src/instructions/bulk_read.rs: next", "src/packet.rs: as_status", "src/client.rs: read_status_response"]}
{"id": "C91", "title": "A damaged answer to a group read costs only itself", "statement": "When the devices answer a sync_read, sync_read_bytes, bulk_read_bytes or scan in time, and some answers are damaged on the way such that the header prefix and the length field are intact and the CRC is wrong (by C78 that is the case for one to three wrong bits), then the iterator returns one item per device in order: for a damaged answer InvalidMessage::InvalidChecksum with the received and the computed checksum, for every other answer what the device sent; and then None.", "quantifier": "every number of devices, every subset of damaged answers and every damage of that kind, every data type, value and error byte, and all arrival times in time", "why_tests_cant": "All combinations of damage, values and timing.", "anchors": ["src/bus.rs: read_packet_deadline", "src/instructions/sync_read.rs: next", "src/instructions/bulk_read.rs: next", "src/instructions/ping.rs: Scan"]}
{"id": "C92", "title": "What {:?} and {:#?} say about a value", "statement": "Printing a value of the crate with {:?} or {:#?} loses nothing: two errors (TransferError, WriteError, ReadError, InvalidMessage, MotorError, BufferTooSmallError), responses, packets, instructions received by a device, Ping, SyncWriteData, BulkWriteData, BulkReadData or FactoryResetKind that print the same are the same, as long as the errors of the serial port and the data in the response can be told apart. The text for {:?} of an error, of a response to a ping or with bytes, of a received instruction, of a packet, of the data for group instructions, of a client, device, scan, or iterator over the responses to a sync_read is the Rust expression for the value, with all names and the numbers in decimal. The text for {:#?} is the same up to spaces, line breaks and trailing commas (for values without foreign texts). Clients (and devices) print the same exactly when their ports print the same and the baud rates agree. The {:?} text of the iterators of the group reads determines what the port prints, the motors or reads, the count and the index.", "quantifier": "all values of these types, all lengths of data, every text of the serial port and its errors", "why_tests_cant": "All pairs of values, and all texts of foreign types.", "anchors": ["src/error.rs: derives and impl Debug for MotorError", "src/response.rs: Response", "src/instructions/ping.rs: Ping, Scan", "src/instructions/mod.rs", "src/device.rs: Instruction, Instructions, FactoryReset, Clear, impl Debug for Device", "src/client.rs: impl Debug for Client", "src/bus/packet.rs", "src/instructions/sync_read.rs: impl Debug", "src/instructions/bulk_read.rs: impl Debug"]}
{"id": "C93", "title": "Which types compile as data, and their size", "statement": "For every type the crate implements Data for (integers, and arrays nested to any depth), ENCODED_SIZE evaluates exactly when every array length and the number of bytes of every array in the type is at most 65535, and is then exactly the number of bytes of a value; otherwise the compile-time evaluation panics, so it is never a truncated number. Without empty arrays that is when the value has at most 65535 bytes. For every such type each value has exactly one representation, the integers in little-endian order one after the other, encode writes exactly that, decode gives the value back, and every sequence of that many bytes decodes to the value it represents.", "quantifier": "all types: all integer widths, all array lengths, all depths; all values; all buffers", "why_tests_cant": "All types can not be instantiated; types that do not compile can not be tested at run time.", "anchors": ["src/bus/data.rs: ENCODED_SIZE, to_u16, impl Data for numbers and arrays"]}
{"id": "C94", "title": "Iterators that never end", "statement": "If the iterator given to sync_write_bytes or sync_write never ends, whatever its len() says, the call still ends: in a panic or with the report that the buffer is too small, and nothing is sent. The same holds for bulk_write if the clone that is counted ends and the iterator that is written does not. If the clone never ends, bulk_write panics without sending anything if an item is longer than 65535 bytes, and in a debug build in any case (the sum of the sizes overflows); a release build counts forever. For an iterator that ends all three calls are those of C81 and C82.", "quantifier": "every iterator, ending or not, every len(), every bus, every word size, both builds", "why_tests_cant": "Not all iterators can be tried, and that a call never returns can not be observed.", "anchors": ["src/instructions/sync_write.rs: sync_write_bytes, sync_write", "src/instructions/bulk_write.rs: bulk_write"]}
{"id": "C95", "title": "Answers that come too late", "statement": "A status packet that comes while a call for one motor (read, read_bytes, ping and the write-like calls) waits is taken by that call for its own answer as soon as it is complete, whatever it was an answer to: a motor error is reported as such, another sender as InvalidPacketId (not by the write-like calls, C31), another size as InvalidParameterCount, and otherwise the call succeeds with its data. Later packets are not lost. So if the answers are one call behind, the first call ends in a time-out, and each later one takes the answer to the call before. In particular, if a motor needs longer for an answer than read_bytes waits, but at most twice as long, and is read again and again, then after one time-out every read succeeds with what the read before it asked for, for ever.", "quantifier": "every sequence of such calls and of late answers, every way in which they come in pieces, every timing, write time, baud rate, content", "why_tests_cant": "Needs a slow motor and exact timing; any number of calls.", "anchors": ["src/client.rs: read_status_response, transfer_single", "src/bus/mod.rs: write_instruction, read_packet_deadline", "src/instructions/*.rs"]}
{"id": "C96", "title": "A status packet too many during a group read", "statement": "In sync_read, sync_read_bytes and bulk_read_bytes each turn of the iterator takes the next complete status packet, whoever sent it, and looks at nothing after it. So if one packet too many comes (a late answer to an earlier call, or an answer sent twice), the turns before it get the answers of their motors; the turn at which it comes gets that packet: its error, InvalidPacketId, or, if it is from the motor whose turn it is, InvalidParameterCount or its data; each later turn gets the answer of the motor before, that is its motor error or InvalidPacketId, and never a value; and the answer of the last motor stays unread, and meets the next call if it comes after that has discarded its input. A loop that polls two or more motors as fast as it can then gets no value in any round, for ever, although all motors answer every time: in particular if the motors begin to answer a fixed time after the instruction and follow each other with a fixed gap. A pause until what is left over has arrived ends it: the next loop gets the value of each motor.", "quantifier": "every group read, motors, counts, number of rounds; every extra packet; every content, error, way of coming in pieces, timing, write time, baud rate", "why_tests_cant": "Needs a stray packet at the right time; any number of rounds.", "anchors": ["src/instructions/sync_read.rs: next, next_response", "src/instructions/bulk_read.rs: next", "src/client.rs: read_status_response", "src/bus/mod.rs: write_instruction"]}
{"id": "C97", "title": "A line on which everything that is sent comes back", "statement": "Many adapters for half-duplex lines receive what they send. On such a line every call for one motor (ping, reads, writes, action, reboot, clear, factory reset) fails, with InvalidInstruction{actual: the instruction that was sent, expected: 0x55}, as soon as the instruction has come back, or with BufferFull if it is too large for the read buffer; the answer of the motor is not read; this is so for any number of calls with pauses in between. A group read returns that error for the first motor, for each later one the motor error of the motor before or InvalidPacketId, and never a value; the last answer is not read. A scan first returns that error, and then finds every motor as always. A device (Device::write_status, then Device::read) gets the next instruction as if nothing had come back, unless its status packet is too large for its read buffer: then the next read fails with BufferFull.", "quantifier": "every call, ID, address, data, buffer sizes; every number of calls and motors; every way of coming back in pieces and timing within the waits; write times, baud rates", "why_tests_cant": "Needs such an adapter; all calls, any number of them, all timings.", "anchors": ["src/client.rs: read_status_response_timeout", "src/bus/mod.rs: write_instruction, read_packet_deadline", "src/instructions/ping.rs: scan_next", "src/instructions/sync_read.rs: next", "src/device.rs: read_raw_instruction_timeout"]}
{"id": "C98", "title": "Using the serial port by hand", "statement": "The documentation of serial_port() says that it should be safe to read and write to the bus manually in between instructions, if the response from the motors has already been received. It is: after any number of reads, writes, discards and pauses by hand, each call that sends an instruction (or a status packet) has the same outcome as if nothing had been read by hand, and as if any part of what arrived until then, such as the answers to instructions that were sent by hand, had never been received; when the call sent something, the client is in the same state too, so that everything after it is the same; any number of such calls. Needs a port that does discard its input and reads without errors. Calls that only listen are not protected: bytes read by hand are missing behind the bytes that are in the read buffer.", "quantifier": "every use by hand, every content and timing of what is received, every call, data and encoder, any number of calls, all results of discards and writes", "why_tests_cant": "The tests never use the port by hand; all sequences of uses and all timings.", "anchors": ["src/client.rs: serial_port", "src/device.rs: serial_port", "src/bus/mod.rs: write_instruction"]}
{"id": "C99", "title": "Asking all motors with a call for one motor", "statement": "The documentation says that ping, read and read_bytes will not work correctly with the broadcast ID. What happens: when motors answer one after the other, the call ends as soon as the first answer is complete, with the error that motor reports or InvalidPacketId{actual: its ID, expected: 254}, never with a value. The other answers stay on the line: calls made right after it take them for their own, one each, whatever they ask for; in particular a read_bytes of three bytes of the motor whose answer to a ping comes next returns Ok with the model number and firmware version, as if they were in its memory. After a pause until the other answers have come the next call gets its own answer.", "quantifier": "every such call, address, data type; every number of motors, content and error of the answers, way of coming in pieces and timing; every sequence of later calls for one motor; write times, baud rates", "why_tests_cant": "Needs many motors and calls; all timings and contents.", "anchors": ["src/instructions/ping.rs: ping", "src/instructions/read.rs: read, read_bytes", "src/client.rs: transfer_single, read_status_response"]}
{"id": "C100", "title": "How long a program can take", "statement": "A call that sends an instruction makes at most one call of write_all, and apart from the time that takes it lasts at most the time for the one response it waits for (34 ms and 10 bits per byte of a response of the expected size; none for a broadcast), whatever arrives and whatever the outcome. The iterator of a sync or bulk read, used in any way and dropped at any moment, lasts at most the sum of these times over its motors, and writes nothing. A device that waits for an instruction does so for at most the time-out it is given, however many other packets come; a status packet is one call of write_all. So any program made of such calls, pauses and changes of the baud rate lasts at most the sum of these times and of the times of its write_all calls, of which there is one per instruction. A step of a scan lasts at most 34 ms and the time for 253 answers, and its drop that for each answer it looks for; but a whole scan has no limit: it goes on for as long as packets arrive within that time after each other, also if all are from one motor.", "quantifier": "every program, of any length, of these calls; every line, port, timing, outcome, read buffer, baud rate (also changed in between); every way to use an iterator", "why_tests_cant": "All schedules of arrivals and all programs; no test waits for a scan that does not end.", "anchors": ["src/client.rs: read_status_response, read_status_response_timeout, transfer_single", "src/bus/mod.rs: write_packet, read_packet_deadline", "src/instructions/ping.rs: scan_next, Drop for Scan", "src/instructions/sync_read.rs", "src/instructions/bulk_read.rs", "src/device.rs: read_raw_instruction_timeout"]}
{"id": "C101", "title": "Larger buffers change nothing", "statement": "A client or device with larger buffers has the same results, at the same times, and sends the same packets, for any sequence of calls; as long as the port can discard its input, nothing that is received looks like a packet too large for the smaller read buffer (of at least 10 bytes), and until a call says that the smaller write buffer is too small (or panics). What the buffers contain at the start does not matter. A read buffer of 65542 bytes is large enough for anything. Where discarding is a no-op the size of the read buffer decides whether an old packet is taken for the answer to the next instruction, and where discarding fails which packet is read next.", "quantifier": "every pair of sizes, every sequence of calls of clients and devices, every line with data in the order of time, every failure of reads, writes and baud rates, every timing and chunking", "why_tests_cant": "How the bytes are cut into reads depends on the size of the buffer, and the two runs read different bytes at different calls; all sizes, all lines and all sequences of calls are compared.", "anchors": ["src/bus/mod.rs: read_packet_deadline, write_packet, TransferState", "src/client.rs: with_buffers, transfer_single", "src/device.rs: with_buffers, read_raw_instruction_timeout", "src/instructions/*.rs"]}
{"id": "C102", "title": "The unit tests", "statement": "The unit tests in src pass (the one marked should_panic panics), with and without overflow checks, on every word size from 8 bits, whatever the clock says. Their helper stuff never runs out of space, for any data, and maximum_stuffed_len is the least length for which that is so; stuff followed by unstuff gives the data back exactly for the data of C04. static_buffer! in a loop panics exactly from the second iteration on. test_buffer_too_small passes with a read buffer of other sizes exactly if it has 50 to 10006 bytes: with fewer its DummySerial claims more bytes than fit, or does not fit, or the bus rejects the buffer; with more the first packet is not too large.", "quantifier": "every input of the helpers, every number of iterations, every size and contents of the buffers, every clock value, every word size", "why_tests_cant": "These are the tests: what their helpers do for other data, and what their setups depend on, no test says.", "anchors": ["src/bus/bytestuff.rs: mod test", "src/bus/mod.rs: mod test", "src/bus/endian.rs: mod test", "src/bus/packet.rs: mod tests", "src/checksum.rs: mod test"]}
{"id": "C103", "title": "How much is moved in the read buffer", "statement": "Reading a packet moves, in the read buffer, exactly this many bytes: before the first read and after every one, all that is pending from the first place where a packet may start; and at the end what follows a packet that is dropped (too large, or with a wrong CRC). So a call with k reads moves at most (k + 2) times the size of the buffer. A packet of L bytes that comes at once costs L, and one that comes byte by byte costs L(L+1)/2: copy_within is called also when there is nothing to remove. What can not be a packet costs at most three per read.", "quantifier": "every state of the bus, every line, every chunking, every size of the buffer, every deadline", "why_tests_cant": "A test does not count what is moved; the sum is over an unbounded number of reads, and the exact amount is given for all of them.", "anchors": ["src/bus/mod.rs: read_packet_deadline, remove_garbage, consume_read_bytes"]}
{"id": "C104", "title": "Buffers are a type of the caller", "statement": "The buffers are of a type of the caller, whose as_ref and as_mut may do anything (lend another slice each time, of another length, forget what was written to it, panic). If they lend the same bytes each time, with the changes made to them, then making a bus, sending and receiving packets, every method of client and device, and any code that uses an iterator of a sync read, a bulk read or a scan (with its destructor, also after a panic) do exactly what they do with a Vec of the same contents. For any other: what write_packet sends starts with the first four bytes as_mut lends for it; if these are the header prefix (which is written only when the bus is made) and ten bytes are lent, a successful call sends exactly one well-formed packet, and if they are not, it sends nothing that starts with the header prefix, although it reports success. A received packet is returned as as_ref lends it, in the length that was checked, but the bytes themselves are not compared with what was checked; if as_ref lends less, the call panics. If as_mut lends an empty slice after the first time and there is something to read, the call never ends.", "quantifier": "every buffer type (any state, any functions), every state of the bus, every packet and encoder, every line, every deadline; both build profiles", "why_tests_cant": "A test uses one or two buffer types; the claim is about all safe implementations of AsRef and AsMut, including stateful ones.", "anchors": ["src/bus/mod.rs: with_buffers_and_baud_rate, write_packet, write_status, read_packet_deadline, remove_garbage, consume_read_bytes", "src/client.rs: transfer_single"]}
{"id": "C105", "title": "Conversions of the caller", "statement": "read_bytes, sync_read_bytes, bulk_read_bytes and their borrowing variants convert the data with code of the caller (From<&[u8]> or Borrow), which may have a state of its own and may panic. It is called exactly if the same call for bytes would return a response, once, with the data of that response; otherwise its state does not change and the error is the same. Whatever it does, client and serial port are afterwards as after the same call for bytes, so a response on which the conversion panics is used up. Code that uses an iterator with a conversion does exactly what it would do taking the bytes and converting them itself. If no response is malformed, a panic of the conversion can be caught and all responses have been awaited by then. That is different for a sync read of a type that implements Data: its destructor decodes the remaining responses, so that a decode that panics aborts the process.", "quantifier": "every conversion (any type, any state, any function, panics), every motor, address and count, every state of the client and the port, every code that uses the iterators", "why_tests_cant": "The conversion is a type parameter; tests use one or two types that do not panic.", "anchors": ["src/bus/data.rs: decode_status_packet_bytes, decode_status_packet_bytes_borrow", "src/instructions/read.rs: read_bytes", "src/instructions/sync_read.rs: SyncReadBytes", "src/instructions/bulk_read.rs: BulkReadBytes"]}
{"id": "C106", "title": "Any serial port and any buffer type at once", "statement": "Client and Device are generic in the serial port and in the buffer type together. For every implementation of SerialPort (any state, any error type, any instants, may panic or never return) and every buffer type that lends the same bytes each time with the changes made to them: making a bus, every method of client and device, and any code that uses an iterator of a sync read, a bulk read or a scan (with its destructor, also after a panic) do exactly what they do with a Vec of the same contents: the same result, the same calls of the port in the same order, the same bytes left. So what C83 says of any port holds for these types. For any other buffer type and any port: sending a packet either does not touch the port, or asks it to discard its input and to write one slice that starts with the first four bytes as_mut lends for this packet, and returns what comes of that; if these are the header prefix and ten bytes are lent, a successful call wrote exactly one well-formed packet.", "quantifier": "every port type and every buffer type (any state, any functions), every state of the bus, every method and argument, every code that uses the iterators; both build profiles", "why_tests_cant": "The tests use one port and one buffer type; the claim is about every pair of implementations of the traits.", "anchors": ["src/bus/mod.rs: Bus", "src/client.rs: Client", "src/device.rs: Device", "src/serial_port/mod.rs: SerialPort"]}
{"id": "C107", "title": "Loops over responses, with any serial port", "statement": "For every implementation of SerialPort. One call of next of a sync read or a bulk read is none, and changes nothing, if all motors have had their turn; otherwise it is the turn of the next motor, also if the call fails, and the client waits for exactly one response with the count of that motor. An error of the wait is the item; a panic or a wait without end is one of the call; a response is checked for the motor, the number of bytes and the error byte, in this order, and only then are typed values decoded. The destructor of a typed sync read takes items, errors too, until there is none, a call panics or a call does not end. Whatever code uses one of these iterators: if its scope returns, the client has waited for each response exactly once, in order, each wait has returned, and nothing else was done with the client. If it is left by a panic, all have been waited for, or the destructor has panicked in one of these waits or, with typed values, on data on which the decoding panics; the process is aborted only by such a panic of the destructor, and the scope does not end only if a wait does not end. So with a port that blocks, a missing answer makes the destructor block, even if the code has all that it wants. In a scan, exactly the errors that the port calls timeouts end it; its code gets what the calls of next return, and the destructor then takes items until there is none; a panic of the destructor after a panic aborts the process, and the scope does not end if a call of next does not or if there is no end of items.", "quantifier": "every port (any state, any functions), every list of motors, every state of the client, every code that uses the iterator, both build profiles", "why_tests_cant": "Quantifies over all ports and all loop bodies.", "anchors": ["src/instructions/sync_read.rs: SyncReadBytes, SyncRead", "src/instructions/bulk_read.rs: BulkReadBytes", "src/instructions/ping.rs: Scan"]}
