# Formal model of dynamixel2-rs in Lean 4

## Approach

The model transcribes the Rust code function by function into total, computable Lean functions. Properties are stated
against a small separate specification that does not mention the model.

| directory | content |
|-----------|---------|
| `lean/Verif/Model/` | the model; every definition cites the file and lines of `/repo` it transcribes, with its simplifications |
| `lean/Verif/Spec/` | the specification: CRC, stuffing, frames, streams, requests, integers, command line arguments, what a port offers, time on the line, the motor as a memory |
| `lean/Verif/Lemmas/` | helper lemmas, no claims of their own |
| `lean/Verif/Props/` | the theorems `cNN_…` of the manifest, each next to concrete `example`s; every theorem with hypotheses is applied to a concrete case that meets them, at the latest at the end of its file |
| `properties.jsonl`, `MANIFEST.json` | the properties in English, and which theorems stand for them |
| `seeded/LOG.jsonl` | the wrong programs the theorems were tested against |
| `AXIOMS.md` | the axioms each theorem of the manifest depends on |
| `tools/` | `manifest.py` (regenerates the manifest), `addnote.py`, `axioms.py` (regenerates `AXIOMS.md`) |

* Results: `Outcome ε α = ok a | err e | panic | hang`. A Rust panic (index out of bounds, failed assertion,
  overflow in a debug build, division by zero) is the explicit value `panic`. Every index and slice
  operation of the code is a checked operation in the model, nothing is totalised with default values.
* Mutation: `SO σ ε α = σ → σ × Outcome ε α`. `&mut` code becomes state passing, and the state is kept on
  errors and panics.
* Slices: `&mut buffer[a..b]` is `onSlice a b`, running an action on the sub-list, then writing it back.
* `usize` is `Nat`; `u8`, `u16` are `BitVec`. `Model/Words.lean` repeats the functions in which a size comes from outside
  with `usize` of `w` bits, and C81 shows that the results are the same as long as the size of a packet is a machine word. The build profile (overflow
  checks and `debug_assert!` on or off) is a field of the bus, and theorems hold for both values.
* Serial port: the trait `SerialPort` is modelled by a script: a clock, a list of future
  input events (bytes arriving at a time, or an I/O error at a time), what happens after the script
  (silence, or a persistent error), results of `discard_input_buffer`, `write_all`, `set_baud_rate`, and a
  log of all calls made. All theorems quantify over all scripts. Every finite behaviour of a port
  obeying the trait contract (at most as many bytes as the slice holds; blocks no longer than the deadline)
  is produced by some script: the list of observed results, with arrival time 0 if time is irrelevant
  (`script_complete` in `Lemmas/Script.lean`). C84 proves this for whole programs: with any implementation of the trait that does not
  panic and does not claim too many bytes, every sequence of calls has the outcomes it has with the script recorded from it.
* Loops become recursion; loops that have no syntactic bound take fuel and return `hang` when it runs out.
  That `hang` is not reached (or is reached for every fuel) is a theorem.
* A property that is false of the code is kept in full as a definition `CNN_statement` (or stated inside the theorem),
  with a theorem `cNN_refuted…` (its negation, with a concrete witness) and theorems `…_partial`
  for the part that does hold, as exact as possible.

## Trusted base

* The kernel of Lean 4.33 and the axioms `propext`, `Quot.sound` and `Classical.choice` of its core library.
  `AXIOMS.md` (written by `tools/axioms.py`) lists them per theorem: every theorem of the manifest depends on a subset of
  these three, most on all three, nothing else. There is no `sorry`, `admit`, `native_decide`, `bv_decide`, own axiom, or `opaque`/`implemented_by` trick.
  Finite facts (the CRC table, concrete examples) are evaluated by the kernel (`decide +kernel`). Mathlib is not imported.
* That the definitions in `Verif/Model` say what the Rust code does. They were transcribed by hand and can be compared
  line by line. Points where judgement enters:
  - the semantics of Rust's checked indexing, `copy_from_slice`, `as` casts, wrapping or panicking arithmetic,
    `?`-conversions, drop order (for `ArrayInitializer`, iterators) and iterator adaptors;
  - the script model of `SerialPort` described above, with the deadline behaviour of the `serial2` implementation (theorems without time in
    them carry over to every implementation by C84);
  - sequential consistency for `static_buffer!` (only one atomic is involved, so its modification order suffices), and code
    under a mutex as one step (`Model/MockSerial.lean`);
  - what the methods of the `serial2` crate do (`Tty` in `Model/Serial2.lean`);
  - `u8::from_str` and `eq_ignore_ascii_case` of the standard library, transcribed for the command line tool.
* That the definitions in `Verif/Spec` and the statements in `Verif/Props` say what the English properties say.

## What is modelled

| source | model |
|--------|-------|
| `src/checksum.rs` | `Model/Checksum.lean`, with the whole table |
| `src/bus/bytestuff.rs` | `Model/ByteStuff.lean` |
| `src/bus/endian.rs` | `Model/Endian.lean` |
| `src/bus/packet.rs` | `Model/Packet.lean` |
| `src/bus/mod.rs` | `Model/Bus.lean`: construction, writing, reading, baud rate; `Model/Moves.lean`: the reader once more, with a count of the bytes it moves; `Model/AnyBuffer.lean`: once more with any buffer type, borrowed as often as the code does; `Model/AnyBufferClient.lean`: the methods of client and device and the iterators on top of it; `Model/AnyBus.lean`: all of it with any port and any buffer type at once |
| `src/bus/data.rs`, `src/response.rs` | `Model/Data.lean`, `Model/ArrayInit.lean` (ownership events), `Model/EncodedSize.lean` (evaluation by the compiler), `Model/AnyValue.lean` (reading bytes as any type of the caller; also for `src/instructions/{read,sync_read,bulk_read}.rs`) |
| `src/serial_port/` | `Model/Port.lean` (trait and `serial2` deadline behaviour), `Model/Serial2.lean` (the implementation with `serial2`), `Model/AnyPort.lean` (any implementation of the trait, and `src/bus/mod.rs`, `src/client.rs`, `src/device.rs` once more with it, as far as they exchange single packets), `Model/AnyClient.lean` (all methods of the client, its iterators and the device with it) |
| `src/error.rs` | `Model/Error.lean`: types and checks; `Model/Display.lean`: the texts (`Display`), with the formatting of integers; `Model/DebugText.lean`: `Debug` of all types of the crate, with the builders and `PadAdapter` of `core::fmt`; `Model/Convert.lean`: the conversions (`From`) |
| `src/client.rs` | `Model/Client.lean`, `Model/Construct.lean` (constructors), `Model/Getters.lean` |
| `src/instructions/*.rs` | `Model/Instructions.lean`: all public methods, iterators and their `Drop`; `Model/SizeHint.lean`: `size_hint`; `Model/Unwind.lean`: code that uses an iterator, and the destructor while a panic unwinds (with `panic = "unwind"`, the default) |
| sizes in `src/bus/`, `src/client.rs`, `src/instructions/{sync,bulk}_write.rs` | `Model/Words.lean`: once more with machine words, and with iterators whose `len()`, `clone()` and `as_ref()` may give anything; `Model/Endless.lean`: with iterators that need not end |
| `src/device.rs` | `Model/Device.lean`, `Model/Construct.lean` (constructors), `Model/Getters.lean` |
| `src/log.rs` and the log statements of the library | `Model/Log.lean`: the functions with log statements once more, with these |
| `static_buffer!` in `src/bus/mod.rs` | `Model/StaticBuffer.lean` (interleavings) |
| `dynamixel2-cli/src/bin/dynamixel2/{options,main}.rs` | `Model/Cli.lean`: motor ID parsing, what each command does on the bus, the lines it logs and its exit code |
| `dynamixel2-cli/src/bin/dynamixel2/{logging,main}.rs` | `Model/CliLog.lean`: all messages of the tool and of the library, in order, and which lines are shown |
| `write_shell_completion` in `dynamixel2-cli/src/bin/dynamixel2/main.rs` | `Model/ShellCompletion.lean`: files by their names (two names are two files), faults of `write_all` and `File::create`, comparison of paths as on Unix; the script itself (`clap_complete`) is a parameter |
| `tests/common/mock/mock_device.rs` | `Model/Mock.lean`: the simulated motor of the integration tests |
| `tests/common/mock/{mock_serial_port,mod}.rs` | `Model/MockSerial.lean`: the simulated line and its connections (interleavings); `Model/RunMock.lean`: `run_mock`, the threads on that line. The clock that a thread's reads go by is not compared with that of the line, and for C66 and C72 neither are the sizes of the slices; this allows more executions. C74 compares the sizes (`Traced`) |
| `tests/integration_test.rs` | `Model/IntegrationTests.lean`: the bodies of the tests on the simulated line. Only runs in which the body comes to its end: a thread that is killed in the port (a read with too small a slice, a poisoned mutex) has no result there |
| `tests/common/real.rs` | `Model/RealRun.lean`: settings, opening, test, and the mutex between the threads of a process. `std::env::var`, `str::split`, `u32::from_str`, `u8::from_str` and `Mutex` as documented; messages of the assertions left out |

Not modelled: `Error::source`, and `Debug` of types outside of the crate (an arbitrary text) and options of `{:?}` other than `#`; the crates `log`
and `env_logger` (a line logged is a line in a list, filtered as in `Model/CliLog.lean`); borrowing and
lifetimes (for the `unsafe` block of `read_raw_instruction_timeout`, which only works around the borrow checker, see C80);
memory layout and the uninitialised memory of `ArrayInitializer` (only who owns and drops which element is);
the system calls below `serial2`; wall clock time spent in computation (only ports advance the clock); `clap` and the
scripts of `clap_complete`, colours and times in the output of the command line tool; features and conditional compilation (the model is of the
crate with `alloc`/`std`); examples, and tests except the simulated motor, line and `run_mock`
(the unit tests of the crate are in `Model/UnitTests.lean`, except those of `bulk_write.rs`, which are about what compiles; `Props/OwnTests.lean` evaluates them step by step).

## Plan per property

| id | modelled | how proved |
|----|----------|-----------|
| C01 | `calculateChecksum` with the 256-entry table | table = 8 bit-serial steps for all 256 indices (kernel `decide` over the whole table, lifted), then induction on the data |
| C02 | same | CRC is GF(2)-linear; parity argument for odd errors; order of x mod G for two-bit errors (whole orbit, kernel); injectivity of the shift register for bursts |
| C03 | `stuffInplace` (in-place, backwards) | loop invariant relating the in-place loop to a functional scan; false in general: refutation, and an exact condition |
| C04 | `stuffInplace`, `unstuffInplace` | both as automata reading forwards, induction on the data; false in general: refutation, and exactly which data survive |
| C05 | `writePacket` | from the automaton of C04; false in general: refutation, and exactly which bodies |
| C06 | `unstuffInplace` | invariant of the in-place loop; false in general: refutation, and an exact condition |
| C07 | both in-place loops with checked indexing | loop invariants |
| C08 | `writePacket`, `writeStatus`, `writeInstruction` | symbolic evaluation under the bus invariant |
| C09 | `writePacket` | false (CRC not accounted for): refutation, and exactly when |
| C10 | `writePacket`, both profiles | false above 65533 bytes: refutation, and exactly what happens |
| C11, C12 | `writePacket`, port log and script | case analysis |
| C13-C17 | `readPacketDeadline`, `removeGarbage`, `consumeReadBytes`, `findHeader`, script port | refinement: the read loop computes a stream parser on (pending bytes ++ stream), by induction on the script |
| C18 | all of the read path | false (length 2; status of length 3): refutations, and exactly which inputs panic |
| C19, C20 | read loop with fuel, clock and log | induction on the script |
| C21 | `messageTransferTime`, `readStatusResponse` | arithmetic |
| C22, C43 | all operations | invariant by induction on histories |
| C23 | writer bus, wire, reader bus | composition of C08, C13 and C04; refuted in general, and exactly which bodies arrive |
| C24 | all client methods, device decoding | composition; `clear_error` refuted |
| C25 | `read_owned` conversion | refuted for BulkWrite, partial for the rest |
| C26, C47 | device loop, decoding | induction on the packets |
| C27, C28 | `Data` for numbers and arrays | induction; array decode of wrong length refuted |
| C29 | ownership event model of `ArrayInitializer` | refuted (double drop), exact behaviour proved |
| C30-C33 | client reads and writes | inversion on outcomes, and evaluation on arbitrary answers |
| C34, C35 | `reg_write`, `sync_write` | refuted, partial for size 1 |
| C36-C38, C46 | layouts | induction on lists; duplicate panic of `bulk_write` and the body of `clear_error` refuted |
| C39-C42 | iterators, drop, scan | induction on list / stream; scan drop refuted for a persistent error |
| C44 | interleaving model of `static_buffer!` | induction on schedules |
| C45, C48 | CLI `MotorId`, commands | induction on the string; case analysis on commands |
| C49 | checks of `error.rs` | case analysis; the header check refuted for short slices |
| C50 | constructors | case analysis, invariant over histories (C22) |
| C51 | `write_status`, client reading | composition of C08, C13 and C04; refuted in general, and exactly which data arrive |
| C52, C53 | the simulated motor, device reading | refinement to a memory (`Spec/Servo.lean`), composition of C08 and C26; refutations by evaluating a packet |
| C54 | client methods and simulated motor | induction on sessions, composition of C30, C33, C46, C52; refuted in general because of the stuffing |
| C55 | `serial2.rs` over a described `serial2` crate | refinement to `Port.read`; case analysis |
| C56 | `MockSerial`, `new_client_device`, any number of threads | invariants over runs of any length; false in full (panics): refutation, and exactly when |
| C57 | `read_packet_deadline` on any stream | induction on the noise, over `parse` of C13/C14 |
| C58 | client, any number of motors | induction on the calls, refinement to independent memories; from C52, C54, C33, C32 |
| C59 | iterators, `write_status` of the devices | composition of C39/C41/C42 with C08 and C51 |
| C60 | `Display` of all error types | digits by induction on the number; the spec gives text as a relation, cancelled field by field |
| C61 | `main` and `do_main` of the tool | composition of C30, C31, C48, C50, C59, C60; texts as relations |
| C62 | all calls for one motor | `c62_send` from C09/C10; `Verdict`: the cases of `parse` and `frameOutcome`, unique and exhaustive; each call is "send, wait, check" |
| C63 | stuffing, `write_packet` | counting argument, and data that reach the bound; from C09 |
| C64 | `read` and `write_status` of the device | induction on the status packets skipped; `Hears`: cases of `parse` and `frameOutcome`, unique; decoding from C47 |
| C65 | `next` of the iterators | `Verdict` of C62 as the last field of `Turn`, for the iterators of C39-C42 |
| C66 | threads of an integration test | each thread is refined to an abstract process (`motor_thread`, `uses_client`), the line to an ordered log (C56, `run_story`); invariant `Phase` of the whole by induction on the log |
| C67 | time on the line (false as stated) | `Spec/Wire.lean`: the times at which the bytes of a transmission can be handed over; `received_prefix`, `received_late` by induction on the chunks, then C62 (`Comes`); groups through `OnTime` of C59 |
| C68 | log of the library (false as stated) | `Erases`: the functions with logging refine to those without, for all states; `SentAsLogged`, `NoWrites` closed under sequencing; `logged_readLoop` by induction on the reads, against `skip` and `parse` of the stream |
| C69 | output of the command line tool | `SameRun`: the program with messages refines to the one without; `SentShown` closed under sequencing, from C68; levels for all 256 values |
| C70 | all calls | equations between functions of the state: encoders that fill a slice alike give the same packet; decoding a status packet splits into its bytes and `decode` |
| C71 | `main` of the tool, `MockDevice` | composition of C52, C58 and C61: each run is one call on a fresh client; induction over the runs |
| C72 | `tests/integration_test.rs`, `run_mock` | the calls of one motor by C66's conversations; for the group tests an induction over the interleaving: the request is heard once by every motor, each answers at most once, and the client hears whole answers in the order they were written (`Once`) |
| C73 | `write_shell_completion` | case distinction; which paths equal `-` by induction over the parts of the path |
| C74 | `MockSerial::read`, all calls, `run_mock` | every read of a bus asks for all of its buffer that is free (`Roomy`, a field of the step invariant), so by induction over the interleaving the bytes waiting fit if all that was sent fits; for each test a bound on what is said, from C72's induction |
| C75 | `MockDevice::run`, `run_mock` | on whole packets the device's read returns an instruction, a timeout that the line reported, or nothing (`Picks`); each instruction ends without a panic and leaves whole packets (`Quits`); induction over the loop; what is said in each test is C74's; `runMock` runs the body and then `joinAll`, which panics if a motor did; a motor that waits for another one in a group read never ends (`run_forever`) |
| C76 | `parse` of C13/C14, all calls for one motor, device reading | by the place of the bit: outside of prefix and length C02 (odd errors); in the length the packet gets shorter, and unstuffing a part gives a part; in the prefix only a packet inside of the packet could be found, which has fewer parameters; then C62 and C64. False for devices: a write can be cut short |
| C77 | `tests/common/real.rs` | settings: both directions between the parser and numerals (as C45); threads: invariant over all interleavings (who holds the mutex, what is left to do for each, who has the port open), progress of the holder, and a measure |
| C78 | checksum, `read_packet_deadline`, all calls for one motor, device reading | by linearity only the difference of the packets counts; two bits: the order of `x` modulo the generator (C02), in the order of the polynomial; bursts: three bytes in a row hold them, the outer two of which are almost determined, so 256 cases for each place (message, message and CRC, CRC); sharpness by witnesses, for the size by the period |
| C79 | the 23 `impl From` of `src/error.rs`, as one relation between errors of all types (`Model/Convert.lean`) | a separate relation says which fact an error states; every conversion keeps the fact and the direction, and type, fact and direction determine an error |
| C80 | everything that reads packets; the model returns copies of the bytes, which this justifies | inversion of successful runs: the last thing that changes the buffer is the unstuffing of the packet that is returned |
| C81 | `Model/Words.lean` | equality with the model in natural numbers, function by function; if the sum overflows, the slice of the parameters does not fit into the buffer |
| C82 | `CallerIter`, `CallerWrites` in `Model/Words.lean` | induction on the items: what the encoder leaves of the slice, or that it panics |
| C83 | `PortImpl`, `BusOf` in `Model/AnyPort.lean` | induction on the iterations of the loop, with `PortImpl.Waits` as the history of the reads; for sending, the part before the port is used is shown not to depend on the port; for the end of the loops, a measure of time and pending bytes; the script port is shown to be an instance that gives the old model |
| C84 | `Model/AnyClient.lean` | simulation, method by method (`Transfers`): the port with any implementation on one side, a script port whose script begins with the recorded calls on the other; composed by `bind`, and by induction over sequences of calls; then the theorems for script ports (C30, C31, C46) are applied to the script |
| C85 | `Bus.readLoop` with the clock of the port | induction over the reads: the clock is the least time at which the bytes that have arrived settle the matter (`Spec/Prompt.lean`), or the deadline; the calls, iterators and the device by their state after the read |
| C86 | `SyncIter.dropBytes`, `drop`, `BulkIter.drop`, `scanDrop`, `sizeHint` | what a drop does is invariant under `next`: one step of the drop loop is one call of `next` without its checks; bounds on the iterations make no difference; counting down for `sizeHint` |
| C87 | all of `Client`, the iterators, `Device`, the getters | relational: two states related by `Kin` (same port, rate, sizes) or `Twins` (and same unread bytes) give the same outcome and related states; encoders that overwrite their slice or fail |
| C88 | `Client` methods of `Uses`, `MockDevice.step` | induction over what the motor hears (`SentAgain`) and over the tries (`Tries`); `serve` is idempotent on the memory; an accepted answer is one the motor wrote (frames are injective, the error byte is never stuffed) |
| C89 | `scopeOf`, `next` and `Drop` of the three iterators | each call of `next` and each turn of a destructor awaits one response and panics exactly if it is malformed (`AwaitsFor`); induction over the code (`LoopCode`) and over the responses (`Sequel`) |
| C90 | `next` of `SyncRead`, `SyncReadBytes`, `BulkReadBytes` | the stream after each turn (`OnlyReads`, `replies_then_silence`): induction over the answers that arrive, then over the turns that get none; IDs are distinct, so a sublist shifted by one never meets its own turn (`shifted`) |
| C91 | `next` of the four iterators, `Bus.readPacketDeadline` | a packet with a wrong CRC is taken out of the stream like a right one (`BadPacket.turn`, `read_takes`); induction over the answers |
| C92 | `Dbg.text`, `Dbg.pretty`, `….tree` of every type with `Debug` | the texts are read back: induction over the tree of builder calls with an arbitrary rest of the text (`Dbg.text_cancel`, `Dbg.pretty_cancel`); indentation is undone first (`Dbg.pad_cancel`); foreign texts are cut off from both ends (`Dbg.text_peel`, `number_at_end`, `last_bracket`) |
| C93 | `DataShape.encodedSize`, `DataShape.data` | induction over the type; the implementations by C28 |
| C94 | `syncWriteBytesE`, `syncWriteE`, `bulkWriteE`: iterators as functions | a loop over an endless iterator is the loop over a prefix, then no more rounds (`syncWriteBytesLoopE_eq`, ...); prefixes longer than the buffer stop by C82 |
| C95 | `Client.readBytes` etc. on the script of the port, `Spec/Late.lean` | one call by C62 (result) and C85 (when it ends), and an invariant of the port: reading takes only what has arrived (`kept_sameFuture`); then induction over the calls |
| C96 | `SyncIter.nextBytes`, `SyncIter.next`, `BulkIter.next` on the script of the port, `Spec/Shifted.lean` | one turn by C86/C95 (which packet, when, what stays); induction over the turns, then over the rounds; the arithmetic of a constant pace |
| C97 | `LateCall`, `GroupRead`, `Client.scan`, `Client.scanNext`, `Device.writeStatus`, `Device.read` on the script of the port | what is written is a packet (C08) with an instruction other than 0x55; reading takes exactly that packet, at the time it is complete (C85); the verdict on it is unique (C62, C64); induction over calls and turns |
| C98 | `ByHand` (uses of `Client.serialPort`), all calls in `Instructs` | buses that differ in discardable input (`Alike`) have the same outcomes: an invariant through `write_packet` up to the discard, which makes them the same; uses of the port keep what has not arrived yet (`byHand_future`) |
| C99 | `Client.ping`, `Client.read`, `Client.readBytes` with the broadcast ID, `LateCall` | the step lemma of C95 (`c95_call`) for the call and those after it; `Between.paused` of C96 for the pause |
| C100 | all instruction methods, `Device.read` and the like, `SyncIter`, `BulkIter`, `Client.scanNext`, `Client.scanDrop`, `Bus.writePacket` | a cost (number of `write_all`, time beside them) for each primitive, added up along `>>=`; for iterators the time of the responses not yet awaited as a potential that never increases; induction over the program; the scan without limit from `c42_scan_delivered` |
| C101 | `Bus.readPacketDeadline`, `Bus.writePacket`, all instruction methods, `SyncIter`, `BulkIter`, `Client.scanNext`, `Device.readRaw` | an ideal reader on the stream of bytes, without a buffer; the real loop equals it for every buffer size while nothing is too large (`Bus.readLoop_ideal`); relational lemmas along `>>=`; induction over the calls |
| C102 | `UnitTests.*`, `BusOf.readPacketDeadline`, `stuffInplace`, `unstuffInplace` | the tests are programs and are evaluated; the helpers by C63 and C04; the loop of `static_buffer!` against the steps of C44; the port of `test_buffer_too_small` as an instance of C83's arbitrary port, by its first read |
| C103 | `Moves.readPacketDeadline` (the reader with a counter) | the counter erased gives `Bus.readPacketDeadline` (`c103_same`, by lemmas along `>>=`); the loop by induction over the fuel, against the sum in `Spec/Moves.lean` |
| C104 | `BusIn.*` (any `AsRef`/`AsMut`; the code between two borrows is that of `Model/Bus.lean`), `BufferImpl` | simulation (`BusIn.Sim`, `SameThrough`) along `>>=`, for the methods listed in `BufferMethod` and for any `LoopCode`: each piece uses one buffer only and keeps its length; for any buffer, the pieces of `write_packet` leave the first four bytes alone, then C08; the endless loop by induction over the fuel |
| C105 | `Conversion`, `decodeStatusPacketBytesAs`, `Client.readBytesAs`, `SyncIter.*As`, `BulkIter.*As` (any `T: From<&[u8]>`, any `Borrow`) | each function is that for bytes followed by the conversion (`Converts`, along `>>=`); code that uses an iterator by induction over the code; then C89 |
| C106 | `BusAll.*` (any `SerialPort` and any `AsRef`/`AsMut` at once, as the code is generic in both) | simulation (`SameThrough seeAll`) into `BusOf` (C83), for the methods listed in `AllMethod` and any `LoopCode`; for buffers that break the law, the first four bytes by C83 and the frame lemma of C104 |
| C107 | `SyncIterOf.*`, `BulkIterOf.*`, `BusOf.scanNext`, `LoopCode`, `scopeOf` (any port) | each `next` is one wait and a check (`ItemOf`, `ItemFor`); code by induction (`WaitsFor.run`), the destructors by induction over what is left; a scan by `ScanRan` and `ScanDropped`; the waits are a relation (`Visits`, `Awaited`, `StopsAt`) that does not mention the iterators; for typed values a response on which the decoding panics (`PanicsOn`) stops too |

## Disagreements between code and properties

Each has a proved refutation with a concrete witness.

* C03-C06, C23, C24: the stuffing automaton forgets a run of `FF`s after a mismatch, so `FF FF FF FD` is not
  recognised (neither when stuffing nor when unstuffing), and if recognised and unrecognised occurrences are mixed, the
  wrong ones are stuffed. A body `FF FF FF FD 00` goes out with a packet header inside (`c05_refuted`); some data
  do not survive the round trip (`c04_refuted`, `c23_refuted`, `c24_refuted_stuffing`).
* C09: `write_packet` checks that the stuffed body fits but not the CRC; it panics if one or two bytes are missing.
* C10: stuffed bodies above 65533 bytes are sent with a truncated length field; debug builds panic on those one or two bytes below
  a multiple of 65536 (and send the others).
* C18: a CRC-valid packet with length field 2 has no instruction byte, a status packet with length field 3 no error byte;
  both make the reader panic. Consequently C39 and C41.
* C21: a baud rate of zero panics with a division by zero.
* C24, C46: `clear_error` sends the kind byte of `clear_revolution_counter` (01 instead of 02).
* C25: `read_owned` returns a bulk write as a bulk read.
* C28: decoding an array from a too short slice panics, from a too long one succeeds.
* C29: `ArrayInitializer::finish` reads the array out and then drops the initializer, so every element is dropped while it
  is handed to the caller (a double drop for types with a destructor).
* C31: the packet ID of the confirmation of a write is never compared with the addressed motor.
* C34, C35: `reg_write` and `sync_write` promise one byte whatever the type, and fail for every larger type.
* C37: repeated motor IDs in `bulk_write` are documented to panic, but are sent.
* C40: dropping a `Scan` never ends on a port that keeps failing with an error other than a time-out, or with a
  read buffer below 10 bytes.
* C49: `InvalidHeaderPrefix::check` panics on fewer than four bytes instead of reporting them.
* C51: status packets with the data of C23 do not survive either.
* C52: with the default buffers the simulated motor panics on reads of 118 to 200 bytes, although its control table has
  them; also on factory reset, reboot and clear (`todo!`).
* C53: the simulated motor finds its part of a sync write by searching its ID in the raw bytes, so that it obeys data meant
  for others; its search in a bulk write steps by the data length without the 5 bytes before them (a panic, or an
  endless loop); for sync and bulk reads it waits for the answers of other motors with `Device::read`, which skips
  status packets, so that only the motor listed first ever answers.
* C54: a read of a table with the data of C23 does not return them.
* C56: `read` of the simulated port panics if more bytes wait than fit in its slice, with the mutex locked, so that later
  writers panic too.
* C67: the client allows for the bytes of the answer without those that are stuffed into it: 87 bytes of data at 9600 baud can
  take 30 ms longer than expected, so that a port with a latency of 16 ms (`c67_refuted_stuffing`) is too late. And the wait begins when
  `write_all` returns, not when the instruction is transmitted: if the operating system buffers it, a write of 40 bytes at
  9600 baud times out before the device has received it (`c67_refuted_buffered`). The device has 34 ms less the time of the stuffed
  bytes, from the return of `write_all`; with the default buffers that is at least 6.7 ms from 57600 baud on.
* C68: `remove_garbage` logs the first bytes of the read buffer instead of those of the garbage, which differ if the packet returned by
  the call before is still in front of it: the log then shows a part of that packet as garbage (`c68_refuted_garbage`).

* C76: nothing but the CRC protects the length field, and the CRC is looked for where the length says. A write of five bytes whose last
  two are the CRC of the write of the first three arrives as a write of three if one bit of the length is wrong (`c76_refuted_device`); this is
  the protocol's weakness. Reads do not have it, because the client knows how many bytes it asked for.

Further observations, true of the code and proved, but not contradicting a property as it is written:

* C18: the check for status packets without error byte counts the instruction byte as a parameter and can never report
  anything (`c18_missing_error_byte_unreported_partial`).
* C60: `{:#02X}` counts the `0x` in the width, so the byte 5 is printed as `0x5`.
* C61: a broadcast ping of the command line tool lists errors and still exits with 0; a write says `Ok` also if another
  motor answered (C31); the answer of ping and of writes is printed without the ID of the motor.
* C94: `bulk_write` with an iterator that never ends counts forever in a release build; the other calls stop at the end of the
  buffer.
* C95: nothing in a status packet says which instruction it answers, and only what has arrived is discarded when the next
  instruction is sent. A motor that needs between one and two times the time that the client waits shifts all values by one read,
  without any error but the first time-out.
* C96: one status packet too many puts a group read out of step: every later motor of the round is reported as `InvalidPacketId`,
  and a loop that polls without a pause stays out of step for ever, since the answer that is left over always comes after the next
  instruction was sent (`c96_pace`). A pause until it has arrived ends it (`c96_pause`).
* C97: with an adapter that echoes, no call for one motor can succeed and no group read returns a value: the instruction is taken
  for the answer (`InvalidInstruction`). `scan` and devices cope with it. The crate's client does not skip packets that are not
  status packets; its device does skip status packets.
* C98: using the port by hand between instructions is harmless for the next instruction, as documented. Bytes read by hand while the
  read buffer holds unread bytes leave a hole in what `Device::read` and the iterators see (`c98_lost`).
* C99: `ping(BROADCAST)` with several motors is an error and also spoils the calls after it: a read of three bytes of the next motor,
  made without a pause, returns the answer to the ping as a value (`c99_wrong_value`).
* C100: a scan has no time limit and no limit on the number of answers: every packet starts the time for 253 answers again, and the IDs
  are not compared, so that one device that repeats its answer keeps `scan` (and the `drop` of it) busy (`c100_no_limit`).
* C101: where `discard_input_buffer` is a no-op, the size of the read buffer decides whether an old packet is taken as the answer to the
  next instruction: what is in the read buffer is dropped, what is still in the port is not (`c101_noop`). If discarding fails, the
  read buffer is already empty, so that which packet is read next depends on its size too (`c101_failed_discard`).
* C102: `DummySerial` in `test_buffer_too_small` says that it read 50 bytes whatever the size of the slice. The test passes with read
  buffers of 50 to 10006 bytes only; with 25 to 49 bytes the bus panics (see C83).
* C103: `consume_read_bytes(0)` moves the whole pending data onto itself, in every iteration of the read loop. A packet of `L` bytes that
  comes one byte at a time costs `L * (L + 1) / 2` moves (`c103_bytewise`), 2 147 909 653 for the largest.
* C104: the header prefix is written to the write buffer once, when the bus is made. With a buffer type that does not keep it, every call
  reports success and nothing that is sent is a packet (`c104_no_header`). The documentation asks for `AsRef<[u8]> + AsMut<[u8]>` only.
* C105: a conversion by `From` that panics can be caught; the same in `Data::decode` aborts the process, because the destructor of
  `SyncRead` decodes the remaining responses and that of `SyncReadBytes` does not (`c105_decode_aborts`).
