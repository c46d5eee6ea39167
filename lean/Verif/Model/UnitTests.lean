import Verif.Model.AnyPort
import Verif.Model.StaticBuffer

/-! # The unit tests in `src`

The assertions of `assert2` are `assert!`s here: what they print is left out. `unwrap` of an error, `unwrap_err` of a value and
`unimplemented!` are panics. The tests of `src/instructions/bulk_write.rs:92-173` are left out: they are about what compiles. -/

namespace Dxl
namespace UnitTests

/-- `assert!(c)`, for example in `src/bus/bytestuff.rs:114`. -/
def check {ε : Type} (c : Bool) : Outcome ε Unit := if c then .ok () else .panic

/-! ## `src/bus/bytestuff.rs` -/

/-- `data.resize(size, 0)`, for example in `src/bus/bytestuff.rs:95`. -/
def resize (size : Nat) (data : List Byte) : List Byte := data.take size ++ List.replicate (size - data.length) 0#8

/-- `unstuff`, `src/bus/bytestuff.rs:93-97`. -/
def unstuff {ε : Type} (data : List Byte) : Outcome ε (List Byte) :=
  let (data, newSize) := unstuffInplace data
  newSize.bind fun newSize => .ok (resize newSize data)

/-- `maximum_stuffed_len`, `src/bus/bytestuff.rs:100-102`. -/
def maximumStuffedLen (unstuffedLength : Nat) : Nat := unstuffedLength / 3 * 4 + unstuffedLength % 3

/-- `stuff`, `src/bus/bytestuff.rs:104-110`. -/
def stuff (debug : Bool) (data : List Byte) : Outcome BufferTooSmall (List Byte) :=
  let used := data.length
  let data := resize (maximumStuffedLen used) data
  let (data, newSize) := stuffInplace debug used data
  newSize.bind fun newSize => .ok (resize newSize data)

/-- `assert!(unstuff(data) == expected)`, `src/bus/bytestuff.rs:114`. -/
def unstuffs (data expected : List Byte) : Outcome Empty Unit := do
  let result ← unstuff data
  check (result == expected)

/-- `assert!(stuff(data).unwrap() == expected)`, `src/bus/bytestuff.rs:126`. -/
def stuffs (debug : Bool) (data expected : List Byte) : Outcome Empty Unit :=
  match stuff debug data with
  | .ok result => check (result == expected)
  | .hang => .hang
  | _ => .panic

/-- `test_unstuff`, `src/bus/bytestuff.rs:113-122`. -/
def testUnstuff : Outcome Empty Unit := do
  unstuffs [0#8, 0#8, 0#8] [0#8, 0#8, 0#8]
  unstuffs [0xFF#8, 0xFF#8, 0xFD#8, 0x00#8] [0xFF#8, 0xFF#8, 0xFD#8, 0x00#8]
  unstuffs [0xFF#8, 0xFF#8, 0xFD#8, 0xFD#8] [0xFF#8, 0xFF#8, 0xFD#8]
  unstuffs [0xFF#8, 0xFF#8, 0x01#8, 0xFD#8, 0xFD#8] [0xFF#8, 0xFF#8, 0x01#8, 0xFD#8, 0xFD#8]
  unstuffs [0x00#8, 0xFF#8, 0xFF#8, 0xFD#8, 0xFD#8, 0x01#8, 0xFF#8, 0xFF#8, 0xFD#8, 0xFD#8, 0x02#8, 0x03#8]
    [0x00#8, 0xFF#8, 0xFF#8, 0xFD#8, 0x01#8, 0xFF#8, 0xFF#8, 0xFD#8, 0x02#8, 0x03#8]

/-- `test_stuff`, `src/bus/bytestuff.rs:125-136`. -/
def testStuff (debug : Bool) : Outcome Empty Unit := do
  stuffs debug [0#8, 0#8, 0#8] [0#8, 0#8, 0#8]
  stuffs debug [0xFF#8, 0xFF#8, 0xFD#8, 0x00#8] [0xFF#8, 0xFF#8, 0xFD#8, 0xFD#8, 0x00#8]
  stuffs debug [0xFF#8, 0xFF#8, 0xFD#8, 0xFD#8] [0xFF#8, 0xFF#8, 0xFD#8, 0xFD#8, 0xFD#8]
  stuffs debug [0xFF#8, 0xFF#8, 0x01#8, 0xFD#8] [0xFF#8, 0xFF#8, 0x01#8, 0xFD#8]
  stuffs debug [0x00#8, 0xFF#8, 0xFF#8, 0xFD#8, 0x01#8, 0xFF#8, 0xFF#8, 0xFD#8, 0x02#8, 0x03#8]
    [0x00#8, 0xFF#8, 0xFF#8, 0xFD#8, 0xFD#8, 0x01#8, 0xFF#8, 0xFF#8, 0xFD#8, 0xFD#8, 0x02#8, 0x03#8]
  stuffs debug [0xFF#8, 0xFF#8, 0xFD#8, 0xFF#8, 0xFF#8, 0xFD#8] [0xFF#8, 0xFF#8, 0xFD#8, 0xFD#8, 0xFF#8, 0xFF#8, 0xFD#8, 0xFD#8]
  stuffs debug [0xFF#8, 0xFF#8, 0xFD#8, 0x00#8, 0xFF#8, 0xFF#8, 0xFD#8]
    [0xFF#8, 0xFF#8, 0xFD#8, 0xFD#8, 0x00#8, 0xFF#8, 0xFF#8, 0xFD#8, 0xFD#8]

/-! ## `src/checksum.rs`, `src/bus/endian.rs`, `src/bus/packet.rs` -/

/-- `test_calculate_checksum`, `src/checksum.rs:60-63`. -/
def testCalculateChecksum : Outcome Empty Unit := do
  let checksum ← calculateChecksum 0#16 [0xFF#8, 0xFF#8, 0xFD#8, 0x00#8, 0x01#8, 0x03#8, 0x00#8, 0x01#8]
  check (checksum == 0x4E19#16)

/-- `test_write_u16_le`, `src/bus/endian.rs:36-43`. -/
def testWriteU16Le : SO (List Byte) Empty Unit := do
  onSliceFrom 0 (writeU16Le 0x0000#16)
  SO.assert ((← SO.get) == [0x00#8, 0x00#8, 0xFF#8, 0xFF#8])
  onSliceFrom 2 (writeU16Le 0x1234#16)
  SO.assert ((← SO.get) == [0x00#8, 0x00#8, 0x34#8, 0x12#8])

/-- `test_read_u16_le`, `src/bus/endian.rs:46-49`. -/
def testReadU16Le : Outcome Empty Unit := do
  check ((← readU16Le [0x00#8, 0x00#8, 0x34#8, 0x12#8]) == 0#16)
  check ((← readU16Le [0x34#8, 0x12#8]) == 0x1234#16)

/-- `status_packet`, `src/bus/packet.rs:131-142`, with `StatusPacket::instruction_id`, `src/bus/packet.rs:78-80`. -/
def statusPacket : Outcome Empty Unit := do
  let packet : Packet := ⟨[0xFF#8, 0xFF#8, 0xFD#8, 0x00#8, 0x23#8, 0x04#8, 0x00#8, InstructionId.status, 0x89#8]⟩
  check ((← packet.packetId) == 0x23#8)
  check ((← packet.instructionId) == InstructionId.status)
  match ← packet.asStatus with
  | some status =>
    check ((← status.packetId) == 0x23#8)
    check ((← status.packet.instructionId) == InstructionId.status)
    check ((← status.error) == 0x89#8)
    check ((← status.parameters) == [])
  | none => .panic

/-- `instruction_packet`, `src/bus/packet.rs:145-155`. -/
def instructionPacket : Outcome Empty Unit := do
  let packet : Packet := ⟨[0xFF#8, 0xFF#8, 0xFD#8, 0x00#8, 0x23#8, 0x03#8, 0x00#8, InstructionId.write]⟩
  check ((← packet.packetId) == 0x23#8)
  check ((← packet.instructionId) == InstructionId.write)
  match ← packet.asInstruction with
  | some instruction =>
    check ((← instruction.packetId) == 0x23#8)
    check ((← instruction.instructionId) == InstructionId.write)
    check ((← instruction.parameters) == [])
  | none => .panic

/-! ## `src/bus/mod.rs` -/

/-- `assert!(message_transfer_time(size, rate) == time)`, for example in `src/bus/mod.rs:360`; the time in nanoseconds. -/
def takes (size rate time : Nat) : Outcome Empty Unit := do check ((← messageTransferTime size rate) == time)

/-- `test_message_transfer_time`, `src/bus/mod.rs:358-403`. -/
def testMessageTransferTime : Outcome Empty Unit := do
  let secs := 1000000000
  let millis := 1000000
  let micros := 1000
  takes 100 1000 (1 * secs)
  takes 1000 10000 (1 * secs)
  takes 1000 1000000 (10 * millis)
  takes 1000 10000000 (1 * millis)
  takes 1000 100000000 (100 * micros)
  takes 1000 1000000000 (10 * micros)
  takes 1000 2000000000 (5 * micros)
  takes 1000 4000000000 2500
  takes 10000 4000000000 (25 * micros)
  takes 1000000 4000000000 (2500 * micros)
  takes 10000000 4000000000 (25 * millis)
  takes 100000000 4000000000 (250 * millis)
  takes 1000000000 4000000000 (2500 * millis)
  takes 2000000000 4000000000 (5 * secs)
  takes 4000000000 4000000000 (10 * secs)
  takes 4000000000 2000000000 (20 * secs)
  takes 4000000000 1000000000 (40 * secs)
  takes 4000000000 100000000 (400 * secs)
  takes 4000000000 10000000 (4000 * secs)
  takes 4000000000 1000000 (40000 * secs)
  takes 4000000000 100000 (400000 * secs)
  takes 4000000000 10000 (4000000 * secs)
  takes 4000000000 1000 (40000000 * secs)
  takes 4000000000 100 (400000000 * secs)
  takes 4000000000 10 (4000000000 * secs)
  takes 4000000000 1 (40000000000 * secs)
  takes 43 1 (430 * secs)
  takes 43 10 (43 * secs)
  takes 43 2 (215 * secs)
  takes 43 20 (21500 * millis)
  takes 43 200 (2150 * millis)
  takes 43 2000000 (215 * micros)
  takes 43 2000000000 215
  takes 43 4000000000 108
  takes 3 4000000000 8
  takes 5 4000000000 13
  let lots := 4294967295 - 1
  takes lots 1 (lots * 10 * secs)
  takes lots lots (10 * secs)
  takes (lots / 2) lots (5 * secs)
  takes lots (lots / 2) (20 * secs)

/-- `test_find_garbage_end`, `src/bus/mod.rs:406-421`. -/
def testFindGarbageEnd : Outcome Empty Unit := do
  check (Bus.findHeader [0xFF#8] == 0)
  check (Bus.findHeader [0xFF#8, 0xFF#8] == 0)
  check (Bus.findHeader [0xFF#8, 0xFF#8, 0xFD#8] == 0)
  check (Bus.findHeader [0xFF#8, 0xFF#8, 0xFD#8, 0x00#8] == 0)
  check (Bus.findHeader [0xFF#8, 0xFF#8, 0xFD#8, 0x00#8, 9#8] == 0)
  check (Bus.findHeader [0#8, 1#8, 2#8, 3#8, 4#8, 0xFF#8] == 5)
  check (Bus.findHeader [0#8, 1#8, 2#8, 3#8, 4#8, 0xFF#8, 0xFF#8] == 5)
  check (Bus.findHeader [0#8, 1#8, 2#8, 3#8, 4#8, 0xFF#8, 0xFF#8, 0xFD#8] == 5)
  check (Bus.findHeader [0#8, 1#8, 2#8, 3#8, 4#8, 0xFF#8, 0xFF#8, 0xFD#8, 0x00#8] == 5)
  check (Bus.findHeader [0#8, 1#8, 2#8, 3#8, 4#8, 0xFF#8, 0xFF#8, 0xFD#8, 0x00#8, 9#8] == 5)
  check (Bus.findHeader [0xFF#8, 1#8] == 2)
  check (Bus.findHeader [0#8, 1#8, 2#8, 3#8, 4#8, 0xFF#8, 6#8] == 7)

/-- One evaluation of `static_buffer!(N)` from start to end, `src/bus/mod.rs:60-74`; the state is `USED`. A buffer that is handed out
is all zeros because no one else has had it (`Model/StaticBuffer.lean` has the buffer, and more threads). -/
def staticBuffer {ε : Type} (N : Nat) : SO Bool ε (List Byte) := fun used =>
  (true, if used then .panic else .ok (List.replicate N 0#8))

/-- Half of `test_static_buffer`, `src/bus/mod.rs:426-430` and again in lines 432-436. -/
def zeroBuffer (N : Nat) : SO Bool Empty Unit := do
  let buffer ← staticBuffer N
  SO.assert (buffer.length == N)
  SO.assert ((List.range buffer.length).all fun i => buffer[i]? == some 0#8)

/-- `test_static_buffer`, `src/bus/mod.rs:425-437`: each macro call has statics of its own. -/
def testStaticBuffer : Outcome Empty Unit := do
  (zeroBuffer 128 false).2
  (zeroBuffer 64 false).2

/-- `for _ in 0..n` around one `static_buffer!(N)`, `src/bus/mod.rs:442-445`. -/
def inLoop (N : Nat) : Nat → SO Bool Empty Unit
  | 0 => pure ()
  | n + 1 => do
    let buffer ← staticBuffer N
    SO.assert (buffer.length == N)
    inLoop N n

/-- `test_static_buffer_panics_when_evaluated_in_loop`, `src/bus/mod.rs:441-446`, and `…_through_function`, lines 450-459: the
function has the only `static_buffer!` in it. -/
def testStaticBufferInLoop : Outcome Empty Unit := (inLoop 128 2 false).2

/-- `DummySerial::read` on the slice it gets, `src/bus/mod.rs:486-505`. -/
def dummyRead : SO (List Byte) IoErr Nat := do
  onSlice 0 4 (copyFromSlice headerPrefix)
  setIdx 4 0#8
  onSliceFrom 5 (writeU16Le 10000#16)
  onSlice 8 12 (copyFromSlice headerPrefix)
  setIdx 12 0#8
  onSliceFrom 13 (writeU16Le 10#16)
  let checksumIndex := headerSize + 10 - 2
  let summed ← SO.lift (slice (← SO.get) 8 (8 + checksumIndex))
  let checksum ← SO.lift (calculateChecksum 0#16 summed)
  onSliceFrom (8 + checksumIndex) (writeU16Le checksum)
  pure 50

theorem setIdx_length {ε : Type} (i : Nat) (v : Byte) (l : List Byte) : (setIdx (ε := ε) i v l).1.length = l.length := by
  unfold setIdx
  split <;> simp

theorem onSlice_length {ε α : Type} (a b : Nat) {m : SO (List Byte) ε α} (h : ∀ l, (m l).1.length = l.length) (l : List Byte) :
    (onSlice a b m l).1.length = l.length := by
  unfold onSlice
  split
  · simp only [List.length_append, h, List.length_drop, List.length_take]; omega
  · rfl

theorem bind_length {ε α β : Type} {m : SO (List Byte) ε α} {f : α → SO (List Byte) ε β} (h : ∀ l, (m l).1.length = l.length)
    (hf : ∀ a l, (f a l).1.length = l.length) (l : List Byte) : ((m >>= f) l).1.length = l.length := by
  have hl := h l
  simp only [bind, SO.bind]
  rcases e : m l with ⟨l', o⟩
  rw [e] at hl
  cases o with
  | ok a => exact (hf a l').trans hl
  | err e => exact hl
  | panic => exact hl
  | hang => exact hl

theorem writeU16_length {ε : Type} (v : U16) (l : List Byte) : (writeU16Le (ε := ε) v l).1.length = l.length :=
  bind_length (setIdx_length _ _) (fun _ => setIdx_length _ _) l

theorem copy_length {ε : Type} (src l : List Byte) : (copyFromSlice (ε := ε) src l).1.length = l.length := by
  unfold copyFromSlice
  split <;> simp_all

theorem dummyRead_length (l : List Byte) : (dummyRead l).1.length = l.length := by
  unfold dummyRead
  have hu : ∀ a v (l : List Byte), (onSliceFrom a (writeU16Le (ε := IoErr) v) l).1.length = l.length :=
    fun a v l => onSlice_length a l.length (writeU16_length v) l
  exact bind_length (onSlice_length _ _ (copy_length _)) (fun _ => bind_length (setIdx_length _ _) fun _ =>
    bind_length (hu _ _) fun _ => bind_length (onSlice_length _ _ (copy_length _)) fun _ =>
    bind_length (setIdx_length _ _) fun _ => bind_length (hu _ _) fun _ =>
    bind_length (fun _ => rfl) fun _ => bind_length (fun _ => rfl) fun _ => bind_length (fun _ => rfl) fun _ =>
    bind_length (hu _ _) fun _ _ => rfl) l

/-- `DummySerial`, `src/bus/mod.rs:468-518`. Its state is the time (of the system clock). `is_timeout_error` panics, which a
function of this type can not; nothing calls it. -/
def DummySerial : PortImpl where
  Port := Nat
  Error := IoErr
  Instant := Nat
  baudRate := pure 115200
  setBaudRate _ := SO.panic
  discardInputBuffer := SO.panic
  read _ slice now := (now, dummyRead slice)
  read_length _ slice _ := dummyRead_length slice
  writeAll _ := SO.panic
  makeDeadline timeout := fun now => (now, .ok (now + timeout))
  isTimeoutError _ := false

/-- `test_buffer_too_small`, `src/bus/mod.rs:462-531`, with any buffers: the crate uses two of 128 bytes. `fuel` limits the number of
iterations of each read. -/
def bufferTooSmall (w : Nat) (debug : Bool) (unused : Port) (readBuffer writeBuffer : List Byte) (now fuel : Nat) :
    Outcome Empty Unit :=
  match BusOf.withBuffers (P := DummySerial) debug unused readBuffer writeBuffer now with
  | (_, .ok bus) =>
    match BusOf.readPacketDeadline w (now + 1000000000) fuel bus with
    | (bus, .err (.bufferFull _)) =>
      match BusOf.readPacketDeadline w (now + 1000000000) fuel bus with
      | (_, .ok _) => .ok ()
      | (_, .hang) => .hang
      | _ => .panic
    | (_, .hang) => .hang
    | _ => .panic
  | (_, .hang) => .hang
  | _ => .panic

/-- `test_buffer_too_small`, `src/bus/mod.rs:462-531`, with the buffers of lines 463-464. -/
def testBufferTooSmall (w : Nat) (debug : Bool) (unused : Port) (now fuel : Nat) : Outcome Empty Unit :=
  match (staticBuffer (ε := Empty) 128 false).2, (staticBuffer (ε := Empty) 128 false).2 with
  | .ok readBuffer, .ok writeBuffer => bufferTooSmall w debug unused readBuffer writeBuffer now fuel
  | _, _ => .panic

end UnitTests
end Dxl
