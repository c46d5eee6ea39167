import Verif.Model.Port
import Verif.Model.Packet
import Verif.Model.Endian
import Verif.Model.Checksum
import Verif.Model.ByteStuff

/-! # `src/bus/mod.rs` -/

namespace Dxl

/-- `Bus`, `src/bus/mod.rs:81-103`. The buffers are lists that keep their length.
`debug` is not a field of the Rust struct: it records whether the crate is built with debug assertions and
overflow checks. -/
structure Bus where
  serialPort : Port
  baudRate : Nat
  readBuffer : List Byte
  readLen : Nat
  usedBytes : Nat
  writeBuffer : List Byte
  debug : Bool
  deriving Repr, DecidableEq

/-- A parameter encoder, `FnOnce(&mut [u8]) -> Result<(), BufferTooSmallError>`, `src/bus/mod.rs:191`. It can overwrite the slice
it is given but, as with any Rust slice, not change its length. -/
structure Encoder where
  run : SO (List Byte) BufferTooSmall Unit
  length_eq : ∀ s, (run s).1.length = s.length

namespace Bus

/-- Run code on the serial port, `src/bus/mod.rs:87`. -/
def onPort {ε α : Type} (m : SO Port ε α) : SO Bus ε α :=
  SO.zoom Bus.serialPort (fun p b => { b with serialPort := p }) m

/-- Run code on the write buffer, `src/bus/mod.rs:102`. -/
def onWriteBuffer {ε α : Type} (m : SO (List Byte) ε α) : SO Bus ε α :=
  SO.zoom Bus.writeBuffer (fun w b => { b with writeBuffer := w }) m

/-- Run code on the read buffer, `src/bus/mod.rs:93`. -/
def onReadBuffer {ε α : Type} (m : SO (List Byte) ε α) : SO Bus ε α :=
  SO.zoom Bus.readBuffer (fun r b => { b with readBuffer := r }) m

/-- `debug_assert!(c)`, `src/bus/mod.rs:310, 314`. -/
def debugAssert {ε : Type} (c : Bool) : SO Bus ε Unit := do
  let b ← SO.get
  SO.assert (!b.debug || c)

/-- `Bus::with_buffers_and_baud_rate`, `src/bus/mod.rs:120-136`. -/
def withBuffersAndBaudRate {ε : Type} (debug : Bool) (port : Port) (readBuffer writeBuffer : List Byte)
    (baudRate : Nat) : Outcome ε Bus :=
  if writeBuffer.length ≥ headerSize + 3 then
    .ok { serialPort := port, baudRate := baudRate, readBuffer := readBuffer, readLen := 0, usedBytes := 0,
          writeBuffer := headerPrefix ++ writeBuffer.drop 4, debug := debug }
  else .panic

/-- `Bus::with_buffers`, `src/bus/mod.rs:114-117`. -/
def withBuffers (debug : Bool) (port : Port) (readBuffer writeBuffer : List Byte) : Outcome IoErr Bus := do
  let baudRate ← port.baudRate
  withBuffersAndBaudRate debug port readBuffer writeBuffer baudRate

/-- `Bus::set_baud_rate`, `src/bus/mod.rs:139-143`. -/
def setBaudRate (rate : Nat) : SO Bus IoErr Unit := do
  onPort (Port.setBaudRate rate)
  SO.modify fun b => { b with baudRate := rate }

/-- `stuffed_body_len as u16 + 2`, `src/bus/mod.rs:210`: the cast truncates; the addition panics on overflow
with overflow checks and wraps without. -/
def lengthField {ε : Type} (debug : Bool) (stuffedBodyLen : Nat) : Outcome ε U16 :=
  let l : U16 := BitVec.ofNat 16 stuffedBodyLen
  if debug ∧ l.toNat + 2 ≥ 2 ^ 16 then .panic else .ok (l + 2#16)

/-- `Bus::write_packet`, `src/bus/mod.rs:183-229`. -/
def writePacket (packetId instructionId : Byte) (parameterCount : Nat) (encode : Encoder) :
    SO Bus WriteError Unit := do
  let b ← SO.get
  let bufferLen := b.writeBuffer.length
  -- Check if the buffer can hold the unstuffed message.
  SO.lift ((BufferTooSmall.check (InstructionPacket.messageLen parameterCount) bufferLen).mapErr .bufferTooSmall)
  -- Add the header, with a placeholder for the length field.
  onWriteBuffer (setIdx 4 packetId)
  onWriteBuffer (setIdx 5 0#8)
  onWriteBuffer (setIdx 6 0#8)
  onWriteBuffer (setIdx 7 instructionId)
  onWriteBuffer ((onSlice 8 (8 + parameterCount) encode.run).mapErr .bufferTooSmall)
  -- Perform bitstuffing on the body.
  let stuffedBodyLen ← onWriteBuffer
    ((onSliceFrom headerSize (stuffInplace b.debug (1 + parameterCount))).mapErr .bufferTooSmall)
  let len ← SO.lift (lengthField b.debug stuffedBodyLen)
  onWriteBuffer (onSliceFrom 5 (writeU16Le len))
  -- Add checksum.
  let checksumIndex := headerSize + stuffedBodyLen
  let buffer := (← SO.get).writeBuffer
  let summed ← SO.lift (slice buffer 0 checksumIndex)
  let checksum ← SO.lift (calculateChecksum 0#16 summed)
  onWriteBuffer (onSliceFrom checksumIndex (writeU16Le checksum))
  -- Throw away old data in the read buffer and the kernel read buffer.
  SO.modify fun b => { b with readLen := 0, usedBytes := 0 }
  onPort (Port.discardInputBuffer.mapErr .discardBuffer)
  -- Send message.
  let buffer := (← SO.get).writeBuffer
  let stuffedMessage ← SO.lift (slice buffer 0 (checksumIndex + 2))
  onPort ((Port.writeAll stuffedMessage).mapErr .write)

/-- `Bus::write_instruction`, `src/bus/mod.rs:169-180`. -/
def writeInstruction (packetId instructionId : Byte) (parameterCount : Nat) (encode : Encoder) :
    SO Bus WriteError Unit :=
  writePacket packetId instructionId parameterCount encode

/-- The closure in `Bus::write_status`, `src/bus/mod.rs:161-164`, as a plain function. -/
def statusRun (error : Byte) (encode : Encoder) : SO (List Byte) BufferTooSmall Unit := do
  setIdx 0 error
  onSliceFrom 1 encode.run

theorem statusRun_length (error : Byte) (encode : Encoder) (s : List Byte) :
    (statusRun error encode s).1.length = s.length := by
  cases s with
  | nil => rfl
  | cons a t =>
    have h := encode.length_eq t
    simp [statusRun, bind, SO.bind, setIdx, onSliceFrom, onSlice, h]

/-- The closure in `Bus::write_status`, `src/bus/mod.rs:161-164`. -/
def statusEncoder (error : Byte) (encode : Encoder) : Encoder where
  run := statusRun error encode
  length_eq := statusRun_length error encode

/-- `Bus::write_status`, `src/bus/mod.rs:146-166`. -/
def writeStatus (packetId error : Byte) (parameterCount : Nat) (encode : Encoder) : SO Bus WriteError Unit := do
  let b ← SO.get
  SO.lift ((BufferTooSmall.check (StatusPacket.messageLen parameterCount) b.writeBuffer.length).mapErr
    .bufferTooSmall)
  writePacket packetId InstructionId.status (parameterCount + 1) (statusEncoder error encode)

/-- `find_header`, `src/bus/mod.rs:329-338`: the loop over `i` is a recursion over the suffix `buffer[i..]`. -/
def findHeader : List Byte → Nat
  | [] => 0
  | b :: rest =>
    let possiblePrefix := min headerPrefix.length (rest.length + 1)
    if (headerPrefix.take possiblePrefix).isPrefixOf (b :: rest) then 0
    else findHeader rest + 1

/-- `Bus::consume_read_bytes`, `src/bus/mod.rs:313-321`. `copy_within(len..read_len, 0)` panics if the range
is not within the buffer. -/
def consumeReadBytes {ε : Type} (len : Nat) : SO Bus ε Unit := do
  let b ← SO.get
  debugAssert (decide (len ≤ b.readLen))
  if len ≤ b.readLen ∧ b.readLen ≤ b.readBuffer.length then
    SO.modify fun b =>
      { b with
        readBuffer := (b.readBuffer.take b.readLen).drop len ++ b.readBuffer.drop (b.readLen - len)
        usedBytes := b.usedBytes - len
        readLen := b.readLen - len }
  else SO.panic

/-- `Bus::remove_garbage`, `src/bus/mod.rs:302-311`. The log messages are left out here; they are in `Model/Log.lean`. -/
def removeGarbage {ε : Type} : SO Bus ε Unit := do
  let b ← SO.get
  let valid ← SO.lift (slice b.readBuffer 0 b.readLen)
  let pending ← SO.lift (sliceFrom valid b.usedBytes)
  let garbageLen := findHeader pending
  consumeReadBytes (b.usedBytes + garbageLen)
  let b ← SO.get
  debugAssert (decide (b.usedBytes = 0))

/-- The part of the loop in `read_packet_deadline` that decides whether a whole message is buffered,
`src/bus/mod.rs:241-253`: `some n` if the loop ends with a message of `n` bytes. -/
def messageReady : SO Bus ReadError (Option Nat) := do
  let b ← SO.get
  if b.readLen > headerSize then
    let readBuffer ← SO.lift (slice b.readBuffer 0 b.readLen)
    let lenBytes ← SO.lift (sliceFrom readBuffer 5)
    let bodyLen ← SO.lift (readU16Le lenBytes)
    match BufferTooSmall.check (headerSize + bodyLen.toNat) b.readBuffer.length with
    | .err e =>
      consumeReadBytes headerSize
      SO.throw (.bufferFull e)
    | _ =>
      if b.readLen ≥ headerSize + bodyLen.toNat then pure (some (headerSize + bodyLen.toNat))
      else pure none
  else pure none

/-- Reading more data into the buffer, `src/bus/mod.rs:256-261`. -/
def readMore (deadline : Nat) : SO Bus ReadError Unit := do
  let b ← SO.get
  if b.readLen ≤ b.readBuffer.length then
    let newData ← onPort ((Port.read (b.readBuffer.length - b.readLen) deadline).mapErr .io)
    SO.modify fun b =>
      { b with
        readBuffer := b.readBuffer.take b.readLen ++ newData ++ b.readBuffer.drop (b.readLen + newData.length)
        readLen := b.readLen + newData.length }
  else SO.panic

/-- The loop in `Bus::read_packet_deadline`, `src/bus/mod.rs:236-262`. `fuel` bounds the number of iterations;
running out of it is `hang`. -/
def readLoop (deadline : Nat) : (fuel : Nat) → SO Bus ReadError Nat
  | 0 => SO.hang
  | fuel + 1 => do
    removeGarbage
    match ← messageReady with
    | some n => pure n
    | none =>
      readMore deadline
      readLoop deadline fuel

/-- The rest of `Bus::read_packet_deadline` once a message is buffered, `src/bus/mod.rs:264-298`. -/
def finishPacket (stuffedMessageLen : Nat) : SO Bus ReadError Packet := do
  let b ← SO.get
  -- `stuffed_message_len - 2` can not underflow: it is at least 7
  let parametersEnd := stuffedMessageLen - 2
  let crcBytes ← SO.lift (sliceFrom b.readBuffer parametersEnd)
  let checksumMessage ← SO.lift (readU16Le crcBytes)
  let summed ← SO.lift (slice b.readBuffer 0 parametersEnd)
  let checksumComputed ← SO.lift (calculateChecksum 0#16 summed)
  if checksumMessage ≠ checksumComputed then
    consumeReadBytes stuffedMessageLen
    SO.throw (.invalidMessage (.checksum checksumMessage checksumComputed))
  else
    -- Mark the whole message as used.
    SO.modify fun b => { b with usedBytes := b.usedBytes + stuffedMessageLen }
    let parameterCount ← onReadBuffer (onSlice headerSize parametersEnd unstuffInplace)
    let b ← SO.get
    let data ← SO.lift (slice b.readBuffer 0 (headerSize + parameterCount))
    let packet : Packet := ⟨data⟩
    let instruction ← SO.lift packet.instructionId
    if instruction = InstructionId.status ∧ parameterCount < 1 then
      SO.throw (.invalidMessage (.parameterCount 0 (.min 1)))
    else pure packet

/-- `Bus::read_packet_deadline`, `src/bus/mod.rs:232-299`. The fuel is one more than the size of the script of the
serial port; theorem `c19_terminates` shows it always suffices. -/
def readPacketDeadline (deadline : Nat) : SO Bus ReadError Packet := do
  let b ← SO.get
  SO.lift ((BufferTooSmall.check (headerSize + 3) b.readBuffer.length).mapErr .bufferFull)
  let stuffedMessageLen ← readLoop deadline (b.serialPort.measure + 1)
  finishPacket stuffedMessageLen

end Bus

/-- Checked `u64` result, `src/bus/mod.rs:345, 348`. -/
def checkU64 {ε : Type} (n : Nat) : Outcome ε Nat := if n < 2 ^ 64 then .ok n else .panic

/-- `message_transfer_time`, `src/bus/mod.rs:343-350`, in nanoseconds. `u64` products are checked
for overflow (as in a debug build), division by zero panics, `nanos as u32` truncates. -/
def messageTransferTime {ε : Type} (messageSize baudRate : Nat) : Outcome ε Nat := do
  let bits ← checkU64 (messageSize * 10)
  if baudRate = 0 then .panic
  else
    let secs := bits / baudRate
    let subsecBits := bits % baudRate
    let product ← checkU64 (subsecBits * 1000000000)
    let nanos := (product + baudRate - 1) / baudRate
    pure (secs * 1000000000 + nanos % 2 ^ 32)

end Dxl
