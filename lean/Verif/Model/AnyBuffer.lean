import Verif.Model.Client

/-! # Any buffer type

The rest of the model has buffers that are lists of bytes: what is lent by `as_mut` and `as_ref` is the list. The buffers are of a
type of the caller, who can bring any safe implementation of `AsRef<[u8]>` and `AsMut<[u8]>`: one that lends another slice each time,
of another length, forgets what was written to it, or panics. Here the functions that use the buffers are repeated for an arbitrary
buffer type, borrowing it as often as the code does. The code between two borrows is that of `Model/Bus.lean`, run on what was lent. -/

namespace Dxl

/-- A type with `AsRef<[u8]> + AsMut<[u8]>`, `src/bus/mod.rs:84`: any type and any functions. `none` is a panic. `as_ref` may change
the state too (interior mutability). -/
structure BufferImpl where
  /-- The type that implements the traits. -/
  Buf : Type
  /-- The bytes `as_mut` lends. -/
  asMut : Buf → Buf × Option (List Byte)
  /-- What becomes of a buffer whose lent bytes were overwritten with these. -/
  release : List Byte → Buf → Buf
  /-- The bytes `as_ref` lends. -/
  asRef : Buf → Buf × Option (List Byte)

/-- `Bus`, `src/bus/mod.rs:81-103`, with any buffer type. The other fields are those of `rest`; the lists in there only hold the
bytes that are lent at the time. -/
structure BusIn (B : BufferImpl) where
  readBuffer : B.Buf
  writeBuffer : B.Buf
  rest : Bus

/-- The position of the garbage, `src/bus/mod.rs:303-304`, in the bytes lent for it. -/
def Bus.findGarbage {ε : Type} : SO Bus ε Nat := do
  let b ← SO.get
  let valid ← SO.lift (slice b.readBuffer 0 b.readLen)
  let pending ← SO.lift (sliceFrom valid b.usedBytes)
  pure (findHeader pending)

/-- The length field, `src/bus/mod.rs:242-243`, in the bytes lent for it. -/
def Bus.bodyLen {ε : Type} : SO Bus ε Nat := do
  let b ← SO.get
  let readBuffer ← SO.lift (slice b.readBuffer 0 b.readLen)
  let lenBytes ← SO.lift (sliceFrom readBuffer 5)
  let bodyLen ← SO.lift (readU16Le lenBytes)
  pure bodyLen.toNat

/-- `self.read_buffer.as_mut().len()`, `src/bus/mod.rs:234, 246`. -/
def Bus.readRoom {ε : Type} : SO Bus ε Nat := do
  let b ← SO.get
  pure b.readBuffer.length

/-- Checking and unstuffing, `src/bus/mod.rs:264-286`, in the bytes lent for it: the two checksums if they differ, otherwise
`parameter_count`. -/
def Bus.checkPacket {ε : Type} (stuffedMessageLen : Nat) : SO Bus ε (Except (U16 × U16) Nat) := do
  let b ← SO.get
  let parametersEnd := stuffedMessageLen - 2
  let crcBytes ← SO.lift (sliceFrom b.readBuffer parametersEnd)
  let checksumMessage ← SO.lift (readU16Le crcBytes)
  let summed ← SO.lift (slice b.readBuffer 0 parametersEnd)
  let checksumComputed ← SO.lift (calculateChecksum 0#16 summed)
  if checksumMessage ≠ checksumComputed then pure (.error (checksumMessage, checksumComputed))
  else
    SO.modify fun b => { b with usedBytes := b.usedBytes + stuffedMessageLen }
    let parameterCount ← Bus.onReadBuffer (onSlice headerSize parametersEnd unstuffInplace)
    pure (.ok parameterCount)

namespace BusIn

variable {B : BufferImpl}

/-- Run code that uses no buffer, for example `src/bus/mod.rs:314`. -/
def onRest {ε α : Type} (m : SO Bus ε α) : SO (BusIn B) ε α :=
  SO.zoom BusIn.rest (fun r b => { b with rest := r }) m

/-- `self.read_buffer.as_mut()`, for example `src/bus/mod.rs:264`, and the code that uses the bytes lent. -/
def borrowRead {ε α : Type} (m : SO Bus ε α) : SO (BusIn B) ε α := fun b =>
  match B.asMut b.readBuffer with
  | (r, none) => ({ b with readBuffer := r }, .panic)
  | (r, some s) =>
    let c := m { b.rest with readBuffer := s }
    ({ b with readBuffer := B.release c.1.readBuffer r, rest := c.1 }, c.2)

/-- `self.write_buffer.as_mut()`, `src/bus/mod.rs:193`, and the code that uses the bytes lent. -/
def borrowWrite {ε α : Type} (m : SO Bus ε α) : SO (BusIn B) ε α := fun b =>
  match B.asMut b.writeBuffer with
  | (w, none) => ({ b with writeBuffer := w }, .panic)
  | (w, some s) =>
    let c := m { b.rest with writeBuffer := s }
    ({ b with writeBuffer := B.release c.1.writeBuffer w, rest := c.1 }, c.2)

/-- `self.read_buffer.as_ref()`, `src/bus/mod.rs:287`. -/
def readRef {ε : Type} : SO (BusIn B) ε (List Byte) := fun b =>
  match B.asRef b.readBuffer with
  | (r, none) => ({ b with readBuffer := r }, .panic)
  | (r, some s) => ({ b with readBuffer := r }, .ok s)

/-- `self.write_buffer.as_ref()`, `src/bus/mod.rs:156`. -/
def writeRef {ε : Type} : SO (BusIn B) ε (List Byte) := fun b =>
  match B.asRef b.writeBuffer with
  | (w, none) => ({ b with writeBuffer := w }, .panic)
  | (w, some s) => ({ b with writeBuffer := w }, .ok s)

/-- `Bus::write_packet`, `src/bus/mod.rs:183-229`: the write buffer is borrowed once, at the start. -/
def writePacket (packetId instructionId : Byte) (parameterCount : Nat) (encode : Encoder) : SO (BusIn B) WriteError Unit :=
  borrowWrite (Bus.writePacket packetId instructionId parameterCount encode)

/-- `Bus::write_status`, `src/bus/mod.rs:146-166`. -/
def writeStatus (packetId error : Byte) (parameterCount : Nat) (encode : Encoder) : SO (BusIn B) WriteError Unit := do
  let w ← writeRef
  SO.lift ((BufferTooSmall.check (StatusPacket.messageLen parameterCount) w.length).mapErr .bufferTooSmall)
  writePacket packetId InstructionId.status (parameterCount + 1) (Bus.statusEncoder error encode)

/-- `Bus::consume_read_bytes`, `src/bus/mod.rs:313-321`. -/
def consumeReadBytes {ε : Type} (len : Nat) : SO (BusIn B) ε Unit := do
  let b ← SO.get
  onRest (Bus.debugAssert (decide (len ≤ b.rest.readLen)))
  borrowRead (Bus.consumeReadBytes len)

/-- `Bus::remove_garbage`, `src/bus/mod.rs:302-311`. -/
def removeGarbage {ε : Type} : SO (BusIn B) ε Unit := do
  let b ← SO.get
  let garbageLen ← borrowRead Bus.findGarbage
  consumeReadBytes (b.rest.usedBytes + garbageLen)
  let b ← SO.get
  onRest (Bus.debugAssert (decide (b.rest.usedBytes = 0)))

/-- The part of the loop in `read_packet_deadline` that decides whether a whole message is buffered, `src/bus/mod.rs:241-253`. -/
def messageReady : SO (BusIn B) ReadError (Option Nat) := do
  let b ← SO.get
  if b.rest.readLen > headerSize then
    let bodyLen ← borrowRead Bus.bodyLen
    let room ← borrowRead Bus.readRoom
    match BufferTooSmall.check (headerSize + bodyLen) room with
    | .err e =>
      consumeReadBytes headerSize
      SO.throw (.bufferFull e)
    | _ =>
      if b.rest.readLen ≥ headerSize + bodyLen then pure (some (headerSize + bodyLen))
      else pure none
  else pure none

/-- The loop in `Bus::read_packet_deadline`, `src/bus/mod.rs:236-262`, with a bound on the iterations. -/
def readLoop (deadline : Nat) : (fuel : Nat) → SO (BusIn B) ReadError Nat
  | 0 => SO.hang
  | fuel + 1 => do
    removeGarbage
    match ← messageReady with
    | some n => pure n
    | none =>
      borrowRead (Bus.readMore deadline)
      readLoop deadline fuel

/-- The rest of `Bus::read_packet_deadline` once a message is buffered, `src/bus/mod.rs:264-298`. -/
def finishPacket (stuffedMessageLen : Nat) : SO (BusIn B) ReadError Packet := do
  match ← borrowRead (Bus.checkPacket stuffedMessageLen) with
  | .error (checksumMessage, checksumComputed) =>
    consumeReadBytes stuffedMessageLen
    SO.throw (.invalidMessage (.checksum checksumMessage checksumComputed))
  | .ok parameterCount =>
    let lent ← readRef
    let data ← SO.lift (slice lent 0 (headerSize + parameterCount))
    let packet : Packet := ⟨data⟩
    let instruction ← SO.lift packet.instructionId
    if instruction = InstructionId.status ∧ parameterCount < 1 then
      SO.throw (.invalidMessage (.parameterCount 0 (.min 1)))
    else pure packet

/-- `Bus::read_packet_deadline`, `src/bus/mod.rs:232-299`. `hang` with this `fuel` means that the loop has not ended after so many
iterations; it does not end at all if that is so for every `fuel`. -/
def readPacketDeadline (deadline fuel : Nat) : SO (BusIn B) ReadError Packet := do
  let room ← borrowRead Bus.readRoom
  SO.lift ((BufferTooSmall.check (headerSize + 3) room).mapErr .bufferFull)
  let stuffedMessageLen ← readLoop deadline fuel
  finishPacket stuffedMessageLen

/-- `Bus::with_buffers_and_baud_rate`, `src/bus/mod.rs:120-136`: the write buffer is borrowed twice. -/
def withBuffersAndBaudRate {ε : Type} (debug : Bool) (port : Port) (readBuffer writeBuffer : B.Buf) (baudRate : Nat) :
    Outcome ε (BusIn B) :=
  match B.asMut writeBuffer with
  | (_, none) => .panic
  | (w, some s) =>
    if s.length ≥ headerSize + 3 then
      match B.asMut (B.release s w) with
      | (_, none) => .panic
      | (w, some s) =>
        if 4 ≤ s.length then
          .ok ⟨readBuffer, B.release (headerPrefix ++ s.drop 4) w,
            { serialPort := port, baudRate := baudRate, readBuffer := [], readLen := 0, usedBytes := 0, writeBuffer := [],
              debug := debug }⟩
        else .panic
    else .panic

/-- `Client::transfer_single`, `src/client.rs:144-159`, with what it calls (`src/client.rs:177-203`). The loop may take
`fuel` iterations more than there is to receive. -/
def transferSingle (packetId instructionId : Byte) (parameterCount : Nat) (expectedResponseParameters : U16)
    (encode : Encoder) (fuel : Nat) : SO (BusIn B) TransferError StatusPacket := do
  (writePacket packetId instructionId parameterCount encode).mapErr .writeError
  let b ← SO.get
  let messageSize := StatusPacket.messageLen expectedResponseParameters.toNat % 2 ^ 32
  let time ← SO.lift (messageTransferTime messageSize b.rest.baudRate)
  let packet ← (readPacketDeadline (b.rest.serialPort.makeDeadline (time + Client.flatTimeout))
    (b.rest.serialPort.measure + fuel)).mapErr .readError
  let response ← SO.lift ((Client.checkStatus packet).mapErr .readError)
  let actual ← SO.lift response.packetId
  SO.lift ((checkPacketId actual packetId).mapErr fun e => .readError (.invalidMessage e))
  pure response

end BusIn
end Dxl
