import Verif.Model.AnyBuffer
import Verif.Model.AnyClient

/-! # Any serial port and any buffer type at once

`Bus`, `Client` and `Device` have two type parameters, for the serial port and the buffers (`src/bus/mod.rs:81-85`,
`src/client.rs:19-25`, `src/device.rs:20-26`). `Model/AnyPort.lean` and `Model/AnyClient.lean` have any port and lists for buffers,
`Model/AnyBuffer.lean` and `Model/AnyBufferClient.lean` any buffers and a port with a script. Here both types are arbitrary.
The code between two borrows of a buffer is that of `Model/Bus.lean` and `Model/AnyPort.lean`, run on what was lent. `w` is the
number of bits of a `usize`, and `fuel` bounds the iterations of each loop that has no bound of its own. -/

namespace Dxl

/-- `Bus`, `src/bus/mod.rs:81-103`, with any types for its parameters. The lists and the script port in `rest` are not used, except that
the lists hold the bytes that are lent at the time. -/
structure BusAll (P : PortImpl) (B : BufferImpl) where
  readBuffer : B.Buf
  writeBuffer : B.Buf
  rest : BusOf P

namespace BusAll

variable {P : PortImpl} {B : BufferImpl}

/-- Run code that uses no buffer, for example `src/bus/mod.rs:314`. -/
def onRest {ε α : Type} (m : SO (BusOf P) ε α) : SO (BusAll P B) ε α :=
  SO.zoom BusAll.rest (fun r b => { b with rest := r }) m

/-- `self.read_buffer.as_mut()`, for example `src/bus/mod.rs:264`, and the code that uses the bytes lent. -/
def borrowRead {ε α : Type} (m : SO (BusOf P) ε α) : SO (BusAll P B) ε α := fun b =>
  match B.asMut b.readBuffer with
  | (r, none) => ({ b with readBuffer := r }, .panic)
  | (r, some s) =>
    let c := m { b.rest with rest := { b.rest.rest with readBuffer := s } }
    ({ b with readBuffer := B.release c.1.rest.readBuffer r, rest := c.1 }, c.2)

/-- `self.write_buffer.as_mut()`, `src/bus/mod.rs:193`, and the code that uses the bytes lent. -/
def borrowWrite {ε α : Type} (m : SO (BusOf P) ε α) : SO (BusAll P B) ε α := fun b =>
  match B.asMut b.writeBuffer with
  | (w, none) => ({ b with writeBuffer := w }, .panic)
  | (w, some s) =>
    let c := m { b.rest with rest := { b.rest.rest with writeBuffer := s } }
    ({ b with writeBuffer := B.release c.1.rest.writeBuffer w, rest := c.1 }, c.2)

/-- `self.read_buffer.as_ref()`, `src/bus/mod.rs:287`. -/
def readRef {ε : Type} : SO (BusAll P B) ε (List Byte) := fun b =>
  match B.asRef b.readBuffer with
  | (r, none) => ({ b with readBuffer := r }, .panic)
  | (r, some s) => ({ b with readBuffer := r }, .ok s)

/-- `self.write_buffer.as_ref()`, `src/bus/mod.rs:156`. -/
def writeRef {ε : Type} : SO (BusAll P B) ε (List Byte) := fun b =>
  match B.asRef b.writeBuffer with
  | (w, none) => ({ b with writeBuffer := w }, .panic)
  | (w, some s) => ({ b with writeBuffer := w }, .ok s)

/-- `Bus::with_buffers_and_baud_rate`, `src/bus/mod.rs:120-136`: the write buffer is borrowed twice. `unused` is the port in the
other fields. -/
def withBuffersAndBaudRate {ε : Type} (debug : Bool) (unused : Port) (port : P.Port) (readBuffer : B.Buf) (writeBuffer : B.Buf)
    (baudRate : Nat) : Outcome ε (BusAll P B) :=
  match B.asMut writeBuffer with
  | (_, none) => .panic
  | (w, some s) =>
    if s.length ≥ headerSize + 3 then
      match B.asMut (B.release s w) with
      | (_, none) => .panic
      | (w, some s) =>
        if 4 ≤ s.length then
          .ok ⟨readBuffer, B.release (headerPrefix ++ s.drop 4) w, ⟨port,
            { serialPort := unused, baudRate := baudRate, readBuffer := [], readLen := 0, usedBytes := 0, writeBuffer := [],
              debug := debug }⟩⟩
        else .panic
    else .panic

/-- `Bus::with_buffers`, `src/bus/mod.rs:114-117`. -/
def withBuffers (debug : Bool) (unused : Port) (readBuffer : B.Buf) (writeBuffer : B.Buf) : SO P.Port P.Error (BusAll P B) := do
  let baudRate ← P.baudRate
  fun port => (port, withBuffersAndBaudRate debug unused port readBuffer writeBuffer baudRate)

/-- `Bus::set_baud_rate`, `src/bus/mod.rs:139-143`. -/
def setBaudRate (rate : Nat) : SO (BusAll P B) P.Error Unit := onRest (BusOf.setBaudRate rate)

/-- `Bus::write_packet`, `src/bus/mod.rs:183-229`: the write buffer is borrowed once, at the start. -/
def writePacket (packetId instructionId : Byte) (parameterCount : Nat) (encode : Encoder) :
    SO (BusAll P B) (WriteErrorOf P.Error) Unit :=
  borrowWrite (BusOf.writePacket packetId instructionId parameterCount encode)

/-- `Bus::write_status`, `src/bus/mod.rs:146-166`. -/
def writeStatus (packetId error : Byte) (parameterCount : Nat) (encode : Encoder) :
    SO (BusAll P B) (WriteErrorOf P.Error) Unit := do
  let w ← writeRef
  SO.lift ((BufferTooSmall.check (StatusPacket.messageLen parameterCount) w.length).mapErr .bufferTooSmall)
  writePacket packetId InstructionId.status (parameterCount + 1) (Bus.statusEncoder error encode)

/-- `Bus::consume_read_bytes`, `src/bus/mod.rs:313-321`. -/
def consumeReadBytes {ε : Type} (len : Nat) : SO (BusAll P B) ε Unit := do
  let b ← SO.get
  onRest (BusOf.onRest (Bus.debugAssert (decide (len ≤ b.rest.rest.readLen))))
  borrowRead (BusOf.onRest (Bus.consumeReadBytes len))

/-- `Bus::remove_garbage`, `src/bus/mod.rs:302-311`. -/
def removeGarbage {ε : Type} : SO (BusAll P B) ε Unit := do
  let b ← SO.get
  let garbageLen ← borrowRead (BusOf.onRest Bus.findGarbage)
  consumeReadBytes (b.rest.rest.usedBytes + garbageLen)
  let b ← SO.get
  onRest (BusOf.onRest (Bus.debugAssert (decide (b.rest.rest.usedBytes = 0))))

/-- The part of the loop in `read_packet_deadline` that decides whether a whole message is buffered, `src/bus/mod.rs:241-253`. -/
def messageReady : SO (BusAll P B) ReadError (Option Nat) := do
  let b ← SO.get
  if b.rest.rest.readLen > headerSize then
    let bodyLen ← borrowRead (BusOf.onRest Bus.bodyLen)
    let room ← borrowRead (BusOf.onRest Bus.readRoom)
    match BufferTooSmall.check (headerSize + bodyLen) room with
    | .err e =>
      consumeReadBytes headerSize
      SO.throw (.bufferFull e)
    | _ =>
      if b.rest.rest.readLen ≥ headerSize + bodyLen then pure (some (headerSize + bodyLen))
      else pure none
  else pure none

/-- The loop in `Bus::read_packet_deadline`, `src/bus/mod.rs:236-262`, with a bound on the iterations. -/
def readLoop (w : Nat) (deadline : P.Instant) : (fuel : Nat) → SO (BusAll P B) (ReadErrorOf P.Error) Nat
  | 0 => SO.hang
  | fuel + 1 => do
    removeGarbage
    match ← messageReady.mapErr BusOf.readError with
    | some n => pure n
    | none =>
      borrowRead (BusOf.readMore w deadline)
      readLoop w deadline fuel

/-- The rest of `Bus::read_packet_deadline` once a message is buffered, `src/bus/mod.rs:264-298`. -/
def finishPacket (stuffedMessageLen : Nat) : SO (BusAll P B) ReadError Packet := do
  match ← borrowRead (BusOf.onRest (Bus.checkPacket stuffedMessageLen)) with
  | .error (checksumMessage, checksumComputed) =>
    consumeReadBytes stuffedMessageLen
    SO.throw (.invalidMessage (.checksum checksumMessage checksumComputed))
  | .ok parameterCount =>
    let lent ← readRef
    let data ← SO.lift (slice lent 0 (headerSize + parameterCount))
    let packet : Packet := ⟨data⟩
    let instruction ← SO.lift packet.instructionId
    if instruction = InstructionId.status ∧ parameterCount < 1 then
      SO.throw (.invalidMessage (.parameterCount 0 (.min 1)))
    else pure packet

/-- `Bus::read_packet_deadline`, `src/bus/mod.rs:232-299`. `hang` with this `fuel` means that the loop has not ended after so many
iterations (or that the port does not return); it does not end at all if that is so for every `fuel`. -/
def readPacketDeadline (w : Nat) (deadline : P.Instant) (fuel : Nat) : SO (BusAll P B) (ReadErrorOf P.Error) Packet := do
  let room ← borrowRead (BusOf.onRest Bus.readRoom)
  SO.lift ((BufferTooSmall.check (headerSize + 3) room).mapErr .bufferFull)
  let stuffedMessageLen ← readLoop w deadline fuel
  (finishPacket stuffedMessageLen).mapErr BusOf.readError

/-- `make_deadline`, called in `src/client.rs:178` and `src/device.rs:186`. -/
def makeDeadline (timeout : Nat) : SO (BusAll P B) (ReadErrorOf P.Error) P.Instant := onRest (BusOf.makeDeadline timeout)

/-- `Client::read_status_response_timeout`, `src/client.rs:177-193`. -/
def readStatusResponseTimeout (w timeout fuel : Nat) : SO (BusAll P B) (ReadErrorOf P.Error) StatusPacket := do
  let deadline ← makeDeadline timeout
  let packet ← readPacketDeadline w deadline fuel
  SO.lift ((Client.checkStatus packet).mapErr BusOf.readError)

/-- `Client::read_status_response`, `src/client.rs:198-203`. -/
def readStatusResponse (w : Nat) (expectedParameters : U16) (fuel : Nat) :
    SO (BusAll P B) (ReadErrorOf P.Error) StatusPacket := do
  let b ← SO.get
  let messageSize := StatusPacket.messageLen expectedParameters.toNat % 2 ^ 32
  let time ← SO.lift (messageTransferTime messageSize b.rest.rest.baudRate)
  readStatusResponseTimeout w (time + Client.flatTimeout) fuel

/-- `Client::transfer_single`, `src/client.rs:144-159`. -/
def transferSingle (w : Nat) (packetId instructionId : Byte) (parameterCount : Nat) (expectedResponseParameters : U16)
    (encode : Encoder) (fuel : Nat) : SO (BusAll P B) (TransferErrorOf P.Error) StatusPacket := do
  (writePacket packetId instructionId parameterCount encode).mapErr .writeError
  let response ← (readStatusResponse w expectedResponseParameters fuel).mapErr .readError
  let actual ← SO.lift response.packetId
  SO.lift ((checkPacketId actual packetId).mapErr fun e => .readError (.invalidMessage e))
  pure response

/-- The loop of `read_raw_instruction_timeout`, `src/device.rs:187-198`. `fuel` bounds its iterations and those of the loop within. -/
def readRawLoop (w : Nat) (deadline : P.Instant) (fuel : Nat) :
    (n : Nat) → SO (BusAll P B) (ReadErrorOf P.Error) InstructionPacket
  | 0 => SO.hang
  | n + 1 => do
    let packet ← readPacketDeadline w deadline fuel
    match ← SO.lift packet.asInstruction with
    | some instruction => pure instruction
    | none => readRawLoop w deadline fuel n

/-- `Device::read_raw_instruction_timeout`, `src/device.rs:182-199`. -/
def readRawInstructionTimeout (w timeout fuel : Nat) : SO (BusAll P B) (ReadErrorOf P.Error) InstructionPacket := do
  let deadline ← makeDeadline timeout
  readRawLoop w deadline fuel fuel

/-- `read_response_if_not_broadcast`, `src/instructions/mod.rs:106-123`. -/
def readResponseIfNotBroadcast (w : Nat) (motorId : Byte) (fuel : Nat) : SO (BusAll P B) (ReadErrorOf P.Error) (Response Unit) :=
  if motorId = broadcast then pure { motorId := broadcast, alert := false, data := () }
  else do
    let s ← readStatusResponse w 0#16 fuel
    SO.lift (s.toEmptyResponse.mapErr .invalidMessage)

/-- The common shape of the write-like instructions: send, then read an empty response unless broadcast. `src/instructions/`:
`action.rs:16-17`, `reboot.rs:20-21`, `write.rs:16-21, 29-34`, `reg_write.rs:21-26, 39-43`, `clear.rs:28-34, 59-60`,
`factory_reset.rs:41-45`. -/
def instruct (w : Nat) (motorId instructionId : Byte) (parameterCount : Nat) (encode : Encoder) (fuel : Nat) :
    SO (BusAll P B) (TransferErrorOf P.Error) (Response Unit) := do
  (writePacket motorId instructionId parameterCount encode).mapErr .writeError
  (readResponseIfNotBroadcast w motorId fuel).mapErr .readError

/-- `Client::action`, `src/instructions/action.rs:15-18`. -/
def action (w : Nat) (motorId : Byte) (fuel : Nat) : SO (BusAll P B) (TransferErrorOf P.Error) (Response Unit) :=
  instruct w motorId InstructionId.action 0 .nothing fuel

/-- `Client::broadcast_action`, `src/instructions/action.rs:21-23`. -/
def broadcastAction : SO (BusAll P B) (WriteErrorOf P.Error) Unit := writePacket broadcast InstructionId.action 0 .nothing

/-- `Client::reboot`, `src/instructions/reboot.rs:19-22`. -/
def reboot (w : Nat) (motorId : Byte) (fuel : Nat) : SO (BusAll P B) (TransferErrorOf P.Error) (Response Unit) :=
  instruct w motorId InstructionId.reboot 0 .nothing fuel

/-- `Client::broadcast_reboot`, `src/instructions/reboot.rs:25-27`. -/
def broadcastReboot : SO (BusAll P B) (WriteErrorOf P.Error) Unit := writePacket broadcast InstructionId.reboot 0 .nothing

/-- `Client::clear_revolution_counter`, `src/instructions/clear.rs:27-35`. -/
def clearRevolutionCounter (w : Nat) (motorId : Byte) (fuel : Nat) : SO (BusAll P B) (TransferErrorOf P.Error) (Response Unit) :=
  instruct w motorId InstructionId.clear Client.clearRevolutionCountParameters.length
    (Client.constEncoder Client.clearRevolutionCountParameters) fuel

/-- `Client::broadcast_clear_revolution_counter`, `src/instructions/clear.rs:42-50`. -/
def broadcastClearRevolutionCounter : SO (BusAll P B) (WriteErrorOf P.Error) Unit :=
  writePacket broadcast InstructionId.clear Client.clearRevolutionCountParameters.length
    (Client.constEncoder Client.clearRevolutionCountParameters)

/-- `Client::clear_error`, `src/instructions/clear.rs:58-61`. -/
def clearError (w : Nat) (motorId : Byte) (fuel : Nat) : SO (BusAll P B) (TransferErrorOf P.Error) (Response Unit) :=
  instruct w motorId InstructionId.clear Client.clearErrorParameters.length (Client.constEncoder Client.clearErrorParameters) fuel

/-- `Client::broadcast_clear_error`, `src/instructions/clear.rs:69-77`. -/
def broadcastClearError : SO (BusAll P B) (WriteErrorOf P.Error) Unit :=
  writePacket broadcast InstructionId.clear Client.clearErrorParameters.length (Client.constEncoder Client.clearErrorParameters)

/-- `Client::factory_reset`, `src/instructions/factory_reset.rs:40-46`. -/
def factoryReset (w : Nat) (motorId : Byte) (kind : Client.FactoryResetKind) (fuel : Nat) :
    SO (BusAll P B) (TransferErrorOf P.Error) (Response Unit) :=
  instruct w motorId InstructionId.factoryReset 1 (Client.factoryResetEncoder kind) fuel

/-- `Client::broadcast_factory_reset`, `src/instructions/factory_reset.rs:59-65`. -/
def broadcastFactoryReset (kind : Client.FactoryResetKind) : SO (BusAll P B) (WriteErrorOf P.Error) Unit :=
  writePacket broadcast InstructionId.factoryReset 1 (Client.factoryResetEncoder kind)

/-- `Client::read_raw`, `src/instructions/read.rs:12-20`. -/
def readRaw (w : Nat) (motorId : Byte) (address count : U16) (fuel : Nat) :
    SO (BusAll P B) (TransferErrorOf P.Error) StatusPacket := do
  let response ← transferSingle w motorId InstructionId.read 4 count (Client.readEncoder address count) fuel
  let parameters ← SO.lift response.parameters
  SO.lift ((checkCount parameters.length count.toNat).mapErr fun e => .readError (.invalidMessage e))
  pure response

/-- `Client::read_bytes`, `src/instructions/read.rs:26-32`, with `T` a byte container. -/
def readBytes (w : Nat) (motorId : Byte) (address count : U16) (fuel : Nat) :
    SO (BusAll P B) (TransferErrorOf P.Error) (Response (List Byte)) := do
  let status ← readRaw w motorId address count fuel
  SO.lift ((decodeStatusPacketBytes status).mapErr fun e => .readError (.motorError e))

/-- `Client::read`, `src/instructions/read.rs:40-46`. -/
def read {α : Type} (w : Nat) (d : DataTy α) (motorId : Byte) (address : U16) (fuel : Nat) :
    SO (BusAll P B) (TransferErrorOf P.Error) (Response α) := do
  let status ← readRaw w motorId address d.size fuel
  SO.lift ((decodeStatusPacket d status).mapErr BusOf.transferError)

/-- `Client::write`, `src/instructions/write.rs:15-22`. -/
def write {α : Type} (w : Nat) (d : DataTy α) (motorId : Byte) (address : U16) (data : α) (fuel : Nat) :
    SO (BusAll P B) (TransferErrorOf P.Error) (Response Unit) :=
  instruct w motorId InstructionId.write (2 + d.size.toNat) (Client.writeEncoder d address data) fuel

/-- `Client::write_bytes`, `src/instructions/write.rs:28-35`. -/
def writeBytes (w : Nat) (motorId : Byte) (address : U16) (data : List Byte) (fuel : Nat) :
    SO (BusAll P B) (TransferErrorOf P.Error) (Response Unit) :=
  instruct w motorId InstructionId.write (2 + data.length) (Client.writeBytesEncoder address data) fuel

/-- `Client::reg_write_bytes`, `src/instructions/reg_write.rs:20-27`. -/
def regWriteBytes (w : Nat) (motorId : Byte) (address : U16) (data : List Byte) (fuel : Nat) :
    SO (BusAll P B) (TransferErrorOf P.Error) (Response Unit) :=
  instruct w motorId InstructionId.regWrite (2 + data.length) (Client.writeBytesEncoder address data) fuel

/-- `Client::reg_write`, `src/instructions/reg_write.rs:38-44`. The parameter count is `2 + 1` in the code. -/
def regWrite {α : Type} (w : Nat) (d : DataTy α) (motorId : Byte) (address : U16) (value : α) (fuel : Nat) :
    SO (BusAll P B) (TransferErrorOf P.Error) (Response Unit) :=
  instruct w motorId InstructionId.regWrite (2 + 1) (Client.writeEncoder d address value) fuel

/-- `Client::ping`, `src/instructions/ping.rs:45-48`. -/
def ping (w : Nat) (motorId : Byte) (fuel : Nat) : SO (BusAll P B) (TransferErrorOf P.Error) (Response Client.Ping) := do
  let response ← transferSingle w motorId InstructionId.ping 0 3#16 .nothing fuel
  SO.lift ((Client.toPingResponse response).mapErr fun e => .readError (.invalidMessage e))

/-- `Client::scan`, `src/instructions/ping.rs:51-54`. -/
def scan : SO (BusAll P B) (WriteErrorOf P.Error) Unit := writePacket broadcast InstructionId.ping 0 .nothing

/-- `Scan::next_response`, `src/instructions/ping.rs:103-109`. -/
def scanNextResponse (w fuel : Nat) : SO (BusAll P B) (ReadErrorOf P.Error) (Response Client.Ping) := do
  let b ← SO.get
  let responseTime ← SO.lift (messageTransferTime 14 b.rest.rest.baudRate)
  let response ← readStatusResponseTimeout w (responseTime * 253 + Client.flatTimeout) fuel
  SO.lift ((Client.toPingResponse response).mapErr .invalidMessage)

/-- `Scan::scan_next` and `Iterator::next` of `Scan`, `src/instructions/ping.rs:91-101, 129-131`. -/
def scanNext {ε : Type} (w fuel : Nat) : SO (BusAll P B) ε (Option (Except (ReadErrorOf P.Error) (Response Client.Ping))) := do
  match ← (scanNextResponse w fuel).attempt with
  | .ok response => pure (some (.ok response))
  | .error (.io e) => if P.isTimeoutError e then pure none else pure (some (.error (.io e)))
  | .error e => pure (some (.error e))

/-- `Drop for Scan`, `src/instructions/ping.rs:117-119`, with a bound on the number of iterations. -/
def scanDrop {ε : Type} (w fuel : Nat) : (n : Nat) → SO (BusAll P B) ε Unit
  | 0 => SO.hang
  | n + 1 => do
    match ← scanNext w fuel with
    | some _ => scanDrop w fuel n
    | none => pure ()

/-- `Client::sync_read_bytes` and `Client::sync_read_bytes_borrow` up to the creation of the iterator,
`src/instructions/sync_read.rs:15-38, 41-64`. -/
def syncReadBytes (motorIds : List Byte) (address count : U16) : SO (BusAll P B) (WriteErrorOf P.Error) Unit :=
  writePacket broadcast InstructionId.syncRead (4 + motorIds.length) (Client.syncReadEncoder address count motorIds)

/-- `Client::sync_read` up to the creation of the iterator, `src/instructions/sync_read.rs:67-86`. -/
def syncRead {α : Type} (d : DataTy α) (motorIds : List Byte) (address : U16) : SO (BusAll P B) (WriteErrorOf P.Error) Unit :=
  writePacket broadcast InstructionId.syncRead (4 + motorIds.length) (Client.syncReadEncoder address d.size motorIds)

/-- `write_bulk_read_instruction`, `src/instructions/bulk_read.rs:64-91`; `bulk_read_bytes` and `bulk_read_bytes_borrow`
(`src/instructions/bulk_read.rs:18-57`) up to the creation of the iterator. -/
def bulkReadBytes (reads : List BulkReadData) : SO (BusAll P B) (WriteErrorOf P.Error) Unit :=
  if Client.hasDuplicateId reads then SO.panic
  else writePacket broadcast InstructionId.bulkRead (5 * reads.length)
    ⟨Client.bulkReadEncodeLoop 0 reads, Client.bulkReadEncodeLoop_length reads 0⟩

/-- `Client::sync_write_bytes`, `src/instructions/sync_write.rs:41-69`. The iterator is a list. -/
def syncWriteBytes (address count : U16) (data : List (SyncWriteData (List Byte))) : SO (BusAll P B) (WriteErrorOf P.Error) Unit :=
  writePacket broadcast InstructionId.syncWrite (4 + data.length * (1 + count.toNat))
    (Client.syncWriteBytesEncoder address count data)

/-- `Client::sync_write`, `src/instructions/sync_write.rs:75-98`. The count is `size_of::<u8>()` in the code. -/
def syncWrite {α : Type} (d : DataTy α) (address : U16) (data : List (SyncWriteData α)) :
    SO (BusAll P B) (WriteErrorOf P.Error) Unit :=
  writePacket broadcast InstructionId.syncWrite (4 + data.length * (1 + 1)) (Client.syncWriteEncoder d address 1 data)

/-- `Client::bulk_write`, `src/instructions/bulk_write.rs:48-87`. -/
def bulkWrite (writes : List BulkWriteData) : SO (BusAll P B) (WriteErrorOf P.Error) Unit := do
  let parameterCount ← SO.lift (Client.bulkWriteCount writes 0)
  writePacket broadcast InstructionId.bulkWrite parameterCount
    ⟨Client.bulkWriteLoop 0 writes, Client.bulkWriteLoop_length writes 0⟩

/-- `Device::read`, `src/device.rs:143-147`. -/
def deviceRead (w timeout fuel : Nat) : SO (BusAll P B) (ReadErrorOf P.Error) Instruction := do
  let packet ← readRawInstructionTimeout w timeout fuel
  SO.lift ((Device.toInstruction packet).mapErr .invalidMessage)

/-- `Device::read_owned`, `src/device.rs:151-155`. -/
def deviceReadOwned (w timeout fuel : Nat) : SO (BusAll P B) (ReadErrorOf P.Error) Instruction := do
  let packet ← readRawInstructionTimeout w timeout fuel
  SO.lift ((Device.toOwnedInstruction packet).mapErr .invalidMessage)

/-- `Device::write_status_error`, `src/device.rs:172-174`. -/
def writeStatusError (packetId error : Byte) : SO (BusAll P B) (WriteErrorOf P.Error) Unit := writeStatus packetId error 0 .nothing

/-- `Device::write_status_ok`, `src/device.rs:177-179`. -/
def writeStatusOk (packetId : Byte) : SO (BusAll P B) (WriteErrorOf P.Error) Unit := writeStatus packetId 0#8 0 .nothing

end BusAll

/-- `SyncReadBytes` and `SyncRead`, `src/instructions/sync_read.rs:92-103, 221-231`. For `SyncRead<T>`, `count` is
`T::ENCODED_SIZE`. -/
structure SyncIterAll (P : PortImpl) (B : BufferImpl) where
  client : BusAll P B
  count : U16
  motorIds : List Byte
  index : Nat

namespace SyncIterAll

variable {P : PortImpl} {B : BufferImpl}

/-- Run code on the client, `src/instructions/sync_read.rs:137`. -/
def onClient {ε α : Type} (m : SO (BusAll P B) ε α) : SO (SyncIterAll P B) ε α :=
  SO.zoom SyncIterAll.client (fun b s => { s with client := b }) m

/-- `pop_motor_id`, `src/instructions/sync_read.rs:188-192, 306-310`. -/
def popMotorId {ε : Type} : SO (SyncIterAll P B) ε (Option Byte) := fun s =>
  match s.motorIds[s.index]? with
  | none => (s, .ok none)
  | some id => ({ s with index := s.index + 1 }, .ok (some id))

/-- `SyncReadBytes::next_response` and `next_response_borrow`, `src/instructions/sync_read.rs:194-216`. -/
def nextResponseBytes (w : Nat) (motorId : Byte) (fuel : Nat) :
    SO (SyncIterAll P B) (ReadErrorOf P.Error) (Response (List Byte)) := do
  let s ← SO.get
  let response ← onClient (BusAll.readStatusResponse w s.count fuel)
  SO.lift ((SyncIter.checkResponse response motorId s.count).mapErr BusOf.readError)
  SO.lift ((decodeStatusPacketBytes response).mapErr .motorError)

/-- `SyncReadBytes::read_next`, `read_next_borrow` and `Iterator::next`, `src/instructions/sync_read.rs:150-186`. -/
def nextBytes {ε : Type} (w fuel : Nat) :
    SO (SyncIterAll P B) ε (Option (Except (ReadErrorOf P.Error) (Response (List Byte)))) := do
  match ← popMotorId with
  | none => pure none
  | some id =>
    let r ← (nextResponseBytes w id fuel).attempt
    pure (some r)

/-- `SyncRead::next_response`, `src/instructions/sync_read.rs:312-320`. -/
def nextResponse {α : Type} (w : Nat) (d : DataTy α) (motorId : Byte) (fuel : Nat) :
    SO (SyncIterAll P B) (ReadErrorOf P.Error) (Response α) := do
  let response ← onClient (BusAll.readStatusResponse w d.size fuel)
  SO.lift ((SyncIter.checkResponse response motorId d.size).mapErr BusOf.readError)
  SO.lift ((decodeStatusPacket d response).mapErr BusOf.readError)

/-- `SyncRead::read_next` and `Iterator::next`, `src/instructions/sync_read.rs:277-304`. -/
def next {α ε : Type} (w : Nat) (d : DataTy α) (fuel : Nat) :
    SO (SyncIterAll P B) ε (Option (Except (ReadErrorOf P.Error) (Response α))) := do
  match ← popMotorId with
  | none => pure none
  | some id =>
    let r ← (nextResponse w d id fuel).attempt
    pure (some r)

/-- `Drop for SyncReadBytes`, `src/instructions/sync_read.rs:135-139`, with a bound on the iterations. -/
def dropBytes {ε : Type} (w fuel : Nat) : (n : Nat) → SO (SyncIterAll P B) ε Unit
  | 0 => SO.hang
  | n + 1 => do
    match ← popMotorId with
    | none => pure ()
    | some _ =>
      let s ← SO.get
      let _ ← (onClient (BusAll.readStatusResponse w s.count fuel)).attempt
      dropBytes w fuel n

/-- `Drop for SyncRead`, `src/instructions/sync_read.rs:264-266`, with a bound on the iterations. -/
def drop {α ε : Type} (w : Nat) (d : DataTy α) (fuel : Nat) : (n : Nat) → SO (SyncIterAll P B) ε Unit
  | 0 => SO.hang
  | n + 1 => do
    match ← next w d fuel with
    | none => pure ()
    | some _ => drop w d fuel n

end SyncIterAll

/-- `BulkReadBytes`, `src/instructions/bulk_read.rs:94-103`. -/
structure BulkIterAll (P : PortImpl) (B : BufferImpl) where
  client : BusAll P B
  reads : List BulkReadData
  index : Nat

namespace BulkIterAll

variable {P : PortImpl} {B : BufferImpl}

/-- Run code on the client, `src/instructions/bulk_read.rs:127`. -/
def onClient {ε α : Type} (m : SO (BusAll P B) ε α) : SO (BulkIterAll P B) ε α :=
  SO.zoom BulkIterAll.client (fun b s => { s with client := b }) m

/-- `pop_bulk_read_data`, `src/instructions/bulk_read.rs:177-181`. -/
def pop {ε : Type} : SO (BulkIterAll P B) ε (Option BulkReadData) := fun s =>
  match s.reads[s.index]? with
  | none => (s, .ok none)
  | some r => ({ s with index := s.index + 1 }, .ok (some r))

/-- `next_response` and `next_response_borrow`, `src/instructions/bulk_read.rs:183-206`. -/
def nextResponse (w : Nat) (motorId : Byte) (count : U16) (fuel : Nat) :
    SO (BulkIterAll P B) (ReadErrorOf P.Error) (Response (List Byte)) := do
  let response ← onClient (BusAll.readStatusResponse w count fuel)
  SO.lift ((SyncIter.checkResponse response motorId count).mapErr BusOf.readError)
  SO.lift ((decodeStatusPacketBytes response).mapErr .motorError)

/-- `read_next`, `read_next_borrow` and `Iterator::next`, `src/instructions/bulk_read.rs:140-175`. -/
def next {ε : Type} (w fuel : Nat) : SO (BulkIterAll P B) ε (Option (Except (ReadErrorOf P.Error) (Response (List Byte)))) := do
  match ← pop with
  | none => pure none
  | some r =>
    let x ← (nextResponse w r.motorId r.count fuel).attempt
    pure (some x)

/-- The loop of `Drop for BulkReadBytes`, `src/instructions/bulk_read.rs:126-128`. -/
def dropLoop {ε : Type} (w fuel : Nat) : List BulkReadData → SO (BulkIterAll P B) ε Unit
  | [] => pure ()
  | r :: rest => do
    let _ ← (onClient (BusAll.readStatusResponse w r.count fuel)).attempt
    dropLoop w fuel rest

/-- `Drop for BulkReadBytes`, `src/instructions/bulk_read.rs:125-129`. -/
def drop {ε : Type} (w fuel : Nat) : SO (BulkIterAll P B) ε Unit := do
  let s ← SO.get
  if s.index ≤ s.reads.length then dropLoop w fuel (s.reads.drop s.index) else SO.panic

end BulkIterAll
end Dxl
