import Verif.Model.AnyBuffer
import Verif.Model.Device

/-! # The methods of `Client` and `Device` with any buffer type

As `Model/Instructions.lean` and `Model/Device.lean`, for a `Client` and a `Device` that are generic in the buffers, which is what they
are in the code. The functions that use the buffers are in `Model/AnyBuffer.lean`. Each loop that waits for a packet may take `fuel`
iterations more than there is to receive: with a buffer type that lends nothing it need not end. -/

namespace Dxl
namespace BusIn

variable {B : BufferImpl}

/-- `Bus::read_packet_deadline`, `src/bus/mod.rs:232-299`, with `fuel` as in `transferSingle`. -/
def readPacket (deadline fuel : Nat) : SO (BusIn B) ReadError Packet := do
  let b ← SO.get
  readPacketDeadline deadline (b.rest.serialPort.measure + fuel)

/-- `Bus::set_baud_rate`, `src/bus/mod.rs:139-143`. -/
def setBaudRate (rate : Nat) : SO (BusIn B) IoErr Unit := onRest (Bus.setBaudRate rate)

/-- `Client::read_status_response_timeout`, `src/client.rs:177-193`. -/
def readStatusResponseTimeout (timeout fuel : Nat) : SO (BusIn B) ReadError StatusPacket := do
  let b ← SO.get
  let packet ← readPacket (b.rest.serialPort.makeDeadline timeout) fuel
  SO.lift (Client.checkStatus packet)

/-- `Client::read_status_response`, `src/client.rs:198-203`. -/
def readStatusResponse (expectedParameters : U16) (fuel : Nat) : SO (BusIn B) ReadError StatusPacket := do
  let b ← SO.get
  let messageSize := StatusPacket.messageLen expectedParameters.toNat % 2 ^ 32
  let time ← SO.lift (messageTransferTime messageSize b.rest.baudRate)
  readStatusResponseTimeout (time + Client.flatTimeout) fuel

/-- The loop of `read_raw_instruction_timeout`, `src/device.rs:187-198`, with a bound on its iterations. -/
def readRawLoop (deadline fuel : Nat) : (n : Nat) → SO (BusIn B) ReadError InstructionPacket
  | 0 => SO.hang
  | n + 1 => do
    let packet ← readPacket deadline fuel
    match ← SO.lift packet.asInstruction with
    | some instruction => pure instruction
    | none => readRawLoop deadline fuel n

/-- `Device::read_raw_instruction_timeout`, `src/device.rs:182-199`. -/
def readRawInstructionTimeout (timeout fuel : Nat) : SO (BusIn B) ReadError InstructionPacket := do
  let b ← SO.get
  readRawLoop (b.rest.serialPort.makeDeadline timeout) fuel (b.rest.readLen + b.rest.serialPort.measure + fuel)

/-- `read_response_if_not_broadcast`, `src/instructions/mod.rs:106-123`. -/
def readResponseIfNotBroadcast (motorId : Byte) (fuel : Nat) : SO (BusIn B) ReadError (Response Unit) :=
  if motorId = broadcast then pure { motorId := broadcast, alert := false, data := () }
  else do
    let s ← readStatusResponse 0#16 fuel
    SO.lift (s.toEmptyResponse.mapErr .invalidMessage)

/-- The common shape of the write-like instructions: send, then read an empty response unless broadcast. `src/instructions/`:
`action.rs:16-17`, `reboot.rs:20-21`, `write.rs:16-21, 29-34`, `reg_write.rs:21-26, 39-43`, `clear.rs:28-34, 59-60`,
`factory_reset.rs:41-45`. -/
def instruct (motorId instructionId : Byte) (parameterCount : Nat) (encode : Encoder) (fuel : Nat) :
    SO (BusIn B) TransferError (Response Unit) := do
  (writePacket motorId instructionId parameterCount encode).mapErr .writeError
  (readResponseIfNotBroadcast motorId fuel).mapErr .readError

/-- `Client::action`, `src/instructions/action.rs:15-18`. -/
def action (motorId : Byte) (fuel : Nat) : SO (BusIn B) TransferError (Response Unit) :=
  instruct motorId InstructionId.action 0 .nothing fuel

/-- `Client::broadcast_action`, `src/instructions/action.rs:21-23`. -/
def broadcastAction : SO (BusIn B) WriteError Unit := writePacket broadcast InstructionId.action 0 .nothing

/-- `Client::reboot`, `src/instructions/reboot.rs:19-22`. -/
def reboot (motorId : Byte) (fuel : Nat) : SO (BusIn B) TransferError (Response Unit) :=
  instruct motorId InstructionId.reboot 0 .nothing fuel

/-- `Client::broadcast_reboot`, `src/instructions/reboot.rs:25-27`. -/
def broadcastReboot : SO (BusIn B) WriteError Unit := writePacket broadcast InstructionId.reboot 0 .nothing

/-- `Client::clear_revolution_counter`, `src/instructions/clear.rs:27-35`. -/
def clearRevolutionCounter (motorId : Byte) (fuel : Nat) : SO (BusIn B) TransferError (Response Unit) :=
  instruct motorId InstructionId.clear Client.clearRevolutionCountParameters.length
    (Client.constEncoder Client.clearRevolutionCountParameters) fuel

/-- `Client::broadcast_clear_revolution_counter`, `src/instructions/clear.rs:42-50`. -/
def broadcastClearRevolutionCounter : SO (BusIn B) WriteError Unit :=
  writePacket broadcast InstructionId.clear Client.clearRevolutionCountParameters.length
    (Client.constEncoder Client.clearRevolutionCountParameters)

/-- `Client::clear_error`, `src/instructions/clear.rs:58-61`. -/
def clearError (motorId : Byte) (fuel : Nat) : SO (BusIn B) TransferError (Response Unit) :=
  instruct motorId InstructionId.clear Client.clearErrorParameters.length (Client.constEncoder Client.clearErrorParameters) fuel

/-- `Client::broadcast_clear_error`, `src/instructions/clear.rs:69-77`. -/
def broadcastClearError : SO (BusIn B) WriteError Unit :=
  writePacket broadcast InstructionId.clear Client.clearErrorParameters.length (Client.constEncoder Client.clearErrorParameters)

/-- `Client::factory_reset`, `src/instructions/factory_reset.rs:40-46`. -/
def factoryReset (motorId : Byte) (kind : Client.FactoryResetKind) (fuel : Nat) :
    SO (BusIn B) TransferError (Response Unit) :=
  instruct motorId InstructionId.factoryReset 1 (Client.factoryResetEncoder kind) fuel

/-- `Client::broadcast_factory_reset`, `src/instructions/factory_reset.rs:59-65`. -/
def broadcastFactoryReset (kind : Client.FactoryResetKind) : SO (BusIn B) WriteError Unit :=
  writePacket broadcast InstructionId.factoryReset 1 (Client.factoryResetEncoder kind)

/-- `Client::read_raw`, `src/instructions/read.rs:12-20`. -/
def readRaw (motorId : Byte) (address count : U16) (fuel : Nat) :
    SO (BusIn B) TransferError StatusPacket := do
  let response ← transferSingle motorId InstructionId.read 4 count (Client.readEncoder address count) fuel
  let parameters ← SO.lift response.parameters
  SO.lift ((checkCount parameters.length count.toNat).mapErr fun e => .readError (.invalidMessage e))
  pure response

/-- `Client::read_bytes`, `src/instructions/read.rs:26-32`, with `T` a byte container. -/
def readBytes (motorId : Byte) (address count : U16) (fuel : Nat) :
    SO (BusIn B) TransferError (Response (List Byte)) := do
  let status ← readRaw motorId address count fuel
  SO.lift ((decodeStatusPacketBytes status).mapErr fun e => .readError (.motorError e))

/-- `Client::read`, `src/instructions/read.rs:40-46`. -/
def read {α : Type} (d : DataTy α) (motorId : Byte) (address : U16) (fuel : Nat) :
    SO (BusIn B) TransferError (Response α) := do
  let status ← readRaw motorId address d.size fuel
  SO.lift ((decodeStatusPacket d status).mapErr .readError)

/-- `Client::write`, `src/instructions/write.rs:15-22`. -/
def write {α : Type} (d : DataTy α) (motorId : Byte) (address : U16) (data : α) (fuel : Nat) :
    SO (BusIn B) TransferError (Response Unit) :=
  instruct motorId InstructionId.write (2 + d.size.toNat) (Client.writeEncoder d address data) fuel

/-- `Client::write_bytes`, `src/instructions/write.rs:28-35`. -/
def writeBytes (motorId : Byte) (address : U16) (data : List Byte) (fuel : Nat) :
    SO (BusIn B) TransferError (Response Unit) :=
  instruct motorId InstructionId.write (2 + data.length) (Client.writeBytesEncoder address data) fuel

/-- `Client::reg_write_bytes`, `src/instructions/reg_write.rs:20-27`. -/
def regWriteBytes (motorId : Byte) (address : U16) (data : List Byte) (fuel : Nat) :
    SO (BusIn B) TransferError (Response Unit) :=
  instruct motorId InstructionId.regWrite (2 + data.length) (Client.writeBytesEncoder address data) fuel

/-- `Client::reg_write`, `src/instructions/reg_write.rs:38-44`. The parameter count is `2 + 1` in the code. -/
def regWrite {α : Type} (d : DataTy α) (motorId : Byte) (address : U16) (value : α) (fuel : Nat) :
    SO (BusIn B) TransferError (Response Unit) :=
  instruct motorId InstructionId.regWrite (2 + 1) (Client.writeEncoder d address value) fuel

/-- `Client::ping`, `src/instructions/ping.rs:45-48`. -/
def ping (motorId : Byte) (fuel : Nat) : SO (BusIn B) TransferError (Response Client.Ping) := do
  let response ← transferSingle motorId InstructionId.ping 0 3#16 .nothing fuel
  SO.lift ((Client.toPingResponse response).mapErr fun e => .readError (.invalidMessage e))

/-- `Client::scan`, `src/instructions/ping.rs:51-54`. -/
def scan : SO (BusIn B) WriteError Unit := writePacket broadcast InstructionId.ping 0 .nothing

/-- `Scan::next_response`, `src/instructions/ping.rs:103-109`. -/
def scanNextResponse (fuel : Nat) : SO (BusIn B) ReadError (Response Client.Ping) := do
  let b ← SO.get
  let responseTime ← SO.lift (messageTransferTime 14 b.rest.baudRate)
  let response ← readStatusResponseTimeout (responseTime * 253 + Client.flatTimeout) fuel
  SO.lift ((Client.toPingResponse response).mapErr .invalidMessage)

/-- `Scan::scan_next` and `Iterator::next` of `Scan`, `src/instructions/ping.rs:91-101, 129-131`. -/
def scanNext {ε : Type} (fuel : Nat) : SO (BusIn B) ε (Option (Except ReadError (Response Client.Ping))) := do
  match ← (scanNextResponse fuel).attempt with
  | .ok response => pure (some (.ok response))
  | .error (.io e) => if e.isTimeout then pure none else pure (some (.error (.io e)))
  | .error e => pure (some (.error e))

/-- `Drop for Scan`, `src/instructions/ping.rs:117-119`, with a bound on the number of iterations. -/
def scanDrop {ε : Type} (fuel : Nat) : (n : Nat) → SO (BusIn B) ε Unit
  | 0 => SO.hang
  | n + 1 => do
    match ← scanNext fuel with
    | some _ => scanDrop fuel n
    | none => pure ()

/-- `Client::sync_read_bytes` and `Client::sync_read_bytes_borrow` up to the creation of the iterator,
`src/instructions/sync_read.rs:15-38, 41-64`. -/
def syncReadBytes (motorIds : List Byte) (address count : U16) : SO (BusIn B) WriteError Unit :=
  writePacket broadcast InstructionId.syncRead (4 + motorIds.length) (Client.syncReadEncoder address count motorIds)

/-- `Client::sync_read` up to the creation of the iterator, `src/instructions/sync_read.rs:67-86`. -/
def syncRead {α : Type} (d : DataTy α) (motorIds : List Byte) (address : U16) : SO (BusIn B) WriteError Unit :=
  writePacket broadcast InstructionId.syncRead (4 + motorIds.length) (Client.syncReadEncoder address d.size motorIds)

/-- `write_bulk_read_instruction`, `src/instructions/bulk_read.rs:64-91`; `bulk_read_bytes` and `bulk_read_bytes_borrow`
(`src/instructions/bulk_read.rs:18-57`) up to the creation of the iterator. -/
def bulkReadBytes (reads : List BulkReadData) : SO (BusIn B) WriteError Unit :=
  if Client.hasDuplicateId reads then SO.panic
  else writePacket broadcast InstructionId.bulkRead (5 * reads.length)
    ⟨Client.bulkReadEncodeLoop 0 reads, Client.bulkReadEncodeLoop_length reads 0⟩

/-- `Client::sync_write_bytes`, `src/instructions/sync_write.rs:41-69`. The iterator is a list. -/
def syncWriteBytes (address count : U16) (data : List (SyncWriteData (List Byte))) : SO (BusIn B) WriteError Unit :=
  writePacket broadcast InstructionId.syncWrite (4 + data.length * (1 + count.toNat))
    (Client.syncWriteBytesEncoder address count data)

/-- `Client::sync_write`, `src/instructions/sync_write.rs:75-98`. The count is `size_of::<u8>()` in the code. -/
def syncWrite {α : Type} (d : DataTy α) (address : U16) (data : List (SyncWriteData α)) :
    SO (BusIn B) WriteError Unit :=
  writePacket broadcast InstructionId.syncWrite (4 + data.length * (1 + 1)) (Client.syncWriteEncoder d address 1 data)

/-- `Client::bulk_write`, `src/instructions/bulk_write.rs:48-87`. -/
def bulkWrite (writes : List BulkWriteData) : SO (BusIn B) WriteError Unit := do
  let parameterCount ← SO.lift (Client.bulkWriteCount writes 0)
  writePacket broadcast InstructionId.bulkWrite parameterCount
    ⟨Client.bulkWriteLoop 0 writes, Client.bulkWriteLoop_length writes 0⟩

/-- `Device::read`, `src/device.rs:143-147`. -/
def deviceRead (timeout fuel : Nat) : SO (BusIn B) ReadError Instruction := do
  let packet ← readRawInstructionTimeout timeout fuel
  SO.lift ((Device.toInstruction packet).mapErr .invalidMessage)

/-- `Device::read_owned`, `src/device.rs:151-155`. -/
def deviceReadOwned (timeout fuel : Nat) : SO (BusIn B) ReadError Instruction := do
  let packet ← readRawInstructionTimeout timeout fuel
  SO.lift ((Device.toOwnedInstruction packet).mapErr .invalidMessage)

/-- `Device::write_status_error`, `src/device.rs:172-174`. -/
def writeStatusError (packetId error : Byte) : SO (BusIn B) WriteError Unit := writeStatus packetId error 0 .nothing

/-- `Device::write_status_ok`, `src/device.rs:177-179`. -/
def writeStatusOk (packetId : Byte) : SO (BusIn B) WriteError Unit := writeStatus packetId 0#8 0 .nothing

end BusIn

/-- `SyncReadBytes` and `SyncRead`, `src/instructions/sync_read.rs:92-103, 221-231`. For `SyncRead<T>`, `count` is
`T::ENCODED_SIZE`. -/
structure SyncIterIn (B : BufferImpl) where
  client : BusIn B
  count : U16
  motorIds : List Byte
  index : Nat

namespace SyncIterIn

variable {B : BufferImpl}

/-- Run code on the client, `src/instructions/sync_read.rs:137`. -/
def onClient {ε α : Type} (m : SO (BusIn B) ε α) : SO (SyncIterIn B) ε α :=
  SO.zoom SyncIterIn.client (fun b s => { s with client := b }) m

/-- `pop_motor_id`, `src/instructions/sync_read.rs:188-192, 306-310`. -/
def popMotorId {ε : Type} : SO (SyncIterIn B) ε (Option Byte) := fun s =>
  match s.motorIds[s.index]? with
  | none => (s, .ok none)
  | some id => ({ s with index := s.index + 1 }, .ok (some id))

/-- `SyncReadBytes::next_response` and `next_response_borrow`, `src/instructions/sync_read.rs:194-216`. -/
def nextResponseBytes (motorId : Byte) (fuel : Nat) :
    SO (SyncIterIn B) ReadError (Response (List Byte)) := do
  let s ← SO.get
  let response ← onClient (BusIn.readStatusResponse s.count fuel)
  SO.lift (SyncIter.checkResponse response motorId s.count)
  SO.lift ((decodeStatusPacketBytes response).mapErr .motorError)

/-- `SyncReadBytes::read_next`, `read_next_borrow` and `Iterator::next`, `src/instructions/sync_read.rs:150-186`. -/
def nextBytes {ε : Type} (fuel : Nat) :
    SO (SyncIterIn B) ε (Option (Except ReadError (Response (List Byte)))) := do
  match ← popMotorId with
  | none => pure none
  | some id =>
    let r ← (nextResponseBytes id fuel).attempt
    pure (some r)

/-- `SyncRead::next_response`, `src/instructions/sync_read.rs:312-320`. -/
def nextResponse {α : Type} (d : DataTy α) (motorId : Byte) (fuel : Nat) :
    SO (SyncIterIn B) ReadError (Response α) := do
  let response ← onClient (BusIn.readStatusResponse d.size fuel)
  SO.lift (SyncIter.checkResponse response motorId d.size)
  SO.lift (decodeStatusPacket d response)

/-- `SyncRead::read_next` and `Iterator::next`, `src/instructions/sync_read.rs:277-304`. -/
def next {α ε : Type} (d : DataTy α) (fuel : Nat) :
    SO (SyncIterIn B) ε (Option (Except ReadError (Response α))) := do
  match ← popMotorId with
  | none => pure none
  | some id =>
    let r ← (nextResponse d id fuel).attempt
    pure (some r)

/-- `Drop for SyncReadBytes`, `src/instructions/sync_read.rs:135-139`, with a bound on the iterations. -/
def dropBytes {ε : Type} (fuel : Nat) : (n : Nat) → SO (SyncIterIn B) ε Unit
  | 0 => SO.hang
  | n + 1 => do
    match ← popMotorId with
    | none => pure ()
    | some _ =>
      let s ← SO.get
      let _ ← (onClient (BusIn.readStatusResponse s.count fuel)).attempt
      dropBytes fuel n

/-- `Drop for SyncRead`, `src/instructions/sync_read.rs:264-266`, with a bound on the iterations. -/
def drop {α ε : Type} (d : DataTy α) (fuel : Nat) : (n : Nat) → SO (SyncIterIn B) ε Unit
  | 0 => SO.hang
  | n + 1 => do
    match ← next d fuel with
    | none => pure ()
    | some _ => drop d fuel n

end SyncIterIn

/-- `BulkReadBytes`, `src/instructions/bulk_read.rs:94-103`. -/
structure BulkIterIn (B : BufferImpl) where
  client : BusIn B
  reads : List BulkReadData
  index : Nat

namespace BulkIterIn

variable {B : BufferImpl}

/-- Run code on the client, `src/instructions/bulk_read.rs:127`. -/
def onClient {ε α : Type} (m : SO (BusIn B) ε α) : SO (BulkIterIn B) ε α :=
  SO.zoom BulkIterIn.client (fun b s => { s with client := b }) m

/-- `pop_bulk_read_data`, `src/instructions/bulk_read.rs:177-181`. -/
def pop {ε : Type} : SO (BulkIterIn B) ε (Option BulkReadData) := fun s =>
  match s.reads[s.index]? with
  | none => (s, .ok none)
  | some r => ({ s with index := s.index + 1 }, .ok (some r))

/-- `next_response` and `next_response_borrow`, `src/instructions/bulk_read.rs:183-206`. -/
def nextResponse (motorId : Byte) (count : U16) (fuel : Nat) :
    SO (BulkIterIn B) ReadError (Response (List Byte)) := do
  let response ← onClient (BusIn.readStatusResponse count fuel)
  SO.lift (SyncIter.checkResponse response motorId count)
  SO.lift ((decodeStatusPacketBytes response).mapErr .motorError)

/-- `read_next`, `read_next_borrow` and `Iterator::next`, `src/instructions/bulk_read.rs:140-175`. -/
def next {ε : Type} (fuel : Nat) : SO (BulkIterIn B) ε (Option (Except ReadError (Response (List Byte)))) := do
  match ← pop with
  | none => pure none
  | some r =>
    let x ← (nextResponse r.motorId r.count fuel).attempt
    pure (some x)

/-- The loop of `Drop for BulkReadBytes`, `src/instructions/bulk_read.rs:126-128`. -/
def dropLoop {ε : Type} (fuel : Nat) : List BulkReadData → SO (BulkIterIn B) ε Unit
  | [] => pure ()
  | r :: rest => do
    let _ ← (onClient (BusIn.readStatusResponse r.count fuel)).attempt
    dropLoop fuel rest

/-- `Drop for BulkReadBytes`, `src/instructions/bulk_read.rs:125-129`. -/
def drop {ε : Type} (fuel : Nat) : SO (BulkIterIn B) ε Unit := do
  let s ← SO.get
  if s.index ≤ s.reads.length then dropLoop fuel (s.reads.drop s.index) else SO.panic

end BulkIterIn
end Dxl
