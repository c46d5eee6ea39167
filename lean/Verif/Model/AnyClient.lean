import Verif.Model.AnyPort

/-! # The methods of `Client` and `Device` with any implementation of `SerialPort`

As `Model/Instructions.lean` and `Model/Device.lean`, for a `Client` and a `Device` that are generic in the serial port, which is what
they are in the code. The functions between the port and these methods are in `Model/AnyPort.lean`. `w` is the number of bits of a
`usize`, and `fuel` bounds the iterations of each loop that has no bound of its own. -/

namespace Dxl
namespace BusOf

variable {P : PortImpl}

/-- An error of the functions that do not use the port, as a `TransferError`, `src/error.rs:6-12`. -/
def transferError {E : Type} (e : ReadError) : TransferErrorOf E := .readError (readError e)

/-- `read_response_if_not_broadcast`, `src/instructions/mod.rs:106-123`. -/
def readResponseIfNotBroadcast (w : Nat) (motorId : Byte) (fuel : Nat) : SO (BusOf P) (ReadErrorOf P.Error) (Response Unit) :=
  if motorId = broadcast then pure { motorId := broadcast, alert := false, data := () }
  else do
    let s ← readStatusResponse w 0#16 fuel
    SO.lift (s.toEmptyResponse.mapErr .invalidMessage)

/-- The common shape of the write-like instructions: send, then read an empty response unless broadcast. `src/instructions/`:
`action.rs:16-17`, `reboot.rs:20-21`, `write.rs:16-21, 29-34`, `reg_write.rs:21-26, 39-43`, `clear.rs:28-34, 59-60`,
`factory_reset.rs:41-45`. -/
def instruct (w : Nat) (motorId instructionId : Byte) (parameterCount : Nat) (encode : Encoder) (fuel : Nat) :
    SO (BusOf P) (TransferErrorOf P.Error) (Response Unit) := do
  (writePacket motorId instructionId parameterCount encode).mapErr .writeError
  (readResponseIfNotBroadcast w motorId fuel).mapErr .readError

/-- `Client::action`, `src/instructions/action.rs:15-18`. -/
def action (w : Nat) (motorId : Byte) (fuel : Nat) : SO (BusOf P) (TransferErrorOf P.Error) (Response Unit) :=
  instruct w motorId InstructionId.action 0 .nothing fuel

/-- `Client::broadcast_action`, `src/instructions/action.rs:21-23`. -/
def broadcastAction : SO (BusOf P) (WriteErrorOf P.Error) Unit := writePacket broadcast InstructionId.action 0 .nothing

/-- `Client::reboot`, `src/instructions/reboot.rs:19-22`. -/
def reboot (w : Nat) (motorId : Byte) (fuel : Nat) : SO (BusOf P) (TransferErrorOf P.Error) (Response Unit) :=
  instruct w motorId InstructionId.reboot 0 .nothing fuel

/-- `Client::broadcast_reboot`, `src/instructions/reboot.rs:25-27`. -/
def broadcastReboot : SO (BusOf P) (WriteErrorOf P.Error) Unit := writePacket broadcast InstructionId.reboot 0 .nothing

/-- `Client::clear_revolution_counter`, `src/instructions/clear.rs:27-35`. -/
def clearRevolutionCounter (w : Nat) (motorId : Byte) (fuel : Nat) : SO (BusOf P) (TransferErrorOf P.Error) (Response Unit) :=
  instruct w motorId InstructionId.clear Client.clearRevolutionCountParameters.length
    (Client.constEncoder Client.clearRevolutionCountParameters) fuel

/-- `Client::broadcast_clear_revolution_counter`, `src/instructions/clear.rs:42-50`. -/
def broadcastClearRevolutionCounter : SO (BusOf P) (WriteErrorOf P.Error) Unit :=
  writePacket broadcast InstructionId.clear Client.clearRevolutionCountParameters.length
    (Client.constEncoder Client.clearRevolutionCountParameters)

/-- `Client::clear_error`, `src/instructions/clear.rs:58-61`. -/
def clearError (w : Nat) (motorId : Byte) (fuel : Nat) : SO (BusOf P) (TransferErrorOf P.Error) (Response Unit) :=
  instruct w motorId InstructionId.clear Client.clearErrorParameters.length (Client.constEncoder Client.clearErrorParameters) fuel

/-- `Client::broadcast_clear_error`, `src/instructions/clear.rs:69-77`. -/
def broadcastClearError : SO (BusOf P) (WriteErrorOf P.Error) Unit :=
  writePacket broadcast InstructionId.clear Client.clearErrorParameters.length (Client.constEncoder Client.clearErrorParameters)

/-- `Client::factory_reset`, `src/instructions/factory_reset.rs:40-46`. -/
def factoryReset (w : Nat) (motorId : Byte) (kind : Client.FactoryResetKind) (fuel : Nat) :
    SO (BusOf P) (TransferErrorOf P.Error) (Response Unit) :=
  instruct w motorId InstructionId.factoryReset 1 (Client.factoryResetEncoder kind) fuel

/-- `Client::broadcast_factory_reset`, `src/instructions/factory_reset.rs:59-65`. -/
def broadcastFactoryReset (kind : Client.FactoryResetKind) : SO (BusOf P) (WriteErrorOf P.Error) Unit :=
  writePacket broadcast InstructionId.factoryReset 1 (Client.factoryResetEncoder kind)

/-- `Client::read_raw`, `src/instructions/read.rs:12-20`. -/
def readRaw (w : Nat) (motorId : Byte) (address count : U16) (fuel : Nat) :
    SO (BusOf P) (TransferErrorOf P.Error) StatusPacket := do
  let response ← transferSingle w motorId InstructionId.read 4 count (Client.readEncoder address count) fuel
  let parameters ← SO.lift response.parameters
  SO.lift ((checkCount parameters.length count.toNat).mapErr fun e => .readError (.invalidMessage e))
  pure response

/-- `Client::read_bytes`, `src/instructions/read.rs:26-32`, with `T` a byte container. -/
def readBytes (w : Nat) (motorId : Byte) (address count : U16) (fuel : Nat) :
    SO (BusOf P) (TransferErrorOf P.Error) (Response (List Byte)) := do
  let status ← readRaw w motorId address count fuel
  SO.lift ((decodeStatusPacketBytes status).mapErr fun e => .readError (.motorError e))

/-- `Client::read`, `src/instructions/read.rs:40-46`. -/
def read {α : Type} (w : Nat) (d : DataTy α) (motorId : Byte) (address : U16) (fuel : Nat) :
    SO (BusOf P) (TransferErrorOf P.Error) (Response α) := do
  let status ← readRaw w motorId address d.size fuel
  SO.lift ((decodeStatusPacket d status).mapErr transferError)

/-- `Client::write`, `src/instructions/write.rs:15-22`. -/
def write {α : Type} (w : Nat) (d : DataTy α) (motorId : Byte) (address : U16) (data : α) (fuel : Nat) :
    SO (BusOf P) (TransferErrorOf P.Error) (Response Unit) :=
  instruct w motorId InstructionId.write (2 + d.size.toNat) (Client.writeEncoder d address data) fuel

/-- `Client::write_bytes`, `src/instructions/write.rs:28-35`. -/
def writeBytes (w : Nat) (motorId : Byte) (address : U16) (data : List Byte) (fuel : Nat) :
    SO (BusOf P) (TransferErrorOf P.Error) (Response Unit) :=
  instruct w motorId InstructionId.write (2 + data.length) (Client.writeBytesEncoder address data) fuel

/-- `Client::reg_write_bytes`, `src/instructions/reg_write.rs:20-27`. -/
def regWriteBytes (w : Nat) (motorId : Byte) (address : U16) (data : List Byte) (fuel : Nat) :
    SO (BusOf P) (TransferErrorOf P.Error) (Response Unit) :=
  instruct w motorId InstructionId.regWrite (2 + data.length) (Client.writeBytesEncoder address data) fuel

/-- `Client::reg_write`, `src/instructions/reg_write.rs:38-44`. The parameter count is `2 + 1` in the code. -/
def regWrite {α : Type} (w : Nat) (d : DataTy α) (motorId : Byte) (address : U16) (value : α) (fuel : Nat) :
    SO (BusOf P) (TransferErrorOf P.Error) (Response Unit) :=
  instruct w motorId InstructionId.regWrite (2 + 1) (Client.writeEncoder d address value) fuel

/-- `Client::ping`, `src/instructions/ping.rs:45-48`. -/
def ping (w : Nat) (motorId : Byte) (fuel : Nat) : SO (BusOf P) (TransferErrorOf P.Error) (Response Client.Ping) := do
  let response ← transferSingle w motorId InstructionId.ping 0 3#16 .nothing fuel
  SO.lift ((Client.toPingResponse response).mapErr fun e => .readError (.invalidMessage e))

/-- `Client::scan`, `src/instructions/ping.rs:51-54`. -/
def scan : SO (BusOf P) (WriteErrorOf P.Error) Unit := writePacket broadcast InstructionId.ping 0 .nothing

/-- `Scan::next_response`, `src/instructions/ping.rs:103-109`. -/
def scanNextResponse (w fuel : Nat) : SO (BusOf P) (ReadErrorOf P.Error) (Response Client.Ping) := do
  let b ← SO.get
  let responseTime ← SO.lift (messageTransferTime 14 b.rest.baudRate)
  let response ← readStatusResponseTimeout w (responseTime * 253 + Client.flatTimeout) fuel
  SO.lift ((Client.toPingResponse response).mapErr .invalidMessage)

/-- `Scan::scan_next` and `Iterator::next` of `Scan`, `src/instructions/ping.rs:91-101, 129-131`. -/
def scanNext {ε : Type} (w fuel : Nat) : SO (BusOf P) ε (Option (Except (ReadErrorOf P.Error) (Response Client.Ping))) := do
  match ← (scanNextResponse w fuel).attempt with
  | .ok response => pure (some (.ok response))
  | .error (.io e) => if P.isTimeoutError e then pure none else pure (some (.error (.io e)))
  | .error e => pure (some (.error e))

/-- `Drop for Scan`, `src/instructions/ping.rs:117-119`, with a bound on the number of iterations. -/
def scanDrop {ε : Type} (w fuel : Nat) : (n : Nat) → SO (BusOf P) ε Unit
  | 0 => SO.hang
  | n + 1 => do
    match ← scanNext w fuel with
    | some _ => scanDrop w fuel n
    | none => pure ()

/-- `Client::sync_read_bytes` and `Client::sync_read_bytes_borrow` up to the creation of the iterator,
`src/instructions/sync_read.rs:15-38, 41-64`. -/
def syncReadBytes (motorIds : List Byte) (address count : U16) : SO (BusOf P) (WriteErrorOf P.Error) Unit :=
  writePacket broadcast InstructionId.syncRead (4 + motorIds.length) (Client.syncReadEncoder address count motorIds)

/-- `Client::sync_read` up to the creation of the iterator, `src/instructions/sync_read.rs:67-86`. -/
def syncRead {α : Type} (d : DataTy α) (motorIds : List Byte) (address : U16) : SO (BusOf P) (WriteErrorOf P.Error) Unit :=
  writePacket broadcast InstructionId.syncRead (4 + motorIds.length) (Client.syncReadEncoder address d.size motorIds)

/-- `write_bulk_read_instruction`, `src/instructions/bulk_read.rs:64-91`; `bulk_read_bytes` and `bulk_read_bytes_borrow`
(`src/instructions/bulk_read.rs:18-57`) up to the creation of the iterator. -/
def bulkReadBytes (reads : List BulkReadData) : SO (BusOf P) (WriteErrorOf P.Error) Unit :=
  if Client.hasDuplicateId reads then SO.panic
  else writePacket broadcast InstructionId.bulkRead (5 * reads.length)
    ⟨Client.bulkReadEncodeLoop 0 reads, Client.bulkReadEncodeLoop_length reads 0⟩

/-- `Client::sync_write_bytes`, `src/instructions/sync_write.rs:41-69`. The iterator is a list. -/
def syncWriteBytes (address count : U16) (data : List (SyncWriteData (List Byte))) : SO (BusOf P) (WriteErrorOf P.Error) Unit :=
  writePacket broadcast InstructionId.syncWrite (4 + data.length * (1 + count.toNat))
    (Client.syncWriteBytesEncoder address count data)

/-- `Client::sync_write`, `src/instructions/sync_write.rs:75-98`. The count is `size_of::<u8>()` in the code. -/
def syncWrite {α : Type} (d : DataTy α) (address : U16) (data : List (SyncWriteData α)) :
    SO (BusOf P) (WriteErrorOf P.Error) Unit :=
  writePacket broadcast InstructionId.syncWrite (4 + data.length * (1 + 1)) (Client.syncWriteEncoder d address 1 data)

/-- `Client::bulk_write`, `src/instructions/bulk_write.rs:48-87`. -/
def bulkWrite (writes : List BulkWriteData) : SO (BusOf P) (WriteErrorOf P.Error) Unit := do
  let parameterCount ← SO.lift (Client.bulkWriteCount writes 0)
  writePacket broadcast InstructionId.bulkWrite parameterCount
    ⟨Client.bulkWriteLoop 0 writes, Client.bulkWriteLoop_length writes 0⟩

/-- `Device::read`, `src/device.rs:143-147`. -/
def deviceRead (w timeout fuel : Nat) : SO (BusOf P) (ReadErrorOf P.Error) Instruction := do
  let packet ← readRawInstructionTimeout w timeout fuel
  SO.lift ((Device.toInstruction packet).mapErr .invalidMessage)

/-- `Device::read_owned`, `src/device.rs:151-155`. -/
def deviceReadOwned (w timeout fuel : Nat) : SO (BusOf P) (ReadErrorOf P.Error) Instruction := do
  let packet ← readRawInstructionTimeout w timeout fuel
  SO.lift ((Device.toOwnedInstruction packet).mapErr .invalidMessage)

/-- `Device::write_status_error`, `src/device.rs:172-174`. -/
def writeStatusError (packetId error : Byte) : SO (BusOf P) (WriteErrorOf P.Error) Unit := writeStatus packetId error 0 .nothing

/-- `Device::write_status_ok`, `src/device.rs:177-179`. -/
def writeStatusOk (packetId : Byte) : SO (BusOf P) (WriteErrorOf P.Error) Unit := writeStatus packetId 0#8 0 .nothing

end BusOf

/-- `SyncReadBytes` and `SyncRead`, `src/instructions/sync_read.rs:92-103, 221-231`. For `SyncRead<T>`, `count` is
`T::ENCODED_SIZE`. -/
structure SyncIterOf (P : PortImpl) where
  client : BusOf P
  count : U16
  motorIds : List Byte
  index : Nat

namespace SyncIterOf

variable {P : PortImpl}

/-- Run code on the client, `src/instructions/sync_read.rs:137`. -/
def onClient {ε α : Type} (m : SO (BusOf P) ε α) : SO (SyncIterOf P) ε α :=
  SO.zoom SyncIterOf.client (fun b s => { s with client := b }) m

/-- `pop_motor_id`, `src/instructions/sync_read.rs:188-192, 306-310`. -/
def popMotorId {ε : Type} : SO (SyncIterOf P) ε (Option Byte) := fun s =>
  match s.motorIds[s.index]? with
  | none => (s, .ok none)
  | some id => ({ s with index := s.index + 1 }, .ok (some id))

/-- `SyncReadBytes::next_response` and `next_response_borrow`, `src/instructions/sync_read.rs:194-216`. -/
def nextResponseBytes (w : Nat) (motorId : Byte) (fuel : Nat) :
    SO (SyncIterOf P) (ReadErrorOf P.Error) (Response (List Byte)) := do
  let s ← SO.get
  let response ← onClient (BusOf.readStatusResponse w s.count fuel)
  SO.lift ((SyncIter.checkResponse response motorId s.count).mapErr BusOf.readError)
  SO.lift ((decodeStatusPacketBytes response).mapErr .motorError)

/-- `SyncReadBytes::read_next`, `read_next_borrow` and `Iterator::next`, `src/instructions/sync_read.rs:150-186`. -/
def nextBytes {ε : Type} (w fuel : Nat) :
    SO (SyncIterOf P) ε (Option (Except (ReadErrorOf P.Error) (Response (List Byte)))) := do
  match ← popMotorId with
  | none => pure none
  | some id =>
    let r ← (nextResponseBytes w id fuel).attempt
    pure (some r)

/-- `SyncRead::next_response`, `src/instructions/sync_read.rs:312-320`. -/
def nextResponse {α : Type} (w : Nat) (d : DataTy α) (motorId : Byte) (fuel : Nat) :
    SO (SyncIterOf P) (ReadErrorOf P.Error) (Response α) := do
  let response ← onClient (BusOf.readStatusResponse w d.size fuel)
  SO.lift ((SyncIter.checkResponse response motorId d.size).mapErr BusOf.readError)
  SO.lift ((decodeStatusPacket d response).mapErr BusOf.readError)

/-- `SyncRead::read_next` and `Iterator::next`, `src/instructions/sync_read.rs:277-304`. -/
def next {α ε : Type} (w : Nat) (d : DataTy α) (fuel : Nat) :
    SO (SyncIterOf P) ε (Option (Except (ReadErrorOf P.Error) (Response α))) := do
  match ← popMotorId with
  | none => pure none
  | some id =>
    let r ← (nextResponse w d id fuel).attempt
    pure (some r)

/-- `Drop for SyncReadBytes`, `src/instructions/sync_read.rs:135-139`, with a bound on the iterations. -/
def dropBytes {ε : Type} (w fuel : Nat) : (n : Nat) → SO (SyncIterOf P) ε Unit
  | 0 => SO.hang
  | n + 1 => do
    match ← popMotorId with
    | none => pure ()
    | some _ =>
      let s ← SO.get
      let _ ← (onClient (BusOf.readStatusResponse w s.count fuel)).attempt
      dropBytes w fuel n

/-- `Drop for SyncRead`, `src/instructions/sync_read.rs:264-266`, with a bound on the iterations. -/
def drop {α ε : Type} (w : Nat) (d : DataTy α) (fuel : Nat) : (n : Nat) → SO (SyncIterOf P) ε Unit
  | 0 => SO.hang
  | n + 1 => do
    match ← next w d fuel with
    | none => pure ()
    | some _ => drop w d fuel n

end SyncIterOf

/-- `BulkReadBytes`, `src/instructions/bulk_read.rs:94-103`. -/
structure BulkIterOf (P : PortImpl) where
  client : BusOf P
  reads : List BulkReadData
  index : Nat

namespace BulkIterOf

variable {P : PortImpl}

/-- Run code on the client, `src/instructions/bulk_read.rs:127`. -/
def onClient {ε α : Type} (m : SO (BusOf P) ε α) : SO (BulkIterOf P) ε α :=
  SO.zoom BulkIterOf.client (fun b s => { s with client := b }) m

/-- `pop_bulk_read_data`, `src/instructions/bulk_read.rs:177-181`. -/
def pop {ε : Type} : SO (BulkIterOf P) ε (Option BulkReadData) := fun s =>
  match s.reads[s.index]? with
  | none => (s, .ok none)
  | some r => ({ s with index := s.index + 1 }, .ok (some r))

/-- `next_response` and `next_response_borrow`, `src/instructions/bulk_read.rs:183-206`. -/
def nextResponse (w : Nat) (motorId : Byte) (count : U16) (fuel : Nat) :
    SO (BulkIterOf P) (ReadErrorOf P.Error) (Response (List Byte)) := do
  let response ← onClient (BusOf.readStatusResponse w count fuel)
  SO.lift ((SyncIter.checkResponse response motorId count).mapErr BusOf.readError)
  SO.lift ((decodeStatusPacketBytes response).mapErr .motorError)

/-- `read_next`, `read_next_borrow` and `Iterator::next`, `src/instructions/bulk_read.rs:140-175`. -/
def next {ε : Type} (w fuel : Nat) : SO (BulkIterOf P) ε (Option (Except (ReadErrorOf P.Error) (Response (List Byte)))) := do
  match ← pop with
  | none => pure none
  | some r =>
    let x ← (nextResponse w r.motorId r.count fuel).attempt
    pure (some x)

/-- The loop of `Drop for BulkReadBytes`, `src/instructions/bulk_read.rs:126-128`. -/
def dropLoop {ε : Type} (w fuel : Nat) : List BulkReadData → SO (BulkIterOf P) ε Unit
  | [] => pure ()
  | r :: rest => do
    let _ ← (onClient (BusOf.readStatusResponse w r.count fuel)).attempt
    dropLoop w fuel rest

/-- `Drop for BulkReadBytes`, `src/instructions/bulk_read.rs:125-129`. -/
def drop {ε : Type} (w fuel : Nat) : SO (BulkIterOf P) ε Unit := do
  let s ← SO.get
  if s.index ≤ s.reads.length then dropLoop w fuel (s.reads.drop s.index) else SO.panic

end BulkIterOf
end Dxl
