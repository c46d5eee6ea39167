import Verif.Model.Client

/-! # `src/instructions/*.rs`: the instruction methods of `Client` -/

namespace Dxl
namespace Client

/-- `read_response_if_not_broadcast`, `src/instructions/mod.rs:106-123`. -/
def readResponseIfNotBroadcast (motorId : Byte) : SO Bus ReadError (Response Unit) :=
  if motorId = broadcast then pure { motorId := broadcast, alert := false, data := () }
  else do
    let s ← readStatusResponse 0#16
    SO.lift (s.toEmptyResponse.mapErr .invalidMessage)

/-- The common shape of the write-like instructions: send, then read an empty response unless broadcast.
Used by `action.rs:16-17`, `reboot.rs:20-21`, `write.rs:16-21, 29-34`, `reg_write.rs:21-26, 39-43`,
`clear.rs:28-34, 59-60`, `factory_reset.rs:41-45` in `src/instructions/`. -/
def instruct (motorId instructionId : Byte) (parameterCount : Nat) (encode : Encoder) :
    SO Bus TransferError (Response Unit) := do
  (writeInstruction motorId instructionId parameterCount encode).mapErr .writeError
  (readResponseIfNotBroadcast motorId).mapErr .readError

/-- `Client::action`, `src/instructions/action.rs:15-18`. -/
def action (motorId : Byte) : SO Bus TransferError (Response Unit) :=
  instruct motorId InstructionId.action 0 .nothing

/-- `Client::broadcast_action`, `src/instructions/action.rs:21-23`. -/
def broadcastAction : SO Bus WriteError Unit := writeInstruction broadcast InstructionId.action 0 .nothing

/-- `Client::reboot`, `src/instructions/reboot.rs:19-22`. -/
def reboot (motorId : Byte) : SO Bus TransferError (Response Unit) :=
  instruct motorId InstructionId.reboot 0 .nothing

/-- `Client::broadcast_reboot`, `src/instructions/reboot.rs:25-27`. -/
def broadcastReboot : SO Bus WriteError Unit := writeInstruction broadcast InstructionId.reboot 0 .nothing

/-- `CLEAR_REVOLUTION_COUNT`, `src/instructions/clear.rs:5`. -/
def clearRevolutionCountParameters : List Byte := [0x01#8, 0x44#8, 0x58#8, 0x4C#8, 0x22#8]

/-- `CLEAR_ERROR`, `src/instructions/clear.rs:10`. -/
def clearErrorParameters : List Byte := [0x01#8, 0x45#8, 0x52#8, 0x43#8, 0x4C#8]

/-- `clear_revolution_count_parameters` and `clear_error_parameters`, `src/instructions/clear.rs:80-88`. -/
def constEncoder (bytes : List Byte) : Encoder := ⟨copyFromSlice bytes, KeepsLength.copyFromSlice bytes⟩

/-- `Client::clear_revolution_counter`, `src/instructions/clear.rs:27-35`. -/
def clearRevolutionCounter (motorId : Byte) : SO Bus TransferError (Response Unit) :=
  instruct motorId InstructionId.clear clearRevolutionCountParameters.length
    (constEncoder clearRevolutionCountParameters)

/-- `Client::broadcast_clear_revolution_counter`, `src/instructions/clear.rs:42-50`. -/
def broadcastClearRevolutionCounter : SO Bus WriteError Unit :=
  writeInstruction broadcast InstructionId.clear clearRevolutionCountParameters.length
    (constEncoder clearRevolutionCountParameters)

/-- `Client::clear_error`, `src/instructions/clear.rs:58-61`. -/
def clearError (motorId : Byte) : SO Bus TransferError (Response Unit) :=
  instruct motorId InstructionId.clear clearErrorParameters.length (constEncoder clearErrorParameters)

/-- `Client::broadcast_clear_error`, `src/instructions/clear.rs:69-77`. -/
def broadcastClearError : SO Bus WriteError Unit :=
  writeInstruction broadcast InstructionId.clear clearErrorParameters.length (constEncoder clearErrorParameters)

/-- `FactoryResetKind`, `src/instructions/factory_reset.rs:7-16`. -/
inductive FactoryResetKind where
  | resetAll
  | keepId
  | keepIdAndBaudRate
  deriving Repr, DecidableEq

/-- `kind as u8`, `src/instructions/factory_reset.rs:9-15`. -/
def FactoryResetKind.toByte : FactoryResetKind → Byte
  | .resetAll => 0xFF#8
  | .keepId => 0x01#8
  | .keepIdAndBaudRate => 0x02#8

/-- The encoder of `src/instructions/factory_reset.rs:41-44`. -/
def factoryResetEncoder (kind : FactoryResetKind) : Encoder := ⟨setIdx 0 kind.toByte, KeepsLength.setIdx 0 _⟩

/-- `Client::factory_reset`, `src/instructions/factory_reset.rs:40-46`. -/
def factoryReset (motorId : Byte) (kind : FactoryResetKind) : SO Bus TransferError (Response Unit) :=
  instruct motorId InstructionId.factoryReset 1 (factoryResetEncoder kind)

/-- `Client::broadcast_factory_reset`, `src/instructions/factory_reset.rs:59-65`. -/
def broadcastFactoryReset (kind : FactoryResetKind) : SO Bus WriteError Unit :=
  writeInstruction broadcast InstructionId.factoryReset 1 (factoryResetEncoder kind)

/-- The encoder of `src/instructions/read.rs:13-17`. -/
def readEncoder (address count : U16) : Encoder where
  run := do
    onSliceFrom 0 (writeU16Le address)
    onSliceFrom 2 (writeU16Le count)
  length_eq := KeepsLength.bind (.onSliceFrom _ (.writeU16Le _)) fun _ => .onSliceFrom _ (.writeU16Le _)

/-- `Client::read_raw`, `src/instructions/read.rs:12-20`. -/
def readRaw (motorId : Byte) (address count : U16) : SO Bus TransferError StatusPacket := do
  let response ← transferSingle motorId InstructionId.read 4 count (readEncoder address count)
  let parameters ← SO.lift response.parameters
  SO.lift ((checkCount parameters.length count.toNat).mapErr fun e => .readError (.invalidMessage e))
  pure response

/-- `Client::read_bytes`, `src/instructions/read.rs:26-32`, with `T` a byte container. -/
def readBytes (motorId : Byte) (address count : U16) : SO Bus TransferError (Response (List Byte)) := do
  let status ← readRaw motorId address count
  SO.lift ((decodeStatusPacketBytes status).mapErr fun e => .readError (.motorError e))

/-- `Client::read`, `src/instructions/read.rs:40-46`. -/
def read {α : Type} (d : DataTy α) (motorId : Byte) (address : U16) : SO Bus TransferError (Response α) := do
  let status ← readRaw motorId address d.size
  SO.lift ((decodeStatusPacket d status).mapErr .readError)

/-- The encoder of `src/instructions/write.rs:16-20` and `src/instructions/reg_write.rs:39-42`. -/
def writeEncoder {α : Type} (d : DataTy α) (address : U16) (data : α) : Encoder where
  run := do
    onSliceFrom 0 (writeU16Le address)
    onSliceFrom 2 (d.encode data)
  length_eq := KeepsLength.bind (.onSliceFrom _ (.writeU16Le _)) fun _ => .onSliceFrom _ (d.encode_length _)

/-- `Client::write`, `src/instructions/write.rs:15-22`. -/
def write {α : Type} (d : DataTy α) (motorId : Byte) (address : U16) (data : α) :
    SO Bus TransferError (Response Unit) :=
  instruct motorId InstructionId.write (2 + d.size.toNat) (writeEncoder d address data)

/-- The encoder of `src/instructions/write.rs:29-33` and `src/instructions/reg_write.rs:21-25`. -/
def writeBytesEncoder (address : U16) (data : List Byte) : Encoder where
  run := do
    onSliceFrom 0 (writeU16Le address)
    onSliceFrom 2 (copyFromSlice data)
  length_eq := KeepsLength.bind (.onSliceFrom _ (.writeU16Le _)) fun _ => .onSliceFrom _ (.copyFromSlice _)

/-- `Client::write_bytes`, `src/instructions/write.rs:28-35`. -/
def writeBytes (motorId : Byte) (address : U16) (data : List Byte) : SO Bus TransferError (Response Unit) :=
  instruct motorId InstructionId.write (2 + data.length) (writeBytesEncoder address data)

/-- `Client::reg_write_bytes`, `src/instructions/reg_write.rs:20-27`. -/
def regWriteBytes (motorId : Byte) (address : U16) (data : List Byte) : SO Bus TransferError (Response Unit) :=
  instruct motorId InstructionId.regWrite (2 + data.length) (writeBytesEncoder address data)

/-- `Client::reg_write`, `src/instructions/reg_write.rs:38-44`. The parameter count is `2 + 1` in the code. -/
def regWrite {α : Type} (d : DataTy α) (motorId : Byte) (address : U16) (value : α) :
    SO Bus TransferError (Response Unit) :=
  instruct motorId InstructionId.regWrite (2 + 1) (writeEncoder d address value)

/-- `Ping`, `src/instructions/ping.rs:9-17`. -/
structure Ping where
  model : U16
  firmware : Byte
  deriving Repr, DecidableEq

/-- `TryFrom<StatusPacket> for Response<Ping>`, `src/instructions/ping.rs:19-34`. -/
def toPingResponse (s : StatusPacket) : Outcome InvalidMessage (Response Ping) := do
  let parameters ← s.parameters
  checkCount parameters.length 3
  let motorId ← s.packetId
  let alert ← s.alert
  let model ← readU16Le (← sliceFrom parameters 0)
  let firmware ← readU8Le (← sliceFrom parameters 2)
  pure { motorId, alert, data := { model, firmware } }

/-- `Client::ping`, `src/instructions/ping.rs:45-48`. -/
def ping (motorId : Byte) : SO Bus TransferError (Response Ping) := do
  let response ← transferSingle motorId InstructionId.ping 0 3#16 .nothing
  SO.lift ((toPingResponse response).mapErr fun e => .readError (.invalidMessage e))

/-- `Client::scan`, `src/instructions/ping.rs:51-54`. The `Scan` object only wraps the client. -/
def scan : SO Bus WriteError Unit := writeInstruction broadcast InstructionId.ping 0 .nothing

/-- `Scan::next_response`, `src/instructions/ping.rs:103-109`. -/
def scanNextResponse : SO Bus ReadError (Response Ping) := do
  let b ← SO.get
  let responseTime ← SO.lift (messageTransferTime 14 b.baudRate)
  let response ← readStatusResponseTimeout (responseTime * 253 + flatTimeout)
  SO.lift ((toPingResponse response).mapErr .invalidMessage)

end Client

/-- Turn the result of fallible code into a value (a Rust `match` on a `Result`, for example in
`src/instructions/ping.rs:93-100`); panics still propagate. -/
def SO.attempt {σ ε ε' α : Type} (m : SO σ ε α) : SO σ ε' (Except ε α) := fun s =>
  match m s with
  | (s', .ok a) => (s', .ok (.ok a))
  | (s', .err e) => (s', .ok (.error e))
  | (s', .panic) => (s', .panic)
  | (s', .hang) => (s', .hang)

namespace Client

/-- `Scan::scan_next` and `Iterator::next` of `Scan`, `src/instructions/ping.rs:91-101, 129-131`. -/
def scanNext {ε : Type} : SO Bus ε (Option (Except ReadError (Response Ping))) := do
  match ← scanNextResponse.attempt with
  | .ok response => pure (some (.ok response))
  | .error (.io e) => if e.isTimeout then pure none else pure (some (.error (.io e)))
  | .error e => pure (some (.error e))

/-- `Drop for Scan`, `src/instructions/ping.rs:117-119`, with a bound on the number of iterations. -/
def scanDrop {ε : Type} : (fuel : Nat) → SO Bus ε Unit
  | 0 => SO.hang
  | fuel + 1 => do
    match ← scanNext with
    | some _ => scanDrop fuel
    | none => pure ()

/-- The encoder of `sync_read_bytes`, `sync_read_bytes_borrow` and `sync_read`,
`src/instructions/sync_read.rs:24-29, 50-55, 73-78`. -/
def syncReadEncoder (address count : U16) (motorIds : List Byte) : Encoder where
  run := do
    onSliceFrom 0 (writeU16Le address)
    onSliceFrom 2 (writeU16Le count)
    onSliceFrom 4 (copyFromSlice motorIds)
  length_eq := KeepsLength.bind (.onSliceFrom _ (.writeU16Le _)) fun _ =>
    .bind (.onSliceFrom _ (.writeU16Le _)) fun _ => .onSliceFrom _ (.copyFromSlice _)

/-- `Client::sync_read_bytes` and `Client::sync_read_bytes_borrow` up to the creation of the iterator,
`src/instructions/sync_read.rs:15-38, 41-64`. -/
def syncReadBytes (motorIds : List Byte) (address count : U16) : SO Bus WriteError Unit :=
  writeInstruction broadcast InstructionId.syncRead (4 + motorIds.length) (syncReadEncoder address count motorIds)

/-- `Client::sync_read` up to the creation of the iterator, `src/instructions/sync_read.rs:67-86`. -/
def syncRead {α : Type} (d : DataTy α) (motorIds : List Byte) (address : U16) : SO Bus WriteError Unit :=
  writeInstruction broadcast InstructionId.syncRead (4 + motorIds.length) (syncReadEncoder address d.size motorIds)

end Client

/-- `SyncReadBytes` and `SyncRead`, `src/instructions/sync_read.rs:92-103, 221-231`.
For `SyncRead<T>`, `count` is `T::ENCODED_SIZE`. -/
structure SyncIter where
  client : Bus
  count : U16
  motorIds : List Byte
  index : Nat
  deriving Repr, DecidableEq

namespace SyncIter

/-- Run code on the client, `src/instructions/sync_read.rs:137`. -/
def onClient {ε α : Type} (m : SO Bus ε α) : SO SyncIter ε α :=
  SO.zoom SyncIter.client (fun b s => { s with client := b }) m

/-- `remaining`, `src/instructions/sync_read.rs:166-168, 293-295`. -/
def remaining {ε : Type} (s : SyncIter) : Outcome ε Nat :=
  if s.index ≤ s.motorIds.length then .ok (s.motorIds.length - s.index) else .panic

/-- `pop_motor_id`, `src/instructions/sync_read.rs:188-192, 306-310`. -/
def popMotorId {ε : Type} : SO SyncIter ε (Option Byte) := fun s =>
  match s.motorIds[s.index]? with
  | none => (s, .ok none)
  | some id => ({ s with index := s.index + 1 }, .ok (some id))

/-- The checks common to all `next_response` functions: `src/instructions/sync_read.rs:201-202, 213-214, 316-317`
and `src/instructions/bulk_read.rs:190-191, 203-204`. -/
def checkResponse (response : StatusPacket) (motorId : Byte) (count : U16) : Outcome ReadError Unit := do
  let actual ← response.packetId
  (checkPacketId actual motorId).mapErr .invalidMessage
  let parameters ← response.parameters
  (checkCount parameters.length count.toNat).mapErr .invalidMessage

/-- `SyncReadBytes::next_response` and `next_response_borrow`, `src/instructions/sync_read.rs:194-216`. -/
def nextResponseBytes (motorId : Byte) : SO SyncIter ReadError (Response (List Byte)) := do
  let s ← SO.get
  let response ← onClient (Client.readStatusResponse s.count)
  SO.lift (checkResponse response motorId s.count)
  SO.lift ((decodeStatusPacketBytes response).mapErr .motorError)

/-- `SyncReadBytes::read_next`, `read_next_borrow` and `Iterator::next`, `src/instructions/sync_read.rs:150-186`. -/
def nextBytes {ε : Type} : SO SyncIter ε (Option (Except ReadError (Response (List Byte)))) := do
  match ← popMotorId with
  | none => pure none
  | some id =>
    let r ← (nextResponseBytes id).attempt
    pure (some r)

/-- `SyncRead::next_response`, `src/instructions/sync_read.rs:312-320`. -/
def nextResponse {α : Type} (d : DataTy α) (motorId : Byte) : SO SyncIter ReadError (Response α) := do
  let response ← onClient (Client.readStatusResponse d.size)
  SO.lift (checkResponse response motorId d.size)
  SO.lift (decodeStatusPacket d response)

/-- `SyncRead::read_next` and `Iterator::next`, `src/instructions/sync_read.rs:277-304`. -/
def next {α : Type} (d : DataTy α) {ε : Type} : SO SyncIter ε (Option (Except ReadError (Response α))) := do
  match ← popMotorId with
  | none => pure none
  | some id =>
    let r ← (nextResponse d id).attempt
    pure (some r)

/-- `Drop for SyncReadBytes`, `src/instructions/sync_read.rs:135-139`, with a bound on the iterations. -/
def dropBytes {ε : Type} : (fuel : Nat) → SO SyncIter ε Unit
  | 0 => SO.hang
  | fuel + 1 => do
    match ← popMotorId with
    | none => pure ()
    | some _ =>
      let s ← SO.get
      let _ ← (onClient (Client.readStatusResponse s.count)).attempt
      dropBytes fuel

/-- `Drop for SyncRead`, `src/instructions/sync_read.rs:264-266`, with a bound on the iterations. -/
def drop {α : Type} (d : DataTy α) {ε : Type} : (fuel : Nat) → SO SyncIter ε Unit
  | 0 => SO.hang
  | fuel + 1 => do
    match ← next d with
    | none => pure ()
    | some _ => drop d fuel

end SyncIter

/-- `BulkReadData`, `src/instructions/mod.rs:92-101`. -/
structure BulkReadData where
  motorId : Byte
  address : U16
  count : U16
  deriving Repr, DecidableEq

namespace Client

/-- The nested loops of `write_bulk_read_instruction`, `src/instructions/bulk_read.rs:72-81`: is some motor ID used
at two indices `i < j`? -/
def hasDuplicateId : List BulkReadData → Bool
  | [] => false
  | r :: rest => rest.any (fun r' => r.motorId == r'.motorId) || hasDuplicateId rest

/-- The encoding loop of `write_bulk_read_instruction`, `src/instructions/bulk_read.rs:83-88`, from index `i`. -/
def bulkReadEncodeLoop : (i : Nat) → List BulkReadData → SO (List Byte) BufferTooSmall Unit
  | _, [] => pure ()
  | i, r :: rest => do
    onSlice (i * 5) (i * 5 + 5) (do
      onSliceFrom 0 (writeU8Le r.motorId)
      onSliceFrom 1 (writeU16Le r.address)
      onSliceFrom 3 (writeU16Le r.count))
    bulkReadEncodeLoop (i + 1) rest

theorem bulkReadEncodeLoop_length (reads : List BulkReadData) : ∀ i, KeepsLength (bulkReadEncodeLoop i reads) := by
  induction reads with
  | nil => intro i; exact .pure ()
  | cons r rest ih =>
    intro i
    exact .bind (.onSlice _ _ (.bind (.onSliceFrom _ (.writeU8Le _)) fun _ =>
      .bind (.onSliceFrom _ (.writeU16Le _)) fun _ => .onSliceFrom _ (.writeU16Le _))) fun _ => ih (i + 1)

/-- `write_bulk_read_instruction`, `src/instructions/bulk_read.rs:64-91`; `bulk_read_bytes` and
`bulk_read_bytes_borrow` (`src/instructions/bulk_read.rs:18-57`) up to the creation of the iterator. -/
def bulkReadBytes (reads : List BulkReadData) : SO Bus WriteError Unit :=
  if hasDuplicateId reads then SO.panic
  else writeInstruction broadcast InstructionId.bulkRead (5 * reads.length)
    ⟨bulkReadEncodeLoop 0 reads, bulkReadEncodeLoop_length reads 0⟩

end Client

/-- `BulkReadBytes`, `src/instructions/bulk_read.rs:94-103`. -/
structure BulkIter where
  client : Bus
  reads : List BulkReadData
  index : Nat
  deriving Repr, DecidableEq

namespace BulkIter

/-- Run code on the client, `src/instructions/bulk_read.rs:127`. -/
def onClient {ε α : Type} (m : SO Bus ε α) : SO BulkIter ε α :=
  SO.zoom BulkIter.client (fun b s => { s with client := b }) m

/-- `remaining`, `src/instructions/bulk_read.rs:155-157`. -/
def remaining {ε : Type} (s : BulkIter) : Outcome ε Nat :=
  if s.index ≤ s.reads.length then .ok (s.reads.length - s.index) else .panic

/-- `pop_bulk_read_data`, `src/instructions/bulk_read.rs:177-181`. -/
def pop {ε : Type} : SO BulkIter ε (Option BulkReadData) := fun s =>
  match s.reads[s.index]? with
  | none => (s, .ok none)
  | some r => ({ s with index := s.index + 1 }, .ok (some r))

/-- `next_response` and `next_response_borrow`, `src/instructions/bulk_read.rs:183-206`. -/
def nextResponse (motorId : Byte) (count : U16) : SO BulkIter ReadError (Response (List Byte)) := do
  let response ← onClient (Client.readStatusResponse count)
  SO.lift (SyncIter.checkResponse response motorId count)
  SO.lift ((decodeStatusPacketBytes response).mapErr .motorError)

/-- `read_next`, `read_next_borrow` and `Iterator::next`, `src/instructions/bulk_read.rs:140-175`. -/
def next {ε : Type} : SO BulkIter ε (Option (Except ReadError (Response (List Byte)))) := do
  match ← pop with
  | none => pure none
  | some r =>
    let x ← (nextResponse r.motorId r.count).attempt
    pure (some x)

/-- The loop of `Drop for BulkReadBytes`, `src/instructions/bulk_read.rs:126-128`. -/
def dropLoop {ε : Type} : List BulkReadData → SO BulkIter ε Unit
  | [] => pure ()
  | r :: rest => do
    let _ ← (onClient (Client.readStatusResponse r.count)).attempt
    dropLoop rest

/-- `Drop for BulkReadBytes`, `src/instructions/bulk_read.rs:125-129`. -/
def drop {ε : Type} : SO BulkIter ε Unit := do
  let s ← SO.get
  if s.index ≤ s.reads.length then dropLoop (s.reads.drop s.index) else SO.panic

end BulkIter

/-- `SyncWriteData`, `src/instructions/mod.rs:50-56`. -/
structure SyncWriteData (α : Type) where
  motorId : Byte
  data : α
  deriving Repr, DecidableEq

/-- `BulkWriteData` with byte data, `src/instructions/mod.rs:71-80`. -/
structure BulkWriteData where
  motorId : Byte
  address : U16
  data : List Byte
  deriving Repr, DecidableEq

namespace Client

/-- The loop of `sync_write_bytes`, `src/instructions/sync_write.rs:60-66`, from index `i`. -/
def syncWriteBytesLoop (count stride : Nat) :
    (i : Nat) → List (SyncWriteData (List Byte)) → SO (List Byte) BufferTooSmall Unit
  | _, [] => pure ()
  | i, c :: rest => do
    SO.assert (decide (c.data.length = count))
    onSlice (4 + i * stride) (4 + i * stride + stride) (do
      setIdx 0 c.motorId
      onSliceFrom 1 (copyFromSlice c.data))
    syncWriteBytesLoop count stride (i + 1) rest

theorem syncWriteBytesLoop_length (count stride : Nat) (l : List (SyncWriteData (List Byte))) :
    ∀ i, KeepsLength (syncWriteBytesLoop count stride i l) := by
  induction l with
  | nil => intro i; exact .pure ()
  | cons c rest ih =>
    intro i
    exact .bind (.assert _) fun _ => .bind (.onSlice _ _ (.bind (.setIdx _ _) fun _ =>
      .onSliceFrom _ (.copyFromSlice _))) fun _ => ih (i + 1)

/-- The encoder of `sync_write_bytes`, `src/instructions/sync_write.rs:57-68`. -/
def syncWriteBytesEncoder (address count : U16) (data : List (SyncWriteData (List Byte))) : Encoder where
  run := do
    onSliceFrom 0 (writeU16Le address)
    onSliceFrom 2 (writeU16Le count)
    syncWriteBytesLoop count.toNat (1 + count.toNat) 0 data
  length_eq := KeepsLength.bind (.onSliceFrom _ (.writeU16Le _)) fun _ =>
    .bind (.onSliceFrom _ (.writeU16Le _)) fun _ => syncWriteBytesLoop_length _ _ data 0

/-- `Client::sync_write_bytes`, `src/instructions/sync_write.rs:41-69`. The iterator is a list. -/
def syncWriteBytes (address count : U16) (data : List (SyncWriteData (List Byte))) : SO Bus WriteError Unit :=
  writeInstruction broadcast InstructionId.syncWrite (4 + data.length * (1 + count.toNat))
    (syncWriteBytesEncoder address count data)

/-- The loop of `sync_write`, `src/instructions/sync_write.rs:90-95`, from index `i`. -/
def syncWriteLoop {α : Type} (d : DataTy α) (stride : Nat) :
    (i : Nat) → List (SyncWriteData α) → SO (List Byte) BufferTooSmall Unit
  | _, [] => pure ()
  | i, c :: rest => do
    onSlice (4 + i * stride) (4 + i * stride + stride) (do
      setIdx 0 c.motorId
      onSliceFrom 1 (d.encode c.data))
    syncWriteLoop d stride (i + 1) rest

theorem syncWriteLoop_length {α : Type} (d : DataTy α) (stride : Nat) (l : List (SyncWriteData α)) :
    ∀ i, KeepsLength (syncWriteLoop d stride i l) := by
  induction l with
  | nil => intro i; exact .pure ()
  | cons c rest ih =>
    intro i
    exact .bind (.onSlice _ _ (.bind (.setIdx _ _) fun _ =>
      .onSliceFrom _ (d.encode_length _))) fun _ => ih (i + 1)

/-- The encoder of `sync_write`, `src/instructions/sync_write.rs:87-97`. -/
def syncWriteEncoder {α : Type} (d : DataTy α) (address : U16) (count : Nat) (data : List (SyncWriteData α)) :
    Encoder where
  run := do
    onSliceFrom 0 (writeU16Le address)
    onSliceFrom 2 (writeU16Le (BitVec.ofNat 16 count))
    syncWriteLoop d (1 + count) 0 data
  length_eq := KeepsLength.bind (.onSliceFrom _ (.writeU16Le _)) fun _ =>
    .bind (.onSliceFrom _ (.writeU16Le _)) fun _ => syncWriteLoop_length d _ data 0

/-- `Client::sync_write`, `src/instructions/sync_write.rs:75-98`. The count is `size_of::<u8>()` in the code. -/
def syncWrite {α : Type} (d : DataTy α) (address : U16) (data : List (SyncWriteData α)) : SO Bus WriteError Unit :=
  let count := 1
  writeInstruction broadcast InstructionId.syncWrite (4 + data.length * (1 + count))
    (syncWriteEncoder d address count data)

/-- The first loop of `bulk_write`, `src/instructions/bulk_write.rs:58-71`. -/
def bulkWriteCount {ε : Type} : List BulkWriteData → (parameterCount : Nat) → Outcome ε Nat
  | [], parameterCount => .ok parameterCount
  | w :: rest, parameterCount =>
    if w.data.length > 65535 then .panic
    else bulkWriteCount rest (parameterCount + (5 + w.data.length))

/-- The encoding loop of `bulk_write`, `src/instructions/bulk_write.rs:75-84`. -/
def bulkWriteLoop : (offset : Nat) → List BulkWriteData → SO (List Byte) BufferTooSmall Unit
  | _, [] => pure ()
  | offset, w :: rest => do
    onSliceFrom offset (do
      onSliceFrom 0 (writeU8Le w.motorId)
      onSliceFrom 1 (writeU16Le w.address)
      onSliceFrom 3 (writeU16Le (BitVec.ofNat 16 w.data.length))
      onSlice 5 (5 + w.data.length) (copyFromSlice w.data))
    bulkWriteLoop (offset + (5 + w.data.length)) rest

theorem bulkWriteLoop_length (l : List BulkWriteData) : ∀ offset, KeepsLength (bulkWriteLoop offset l) := by
  induction l with
  | nil => intro i; exact .pure ()
  | cons c rest ih =>
    intro i
    exact .bind (.onSliceFrom _ (.bind (.onSliceFrom _ (.writeU8Le _)) fun _ =>
      .bind (.onSliceFrom _ (.writeU16Le _)) fun _ => .bind (.onSliceFrom _ (.writeU16Le _)) fun _ =>
        .onSlice _ _ (.copyFromSlice _))) fun _ => ih _

/-- `Client::bulk_write`, `src/instructions/bulk_write.rs:48-87`. -/
def bulkWrite (writes : List BulkWriteData) : SO Bus WriteError Unit := do
  let parameterCount ← SO.lift (bulkWriteCount writes 0)
  writeInstruction broadcast InstructionId.bulkWrite parameterCount
    ⟨bulkWriteLoop 0 writes, bulkWriteLoop_length writes 0⟩

end Client
end Dxl
