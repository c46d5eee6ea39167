import Verif.Model.Instructions
import Verif.Model.Display

/-! # What the library logs

The functions with log statements once more, with these statements. `Props/Log.lean` shows that they do the same as those without. The
arguments of the log statements are always evaluated, as they are with the feature `log` at the most verbose level, and without
the feature (`src/log.rs:36-72`: `format_args!` evaluates its arguments). With the feature at other levels they are not
evaluated, and the line is not produced. -/

namespace Dxl

/-- The log statements of the library. -/
inductive LogLine where
  /-- `src/bus/mod.rs:226`, at level trace -/
  | sending (packet : List Byte)
  /-- `src/bus/mod.rs:266`, at level trace -/
  | read (packet : List Byte)
  /-- `src/bus/mod.rs:306`, at level debug -/
  | skipping (count : Nat)
  /-- `src/bus/mod.rs:307`, at level trace -/
  | skipped (garbage : List Byte)
  /-- `src/instructions/ping.rs:96`, at level trace -/
  | pingTimedOut
  deriving Repr, DecidableEq

/-- `{:02X?}` of a slice of bytes, `src/bus/mod.rs:226, 266, 307`. -/
def Fmt.hexList (bytes : List Byte) : List Char := Fmt.debugList (bytes.map fun b => Fmt.upperHex 2 b.toNat)

/-- The texts, `src/bus/mod.rs:226, 266, 306-307`, `src/instructions/ping.rs:96`. -/
def LogLine.text : LogLine → List Char
  | .sending packet => "sending packet: ".toList ++ Fmt.hexList packet
  | .read packet => "read packet: ".toList ++ Fmt.hexList packet
  | .skipping count => "skipping ".toList ++ Fmt.decimal count ++ " bytes of leading garbage.".toList
  | .skipped garbage => "skipped garbage: ".toList ++ Fmt.hexList garbage
  | .pingTimedOut => "Ping response timed out.".toList

/-- A bus and what was logged, oldest first; the log is that of the crate `log`, `src/log.rs:1-34`. -/
structure Logged where
  bus : Bus
  log : List LogLine
  deriving Repr, DecidableEq

namespace Logged

/-- Code without log statements, for example `src/bus/mod.rs:193-223`. -/
def onBus {ε α : Type} (m : SO Bus ε α) : SO Logged ε α :=
  SO.zoom Logged.bus (fun b l => { l with bus := b }) m

/-- `trace!` or `debug!`, `src/log.rs:5-15`. -/
def emit {ε : Type} (line : LogLine) : SO Logged ε Unit := SO.modify fun l => { l with log := l.log ++ [line] }

/-- `Bus::write_packet` up to `stuffed_message`, `src/bus/mod.rs:183-225`: the same code as in `Bus.writePacket`. -/
def assemble (packetId instructionId : Byte) (parameterCount : Nat) (encode : Encoder) : SO Bus WriteError (List Byte) := do
  let b ← SO.get
  let bufferLen := b.writeBuffer.length
  SO.lift ((BufferTooSmall.check (InstructionPacket.messageLen parameterCount) bufferLen).mapErr .bufferTooSmall)
  Bus.onWriteBuffer (setIdx 4 packetId)
  Bus.onWriteBuffer (setIdx 5 0#8)
  Bus.onWriteBuffer (setIdx 6 0#8)
  Bus.onWriteBuffer (setIdx 7 instructionId)
  Bus.onWriteBuffer ((onSlice 8 (8 + parameterCount) encode.run).mapErr .bufferTooSmall)
  let stuffedBodyLen ← Bus.onWriteBuffer
    ((onSliceFrom headerSize (stuffInplace b.debug (1 + parameterCount))).mapErr .bufferTooSmall)
  let len ← SO.lift (Bus.lengthField b.debug stuffedBodyLen)
  Bus.onWriteBuffer (onSliceFrom 5 (writeU16Le len))
  let checksumIndex := headerSize + stuffedBodyLen
  let buffer := (← SO.get).writeBuffer
  let summed ← SO.lift (slice buffer 0 checksumIndex)
  let checksum ← SO.lift (calculateChecksum 0#16 summed)
  Bus.onWriteBuffer (onSliceFrom checksumIndex (writeU16Le checksum))
  SO.modify fun b => { b with readLen := 0, usedBytes := 0 }
  Bus.onPort (Port.discardInputBuffer.mapErr .discardBuffer)
  let buffer := (← SO.get).writeBuffer
  SO.lift (slice buffer 0 (checksumIndex + 2))

/-- `Bus::write_packet`, `src/bus/mod.rs:183-229`. -/
def writePacket (packetId instructionId : Byte) (parameterCount : Nat) (encode : Encoder) : SO Logged WriteError Unit := do
  let stuffedMessage ← onBus (assemble packetId instructionId parameterCount encode)
  emit (.sending stuffedMessage)
  onBus (Bus.onPort ((Port.writeAll stuffedMessage).mapErr .write))

/-- `Bus::remove_garbage`, `src/bus/mod.rs:302-311`. -/
def removeGarbage {ε : Type} : SO Logged ε Unit := do
  let l ← SO.get
  let b := l.bus
  let valid ← SO.lift (slice b.readBuffer 0 b.readLen)
  let pending ← SO.lift (sliceFrom valid b.usedBytes)
  let garbageLen := Bus.findHeader pending
  if garbageLen > 0 then
    emit (.skipping garbageLen)
    let garbage ← SO.lift (slice b.readBuffer 0 garbageLen)
    emit (.skipped garbage)
  onBus (Bus.consumeReadBytes (b.usedBytes + garbageLen))
  onBus (do
    let b ← SO.get
    Bus.debugAssert (decide (b.usedBytes = 0)))

/-- The loop in `Bus::read_packet_deadline`, `src/bus/mod.rs:236-262`. -/
def readLoop (deadline : Nat) : (fuel : Nat) → SO Logged ReadError Nat
  | 0 => SO.hang
  | fuel + 1 => do
    removeGarbage
    match ← onBus Bus.messageReady with
    | some n => pure n
    | none =>
      onBus (Bus.readMore deadline)
      readLoop deadline fuel

/-- `Bus::read_packet_deadline`, `src/bus/mod.rs:232-299`. -/
def readPacketDeadline (deadline : Nat) : SO Logged ReadError Packet := do
  let l ← SO.get
  SO.lift ((BufferTooSmall.check (headerSize + 3) l.bus.readBuffer.length).mapErr .bufferFull)
  let stuffedMessageLen ← readLoop deadline (l.bus.serialPort.measure + 1)
  let l ← SO.get
  let shown ← SO.lift (slice l.bus.readBuffer 0 (stuffedMessageLen - 2))
  emit (.read shown)
  onBus (Bus.finishPacket stuffedMessageLen)

/-- `Client::read_status_response_timeout`, `src/client.rs:177-193`. -/
def readStatusResponseTimeout (timeout : Nat) : SO Logged ReadError StatusPacket := do
  let l ← SO.get
  let packet ← readPacketDeadline (l.bus.serialPort.makeDeadline timeout)
  SO.lift (Client.checkStatus packet)

/-- `Client::read_status_response`, `src/client.rs:198-203`. -/
def readStatusResponse (expectedParameters : U16) : SO Logged ReadError StatusPacket := do
  let l ← SO.get
  let messageSize := StatusPacket.messageLen expectedParameters.toNat % 2 ^ 32
  let time ← SO.lift (messageTransferTime messageSize l.bus.baudRate)
  readStatusResponseTimeout (time + Client.flatTimeout)

/-- `Client::transfer_single`, `src/client.rs:144-159`. -/
def transferSingle (packetId instructionId : Byte) (parameterCount : Nat) (expectedResponseParameters : U16)
    (encode : Encoder) : SO Logged TransferError StatusPacket := do
  (writePacket packetId instructionId parameterCount encode).mapErr .writeError
  let response ← (readStatusResponse expectedResponseParameters).mapErr .readError
  let actual ← SO.lift response.packetId
  SO.lift ((checkPacketId actual packetId).mapErr fun e => .readError (.invalidMessage e))
  pure response

/-- `read_response_if_not_broadcast`, `src/instructions/mod.rs:106-123`. -/
def readResponseIfNotBroadcast (motorId : Byte) : SO Logged ReadError (Response Unit) :=
  if motorId = broadcast then pure { motorId := broadcast, alert := false, data := () }
  else do
    let s ← readStatusResponse 0#16
    SO.lift (s.toEmptyResponse.mapErr .invalidMessage)

/-- The common shape of the write-like instructions, for example `src/instructions/reboot.rs:20-21`; see `Client.instruct`. -/
def instruct (motorId instructionId : Byte) (parameterCount : Nat) (encode : Encoder) :
    SO Logged TransferError (Response Unit) := do
  (writePacket motorId instructionId parameterCount encode).mapErr .writeError
  (readResponseIfNotBroadcast motorId).mapErr .readError

/-- `Client::reboot`, `src/instructions/reboot.rs:19-22`. -/
def reboot (motorId : Byte) : SO Logged TransferError (Response Unit) :=
  instruct motorId InstructionId.reboot 0 .nothing

/-- `Client::read_raw`, `src/instructions/read.rs:12-20`. -/
def readRaw (motorId : Byte) (address count : U16) : SO Logged TransferError StatusPacket := do
  let response ← transferSingle motorId InstructionId.read 4 count (Client.readEncoder address count)
  let parameters ← SO.lift response.parameters
  SO.lift ((checkCount parameters.length count.toNat).mapErr fun e => .readError (.invalidMessage e))
  pure response

/-- `Client::read_bytes`, `src/instructions/read.rs:26-32`. -/
def readBytes (motorId : Byte) (address count : U16) : SO Logged TransferError (Response (List Byte)) := do
  let status ← readRaw motorId address count
  SO.lift ((decodeStatusPacketBytes status).mapErr fun e => .readError (.motorError e))

/-- `Client::read`, `src/instructions/read.rs:40-46`. -/
def read {α : Type} (d : DataTy α) (motorId : Byte) (address : U16) : SO Logged TransferError (Response α) := do
  let status ← readRaw motorId address d.size
  SO.lift ((decodeStatusPacket d status).mapErr .readError)

/-- `Client::write`, `src/instructions/write.rs:15-22`. -/
def write {α : Type} (d : DataTy α) (motorId : Byte) (address : U16) (data : α) :
    SO Logged TransferError (Response Unit) :=
  instruct motorId InstructionId.write (2 + d.size.toNat) (Client.writeEncoder d address data)

/-- `Client::write_bytes`, `src/instructions/write.rs:28-35`. -/
def writeBytes (motorId : Byte) (address : U16) (data : List Byte) : SO Logged TransferError (Response Unit) :=
  instruct motorId InstructionId.write (2 + data.length) (Client.writeBytesEncoder address data)

/-- `Client::ping`, `src/instructions/ping.rs:45-48`. -/
def ping (motorId : Byte) : SO Logged TransferError (Response Client.Ping) := do
  let response ← transferSingle motorId InstructionId.ping 0 3#16 .nothing
  SO.lift ((Client.toPingResponse response).mapErr fun e => .readError (.invalidMessage e))

/-- `Client::scan`, `src/instructions/ping.rs:51-54`. -/
def scan : SO Logged WriteError Unit := writePacket broadcast InstructionId.ping 0 .nothing

/-- `Scan::next_response`, `src/instructions/ping.rs:103-109`. -/
def scanNextResponse : SO Logged ReadError (Response Client.Ping) := do
  let l ← SO.get
  let responseTime ← SO.lift (messageTransferTime 14 l.bus.baudRate)
  let response ← readStatusResponseTimeout (responseTime * 253 + Client.flatTimeout)
  SO.lift ((Client.toPingResponse response).mapErr .invalidMessage)

/-- `Scan::scan_next`, `src/instructions/ping.rs:91-101`. -/
def scanNext {ε : Type} : SO Logged ε (Option (Except ReadError (Response Client.Ping))) := do
  match ← scanNextResponse.attempt with
  | .ok response => pure (some (.ok response))
  | .error (.io e) =>
    if e.isTimeout then
      emit .pingTimedOut
      pure none
    else pure (some (.error (.io e)))
  | .error e => pure (some (.error e))

/-- `Drop for Scan`, `src/instructions/ping.rs:117-119`, with a bound on the number of iterations. -/
def scanDrop {ε : Type} : (fuel : Nat) → SO Logged ε Unit
  | 0 => SO.hang
  | fuel + 1 => do
    match ← scanNext with
    | some _ => scanDrop fuel
    | none => pure ()

end Logged
end Dxl
