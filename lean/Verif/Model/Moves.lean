import Verif.Model.Bus

/-! # Reading with a count of the bytes that are moved in the read buffer

Every `copy_within` of the read buffer is in `consume_read_bytes`. Here the reader is repeated with a counter next to the bus: the
number of bytes those calls moved. Nothing else differs (`c103_same`). -/

namespace Dxl
namespace Moves

/-- Code that moves nothing, for example `src/bus/mod.rs:256-261`. -/
def onBus {ε α : Type} (m : SO Bus ε α) : SO (Bus × Nat) ε α := SO.zoom Prod.fst (fun b s => (b, s.2)) m

/-- `Bus::consume_read_bytes`, `src/bus/mod.rs:313-321`: `copy_within(len..read_len, 0)` moves `read_len - len` bytes, also if
`len` is 0. -/
def consumeReadBytes {ε : Type} (len : Nat) : SO (Bus × Nat) ε Unit := do
  let (b, _) ← SO.get
  onBus (Bus.consumeReadBytes len)
  SO.modify fun (c, moved) => (c, moved + (b.readLen - len))

/-- `Bus::remove_garbage`, `src/bus/mod.rs:302-311`. -/
def removeGarbage {ε : Type} : SO (Bus × Nat) ε Unit := do
  let (b, _) ← SO.get
  let valid ← SO.lift (slice b.readBuffer 0 b.readLen)
  let pending ← SO.lift (sliceFrom valid b.usedBytes)
  let garbageLen := Bus.findHeader pending
  consumeReadBytes (b.usedBytes + garbageLen)
  let (b, _) ← SO.get
  onBus (Bus.debugAssert (decide (b.usedBytes = 0)))

/-- `src/bus/mod.rs:241-253`, as `Bus.messageReady`. -/
def messageReady : SO (Bus × Nat) ReadError (Option Nat) := do
  let (b, _) ← SO.get
  if b.readLen > headerSize then
    let readBuffer ← SO.lift (slice b.readBuffer 0 b.readLen)
    let lenBytes ← SO.lift (sliceFrom readBuffer 5)
    let bodyLen ← SO.lift (readU16Le lenBytes)
    match BufferTooSmall.check (headerSize + bodyLen.toNat) b.readBuffer.length with
    | .err e =>
      consumeReadBytes headerSize
      SO.throw (.bufferFull e)
    | _ =>
      if b.readLen ≥ headerSize + bodyLen.toNat then pure (some (headerSize + bodyLen.toNat))
      else pure none
  else pure none

/-- The loop in `Bus::read_packet_deadline`, `src/bus/mod.rs:236-262`; `fuel` as for `Bus.readLoop`. -/
def readLoop (deadline : Nat) : (fuel : Nat) → SO (Bus × Nat) ReadError Nat
  | 0 => SO.hang
  | fuel + 1 => do
    removeGarbage
    match ← messageReady with
    | some n => pure n
    | none =>
      onBus (Bus.readMore deadline)
      readLoop deadline fuel

/-- The rest of `Bus::read_packet_deadline`, `src/bus/mod.rs:264-298`. -/
def finishPacket (stuffedMessageLen : Nat) : SO (Bus × Nat) ReadError Packet := do
  let (b, _) ← SO.get
  let parametersEnd := stuffedMessageLen - 2
  let crcBytes ← SO.lift (sliceFrom b.readBuffer parametersEnd)
  let checksumMessage ← SO.lift (readU16Le crcBytes)
  let summed ← SO.lift (slice b.readBuffer 0 parametersEnd)
  let checksumComputed ← SO.lift (calculateChecksum 0#16 summed)
  if checksumMessage ≠ checksumComputed then
    consumeReadBytes stuffedMessageLen
    SO.throw (.invalidMessage (.checksum checksumMessage checksumComputed))
  else
    onBus do
      SO.modify fun b => { b with usedBytes := b.usedBytes + stuffedMessageLen }
      let parameterCount ← Bus.onReadBuffer (onSlice headerSize parametersEnd unstuffInplace)
      let b ← SO.get
      let data ← SO.lift (slice b.readBuffer 0 (headerSize + parameterCount))
      let packet : Packet := ⟨data⟩
      let instruction ← SO.lift packet.instructionId
      if instruction = InstructionId.status ∧ parameterCount < 1 then
        SO.throw (.invalidMessage (.parameterCount 0 (.min 1)))
      else pure packet

/-- `Bus::read_packet_deadline`, `src/bus/mod.rs:232-299`. -/
def readPacketDeadline (deadline : Nat) : SO (Bus × Nat) ReadError Packet := do
  let (b, _) ← SO.get
  SO.lift ((BufferTooSmall.check (headerSize + 3) b.readBuffer.length).mapErr .bufferFull)
  let stuffedMessageLen ← readLoop deadline (b.serialPort.measure + 1)
  finishPacket stuffedMessageLen

end Moves
end Dxl
