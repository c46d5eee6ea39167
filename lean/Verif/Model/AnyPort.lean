import Verif.Model.Device
import Verif.Model.Words

/-! # Any implementation of `SerialPort`

The rest of the model uses a serial port that keeps the contract of the trait and is described by a script (`Model/Port.lean`).
`SerialPort` is a safe, public trait, so a caller can bring any implementation of it: one that says it read more bytes than fit in
the slice, writes to the rest of the slice, returns `Ok(0)` for ever, ignores deadlines, panics, or does not return. Here the
functions that call the port are repeated for an arbitrary implementation. -/

namespace Dxl

/-- An implementation of `SerialPort`, `src/serial_port/mod.rs:11-38`: any types and any functions. The methods with `&self` may
change the state too (interior mutability). `err` of `makeDeadline` can not happen: there is no value of `Empty`. -/
structure PortImpl where
  /-- The type that implements the trait. -/
  Port : Type
  Error : Type
  Instant : Type
  baudRate : SO Port Error Nat
  setBaudRate : Nat → SO Port Error Unit
  discardInputBuffer : SO Port Error Unit
  /-- `read` gets a slice, leaves new contents in it, and returns any `usize`. -/
  read : Instant → List Byte → Port → Port × List Byte × Outcome Error Nat
  /-- As with any Rust slice, `read` can not change the length of it. -/
  read_length : ∀ deadline slice port, (read deadline slice port).2.1.length = slice.length
  writeAll : List Byte → SO Port Error Unit
  makeDeadline : Nat → SO Port Empty Instant
  isTimeoutError : Error → Bool

/-- `WriteError`, `src/error.rs:16-25`. -/
inductive WriteErrorOf (E : Type) where
  | bufferTooSmall (e : BufferTooSmall)
  | discardBuffer (e : E)
  | write (e : E)
  deriving Repr, DecidableEq

/-- `ReadError`, `src/error.rs:42-59`. -/
inductive ReadErrorOf (E : Type) where
  | bufferFull (e : BufferTooSmall)
  | io (e : E)
  | invalidMessage (e : InvalidMessage)
  | motorError (e : MotorError)
  deriving Repr, DecidableEq

/-- `TransferError`, `src/error.rs:6-12`. -/
inductive TransferErrorOf (E : Type) where
  | writeError (e : WriteErrorOf E)
  | readError (e : ReadErrorOf E)
  deriving Repr, DecidableEq

/-- `Bus`, `src/bus/mod.rs:81-103`, with any serial port. The other fields are those of `rest`; the script port in there is never
used. -/
structure BusOf (P : PortImpl) where
  port : P.Port
  rest : Bus

namespace BusOf

variable {P : PortImpl}

/-- Run code on the serial port, `src/bus/mod.rs:87`. -/
def onPort {ε α : Type} (m : SO P.Port ε α) : SO (BusOf P) ε α :=
  SO.zoom BusOf.port (fun p b => { b with port := p }) m

/-- Run code that does not use the serial port, for example `src/bus/mod.rs:237`. -/
def onRest {ε α : Type} (m : SO Bus ε α) : SO (BusOf P) ε α :=
  SO.zoom BusOf.rest (fun r b => { b with rest := r }) m

/-- `Bus::set_baud_rate`, `src/bus/mod.rs:139-143`. -/
def setBaudRate (rate : Nat) : SO (BusOf P) P.Error Unit := do
  onPort (P.setBaudRate rate)
  onRest (SO.modify fun b => { b with baudRate := rate })

/-- `Bus::with_buffers`, `src/bus/mod.rs:114-117`. `unused` is the port in the other fields. -/
def withBuffers (debug : Bool) (unused : Port) (readBuffer writeBuffer : List Byte) : SO P.Port P.Error (BusOf P) := do
  let baudRate ← P.baudRate
  let rest ← SO.lift (Bus.withBuffersAndBaudRate debug unused readBuffer writeBuffer baudRate)
  fun port => (port, .ok { port, rest })

/-- The part of `Bus::write_packet` before it uses the port, `src/bus/mod.rs:193-221`; returns `checksum_index + 2`. -/
def preparePacket (packetId instructionId : Byte) (parameterCount : Nat) (encode : Encoder) :
    SO Bus BufferTooSmall Nat := do
  let b ← SO.get
  let bufferLen := b.writeBuffer.length
  SO.lift (BufferTooSmall.check (InstructionPacket.messageLen parameterCount) bufferLen)
  Bus.onWriteBuffer (setIdx 4 packetId)
  Bus.onWriteBuffer (setIdx 5 0#8)
  Bus.onWriteBuffer (setIdx 6 0#8)
  Bus.onWriteBuffer (setIdx 7 instructionId)
  Bus.onWriteBuffer (onSlice 8 (8 + parameterCount) encode.run)
  let stuffedBodyLen ← Bus.onWriteBuffer (onSliceFrom headerSize (stuffInplace b.debug (1 + parameterCount)))
  let len ← SO.lift (Bus.lengthField b.debug stuffedBodyLen)
  Bus.onWriteBuffer (onSliceFrom 5 (writeU16Le len))
  let checksumIndex := headerSize + stuffedBodyLen
  let buffer := (← SO.get).writeBuffer
  let summed ← SO.lift (slice buffer 0 checksumIndex)
  let checksum ← SO.lift (calculateChecksum 0#16 summed)
  Bus.onWriteBuffer (onSliceFrom checksumIndex (writeU16Le checksum))
  SO.modify fun b => { b with readLen := 0, usedBytes := 0 }
  pure (checksumIndex + 2)

/-- `Bus::write_packet`, `src/bus/mod.rs:183-229`. -/
def writePacket (packetId instructionId : Byte) (parameterCount : Nat) (encode : Encoder) :
    SO (BusOf P) (WriteErrorOf P.Error) Unit := do
  let messageEnd ← (onRest (preparePacket packetId instructionId parameterCount encode)).mapErr .bufferTooSmall
  onPort (P.discardInputBuffer.mapErr .discardBuffer)
  let buffer := (← SO.get).rest.writeBuffer
  let stuffedMessage ← SO.lift (slice buffer 0 messageEnd)
  onPort ((P.writeAll stuffedMessage).mapErr .write)

/-- `Bus::write_status`, `src/bus/mod.rs:146-166`. -/
def writeStatus (packetId error : Byte) (parameterCount : Nat) (encode : Encoder) :
    SO (BusOf P) (WriteErrorOf P.Error) Unit := do
  let b ← SO.get
  SO.lift ((BufferTooSmall.check (StatusPacket.messageLen parameterCount) b.rest.writeBuffer.length).mapErr .bufferTooSmall)
  writePacket packetId InstructionId.status (parameterCount + 1) (Bus.statusEncoder error encode)

/-- Reading more data into the buffer, `src/bus/mod.rs:256-261`. `self.read_len += new_data` is computed in `usize` of `w` bits: the
port may return any number. -/
def readMore (w : Nat) (deadline : P.Instant) : SO (BusOf P) (ReadErrorOf P.Error) Unit := fun b =>
  if b.rest.readLen ≤ b.rest.readBuffer.length then
    let r := P.read deadline (b.rest.readBuffer.drop b.rest.readLen) b.port
    let b : BusOf P := ⟨r.1, { b.rest with readBuffer := b.rest.readBuffer.take b.rest.readLen ++ r.2.1 }⟩
    (do
      let newData ← SO.lift (r.2.2.mapErr ReadErrorOf.io)
      let readLen ← SO.lift (usizeAdd w b.rest.debug b.rest.readLen newData)
      onRest (SO.modify fun r => { r with readLen := readLen })) b
  else (b, .panic)

/-- An error of the functions that do not use the port, as an error of those that do: `ReadError`, `src/error.rs:42-59`. They never
give `io`; what it is mapped to does not matter. -/
def readError {E : Type} : ReadError → ReadErrorOf E
  | .bufferFull e => .bufferFull e
  | .io _ => .bufferFull ⟨0, 0⟩
  | .invalidMessage e => .invalidMessage e
  | .motorError e => .motorError e

/-- The loop in `Bus::read_packet_deadline`, `src/bus/mod.rs:236-262`, with a bound on the iterations. -/
def readLoop (w : Nat) (deadline : P.Instant) : (fuel : Nat) → SO (BusOf P) (ReadErrorOf P.Error) Nat
  | 0 => SO.hang
  | fuel + 1 => do
    onRest Bus.removeGarbage
    match ← (onRest Bus.messageReady).mapErr readError with
    | some n => pure n
    | none =>
      readMore w deadline
      readLoop w deadline fuel

/-- `Bus::read_packet_deadline`, `src/bus/mod.rs:232-299`. `hang` with this `fuel` means that the loop has not ended after so many
iterations (or that the port does not return); it does not end at all if that is so for every `fuel`. -/
def readPacketDeadline (w : Nat) (deadline : P.Instant) (fuel : Nat) : SO (BusOf P) (ReadErrorOf P.Error) Packet := do
  let b ← SO.get
  SO.lift ((BufferTooSmall.check (headerSize + 3) b.rest.readBuffer.length).mapErr .bufferFull)
  let stuffedMessageLen ← readLoop w deadline fuel
  (onRest (Bus.finishPacket stuffedMessageLen)).mapErr readError

/-- `make_deadline`, called in `src/client.rs:178` and `src/device.rs:186`. -/
def makeDeadline (timeout : Nat) : SO (BusOf P) (ReadErrorOf P.Error) P.Instant :=
  onPort ((P.makeDeadline timeout).mapErr nofun)

/-- `Client::read_status_response_timeout`, `src/client.rs:177-193`. -/
def readStatusResponseTimeout (w timeout fuel : Nat) : SO (BusOf P) (ReadErrorOf P.Error) StatusPacket := do
  let deadline ← makeDeadline timeout
  let packet ← readPacketDeadline w deadline fuel
  SO.lift ((Client.checkStatus packet).mapErr readError)

/-- `Client::read_status_response`, `src/client.rs:198-203`. -/
def readStatusResponse (w : Nat) (expectedParameters : U16) (fuel : Nat) :
    SO (BusOf P) (ReadErrorOf P.Error) StatusPacket := do
  let b ← SO.get
  let messageSize := StatusPacket.messageLen expectedParameters.toNat % 2 ^ 32
  let time ← SO.lift (messageTransferTime messageSize b.rest.baudRate)
  readStatusResponseTimeout w (time + Client.flatTimeout) fuel

/-- `Client::transfer_single`, `src/client.rs:144-159`. -/
def transferSingle (w : Nat) (packetId instructionId : Byte) (parameterCount : Nat) (expectedResponseParameters : U16)
    (encode : Encoder) (fuel : Nat) : SO (BusOf P) (TransferErrorOf P.Error) StatusPacket := do
  (writePacket packetId instructionId parameterCount encode).mapErr .writeError
  let response ← (readStatusResponse w expectedResponseParameters fuel).mapErr .readError
  let actual ← SO.lift response.packetId
  SO.lift ((checkPacketId actual packetId).mapErr fun e => .readError (.invalidMessage e))
  pure response

/-- The loop of `read_raw_instruction_timeout`, `src/device.rs:187-198`. `fuel` bounds its iterations and those of the loop within. -/
def readRawLoop (w : Nat) (deadline : P.Instant) (fuel : Nat) : (n : Nat) → SO (BusOf P) (ReadErrorOf P.Error) InstructionPacket
  | 0 => SO.hang
  | n + 1 => do
    let packet ← readPacketDeadline w deadline fuel
    match ← SO.lift packet.asInstruction with
    | some instruction => pure instruction
    | none => readRawLoop w deadline fuel n

/-- `Device::read_raw_instruction_timeout`, `src/device.rs:182-199`. -/
def readRawInstructionTimeout (w timeout fuel : Nat) : SO (BusOf P) (ReadErrorOf P.Error) InstructionPacket := do
  let deadline ← makeDeadline timeout
  readRawLoop w deadline fuel fuel

end BusOf
end Dxl
