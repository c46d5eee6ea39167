import Verif.Model.Data

/-! # `src/client.rs`

`Client` is a wrapper around `Bus`; its state is the bus. -/

namespace Dxl
namespace Client

/-- `Client::write_instruction`, `src/client.rs:162-174`. -/
def writeInstruction (packetId instructionId : Byte) (parameterCount : Nat) (encode : Encoder) :
    SO Bus WriteError Unit :=
  Bus.writeInstruction packetId instructionId parameterCount encode

/-- `Client::set_baud_rate`, `src/client.rs:133-135`. -/
def setBaudRate (rate : Nat) : SO Bus IoErr Unit := Bus.setBaudRate rate

/-- What `Client::read_status_response_timeout` does with the packet, `src/client.rs:180-192`. -/
def checkStatus (packet : Packet) : Outcome ReadError StatusPacket := do
  match ← packet.asStatus with
  | none =>
    let actual ← packet.instructionId
    .err (.invalidMessage (.instruction actual InstructionId.status))
  | some status =>
    let e ← status.error
    (MotorError.check e).mapErr .motorError
    pure status

/-- `Client::read_status_response_timeout`, `src/client.rs:177-193`. -/
def readStatusResponseTimeout (timeout : Nat) : SO Bus ReadError StatusPacket := do
  let b ← SO.get
  let deadline := b.serialPort.makeDeadline timeout
  let packet ← Bus.readPacketDeadline deadline
  SO.lift (checkStatus packet)

/-- `Duration::from_millis(34)`, `src/client.rs:201`. -/
def flatTimeout : Nat := 34000000

/-- `Client::read_status_response`, `src/client.rs:198-203`. -/
def readStatusResponse (expectedParameters : U16) : SO Bus ReadError StatusPacket := do
  let b ← SO.get
  let messageSize := StatusPacket.messageLen expectedParameters.toNat % 2 ^ 32
  let time ← SO.lift (messageTransferTime messageSize b.baudRate)
  readStatusResponseTimeout (time + flatTimeout)

/-- `Client::transfer_single`, `src/client.rs:144-159`. -/
def transferSingle (packetId instructionId : Byte) (parameterCount : Nat) (expectedResponseParameters : U16)
    (encode : Encoder) : SO Bus TransferError StatusPacket := do
  (writeInstruction packetId instructionId parameterCount encode).mapErr .writeError
  let response ← (readStatusResponse expectedResponseParameters).mapErr .readError
  let actual ← SO.lift response.packetId
  SO.lift ((checkPacketId actual packetId).mapErr fun e => .readError (.invalidMessage e))
  pure response

end Client
end Dxl
