import Verif.Model.Instructions

/-! # `src/device.rs`

`Device` is a wrapper around `Bus`; its state is the bus. -/

namespace Dxl

/-- `FactoryReset`, `src/device.rs:204-213`. -/
inductive FactoryReset where
  | all
  | exceptId
  | exceptIdBaudRate
  | unknown (p : Byte)
  deriving Repr, DecidableEq

/-- `Clear`, `src/device.rs:217-226`. -/
inductive Clear where
  | multiTurns
  | errors
  | reserved (p : Byte)
  deriving Repr, DecidableEq

/-- `Instructions`, `src/device.rs:245-259`. -/
inductive Instructions where
  | ping
  | read (address length : U16)
  | write (address : U16) (parameters : List Byte)
  | regWrite (address : U16) (parameters : List Byte)
  | action
  | factoryReset (kind : FactoryReset)
  | reboot
  | clear (kind : Clear)
  | syncRead (address length : U16) (ids : List Byte)
  | syncWrite (address length : U16) (parameters : List Byte)
  | bulkRead (parameters : List Byte)
  | bulkWrite (parameters : List Byte)
  | unknown (instruction : Byte) (parameters : List Byte)
  deriving Repr, DecidableEq

/-- `Instruction`, `src/device.rs:233-238`. -/
structure Instruction where
  id : Byte
  instruction : Instructions
  deriving Repr, DecidableEq

namespace Device

/-- `read_u16_le(&parameters[a..b])`, for example in `src/device.rs:272-273`. -/
def u16At (parameters : List Byte) (a b : Nat) : Outcome InvalidMessage U16 := do
  readU16Le (← slice parameters a b)

/-- The `match` in `TryFrom<InstructionPacket> for Instruction<&[u8]>`, `src/device.rs:267-331`. -/
def parseInstruction (instructionId : Byte) (parameters : List Byte) : Outcome InvalidMessage Instructions :=
  if instructionId = InstructionId.ping then .ok .ping
  else if instructionId = InstructionId.read then do
    checkCount parameters.length 4
    pure (.read (← u16At parameters 0 2) (← u16At parameters 2 4))
  else if instructionId = InstructionId.write then do
    checkCountMin parameters.length 2
    pure (.write (← u16At parameters 0 2) (← sliceFrom parameters 2))
  else if instructionId = InstructionId.regWrite then do
    checkCountMin parameters.length 2
    pure (.regWrite (← u16At parameters 0 2) (← sliceFrom parameters 2))
  else if instructionId = InstructionId.action then .ok .action
  else if instructionId = InstructionId.factoryReset then do
    checkCount parameters.length 1
    let p ← idx parameters 0
    pure (.factoryReset (if p = 0xFF#8 then .all else if p = 0x01#8 then .exceptId
      else if p = 0x02#8 then .exceptIdBaudRate else .unknown p))
  else if instructionId = InstructionId.reboot then .ok .reboot
  else if instructionId = InstructionId.clear then do
    checkCountMin parameters.length 1
    let p ← idx parameters 0
    pure (.clear (if p = 0x01#8 then .multiTurns else if p = 0x02#8 then .errors else .reserved p))
  else if instructionId = InstructionId.syncRead then do
    checkCountMin parameters.length 4
    pure (.syncRead (← u16At parameters 0 2) (← u16At parameters 2 4) (← sliceFrom parameters 4))
  else if instructionId = InstructionId.syncWrite then do
    checkCountMin parameters.length 4
    pure (.syncWrite (← u16At parameters 0 2) (← u16At parameters 2 4) (← sliceFrom parameters 4))
  else if instructionId = InstructionId.bulkRead then .ok (.bulkRead parameters)
  else if instructionId = InstructionId.bulkWrite then .ok (.bulkWrite parameters)
  else .ok (.unknown instructionId parameters)

/-- `TryFrom<InstructionPacket> for Instruction<&[u8]>`, `src/device.rs:264-334`. -/
def toInstruction (p : InstructionPacket) : Outcome InvalidMessage Instruction := do
  let id ← p.packetId
  let parameters ← p.parameters
  let instructionId ← p.instructionId
  let instruction ← parseInstruction instructionId parameters
  pure { id, instruction }

/-- The `match` in `TryFrom<InstructionPacket> for Instruction<Vec<u8>>`, `src/device.rs:344-383`:
`to_owned()` keeps the bytes. Note the arm for `BulkWrite` (lines 376-378). -/
def toOwned : Instructions → Instructions
  | .ping => .ping
  | .read a l => .read a l
  | .write a p => .write a p
  | .regWrite a p => .regWrite a p
  | .action => .action
  | .factoryReset f => .factoryReset f
  | .reboot => .reboot
  | .clear c => .clear c
  | .syncRead a l ids => .syncRead a l ids
  | .syncWrite a l p => .syncWrite a l p
  | .bulkRead p => .bulkRead p
  | .bulkWrite p => .bulkRead p
  | .unknown i p => .unknown i p

/-- `TryFrom<InstructionPacket> for Instruction<Vec<u8>>`, `src/device.rs:341-385`. -/
def toOwnedInstruction (p : InstructionPacket) : Outcome InvalidMessage Instruction := do
  let i ← toInstruction p
  pure { i with instruction := toOwned i.instruction }

/-- The loop of `read_raw_instruction_timeout`, `src/device.rs:187-198`, with a bound on the iterations. -/
def readRawLoop (deadline : Nat) : (fuel : Nat) → SO Bus ReadError InstructionPacket
  | 0 => SO.hang
  | fuel + 1 => do
    let packet ← Bus.readPacketDeadline deadline
    match ← SO.lift packet.asInstruction with
    | some instruction => pure instruction
    | none => readRawLoop deadline fuel

/-- `Device::read_raw_instruction_timeout`, `src/device.rs:182-199`. The fuel is more than the number of bytes
that can still be received; theorem `c26_terminates` shows that it suffices. -/
def readRawInstructionTimeout (timeout : Nat) : SO Bus ReadError InstructionPacket := do
  let b ← SO.get
  let deadline := b.serialPort.makeDeadline timeout
  readRawLoop deadline (b.readLen + b.serialPort.measure + 1)

/-- `Device::read`, `src/device.rs:143-147`. -/
def read (timeout : Nat) : SO Bus ReadError Instruction := do
  let packet ← readRawInstructionTimeout timeout
  SO.lift ((toInstruction packet).mapErr .invalidMessage)

/-- `Device::read_owned`, `src/device.rs:151-155`. -/
def readOwned (timeout : Nat) : SO Bus ReadError Instruction := do
  let packet ← readRawInstructionTimeout timeout
  SO.lift ((toOwnedInstruction packet).mapErr .invalidMessage)

/-- `Device::write_status`, `src/device.rs:158-169`. -/
def writeStatus (packetId error : Byte) (parameterCount : Nat) (encode : Encoder) : SO Bus WriteError Unit :=
  Bus.writeStatus packetId error parameterCount encode

/-- `Device::write_status_error`, `src/device.rs:172-174`. -/
def writeStatusError (packetId error : Byte) : SO Bus WriteError Unit := writeStatus packetId error 0 .nothing

/-- `Device::write_status_ok`, `src/device.rs:177-179`. -/
def writeStatusOk (packetId : Byte) : SO Bus WriteError Unit := writeStatus packetId 0#8 0 .nothing

/-- `Device::set_baud_rate`, `src/device.rs:135-138`. -/
def setBaudRate (rate : Nat) : SO Bus IoErr Unit := Bus.setBaudRate rate

end Device
end Dxl
