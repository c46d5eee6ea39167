import Verif.Model.Basic

/-! # `src/bus/packet.rs`, and the constants of `src/bus/mod.rs` and `src/instructions/mod.rs` -/

namespace Dxl

/-- `HEADER_PREFIX`, `src/bus/mod.rs:20`. -/
def headerPrefix : List Byte := [0xFF#8, 0xFF#8, 0xFD#8, 0x00#8]

/-- `HEADER_SIZE`, `src/bus/mod.rs:25`. -/
def headerSize : Nat := 7

/-! `instruction_id`, `src/instructions/mod.rs:7-21`. -/
namespace InstructionId
/-- `PING`, `src/instructions/mod.rs:8`. -/
def ping : Byte := 0x01#8
/-- `READ`, `src/instructions/mod.rs:9`. -/
def read : Byte := 0x02#8
/-- `WRITE`, `src/instructions/mod.rs:10`. -/
def write : Byte := 0x03#8
/-- `REG_WRITE`, `src/instructions/mod.rs:11`. -/
def regWrite : Byte := 0x04#8
/-- `ACTION`, `src/instructions/mod.rs:12`. -/
def action : Byte := 0x05#8
/-- `FACTORY_RESET`, `src/instructions/mod.rs:13`. -/
def factoryReset : Byte := 0x06#8
/-- `REBOOT`, `src/instructions/mod.rs:14`. -/
def reboot : Byte := 0x08#8
/-- `CLEAR`, `src/instructions/mod.rs:15`. -/
def clear : Byte := 0x10#8
/-- `SYNC_READ`, `src/instructions/mod.rs:16`. -/
def syncRead : Byte := 0x82#8
/-- `SYNC_WRITE`, `src/instructions/mod.rs:17`. -/
def syncWrite : Byte := 0x83#8
/-- `BULK_READ`, `src/instructions/mod.rs:18`. -/
def bulkRead : Byte := 0x92#8
/-- `BULK_WRITE`, `src/instructions/mod.rs:19`. -/
def bulkWrite : Byte := 0x93#8
/-- `STATUS`, `src/instructions/mod.rs:20`. -/
def status : Byte := 0x55#8
end InstructionId

/-- `packet_id::BROADCAST`, `src/instructions/mod.rs:26`. -/
def broadcast : Byte := 0xFE#8

/-- `Packet`, `src/bus/packet.rs:3-8`: message data with byte-stuffing undone, without the CRC. -/
structure Packet where
  data : List Byte
  deriving Repr, DecidableEq

namespace Packet

/-- `Packet::packet_id`, `src/bus/packet.rs:12-14` (same for `StatusPacket`, `InstructionPacket`). -/
def packetId {ε : Type} (p : Packet) : Outcome ε Byte := idx p.data 4

/-- `Packet::instruction_id`, `src/bus/packet.rs:17-19`. -/
def instructionId {ε : Type} (p : Packet) : Outcome ε Byte := idx p.data 7

end Packet

/-- `StatusPacket`, `src/bus/packet.rs:45-47`. -/
structure StatusPacket where
  packet : Packet
  deriving Repr, DecidableEq

/-- `InstructionPacket`, `src/bus/packet.rs:97-99`. -/
structure InstructionPacket where
  packet : Packet
  deriving Repr, DecidableEq

/-- `Packet::as_status`, `src/bus/packet.rs:22-28`. -/
def Packet.asStatus {ε : Type} (p : Packet) : Outcome ε (Option StatusPacket) := do
  let i ← p.instructionId
  if i = InstructionId.status then pure (some ⟨p⟩) else pure none

/-- `Packet::as_instruction`, `src/bus/packet.rs:31-37`. -/
def Packet.asInstruction {ε : Type} (p : Packet) : Outcome ε (Option InstructionPacket) := do
  let i ← p.instructionId
  if i ≠ InstructionId.status then pure (some ⟨p⟩) else pure none

namespace StatusPacket

/-- `StatusPacket::error`, `src/bus/packet.rs:51-53`. -/
def error {ε : Type} (s : StatusPacket) : Outcome ε Byte := idx s.packet.data 8

/-- `StatusPacket::error_number`, `src/bus/packet.rs:58-60`. -/
def errorNumber {ε : Type} (s : StatusPacket) : Outcome ε Byte := do
  let e ← s.error
  pure (e &&& ~~~0x80#8)

/-- `StatusPacket::alert`, `src/bus/packet.rs:68-70`. -/
def alert {ε : Type} (s : StatusPacket) : Outcome ε Bool := do
  let e ← s.error
  pure (e &&& 0x80#8 != 0#8)

/-- `StatusPacket::packet_id`, `src/bus/packet.rs:73-75`. -/
def packetId {ε : Type} (s : StatusPacket) : Outcome ε Byte := s.packet.packetId

/-- `StatusPacket::parameters`, `src/bus/packet.rs:83-85`. -/
def parameters {ε : Type} (s : StatusPacket) : Outcome ε (List Byte) := sliceFrom s.packet.data (headerSize + 2)

/-- `StatusPacket::message_len`, `src/bus/packet.rs:88-90`. -/
def messageLen (parameters : Nat) : Nat := headerSize + 2 + parameters + 2

end StatusPacket

namespace InstructionPacket

/-- `InstructionPacket::packet_id`, `src/bus/packet.rs:103-105`. -/
def packetId {ε : Type} (s : InstructionPacket) : Outcome ε Byte := s.packet.packetId

/-- `InstructionPacket::instruction_id`, `src/bus/packet.rs:108-110`. -/
def instructionId {ε : Type} (s : InstructionPacket) : Outcome ε Byte := s.packet.instructionId

/-- `InstructionPacket::parameters`, `src/bus/packet.rs:113-115`. -/
def parameters {ε : Type} (s : InstructionPacket) : Outcome ε (List Byte) := sliceFrom s.packet.data (headerSize + 1)

/-- `InstructionPacket::message_len`, `src/bus/packet.rs:118-120`. -/
def messageLen (parameters : Nat) : Nat := headerSize + 1 + parameters + 2

end InstructionPacket

end Dxl
