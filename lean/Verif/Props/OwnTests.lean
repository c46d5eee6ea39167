import Verif.Props.StuffSize
import Verif.Props.StaticBuffer

/-! # The unit tests of the crate, on the model

Not proofs of properties: they check that the model computes what the tests say the code computes. The integration tests are
about `Session.lean`, `MockGroup.lean` and `Network.lean`. -/

namespace Dxl.Props.OwnTests
open Dxl.Spec

/-- `test_calculate_checksum`, `src/checksum.rs:59-63`. -/
example : calculateChecksum (ε := Empty) 0#16 [0xFF#8, 0xFF#8, 0xFD#8, 0x00#8, 0x01#8, 0x03#8, 0x00#8, 0x01#8] = .ok 0x4E19#16 := by decide

/-- `test_write_u16_le`, `src/bus/endian.rs:36-43`. -/
example : (do onSliceFrom 0 (writeU16Le 0x0000#16); onSliceFrom 2 (writeU16Le 0x1234#16) : SO (List Byte) Empty Unit)
    [0xFF#8, 0xFF#8, 0xFF#8, 0xFF#8] = ([0x00#8, 0x00#8, 0x34#8, 0x12#8], .ok ()) := by decide

/-- `test_read_u16_le`, `src/bus/endian.rs:46-49`. -/
example : readU16Le (ε := Empty) [0x00#8, 0x00#8, 0x34#8, 0x12#8] = .ok 0#16 ∧
    readU16Le (ε := Empty) [0x34#8, 0x12#8] = .ok 0x1234#16 := by decide

/-- `unstuff` of the tests, `src/bus/bytestuff.rs:93-97`. -/
def unstuff (data : List Byte) : Outcome Empty (List Byte) :=
  match unstuffInplace (ε := Empty) data with
  | (data, .ok n) => .ok (data.take n)
  | (_, .panic) => .panic
  | (_, .hang) => .hang

/-- `stuff` of the tests, `src/bus/bytestuff.rs:104-110`. -/
def stuff (data : List Byte) : Outcome BufferTooSmall (List Byte) :=
  match stuffInplace true data.length (data ++ List.replicate (maximumStuffedLen data.length - data.length) 0#8) with
  | (data, .ok n) => .ok (data.take n)
  | (_, .err e) => .err e
  | (_, .panic) => .panic
  | (_, .hang) => .hang

/-- `test_unstuff`, `src/bus/bytestuff.rs:113-122`. -/
example : unstuff [0#8, 0#8, 0#8] = .ok [0#8, 0#8, 0#8] ∧
    unstuff [0xFF#8, 0xFF#8, 0xFD#8, 0x00#8] = .ok [0xFF#8, 0xFF#8, 0xFD#8, 0x00#8] ∧
    unstuff [0xFF#8, 0xFF#8, 0xFD#8, 0xFD#8] = .ok [0xFF#8, 0xFF#8, 0xFD#8] ∧
    unstuff [0xFF#8, 0xFF#8, 0x01#8, 0xFD#8, 0xFD#8] = .ok [0xFF#8, 0xFF#8, 0x01#8, 0xFD#8, 0xFD#8] ∧
    unstuff [0x00#8, 0xFF#8, 0xFF#8, 0xFD#8, 0xFD#8, 0x01#8, 0xFF#8, 0xFF#8, 0xFD#8, 0xFD#8, 0x02#8, 0x03#8] =
      .ok [0x00#8, 0xFF#8, 0xFF#8, 0xFD#8, 0x01#8, 0xFF#8, 0xFF#8, 0xFD#8, 0x02#8, 0x03#8] := by decide +kernel

/-- `test_stuff`, `src/bus/bytestuff.rs:125-136`. -/
example : stuff [0#8, 0#8, 0#8] = .ok [0#8, 0#8, 0#8] ∧
    stuff [0xFF#8, 0xFF#8, 0xFD#8, 0x00#8] = .ok [0xFF#8, 0xFF#8, 0xFD#8, 0xFD#8, 0x00#8] ∧
    stuff [0xFF#8, 0xFF#8, 0xFD#8, 0xFD#8] = .ok [0xFF#8, 0xFF#8, 0xFD#8, 0xFD#8, 0xFD#8] ∧
    stuff [0xFF#8, 0xFF#8, 0x01#8, 0xFD#8] = .ok [0xFF#8, 0xFF#8, 0x01#8, 0xFD#8] ∧
    stuff [0x00#8, 0xFF#8, 0xFF#8, 0xFD#8, 0x01#8, 0xFF#8, 0xFF#8, 0xFD#8, 0x02#8, 0x03#8] =
      .ok [0x00#8, 0xFF#8, 0xFF#8, 0xFD#8, 0xFD#8, 0x01#8, 0xFF#8, 0xFF#8, 0xFD#8, 0xFD#8, 0x02#8, 0x03#8] ∧
    stuff [0xFF#8, 0xFF#8, 0xFD#8, 0xFF#8, 0xFF#8, 0xFD#8] =
      .ok [0xFF#8, 0xFF#8, 0xFD#8, 0xFD#8, 0xFF#8, 0xFF#8, 0xFD#8, 0xFD#8] ∧
    stuff [0xFF#8, 0xFF#8, 0xFD#8, 0x00#8, 0xFF#8, 0xFF#8, 0xFD#8] =
      .ok [0xFF#8, 0xFF#8, 0xFD#8, 0xFD#8, 0x00#8, 0xFF#8, 0xFF#8, 0xFD#8, 0xFD#8] := by decide +kernel

/-- `status_packet`, `src/bus/packet.rs:131-142`. -/
example :
    let packet : Packet := ⟨[0xFF#8, 0xFF#8, 0xFD#8, 0x00#8, 0x23#8, 0x04#8, 0x00#8, InstructionId.status, 0x89#8]⟩
    packet.packetId (ε := Empty) = .ok 0x23#8 ∧ packet.instructionId (ε := Empty) = .ok InstructionId.status ∧
      packet.asStatus (ε := Empty) = .ok (some ⟨packet⟩) ∧ (StatusPacket.mk packet).packetId (ε := Empty) = .ok 0x23#8 ∧
      (StatusPacket.mk packet).error (ε := Empty) = .ok 0x89#8 ∧ (StatusPacket.mk packet).parameters (ε := Empty) = .ok [] := by
  decide

/-- `instruction_packet`, `src/bus/packet.rs:145-155`. -/
example :
    let packet : Packet := ⟨[0xFF#8, 0xFF#8, 0xFD#8, 0x00#8, 0x23#8, 0x03#8, 0x00#8, InstructionId.write]⟩
    packet.packetId (ε := Empty) = .ok 0x23#8 ∧ packet.instructionId (ε := Empty) = .ok InstructionId.write ∧
      packet.asInstruction (ε := Empty) = .ok (some ⟨packet⟩) ∧
      (InstructionPacket.mk packet).parameters (ε := Empty) = .ok [] := by
  decide

/-- `message_transfer_time` in the unit of the test. -/
def takes (size rate ns : Nat) : Bool := decide (messageTransferTime (ε := Empty) size rate = .ok ns)

/-- `test_message_transfer_time`, `src/bus/mod.rs:358-403`. -/
example :
    let s := 1000000000
    let ms := 1000000
    let us := 1000
    (takes 100 1000 s && takes 1000 10000 s && takes 1000 1000000 (10 * ms) && takes 1000 10000000 ms &&
      takes 1000 100000000 (100 * us) && takes 1000 1000000000 (10 * us) && takes 1000 2000000000 (5 * us) &&
      takes 1000 4000000000 2500 && takes 10000 4000000000 (25 * us) && takes 1000000 4000000000 (2500 * us) &&
      takes 10000000 4000000000 (25 * ms) && takes 100000000 4000000000 (250 * ms) &&
      takes 1000000000 4000000000 (2500 * ms) && takes 2000000000 4000000000 (5 * s) &&
      takes 4000000000 4000000000 (10 * s) && takes 4000000000 2000000000 (20 * s) &&
      takes 4000000000 1000000000 (40 * s) && takes 4000000000 100000000 (400 * s) &&
      takes 4000000000 10000000 (4000 * s) && takes 4000000000 1000000 (40000 * s) &&
      takes 4000000000 100000 (400000 * s) && takes 4000000000 10000 (4000000 * s) &&
      takes 4000000000 1000 (40000000 * s) && takes 4000000000 100 (400000000 * s) &&
      takes 4000000000 10 (4000000000 * s) && takes 4000000000 1 (40000000000 * s) &&
      takes 43 1 (430 * s) && takes 43 10 (43 * s) && takes 43 2 (215 * s) && takes 43 20 (21500 * ms) &&
      takes 43 200 (2150 * ms) && takes 43 2000000 (215 * us) && takes 43 2000000000 215 &&
      takes 43 4000000000 108 && takes 3 4000000000 8 && takes 5 4000000000 13 &&
      takes 4294967294 1 (4294967294 * 10 * s) && takes 4294967294 4294967294 (10 * s) &&
      takes (4294967294 / 2) 4294967294 (5 * s) && takes 4294967294 (4294967294 / 2) (20 * s)) = true := by decide +kernel

/-- `test_find_garbage_end`, `src/bus/mod.rs:406-421`. -/
example : Bus.findHeader [0xFF#8] = 0 ∧ Bus.findHeader [0xFF#8, 0xFF#8] = 0 ∧ Bus.findHeader [0xFF#8, 0xFF#8, 0xFD#8] = 0 ∧
    Bus.findHeader [0xFF#8, 0xFF#8, 0xFD#8, 0x00#8] = 0 ∧ Bus.findHeader [0xFF#8, 0xFF#8, 0xFD#8, 0x00#8, 9#8] = 0 ∧
    Bus.findHeader [0#8, 1#8, 2#8, 3#8, 4#8, 0xFF#8] = 5 ∧ Bus.findHeader [0#8, 1#8, 2#8, 3#8, 4#8, 0xFF#8, 0xFF#8] = 5 ∧
    Bus.findHeader [0#8, 1#8, 2#8, 3#8, 4#8, 0xFF#8, 0xFF#8, 0xFD#8] = 5 ∧
    Bus.findHeader [0#8, 1#8, 2#8, 3#8, 4#8, 0xFF#8, 0xFF#8, 0xFD#8, 0x00#8] = 5 ∧
    Bus.findHeader [0#8, 1#8, 2#8, 3#8, 4#8, 0xFF#8, 0xFF#8, 0xFD#8, 0x00#8, 9#8] = 5 ∧
    Bus.findHeader [0xFF#8, 1#8] = 2 ∧ Bus.findHeader [0#8, 1#8, 2#8, 3#8, 4#8, 0xFF#8, 6#8] = 7 := by decide

/-- What the `read` of `test_buffer_too_small` puts into a slice of zeros, `src/bus/mod.rs:486-505`: the header of a packet with
length 10000, an unused byte, and a packet of length 10 with parameters zero, then 50 bytes in total. -/
def dummyRead : List Byte :=
  header ++ [0#8] ++ le16 10000#16 ++ [0#8] ++ frame 0#8 (List.replicate 8 0#8) ++ List.replicate 25 0#8

/-- The first read of the test, and then its second, which sees the bytes of the first and again the same. -/
def dummyBus : Bus :=
  { serialPort := { quietPort with rx := [.data 0 dummyRead, .data 0 dummyRead] }, baudRate := 115200, readBuffer := List.replicate 128 0#8,
    readLen := 0, usedBytes := 0, writeBuffer := headerPrefix ++ List.replicate 124 0#8, debug := true }

/-- `test_buffer_too_small`, `src/bus/mod.rs:462-531`: the first packet is too large, the next one is fine. -/
example : dummyRead.length = 50 ∧
    (Bus.readPacketDeadline 1000000000 dummyBus).2 = .err (.bufferFull ⟨10007, 128⟩) ∧
    (Bus.readPacketDeadline 1000000000 (Bus.readPacketDeadline 1000000000 dummyBus).1).2 =
      .ok ⟨header ++ [0#8] ++ le16 10#16 ++ List.replicate 8 0#8⟩ := by
  refine ⟨by decide +kernel, ?_, ?_⟩ <;> decide +kernel

open StaticBuffer in
/-- `test_static_buffer`, `src/bus/mod.rs:425-437`: the first evaluation gets zeros of the right length. -/
example (N : Nat) : ∃ s, Run (init N) [.swap 0, .finish 0] s ∧ s.evals 0 = .holds ∧ s.buffer = List.replicate N 0#8 :=
  ⟨_, .snoc (.snoc (.nil _) (.swap rfl)) (.take rfl), rfl, rfl⟩

open StaticBuffer in
/-- `test_static_buffer_panics_when_evaluated_in_loop`, `src/bus/mod.rs:441-458`: the second evaluation panics. -/
example (N : Nat) : ∃ s, Run (init N) [.swap 0, .finish 0, .swap 1, .finish 1] s ∧ s.evals 1 = .panicked :=
  ⟨_, .snoc (.snoc (.snoc (.snoc (.nil _) (.swap rfl)) (.take rfl)) (.swap rfl)) (.panic rfl), rfl⟩

end Dxl.Props.OwnTests
