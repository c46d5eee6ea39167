import Verif.Model.Basic

/-! # Error types and checks: `src/error.rs` -/

namespace Dxl

/-- `SerialPort::Error` (`src/serial_port/mod.rs:13`). Simplification: an abstract error is either one for which
`is_timeout_error` (`src/serial_port/mod.rs:37`) holds, or some other error with a number. -/
inductive IoErr where
  | timedOut
  | other (code : Nat)
  deriving Repr, DecidableEq

/-- `SerialPort::is_timeout_error`, `src/serial_port/serial2.rs:40-42`. -/
def IoErr.isTimeout : IoErr → Bool
  | .timedOut => true
  | .other _ => false

/-- `BufferTooSmallError`, `src/error.rs:31-38`. -/
structure BufferTooSmall where
  requiredSize : Nat
  totalSize : Nat
  deriving Repr, DecidableEq

/-- `BufferTooSmallError::check`, `src/error.rs:180-186`. -/
def BufferTooSmall.check (requiredSize totalSize : Nat) : Outcome BufferTooSmall Unit :=
  if requiredSize ≤ totalSize then .ok () else .err ⟨requiredSize, totalSize⟩

/-- `WriteError`, `src/error.rs:16-25`. -/
inductive WriteError where
  | bufferTooSmall (e : BufferTooSmall)
  | discardBuffer (e : IoErr)
  | write (e : IoErr)
  deriving Repr, DecidableEq

/-- `MotorError`, `src/error.rs:82-85`. -/
structure MotorError where
  raw : Byte
  deriving Repr, DecidableEq

/-- `MotorError::error_number`, `src/error.rs:91-93`. -/
def MotorError.errorNumber (e : MotorError) : Byte := e.raw &&& ~~~0x80#8

/-- `MotorError::alert`, `src/error.rs:101-103`. -/
def MotorError.alert (e : MotorError) : Bool := e.raw &&& 0x80#8 != 0#8

/-- `MotorError::check`, `src/error.rs:194-202`. -/
def MotorError.check (raw : Byte) : Outcome MotorError Unit :=
  if raw &&& ~~~0x80#8 = 0#8 then .ok () else .err ⟨raw⟩

/-- `ExpectedCount`, `src/error.rs:157-166`. -/
inductive ExpectedCount where
  | exact (n : Nat)
  | max (n : Nat)
  | min (n : Nat)
  deriving Repr, DecidableEq

/-- `InvalidHeaderPrefix`, `src/error.rs:116-123`. Both fields have type `[u8; 4]` in the code. -/
structure InvalidHeaderPrefix where
  actual : List Byte
  expected : List Byte
  deriving Repr, DecidableEq

/-- `InvalidMessage` and the structs it wraps, `src/error.rs:63-78, 127-176`. The crate itself never constructs
`headerPrefix` and `unexpectedPacketId`; users of it can. -/
inductive InvalidMessage where
  /-- `InvalidHeaderPrefix`, `src/error.rs:116-123`. -/
  | headerPrefix (e : InvalidHeaderPrefix)
  /-- `InvalidChecksum { message, computed }`, `src/error.rs:127-133`. -/
  | checksum (message computed : U16)
  /-- `InvalidPacketId { actual, expected: Some(expected) }`, `src/error.rs:137-143`. -/
  | packetId (actual expected : Byte)
  /-- `InvalidPacketId { actual, expected: None }`, `src/error.rs:137-143`. -/
  | unexpectedPacketId (actual : Byte)
  /-- `InvalidInstruction { actual, expected }`, `src/error.rs:147-153`. -/
  | instruction (actual expected : Byte)
  /-- `InvalidParameterCount { actual, expected }`, `src/error.rs:170-176`. -/
  | parameterCount (actual : Nat) (expected : ExpectedCount)
  deriving Repr, DecidableEq

/-- `InvalidHeaderPrefix::check`, `src/error.rs:207-216` (public, unused by the crate itself). `expected` has type
`[u8; 4]` in the code. -/
def checkHeaderPrefix (actual expected : List Byte) : Outcome InvalidHeaderPrefix Unit :=
  if actual = expected then .ok ()
  else do
    let a ← idx actual 0
    let b ← idx actual 1
    let c ← idx actual 2
    let d ← idx actual 3
    .err ⟨[a, b, c, d], expected⟩

/-- `InvalidPacketId::check`, `src/error.rs:221-230`. -/
def checkPacketId (actual expected : Byte) : Outcome InvalidMessage Unit :=
  if actual = expected then .ok () else .err (.packetId actual expected)

/-- `InvalidPacketId::check_ignore_broadcast`, `src/error.rs:233-239` (public, unused by the crate itself). -/
def checkPacketIdIgnoreBroadcast (actual expected : Byte) : Outcome InvalidMessage Unit :=
  if expected = 0xFE#8 then .ok () else checkPacketId actual expected

/-- `InvalidInstruction::check`, `src/error.rs:244-250`. -/
def checkInstruction (actual expected : Byte) : Outcome InvalidMessage Unit :=
  if actual = expected then .ok () else .err (.instruction actual expected)

/-- `InvalidParameterCount::check`, `src/error.rs:255-264`. -/
def checkCount (actual expected : Nat) : Outcome InvalidMessage Unit :=
  if actual = expected then .ok () else .err (.parameterCount actual (.exact expected))

/-- `InvalidParameterCount::check_max`, `src/error.rs:267-276`. -/
def checkCountMax (actual max : Nat) : Outcome InvalidMessage Unit :=
  if actual ≤ max then .ok () else .err (.parameterCount actual (.max max))

/-- `InvalidParameterCount::check_min`, `src/error.rs:279-288`. -/
def checkCountMin (actual min : Nat) : Outcome InvalidMessage Unit :=
  if actual ≥ min then .ok () else .err (.parameterCount actual (.min min))

/-- `ReadError`, `src/error.rs:42-59`. -/
inductive ReadError where
  | bufferFull (e : BufferTooSmall)
  | io (e : IoErr)
  | invalidMessage (e : InvalidMessage)
  | motorError (e : MotorError)
  deriving Repr, DecidableEq

/-- `TransferError`, `src/error.rs:6-12`. -/
inductive TransferError where
  | writeError (e : WriteError)
  | readError (e : ReadError)
  deriving Repr, DecidableEq

end Dxl
