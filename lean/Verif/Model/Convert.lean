import Verif.Model.Display

/-! # Conversions between the errors: `impl From` in `src/error.rs:312-448`

The code converts an error with `?`, which calls one `From::from`, and with `into()`. The rest of the model writes the
converted error directly. Here is one definition for each of the 23 implementations. -/

namespace Dxl

/-- `InvalidChecksum`, `src/error.rs:125-133`. -/
structure InvalidChecksum where
  message : U16
  computed : U16
  deriving Repr, DecidableEq

/-- `InvalidPacketId`, `src/error.rs:135-143`. -/
structure InvalidPacketId where
  actual : Byte
  expected : Option Byte
  deriving Repr, DecidableEq

/-- `InvalidInstruction`, `src/error.rs:145-153`. -/
structure InvalidInstruction where
  actual : Byte
  expected : Byte
  deriving Repr, DecidableEq

/-- `InvalidParameterCount`, `src/error.rs:168-176`. -/
structure InvalidParameterCount where
  actual : Nat
  expected : ExpectedCount
  deriving Repr, DecidableEq

/-- `impl Display for InvalidChecksum`, `src/error.rs:535-543`. -/
def InvalidChecksum.display (e : InvalidChecksum) : List Char :=
  "invalid checksum, message claims ".toList ++ Fmt.upperHexPrefixed 2 e.message.toNat ++ ", computed ".toList ++
    Fmt.upperHexPrefixed 2 e.computed.toNat

/-- `impl Display for InvalidPacketId`, `src/error.rs:545-553`. -/
def InvalidPacketId.display (e : InvalidPacketId) : List Char :=
  match e.expected with
  | some expected => "invalid packet ID, expected ".toList ++ Fmt.upperHexPrefixed 2 expected.toNat ++ ", got ".toList ++
      Fmt.upperHexPrefixed 2 e.actual.toNat
  | none => "invalid packet ID: ".toList ++ Fmt.upperHexPrefixed 2 e.actual.toNat

/-- `impl Display for InvalidInstruction`, `src/error.rs:555-559`. -/
def InvalidInstruction.display (e : InvalidInstruction) : List Char :=
  "invalid instruction ID, expected ".toList ++ Fmt.decimal e.expected.toNat ++ ", got ".toList ++
    Fmt.decimal e.actual.toNat

/-- `impl Display for InvalidParameterCount`, `src/error.rs:571-575`. -/
def InvalidParameterCount.display (e : InvalidParameterCount) : List Char :=
  "invalid parameter count, expected ".toList ++ e.expected.display ++ ", got ".toList ++ Fmt.decimal e.actual

namespace Convert

/-- `impl From<InvalidHeaderPrefix> for InvalidMessage`, `src/error.rs:420-424`. -/
def messageOfHeader (other : InvalidHeaderPrefix) : InvalidMessage := .headerPrefix other

/-- `impl From<InvalidChecksum> for InvalidMessage`, `src/error.rs:426-430`. -/
def messageOfChecksum (other : InvalidChecksum) : InvalidMessage := .checksum other.message other.computed

/-- `impl From<InvalidPacketId> for InvalidMessage`, `src/error.rs:432-436`. The variant has two
forms in the model. -/
def messageOfPacketId (other : InvalidPacketId) : InvalidMessage :=
  match other.expected with
  | some expected => .packetId other.actual expected
  | none => .unexpectedPacketId other.actual

/-- `impl From<InvalidInstruction> for InvalidMessage`, `src/error.rs:438-442`. -/
def messageOfInstruction (other : InvalidInstruction) : InvalidMessage := .instruction other.actual other.expected

/-- `impl From<InvalidParameterCount> for InvalidMessage`, `src/error.rs:444-448`. -/
def messageOfCount (other : InvalidParameterCount) : InvalidMessage := .parameterCount other.actual other.expected

/-- `impl From<BufferTooSmallError> for WriteError`, `src/error.rs:366-370`. -/
def writeOfTooSmall (other : BufferTooSmall) : WriteError := .bufferTooSmall other

/-- `impl From<BufferTooSmallError> for ReadError`, `src/error.rs:372-376`. -/
def readOfTooSmall (other : BufferTooSmall) : ReadError := .bufferFull other

/-- `impl From<InvalidMessage> for ReadError`, `src/error.rs:378-382`. -/
def readOfMessage (other : InvalidMessage) : ReadError := .invalidMessage other

/-- `impl From<MotorError> for ReadError`, `src/error.rs:384-388`. -/
def readOfMotor (other : MotorError) : ReadError := .motorError other

/-- `impl From<InvalidHeaderPrefix> for ReadError`, `src/error.rs:390-394`. -/
def readOfHeader (other : InvalidHeaderPrefix) : ReadError := .invalidMessage (messageOfHeader other)

/-- `impl From<InvalidChecksum> for ReadError`, `src/error.rs:396-400`. -/
def readOfChecksum (other : InvalidChecksum) : ReadError := .invalidMessage (messageOfChecksum other)

/-- `impl From<InvalidPacketId> for ReadError`, `src/error.rs:402-406`. -/
def readOfPacketId (other : InvalidPacketId) : ReadError := .invalidMessage (messageOfPacketId other)

/-- `impl From<InvalidInstruction> for ReadError`, `src/error.rs:408-412`. -/
def readOfInstruction (other : InvalidInstruction) : ReadError := .invalidMessage (messageOfInstruction other)

/-- `impl From<InvalidParameterCount> for ReadError`, `src/error.rs:414-418`. -/
def readOfCount (other : InvalidParameterCount) : ReadError := .invalidMessage (messageOfCount other)

/-- `impl From<WriteError> for TransferError`, `src/error.rs:312-316`. -/
def transferOfWrite (other : WriteError) : TransferError := .writeError other

/-- `impl From<ReadError> for TransferError`, `src/error.rs:318-322`. -/
def transferOfRead (other : ReadError) : TransferError := .readError other

/-- `impl From<InvalidMessage> for TransferError`, `src/error.rs:324-328`. -/
def transferOfMessage (other : InvalidMessage) : TransferError := .readError (readOfMessage other)

/-- `impl From<MotorError> for TransferError`, `src/error.rs:330-334`. -/
def transferOfMotor (other : MotorError) : TransferError := .readError (readOfMotor other)

/-- `impl From<InvalidHeaderPrefix> for TransferError`, `src/error.rs:336-340`. -/
def transferOfHeader (other : InvalidHeaderPrefix) : TransferError := .readError (readOfHeader other)

/-- `impl From<InvalidChecksum> for TransferError`, `src/error.rs:342-346`. -/
def transferOfChecksum (other : InvalidChecksum) : TransferError := .readError (readOfChecksum other)

/-- `impl From<InvalidPacketId> for TransferError`, `src/error.rs:348-352`. -/
def transferOfPacketId (other : InvalidPacketId) : TransferError := .readError (readOfPacketId other)

/-- `impl From<InvalidInstruction> for TransferError`, `src/error.rs:354-358`. -/
def transferOfInstruction (other : InvalidInstruction) : TransferError := .readError (readOfInstruction other)

/-- `impl From<InvalidParameterCount> for TransferError`, `src/error.rs:360-364`. -/
def transferOfCount (other : InvalidParameterCount) : TransferError := .readError (readOfCount other)

end Convert

/-- An error of one of the types of `src/error.rs:4-176`. -/
inductive AnyError where
  | tooSmall (e : BufferTooSmall)
  | header (e : InvalidHeaderPrefix)
  | checksum (e : InvalidChecksum)
  | packetId (e : InvalidPacketId)
  | instruction (e : InvalidInstruction)
  | count (e : InvalidParameterCount)
  | motor (e : MotorError)
  | message (e : InvalidMessage)
  | write (e : WriteError)
  | read (e : ReadError)
  | transfer (e : TransferError)
  deriving Repr, DecidableEq

/-- `a.into()` can be `b`: there is an `impl From` from the type of `a` to that of `b`, `src/error.rs:312-448`. Left out: the
conversion from a type to itself in the standard library. -/
inductive Converts : AnyError → AnyError → Prop
  | messageOfHeader (e : InvalidHeaderPrefix) : Converts (.header e) (.message (Convert.messageOfHeader e))
  | messageOfChecksum (e : InvalidChecksum) : Converts (.checksum e) (.message (Convert.messageOfChecksum e))
  | messageOfPacketId (e : InvalidPacketId) : Converts (.packetId e) (.message (Convert.messageOfPacketId e))
  | messageOfInstruction (e : InvalidInstruction) : Converts (.instruction e) (.message (Convert.messageOfInstruction e))
  | messageOfCount (e : InvalidParameterCount) : Converts (.count e) (.message (Convert.messageOfCount e))
  | writeOfTooSmall (e : BufferTooSmall) : Converts (.tooSmall e) (.write (Convert.writeOfTooSmall e))
  | readOfTooSmall (e : BufferTooSmall) : Converts (.tooSmall e) (.read (Convert.readOfTooSmall e))
  | readOfMessage (e : InvalidMessage) : Converts (.message e) (.read (Convert.readOfMessage e))
  | readOfMotor (e : MotorError) : Converts (.motor e) (.read (Convert.readOfMotor e))
  | readOfHeader (e : InvalidHeaderPrefix) : Converts (.header e) (.read (Convert.readOfHeader e))
  | readOfChecksum (e : InvalidChecksum) : Converts (.checksum e) (.read (Convert.readOfChecksum e))
  | readOfPacketId (e : InvalidPacketId) : Converts (.packetId e) (.read (Convert.readOfPacketId e))
  | readOfInstruction (e : InvalidInstruction) : Converts (.instruction e) (.read (Convert.readOfInstruction e))
  | readOfCount (e : InvalidParameterCount) : Converts (.count e) (.read (Convert.readOfCount e))
  | transferOfWrite (e : WriteError) : Converts (.write e) (.transfer (Convert.transferOfWrite e))
  | transferOfRead (e : ReadError) : Converts (.read e) (.transfer (Convert.transferOfRead e))
  | transferOfMessage (e : InvalidMessage) : Converts (.message e) (.transfer (Convert.transferOfMessage e))
  | transferOfMotor (e : MotorError) : Converts (.motor e) (.transfer (Convert.transferOfMotor e))
  | transferOfHeader (e : InvalidHeaderPrefix) : Converts (.header e) (.transfer (Convert.transferOfHeader e))
  | transferOfChecksum (e : InvalidChecksum) : Converts (.checksum e) (.transfer (Convert.transferOfChecksum e))
  | transferOfPacketId (e : InvalidPacketId) : Converts (.packetId e) (.transfer (Convert.transferOfPacketId e))
  | transferOfInstruction (e : InvalidInstruction) : Converts (.instruction e) (.transfer (Convert.transferOfInstruction e))
  | transferOfCount (e : InvalidParameterCount) : Converts (.count e) (.transfer (Convert.transferOfCount e))

/-- `Display` of an error, `src/error.rs:450-575`. -/
def AnyError.display (io : IoErr → List Char) : AnyError → List Char
  | .tooSmall e => e.display
  | .header e => e.display
  | .checksum e => e.display
  | .packetId e => e.display
  | .instruction e => e.display
  | .count e => e.display
  | .motor e => e.display
  | .message e => e.display
  | .write e => e.display io
  | .read e => e.display io
  | .transfer e => e.display io

end Dxl
