import Verif.Model.Display
import Verif.Model.Convert
import Verif.Model.Device
import Verif.Model.Instructions

/-! # Texts of values: `{:?}` and `{:#?}`

The `Debug` implementations of the crate are the derived ones and six that are written by hand. All of them call the builders of
`core::fmt` (`DebugStruct`, `DebugTuple`, `DebugList`), which `Dbg.text` and `Dbg.pretty` follow. A value is first turned into the
tree of builder calls, for each type by a function called `tree`. Writing to the formatter never fails here. -/

namespace Dxl

/-- What a `Debug` implementation asks the formatter to write, for example in `src/error.rs:108-111` and `src/client.rs:41-44`. -/
inductive Dbg where
  /-- An integer of any type. -/
  | num (n : Int)
  /-- A value of a type outside of the crate: the text for `{:?}` and the text for `{:#?}`. -/
  | raw (plain pretty : List Char)
  /-- `()`. -/
  | unit
  /-- A slice, array or vector. -/
  | list (items : List Dbg)
  /-- A tuple struct or variant; without items also a unit variant, `true` and `false`. -/
  | tuple (name : String) (items : List Dbg)
  /-- A struct or a variant with named fields. `more`: ended by `finish_non_exhaustive`. -/
  | record (name : String) (labels : List String) (values : List Dbg) (more : Bool)

namespace Dbg

/-- A value of a type outside of the crate, for example `src/client.rs:42`. -/
def outside (t : List Char × List Char) : Dbg := .raw t.1 t.2

/-- `bool`, for example `src/error.rs:110`. -/
def flag (b : Bool) : Dbg := .tuple (if b then "true" else "false") []

/-- `u8`, for example `src/error.rs:109`. -/
def byte (b : Byte) : Dbg := .num b.toNat

/-- `u16`, for example `src/error.rs:129`. -/
def word (w : U16) : Dbg := .num w.toNat

/-- `&[u8]`, `Vec<u8>` and `[u8; N]`, for example `src/error.rs:119`. -/
def bytes (bs : List Byte) : Dbg := .list (bs.map byte)

/-- `fmt::Debug` for integers with and without `#`, for example in `src/error.rs:109`. -/
def number (n : Int) : List Char := if n < 0 then '-' :: Fmt.decimal n.natAbs else Fmt.decimal n.natAbs

mutual
/-- The text for `{:?}`: `DebugTuple`, `DebugStruct` and `DebugList` of the standard library, used in `src/error.rs:108-111` and by
every derived implementation, for example `src/error.rs:126`. -/
def text : Dbg → List Char
  | .num n => number n
  | .raw s _ => s
  | .unit => ['(', ')']
  | .list xs => '[' :: (entries xs ++ [']'])
  | .tuple name [] => name.toList
  | .tuple name (x :: xs) => name.toList ++ '(' :: (text x ++ (entriesAfter xs ++ [')']))
  | .record name ls vs more => name.toList ++ fields true ls vs more
/-- The entries of a list, `DebugList` of the standard library, used for example for `src/error.rs:119`. -/
def entries : List Dbg → List Char
  | [] => []
  | x :: xs => text x ++ entriesAfter xs
/-- The entries after the first, `DebugList` and `DebugTuple` of the standard library, used for example for `src/error.rs:119`. -/
def entriesAfter : List Dbg → List Char
  | [] => []
  | x :: xs => ',' :: ' ' :: (text x ++ entriesAfter xs)
/-- The fields of a struct, `DebugStruct` of the standard library, used for example in `src/error.rs:108-111`: every field is preceded
by `" { "` when it is the first one and by `", "` otherwise. `finish` writes `" }"` if there were fields;
`finish_non_exhaustive` (`src/client.rs:44`) writes `", .. }"` or, without fields, `" { .. }"`. -/
def fields (first : Bool) : List String → List Dbg → Bool → List Char
  | l :: ls, v :: vs, more =>
    (if first then [' ', '{', ' '] else [',', ' ']) ++ (l.toList ++ ':' :: ' ' :: (text v ++ fields false ls vs more))
  | _, _, true => (if first then [' ', '{', ' '] else [',', ' ']) ++ ['.', '.', ' ', '}']
  | _, _, false => if first then [] else [' ', '}']
end

/-- `PadAdapter` of the standard library, with its state `on_newline`: four spaces in front of every line. Used by `{:#?}` for all of
the builders, for example those of `src/error.rs:108-111`. -/
def pad : Bool → List Char → List Char
  | _, [] => []
  | onNewline, c :: cs => (if onNewline then [' ', ' ', ' ', ' '] else []) ++ c :: pad (c == '\n') cs

mutual
/-- The text for `{:#?}`: `DebugTuple`, `DebugStruct` and `DebugList` of the standard library with the `#` flag, used in
`src/error.rs:108-111` and by every derived implementation, for example `src/error.rs:126`. -/
def pretty : Dbg → List Char
  | .num n => number n
  | .raw _ s => s
  | .unit => ['(', ')']
  | .list [] => ['[', ']']
  | .list (x :: xs) => '[' :: '\n' :: (pad true (pretty x ++ [',', '\n']) ++ (prettyEntries xs ++ [']']))
  | .tuple name [] => name.toList
  | .tuple name (x :: xs) =>
    name.toList ++ '(' :: '\n' :: (pad true (pretty x ++ [',', '\n']) ++ (prettyEntries xs ++ [')']))
  | .record name ls vs more => name.toList ++ prettyFields true ls vs more
/-- The entries of a list or tuple with the `#` flag, each through a `PadAdapter` of its own; used for example for
`src/error.rs:119`. -/
def prettyEntries : List Dbg → List Char
  | [] => []
  | x :: xs => pad true (pretty x ++ [',', '\n']) ++ prettyEntries xs
/-- The fields of a struct with the `#` flag, used for example in `src/error.rs:108-111`. -/
def prettyFields (first : Bool) : List String → List Dbg → Bool → List Char
  | l :: ls, v :: vs, more =>
    (if first then [' ', '{', '\n'] else []) ++
      (pad true (l.toList ++ ':' :: ' ' :: (pretty v ++ [',', '\n'])) ++ prettyFields false ls vs more)
  | _, _, true => if first then [' ', '{', ' ', '.', '.', ' ', '}'] else pad true ['.', '.', '\n'] ++ ['}']
  | _, _, false => if first then [] else ['}']
end

end Dbg

/-- `#[derive(Debug)]` of `BufferTooSmallError`, `src/error.rs:31-38`. -/
def BufferTooSmall.tree (e : BufferTooSmall) : Dbg :=
  .record "BufferTooSmallError" ["required_size", "total_size"] [.num e.requiredSize, .num e.totalSize] false

/-- `#[derive(Debug)]` of `WriteError`, `src/error.rs:15-25`. `io` is the text of the error type of the serial port. -/
def WriteError.tree (io : IoErr → List Char × List Char) : WriteError → Dbg
  | .bufferTooSmall e => .tuple "BufferTooSmall" [e.tree]
  | .discardBuffer e => .tuple "DiscardBuffer" [.outside (io e)]
  | .write e => .tuple "Write" [.outside (io e)]

/-- `impl Debug for MotorError`, `src/error.rs:106-113`. -/
def MotorError.tree (e : MotorError) : Dbg :=
  .record "MotorError" ["error_number", "alert"] [.byte e.errorNumber, .flag e.alert] false

/-- `#[derive(Debug)]` of `InvalidHeaderPrefix`, `src/error.rs:116-123`. -/
def InvalidHeaderPrefix.tree (e : InvalidHeaderPrefix) : Dbg :=
  .record "InvalidHeaderPrefix" ["actual", "expected"] [.bytes e.actual, .bytes e.expected] false

/-- `#[derive(Debug)]` of `InvalidChecksum`, `src/error.rs:126-133`. -/
def InvalidChecksum.tree (e : InvalidChecksum) : Dbg :=
  .record "InvalidChecksum" ["message", "computed"] [.word e.message, .word e.computed] false

/-- `#[derive(Debug)]` of `Option<u8>` in the standard library, `src/error.rs:142`. -/
def Dbg.option : Option Byte → Dbg
  | some b => .tuple "Some" [.byte b]
  | none => .tuple "None" []

/-- `#[derive(Debug)]` of `InvalidPacketId`, `src/error.rs:136-143`. -/
def InvalidPacketId.tree (e : InvalidPacketId) : Dbg :=
  .record "InvalidPacketId" ["actual", "expected"] [.byte e.actual, .option e.expected] false

/-- `#[derive(Debug)]` of `InvalidInstruction`, `src/error.rs:146-153`. -/
def InvalidInstruction.tree (e : InvalidInstruction) : Dbg :=
  .record "InvalidInstruction" ["actual", "expected"] [.byte e.actual, .byte e.expected] false

/-- `#[derive(Debug)]` of `ExpectedCount`, `src/error.rs:156-166`. -/
def ExpectedCount.tree : ExpectedCount → Dbg
  | .exact n => .tuple "Exact" [.num n]
  | .max n => .tuple "Max" [.num n]
  | .min n => .tuple "Min" [.num n]

/-- `#[derive(Debug)]` of `InvalidParameterCount`, `src/error.rs:169-176`. -/
def InvalidParameterCount.tree (e : InvalidParameterCount) : Dbg :=
  .record "InvalidParameterCount" ["actual", "expected"] [.num e.actual, e.expected.tree] false

/-- `#[derive(Debug)]` of `InvalidMessage`, `src/error.rs:62-78`. -/
def InvalidMessage.tree : InvalidMessage → Dbg
  | .headerPrefix e => .tuple "InvalidHeaderPrefix" [e.tree]
  | .checksum message computed => .tuple "InvalidChecksum" [(InvalidChecksum.mk message computed).tree]
  | .packetId actual expected => .tuple "InvalidPacketId" [(InvalidPacketId.mk actual (some expected)).tree]
  | .unexpectedPacketId actual => .tuple "InvalidPacketId" [(InvalidPacketId.mk actual none).tree]
  | .instruction actual expected => .tuple "InvalidInstruction" [(InvalidInstruction.mk actual expected).tree]
  | .parameterCount actual expected => .tuple "InvalidParameterCount" [(InvalidParameterCount.mk actual expected).tree]

/-- `#[derive(Debug)]` of `ReadError`, `src/error.rs:41-59`. -/
def ReadError.tree (io : IoErr → List Char × List Char) : ReadError → Dbg
  | .bufferFull e => .tuple "BufferFull" [e.tree]
  | .io e => .tuple "Io" [.outside (io e)]
  | .invalidMessage e => .tuple "InvalidMessage" [e.tree]
  | .motorError e => .tuple "MotorError" [e.tree]

/-- `#[derive(Debug)]` of `TransferError`, `src/error.rs:5-12`. -/
def TransferError.tree (io : IoErr → List Char × List Char) : TransferError → Dbg
  | .writeError e => .tuple "WriteError" [e.tree io]
  | .readError e => .tuple "ReadError" [e.tree io]

/-- `#[derive(Debug)]` of `Response<T>`, `src/response.rs:7-20`. `value` is `Debug` of `T`. -/
def Response.tree {α : Type} (value : α → Dbg) (r : Response α) : Dbg :=
  .record "Response" ["motor_id", "alert", "data"] [.byte r.motorId, .flag r.alert, value r.data] false

/-- `#[derive(Debug)]` of `Ping`, `src/instructions/ping.rs:8-17`. -/
def Client.Ping.tree (p : Client.Ping) : Dbg := .record "Ping" ["model", "firmware"] [.word p.model, .byte p.firmware] false

/-- `#[derive(Debug)]` of `FactoryResetKind`, `src/instructions/factory_reset.rs:6-16`. -/
def Client.FactoryResetKind.tree : Client.FactoryResetKind → Dbg
  | .resetAll => .tuple "ResetAll" []
  | .keepId => .tuple "KeepId" []
  | .keepIdAndBaudRate => .tuple "KeepIdAndBaudRate" []

/-- `#[derive(Debug)]` of `SyncWriteData<T>`, `src/instructions/mod.rs:49-56`. -/
def SyncWriteData.tree {α : Type} (value : α → Dbg) (d : SyncWriteData α) : Dbg :=
  .record "SyncWriteData" ["motor_id", "data"] [.byte d.motorId, value d.data] false

/-- `#[derive(Debug)]` of `BulkWriteData<T>` with byte data, `src/instructions/mod.rs:70-80`. -/
def BulkWriteData.tree (d : BulkWriteData) : Dbg :=
  .record "BulkWriteData" ["motor_id", "address", "data"] [.byte d.motorId, .word d.address, .bytes d.data] false

/-- `#[derive(Debug)]` of `BulkReadData`, `src/instructions/mod.rs:91-101`. -/
def BulkReadData.tree (d : BulkReadData) : Dbg :=
  .record "BulkReadData" ["motor_id", "address", "count"] [.byte d.motorId, .word d.address, .word d.count] false

/-- `#[derive(Debug)]` of `Packet`, `src/bus/packet.rs:2-8`. -/
def Packet.tree (p : Packet) : Dbg := .record "Packet" ["data"] [.bytes p.data] false

/-- `#[derive(Debug)]` of `StatusPacket`, `src/bus/packet.rs:44-47`. -/
def StatusPacket.tree (p : StatusPacket) : Dbg := .record "StatusPacket" ["packet"] [p.packet.tree] false

/-- `#[derive(Debug)]` of `InstructionPacket`, `src/bus/packet.rs:96-99`. -/
def InstructionPacket.tree (p : InstructionPacket) : Dbg := .record "InstructionPacket" ["packet"] [p.packet.tree] false

/-- `#[derive(Debug)]` of `FactoryReset`, `src/device.rs:203-213`. -/
def FactoryReset.tree : FactoryReset → Dbg
  | .all => .tuple "All" []
  | .exceptId => .tuple "ExceptId" []
  | .exceptIdBaudRate => .tuple "ExceptIdBaudRate" []
  | .unknown p => .tuple "Unknown" [.byte p]

/-- `#[derive(Debug)]` of `Clear`, `src/device.rs:216-226`. -/
def Clear.tree : Clear → Dbg
  | .multiTurns => .tuple "MultiTurns" []
  | .errors => .tuple "Errors" []
  | .reserved p => .tuple "Reserved" [.byte p]

/-- `#[derive(Debug)]` of `Instructions<T>` with `T` a slice or vector of bytes, `src/device.rs:244-259`. -/
def Instructions.tree : Instructions → Dbg
  | .ping => .tuple "Ping" []
  | .read address length => .record "Read" ["address", "length"] [.word address, .word length] false
  | .write address parameters => .record "Write" ["address", "parameters"] [.word address, .bytes parameters] false
  | .regWrite address parameters => .record "RegWrite" ["address", "parameters"] [.word address, .bytes parameters] false
  | .action => .tuple "Action" []
  | .factoryReset kind => .tuple "FactoryReset" [kind.tree]
  | .reboot => .tuple "Reboot" []
  | .clear kind => .tuple "Clear" [kind.tree]
  | .syncRead address length ids =>
    .record "SyncRead" ["address", "length", "ids"] [.word address, .word length, .bytes ids] false
  | .syncWrite address length parameters =>
    .record "SyncWrite" ["address", "length", "parameters"] [.word address, .word length, .bytes parameters] false
  | .bulkRead parameters => .record "BulkRead" ["parameters"] [.bytes parameters] false
  | .bulkWrite parameters => .record "BulkWrite" ["parameters"] [.bytes parameters] false
  | .unknown instruction parameters =>
    .record "Unknown" ["instruction", "parameters"] [.byte instruction, .bytes parameters] false

/-- `#[derive(Debug)]` of `Instruction<T>`, `src/device.rs:232-238`. -/
def Instruction.tree (i : Instruction) : Dbg :=
  .record "Instruction" ["id", "instruction"] [.byte i.id, i.instruction.tree] false

/-- `impl Debug for Client`, `src/client.rs:35-46`. `port` is `Debug` of the serial port. -/
def Client.tree (port : Port → List Char × List Char) (b : Bus) : Dbg :=
  .record "Client" ["serial_port", "baud_rate"]
    [.outside (port b.serialPort), .num b.baudRate] true

/-- `impl Debug for Device`, `src/device.rs:36-47`. -/
def Device.tree (port : Port → List Char × List Char) (b : Bus) : Dbg :=
  .record "Device" ["serial_port", "baud_rate"]
    [.outside (port b.serialPort), .num b.baudRate] true

/-- `impl Debug for Scan`, `src/instructions/ping.rs:75-83`. -/
def Scan.tree (port : Port → List Char × List Char) (b : Bus) : Dbg :=
  .record "Scan" ["serial_port"] [.outside (port b.serialPort)] false

/-- `impl Debug for SyncReadBytes`, `src/instructions/sync_read.rs:113-127`. `type` is `core::any::type_name::<T>()`. -/
def SyncReadBytes.tree (port : Port → List Char × List Char) (type : List Char) (it : SyncIter) : Dbg :=
  .record "SyncRead" ["serial_port", "motor_ids", "count", "index", "data"]
    [.outside (port it.client.serialPort), .bytes it.motorIds, .word it.count, .num it.index, .outside (type, type)] false

/-- `impl Debug for SyncRead`, `src/instructions/sync_read.rs:241-256`: `count` is `T::ENCODED_SIZE`. -/
def SyncRead.tree (port : Port → List Char × List Char) (type : List Char) (encodedSize : U16) (it : SyncIter) : Dbg :=
  .record "SyncRead" ["serial_port", "motor_ids", "count", "index", "data"]
    [.outside (port it.client.serialPort), .bytes it.motorIds, .word encodedSize, .num it.index, .outside (type, type)] false

/-- `impl Debug for BulkReadBytes`, `src/instructions/bulk_read.rs:105-118`. -/
def BulkReadBytes.tree (port : Port → List Char × List Char) (type : List Char) (it : BulkIter) : Dbg :=
  .record "BulkRead" ["serial_port", "bulk_read_data", "index", "data"]
    [.outside (port it.client.serialPort), .list (it.reads.map BulkReadData.tree), .num it.index, .outside (type, type)] false

end Dxl
