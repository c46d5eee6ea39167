import Verif.Model.Error

/-! # Texts of the errors: `impl Display` in `src/error.rs:450-575`, `impl Debug for MotorError` in `src/error.rs:106-113`

Text is a list of characters. Writing to the formatter never fails here; a failure of the formatter is passed on by all of
these implementations. The format string is printed with the default options, as by `{}`; other options of the caller are
ignored by `write!`. -/

namespace Dxl
namespace Fmt

/-- The digit of `fmt::UpperHex` and `fmt::Display` for integers in the standard library: `b'0' + x` or `b'A' + (x - 10)`. Used by
the format strings in `src/error.rs:469-561`. -/
def digit (x : Nat) : Char := if x < 10 then Char.ofNat (48 + x) else Char.ofNat (65 + (x - 10))

/-- The loop of integer formatting in the standard library: digits are put in front until nothing is left. For decimal
numbers the library does several digits at once, to the same effect. `fuel` bounds the iterations. Used by the format strings in
`src/error.rs:469-561`. -/
def digitsLoop (base : Nat) : (fuel x : Nat) → (buffer : List Char) → List Char
  | 0, _, buffer => buffer
  | fuel + 1, x, buffer =>
    if x / base = 0 then digit (x % base) :: buffer else digitsLoop base fuel (x / base) (digit (x % base) :: buffer)

/-- All digits of a number: `x + 1` iterations are always enough; `src/error.rs:469-561`. -/
def digits (base x : Nat) : List Char := digitsLoop base (x + 1) x []

/-- `Formatter::pad_integral` of the standard library with the `0` flag: the width includes the prefix, and zeros go after it;
`src/error.rs:521-561`. -/
def padIntegral (width : Nat) (pre buffer : List Char) : List Char :=
  pre ++ List.replicate (width - (pre.length + buffer.length)) '0' ++ buffer

/-- `{}` and `{:?}` of an unsigned integer, for example `src/error.rs:471`. -/
def decimal (x : Nat) : List Char := padIntegral 0 [] (digits 10 x)

/-- `{:0wX}` with `w = width`, for example `dynamixel2-cli/src/bin/dynamixel2/main.rs:63`. -/
def upperHex (width x : Nat) : List Char := padIntegral width [] (digits 16 x)

/-- `{:#0wX}` with `w = width`, for example `src/error.rs:521`. -/
def upperHexPrefixed (width x : Nat) : List Char := padIntegral width "0x".toList (digits 16 x)

/-- The items of a list after the first in `fmt::Debug` of slices and arrays of the standard library, `src/error.rs:529`. -/
def debugItems : List (List Char) → List Char
  | [] => []
  | x :: xs => ", ".toList ++ x ++ debugItems xs

/-- `fmt::Debug` of slices and arrays of the standard library, `src/error.rs:529`. -/
def debugList : List (List Char) → List Char
  | [] => "[]".toList
  | x :: xs => "[".toList ++ x ++ debugItems xs ++ "]".toList

end Fmt

/-- `impl Display for BufferTooSmallError`, `src/error.rs:479-487`. -/
def BufferTooSmall.display (e : BufferTooSmall) : List Char :=
  "buffer is too small: need ".toList ++ Fmt.decimal e.requiredSize ++ " bytes, but the size is ".toList ++
    Fmt.decimal e.totalSize

/-- `impl Display for WriteError`, `src/error.rs:462-477`. `io` is `Display` of the error type of the serial port. -/
def WriteError.display (io : IoErr → List Char) : WriteError → List Char
  | .bufferTooSmall e => "write buffer is too small: need ".toList ++ Fmt.decimal e.requiredSize ++
      " bytes, but the size is ".toList ++ Fmt.decimal e.totalSize
  | .discardBuffer e => "failed to discard input buffer: ".toList ++ io e
  | .write e => "failed to write to serial port: ".toList ++ io e

/-- `impl Display for MotorError`, `src/error.rs:519-523`. -/
def MotorError.display (e : MotorError) : List Char :=
  "motor reported error status: ".toList ++ Fmt.upperHexPrefixed 2 e.raw.toNat

/-- `impl Debug for MotorError`, `src/error.rs:106-113`: `debug_struct` of the standard library, printed with `{:?}`. -/
def MotorError.debug (e : MotorError) : List Char :=
  "MotorError { error_number: ".toList ++ Fmt.decimal e.errorNumber.toNat ++ ", alert: ".toList ++
    (if e.alert then "true".toList else "false".toList) ++ " }".toList

/-- `impl Display for InvalidHeaderPrefix`, `src/error.rs:525-533`. -/
def InvalidHeaderPrefix.display (e : InvalidHeaderPrefix) : List Char :=
  "invalid header prefix, expected ".toList ++ Fmt.debugList (e.expected.map fun b => Fmt.upperHex 2 b.toNat) ++
    ", got ".toList ++ Fmt.debugList (e.actual.map fun b => Fmt.upperHex 2 b.toNat)

/-- `impl Display for ExpectedCount`, `src/error.rs:561-569`. -/
def ExpectedCount.display : ExpectedCount → List Char
  | .exact x => "exactly ".toList ++ Fmt.decimal x
  | .max x => "at most ".toList ++ Fmt.decimal x
  | .min x => "at least ".toList ++ Fmt.decimal x

/-- `impl Display for InvalidMessage` and for the structs it wraps, `src/error.rs:507-517, 525-559, 571-575`. -/
def InvalidMessage.display : InvalidMessage → List Char
  | .headerPrefix e => e.display
  | .checksum message computed => "invalid checksum, message claims ".toList ++ Fmt.upperHexPrefixed 2 message.toNat ++
      ", computed ".toList ++ Fmt.upperHexPrefixed 2 computed.toNat
  | .packetId actual expected => "invalid packet ID, expected ".toList ++ Fmt.upperHexPrefixed 2 expected.toNat ++
      ", got ".toList ++ Fmt.upperHexPrefixed 2 actual.toNat
  | .unexpectedPacketId actual => "invalid packet ID: ".toList ++ Fmt.upperHexPrefixed 2 actual.toNat
  | .instruction actual expected => "invalid instruction ID, expected ".toList ++ Fmt.decimal expected.toNat ++
      ", got ".toList ++ Fmt.decimal actual.toNat
  | .parameterCount actual expected => "invalid parameter count, expected ".toList ++ expected.display ++
      ", got ".toList ++ Fmt.decimal actual

/-- `impl Display for ReadError`, `src/error.rs:489-505`. -/
def ReadError.display (io : IoErr → List Char) : ReadError → List Char
  | .bufferFull e => "read buffer is too small: need ".toList ++ Fmt.decimal e.requiredSize ++
      " bytes, but the size is ".toList ++ Fmt.decimal e.totalSize
  | .io e => "failed to read from serial port: ".toList ++ io e
  | .invalidMessage e => e.display
  | .motorError e => e.display

/-- `impl Display for TransferError`, `src/error.rs:450-460`. -/
def TransferError.display (io : IoErr → List Char) : TransferError → List Char
  | .writeError e => e.display io
  | .readError e => e.display io

end Dxl
