import Verif.Model.Construct
import Verif.Model.Display
import Verif.Model.Instructions

/-! # `dynamixel2-cli/src/bin/dynamixel2`: the command line tool

Modelled: motor ID arguments, what each command does, what is logged at the levels that are always shown (information, warnings
and errors, `logging.rs:4-8`), and the exit code. `Model/CliLog.lean` adds the messages of the other levels and the prefixes of the
lines, and `Model/ShellCompletion.lean` the command for shell completions, which does not use a port. Not modelled: `clap` (how the
arguments are found and the numbers other than motor IDs are parsed) and colours. -/

namespace Dxl
namespace Cli

/-- `MotorId`, `dynamixel2-cli/src/bin/dynamixel2/options.rs:173-177`. -/
inductive MotorId where
  | id (raw : Byte)
  | broadcast
  deriving Repr, DecidableEq

namespace MotorId

/-- `MotorId::raw`, `dynamixel2-cli/src/bin/dynamixel2/options.rs:180-185`. -/
def raw : MotorId → Byte
  | id raw => raw
  | broadcast => Dxl.broadcast

/-- `MotorId::assume_unicast`, `dynamixel2-cli/src/bin/dynamixel2/options.rs:187-195`. The error is logged there; here it is
returned, and logged in `Failure.text`. -/
def assumeUnicast {ε : Type} (e : ε) : MotorId → Outcome ε Byte
  | id raw => .ok raw
  | broadcast => .err e

end MotorId

/-- `u8::to_ascii_lowercase` of the standard library, used by `eq_ignore_ascii_case`, `dynamixel2-cli/src/bin/dynamixel2/options.rs:202`. -/
def toAsciiLowercase (c : Byte) : Byte := if 0x41#8 ≤ c ∧ c ≤ 0x5A#8 then c ||| 0x20#8 else c

/-- `str::eq_ignore_ascii_case` of the standard library: it compares the bytes; `dynamixel2-cli/src/bin/dynamixel2/options.rs:202`. -/
def eqIgnoreAsciiCase (a b : List Byte) : Bool := a.map toAsciiLowercase == b.map toAsciiLowercase

/-- The loop of `u8::from_str` of the standard library (`dynamixel2-cli/src/bin/dynamixel2/options.rs:204`): `result` is the value of the digits so far. `none` for an invalid
digit and for overflow (`checked_mul` and `checked_add`). -/
def parseDigits : (digits : List Byte) → (result : Byte) → Option Byte
  | [], result => some result
  | c :: digits, result =>
    if 0x30#8 ≤ c ∧ c ≤ 0x39#8 then
      if result.toNat * 10 < 256 then
        if (result * 10#8).toNat + (c - 0x30#8).toNat < 256 then parseDigits digits (result * 10#8 + (c - 0x30#8)) else none
      else none
    else none

/-- `u8::from_str` of the standard library (`data.parse()`, `dynamixel2-cli/src/bin/dynamixel2/options.rs:204`), for the UTF-8 bytes of a string: not empty, an optional `+`
that is not all, and decimal digits. -/
def parseU8 : (src : List Byte) → Option Byte
  | [] => none
  | [0x2B#8] => none
  | 0x2B#8 :: digits => parseDigits digits 0#8
  | digits => parseDigits digits 0#8

/-- The bytes of `"broadcast"`, `dynamixel2-cli/src/bin/dynamixel2/options.rs:202`. -/
def broadcastName : List Byte := [0x62#8, 0x72#8, 0x6F#8, 0x61#8, 0x64#8, 0x63#8, 0x61#8, 0x73#8, 0x74#8]

/-- `MotorId::from_str`, `dynamixel2-cli/src/bin/dynamixel2/options.rs:201-213`, for the UTF-8 bytes of the argument. The
error message is left out. -/
def MotorId.fromStr (data : List Byte) : Option MotorId :=
  if eqIgnoreAsciiCase data broadcastName then some .broadcast
  else match parseU8 data with
    | some n => if n = Dxl.broadcast then some .broadcast else some (.id n)
    | none => none

/-- `Command`, `dynamixel2-cli/src/bin/dynamixel2/options.rs:32-172`, without `ShellCompletion`. -/
inductive Command where
  | ping (motorId : MotorId)
  | reboot (motorId : MotorId)
  | read8 (motorId : MotorId) (address : U16)
  | read16 (motorId : MotorId) (address : U16)
  | read32 (motorId : MotorId) (address : U16)
  | read (motorId : MotorId) (address count : U16)
  | write8 (motorId : MotorId) (address : U16) (value : BitVec (8 * 1))
  | write16 (motorId : MotorId) (address : U16) (value : BitVec (8 * 2))
  | write32 (motorId : MotorId) (address : U16) (value : BitVec (8 * 4))
  | write (motorId : MotorId) (address : U16) (data : List Byte)

/-- What made a command fail, as far as it is logged. -/
inductive Failure where
  /-- `dynamixel2-cli/src/bin/dynamixel2/main.rs:182-183` -/
  | openPort (e : IoErr)
  /-- `dynamixel2-cli/src/bin/dynamixel2/options.rs:191` -/
  | broadcast
  /-- For example `dynamixel2-cli/src/bin/dynamixel2/main.rs:46`. -/
  | command (e : TransferError)
  /-- `dynamixel2-cli/src/bin/dynamixel2/main.rs:118` -/
  | write (e : TransferError)
  deriving Repr, DecidableEq

/-- What a successful command logs. -/
inductive Report where
  /-- `dynamixel2-cli/src/bin/dynamixel2/main.rs:25-28` -/
  | ping (r : Response Client.Ping)
  /-- `dynamixel2-cli/src/bin/dynamixel2/main.rs:33-38` -/
  | scan (items : List (Except ReadError (Response Client.Ping)))
  /-- For example `dynamixel2-cli/src/bin/dynamixel2/main.rs:47-50`. -/
  | done (r : Response Unit)
  /-- `dynamixel2-cli/src/bin/dynamixel2/main.rs:59-62` -/
  | read8 (r : Response (BitVec (8 * 1)))
  /-- `dynamixel2-cli/src/bin/dynamixel2/main.rs:71-74` -/
  | read16 (r : Response (BitVec (8 * 2)))
  /-- `dynamixel2-cli/src/bin/dynamixel2/main.rs:83-92` -/
  | read32 (r : Response (BitVec (8 * 4)))
  /-- `dynamixel2-cli/src/bin/dynamixel2/main.rs:101-104` -/
  | read (r : Response (List Byte))

/-- The `for` loop over the responses to a broadcast ping, `dynamixel2-cli/src/bin/dynamixel2/main.rs:33-38`, with a bound on the
number of iterations: the items, which are logged. -/
def scanLoop {ε : Type} : (fuel : Nat) → SO Bus ε (List (Except ReadError (Response Client.Ping)))
  | 0 => SO.hang
  | fuel + 1 => do
    match ← Client.scanNext with
    | some s => do
      let items ← scanLoop fuel
      pure (s :: items)
    | none => pure []

/-- A command: an error is logged and replaced with `()`, a response is logged, for example
`dynamixel2-cli/src/bin/dynamixel2/main.rs:46-50`. -/
def report {ε α : Type} (failure : ε → Failure) (result : α → Report) (m : SO Bus ε α) : SO Bus Failure Report := do
  let r ← m.mapErr failure
  pure (result r)

/-- The `match` of `do_main`, `dynamixel2-cli/src/bin/dynamixel2/main.rs:17-176`, with the open client as state. `fuel` bounds
the iterations of the `for` loop in lines 33-38 and of the loop in `drop` that follows it. -/
def doMain (fuel : Nat) : Command → SO Bus Failure Report
  | .ping (.id motorId) => report .command .ping (Client.ping motorId)
  | .ping .broadcast => do
    Client.scan.mapErr fun e => .command (.writeError e)
    let items ← scanLoop fuel
    Client.scanDrop fuel
    pure (.scan items)
  | .reboot motorId => report .command .done (Client.reboot motorId.raw)
  | .read8 motorId address => do
    let id ← SO.lift (motorId.assumeUnicast .broadcast)
    report .command .read8 (Client.read (DataTy.unsigned 1) id address)
  | .read16 motorId address => do
    let id ← SO.lift (motorId.assumeUnicast .broadcast)
    report .command .read16 (Client.read (DataTy.unsigned 2) id address)
  | .read32 motorId address => do
    let id ← SO.lift (motorId.assumeUnicast .broadcast)
    report .command .read32 (Client.read (DataTy.unsigned 4) id address)
  | .read motorId address count => do
    let id ← SO.lift (motorId.assumeUnicast .broadcast)
    report .command .read (Client.readBytes id address count)
  | .write8 motorId address value => report .write .done (Client.write (DataTy.unsigned 1) motorId.raw address value)
  | .write16 motorId address value => report .command .done (Client.write (DataTy.unsigned 2) motorId.raw address value)
  | .write32 motorId address value => report .command .done (Client.write (DataTy.unsigned 4) motorId.raw address value)
  | .write motorId address data => report .command .done (Client.writeBytes motorId.raw address data)

/-! ## Output and exit code -/

/-- `log::Level`, of the levels used by `log::info!`, `log::warn!` and `log::error!` in
`dynamixel2-cli/src/bin/dynamixel2/main.rs:15-200`. -/
inductive Level where
  | info
  | warn
  | error
  deriving Repr, DecidableEq

/-- A line of output: its level and text. -/
abbrev Line := Level × List Char

/-- The warning for an alert, for example `dynamixel2-cli/src/bin/dynamixel2/main.rs:47-49`. -/
def alertLines (alert : Bool) : List Line :=
  if alert then [(.warn, "Alert bit set in response from motor!".toList)] else []

/-- The derived `Debug` of `Ping`, `src/instructions/ping.rs:8-18`. -/
def pingDebug (p : Client.Ping) : List Char :=
  "Ping { model: ".toList ++ Fmt.decimal p.model.toNat ++ ", firmware: ".toList ++ Fmt.decimal p.firmware.toNat ++ " }".toList

/-- `log_ping_response`, `dynamixel2-cli/src/bin/dynamixel2/main.rs:192-200`, without the time in the second line. -/
def logPingResponse (r : Response Client.Ping) : List Line :=
  [(.info, "Motor ID: ".toList ++ Fmt.decimal r.motorId.toNat), (.info, " ├─ Response time: ".toList)] ++
    (if r.alert then [(.info, " ├─ Alert: true".toList)] else []) ++
    [(.info, " ├─ Model: ".toList ++ Fmt.decimal r.data.model.toNat), (.info, " └─ Firmware: ".toList ++ Fmt.decimal r.data.firmware.toNat)]

/-- What is logged for a successful command. The time that the command took, at the start of the line of information
(`{:?}: `, for example `dynamixel2-cli/src/bin/dynamixel2/main.rs:50`), is left out. -/
def Report.lines (io : IoErr → List Char) : Report → List Line
  | .ping r => alertLines r.alert ++ [(.info, pingDebug r.data)]
  | .scan items => items.flatMap fun
    | .ok r => logPingResponse r
    | .error e => [(.error, "Error pinging motor: ".toList ++ e.display io)]
  | .done r => alertLines r.alert ++ [(.info, "Ok".toList)]
  | .read8 r => alertLines r.alert ++ [(.info, Fmt.decimal r.data.toNat ++ " (0x".toList ++ Fmt.upperHex 2 r.data.toNat ++ ")".toList)]
  | .read16 r => alertLines r.alert ++ [(.info, Fmt.decimal r.data.toNat ++ " (0x".toList ++ Fmt.upperHex 4 r.data.toNat ++ ")".toList)]
  | .read32 r => alertLines r.alert ++ [(.info, Fmt.decimal r.data.toNat ++ " (0x".toList ++
      Fmt.upperHex 4 ((r.data >>> 16) &&& 0xFFFF#(8 * 4)).toNat ++ " ".toList ++
      Fmt.upperHex 4 (r.data &&& 0xFFFF#(8 * 4)).toNat ++ ")".toList)]
  | .read r => alertLines r.alert ++ [(.info, Fmt.debugList (r.data.map fun b => Fmt.decimal b.toNat))]

/-- The text logged for a failure. `path` is the name of the serial port. -/
def Failure.text (io : IoErr → List Char) (path : List Char) : Failure → List Char
  | .openPort e => "Failed to open serial port: ".toList ++ path ++ ": ".toList ++ io e
  | .broadcast => "Invalid motor ID: this command can not be broadcasted.".toList
  | .command e => "Command failed: ".toList ++ e.display io
  | .write e => "Write failed: ".toList ++ e.display io

/-- A run of the program with a command for a motor, `dynamixel2-cli/src/bin/dynamixel2/main.rs:9-13, 15-190`: the client when
the run is over, if there was one, and the lines and the exit code, unless the program panics or never ends. `opened` is what
opening the serial port gives, and `baudRate` the option. -/
def main (debug : Bool) (io : IoErr → List Char) (path : List Char) (opened : Outcome IoErr Port) (baudRate fuel : Nat)
    (command : Command) : Option Bus × Outcome Empty (List Line × Nat) :=
  match Client.open debug opened baudRate with
  | .ok client =>
    match doMain fuel command client with
    | (client, .ok r) => (some client, .ok (r.lines io, 0))
    | (client, .err e) => (some client, .ok ([(.error, e.text io path)], 1))
    | (client, .panic) => (some client, .panic)
    | (client, .hang) => (some client, .hang)
  | .err e => (none, .ok ([(.error, (Failure.openPort e).text io path)], 1))
  | .panic => (none, .panic)
  | .hang => (none, .hang)

end Cli
end Dxl
