import Verif.Model.Cli
import Verif.Model.Log

/-! # Output of the command line tool: `dynamixel2-cli/src/bin/dynamixel2/logging.rs`, and all messages of `main.rs`

The program of `Model/Cli.lean` once more, with its debug messages and the messages of the library in between, and what is shown of
them. Not modelled: colours (the output is as if it goes to a file), the time in the lines of information, and `env_logger` beyond
its choice of the filter. The output of the crate `serial2` is empty. -/

namespace Dxl
namespace Cli

/-- `log::Level`, `dynamixel2-cli/src/bin/dynamixel2/logging.rs:17-35`. -/
inductive LogLevel where
  | error
  | warn
  | info
  | debug
  | trace
  deriving Repr, DecidableEq

/-- `log::Level` as a number: a level is let through by the filters with the same or a larger number. From the crate `log`; used by
`dynamixel2-cli/src/bin/dynamixel2/logging.rs:4-8`. -/
def LogLevel.number : LogLevel → Nat
  | .error => 1
  | .warn => 2
  | .info => 3
  | .debug => 4
  | .trace => 5

/-- The filter for the module, `dynamixel2-cli/src/bin/dynamixel2/logging.rs:4-8`, with `options.verbose as i8`,
`dynamixel2-cli/src/bin/dynamixel2/main.rs:16`. -/
def levelFilter (verbose : Byte) : LogLevel :=
  match verbose.toInt with
  | 0 => .info
  | 1 => .debug
  | _ => .trace

/-- Whether a message is shown, `dynamixel2-cli/src/bin/dynamixel2/logging.rs:39-41`: the filters for modules apply to names that start
with theirs, and `module_path!()` in `main.rs:16` is `dynamixel2` as well. -/
def enabled (verbose : Byte) (target : List Char) (level : LogLevel) : Bool :=
  if "dynamixel2".toList.isPrefixOf target then decide (level.number ≤ (levelFilter verbose).number)
  else decide (level.number ≤ LogLevel.warn.number)

/-- The prefixes, `dynamixel2-cli/src/bin/dynamixel2/logging.rs:17-35`. -/
def LogLevel.prefix : LogLevel → List Char
  | .trace => "Trace: ".toList
  | .debug => []
  | .info => []
  | .warn => "Warning: ".toList
  | .error => "Error: ".toList

/-- `log::Record`, as far as it is used in `dynamixel2-cli/src/bin/dynamixel2/logging.rs:11-38`. -/
structure Record where
  target : List Char
  level : LogLevel
  text : List Char
  deriving Repr, DecidableEq

/-- The line for a record, `dynamixel2-cli/src/bin/dynamixel2/logging.rs:37`, without its line break. -/
def Record.line (r : Record) : List Char := r.level.prefix ++ " ".toList ++ r.text

/-- What is shown, `dynamixel2-cli/src/bin/dynamixel2/logging.rs:10-42`. -/
def shown (verbose : Byte) (records : List Record) : List (List Char) :=
  (records.filter fun r => enabled verbose r.target r.level).map Record.line

/-- The record of a message of the library, with the modules and levels of `src/bus/mod.rs:226, 266, 306-307` and
`src/instructions/ping.rs:96`. -/
def libraryRecord (line : LogLine) : Record :=
  match line with
  | .sending _ | .read _ | .skipped _ => ⟨"dynamixel2::bus".toList, .trace, line.text⟩
  | .skipping _ => ⟨"dynamixel2::bus".toList, .debug, line.text⟩
  | .pingTimedOut => ⟨"dynamixel2::instructions::ping".toList, .trace, line.text⟩

/-- The levels of `Model/Cli.lean`; `dynamixel2-cli/src/bin/dynamixel2/main.rs:15-200`. -/
def Level.logLevel : Level → LogLevel
  | .info => .info
  | .warn => .warn
  | .error => .error

/-- A message of the program itself, for example `dynamixel2-cli/src/bin/dynamixel2/main.rs:22`. The message about broadcasts is from the
module `dynamixel2::options`, which makes no difference to the filter. -/
def ownRecord (l : Line) : Record := ⟨"dynamixel2".toList, l.1.logLevel, l.2⟩

/-- The running program, `dynamixel2-cli/src/bin/dynamixel2/main.rs:15-178`: the client and the messages so far. -/
structure Program where
  bus : Bus
  records : List Record
  deriving Repr, DecidableEq

/-- Log messages, for example `dynamixel2-cli/src/bin/dynamixel2/main.rs:47-50`. -/
def say {ε : Type} (records : List Record) : SO Program ε Unit := SO.modify fun p => { p with records := p.records ++ records }

/-- `log::debug!`, for example `dynamixel2-cli/src/bin/dynamixel2/main.rs:22`. -/
def sayDebug {ε : Type} (text : List Char) : SO Program ε Unit := say [⟨"dynamixel2".toList, .debug, text⟩]

/-- A call of the library, for example `dynamixel2-cli/src/bin/dynamixel2/main.rs:24`. -/
def library {ε α : Type} (m : SO Logged ε α) : SO Program ε α := fun p =>
  let r := m ⟨p.bus, []⟩
  (⟨r.1.bus, p.records ++ r.1.log.map libraryRecord⟩, r.2)

/-- `map_err(|e| log::error!(…))?`, for example `dynamixel2-cli/src/bin/dynamixel2/main.rs:24`. -/
def orFail {ε α : Type} (text : ε → List Char) (m : SO Program ε α) : SO Program Unit α := fun p =>
  match m p with
  | (p, .ok a) => (p, .ok a)
  | (p, .err e) => ({ p with records := p.records ++ [ownRecord (.error, text e)] }, .err ())
  | (p, .panic) => (p, .panic)
  | (p, .hang) => (p, .hang)

/-- A command with one answer, for example `dynamixel2-cli/src/bin/dynamixel2/main.rs:46-50`. -/
def call {α : Type} (io : IoErr → List Char) (failure : TransferError → Failure) (result : α → Report)
    (m : SO Logged TransferError α) : SO Program Unit Unit := do
  let r ← orFail (fun e => (failure e).text io []) (library m)
  say (((result r).lines io).map ownRecord)

/-- `motor_id.assume_unicast()?`, for example `dynamixel2-cli/src/bin/dynamixel2/main.rs:57`. -/
def unicast (io : IoErr → List Char) (motorId : MotorId) : SO Program Unit Byte :=
  orFail (fun e : Failure => e.text io []) (SO.lift (motorId.assumeUnicast .broadcast))

/-- The loop in `dynamixel2-cli/src/bin/dynamixel2/main.rs:33-38`, with a bound on the number of iterations. -/
def scanLines (io : IoErr → List Char) : (fuel : Nat) → SO Program Unit Unit
  | 0 => SO.hang
  | fuel + 1 => do
    match ← library Logged.scanNext with
    | some item => do
      say (((Report.scan [item]).lines io).map ownRecord)
      scanLines io fuel
    | none => pure ()

/-- The debug message before a command, `dynamixel2-cli/src/bin/dynamixel2/main.rs:22, 44, 54, 66, 78, 96, 108-114, 126-132, 144-151, 163`. -/
def announcement : Command → Option (List Char)
  | .ping (.id motorId) => some ("Sending ping command to motor ".toList ++ Fmt.decimal motorId.toNat)
  | .ping .broadcast => none
  | .reboot motorId => some ("Sending reboot command with motor ID ".toList ++ Fmt.decimal motorId.raw.toNat)
  | .read8 motorId address => some ("Reading an 8-bit value from motor ".toList ++ Fmt.decimal motorId.raw.toNat ++
      " at address ".toList ++ Fmt.decimal address.toNat)
  | .read16 motorId address => some ("Reading a 16-bit value from motor ".toList ++ Fmt.decimal motorId.raw.toNat ++
      " at address ".toList ++ Fmt.decimal address.toNat)
  | .read32 motorId address => some ("Reading a 32-bit value from motor ".toList ++ Fmt.decimal motorId.raw.toNat ++
      " at address ".toList ++ Fmt.decimal address.toNat)
  | .read motorId address count => some ("Reading a ".toList ++ Fmt.decimal count.toNat ++ " bytes from motor ".toList ++
      Fmt.decimal motorId.raw.toNat ++ " at address ".toList ++ Fmt.decimal address.toNat)
  | .write8 motorId address value => some ("Writing 8-bit value ".toList ++ Fmt.decimal value.toNat ++ " (0x".toList ++
      Fmt.upperHex 2 value.toNat ++ ") to motor ".toList ++ Fmt.decimal motorId.raw.toNat ++ " at address ".toList ++
      Fmt.decimal address.toNat)
  | .write16 motorId address value => some ("Writing 16-bit value ".toList ++ Fmt.decimal value.toNat ++ " (0x".toList ++
      Fmt.upperHex 4 value.toNat ++ ") to motor ".toList ++ Fmt.decimal motorId.raw.toNat ++ " at address ".toList ++
      Fmt.decimal address.toNat)
  | .write32 motorId address value => some ("Writing 32-bit value ".toList ++ Fmt.decimal value.toNat ++ " (0x".toList ++
      Fmt.upperHex 4 (value >>> 16).toNat ++ " ".toList ++ Fmt.upperHex 4 (value &&& 0xFFFF#(8 * 4)).toNat ++ ") to motor ".toList ++
      Fmt.decimal motorId.raw.toNat ++ " at address ".toList ++ Fmt.decimal address.toNat)
  | .write motorId address data => some ("Writing ".toList ++ Fmt.decimal data.length ++ " bytes to motor ".toList ++
      Fmt.decimal motorId.raw.toNat ++ " at address ".toList ++ Fmt.decimal address.toNat)

/-- The rest of a command after its announcement, `dynamixel2-cli/src/bin/dynamixel2/main.rs:17-176`. -/
def perform (io : IoErr → List Char) (fuel : Nat) : Command → SO Program Unit Unit
  | .ping (.id motorId) => call io .command .ping (Logged.ping motorId)
  | .ping .broadcast => do
    orFail (fun e => (Failure.command (.writeError e)).text io []) (library Logged.scan)
    scanLines io fuel
    library (Logged.scanDrop fuel)
  | .reboot motorId => call io .command .done (Logged.reboot motorId.raw)
  | .read8 motorId address => do
    let id ← unicast io motorId
    call io .command .read8 (Logged.read (DataTy.unsigned 1) id address)
  | .read16 motorId address => do
    let id ← unicast io motorId
    call io .command .read16 (Logged.read (DataTy.unsigned 2) id address)
  | .read32 motorId address => do
    let id ← unicast io motorId
    call io .command .read32 (Logged.read (DataTy.unsigned 4) id address)
  | .read motorId address count => do
    let id ← unicast io motorId
    call io .command .read (Logged.readBytes id address count)
  | .write8 motorId address value => call io .write .done (Logged.write (DataTy.unsigned 1) motorId.raw address value)
  | .write16 motorId address value => call io .command .done (Logged.write (DataTy.unsigned 2) motorId.raw address value)
  | .write32 motorId address value => call io .command .done (Logged.write (DataTy.unsigned 4) motorId.raw address value)
  | .write motorId address data => call io .command .done (Logged.writeBytes motorId.raw address data)

/-- The debug message of `open_client`, `dynamixel2-cli/src/bin/dynamixel2/main.rs:184-188`. -/
def openedText (path : List Char) (baudRate : Nat) : List Char :=
  "Using serial port ".toList ++ path ++ " with baud rate ".toList ++ Fmt.decimal baudRate

/-- A command with the messages before it, `dynamixel2-cli/src/bin/dynamixel2/main.rs:17-176, 184-188`. -/
def announced (io : IoErr → List Char) (path : List Char) (baudRate fuel : Nat) (command : Command) : SO Program Unit Unit := do
  sayDebug (openedText path baudRate)
  match announcement command with
  | some text => sayDebug text
  | none => pure ()
  perform io fuel command

/-- The program with a command for a motor, `dynamixel2-cli/src/bin/dynamixel2/main.rs:9-13, 15-190`: the client, if there was one, all
messages, and the exit code, if the program ends. -/
def program (debug : Bool) (io : IoErr → List Char) (path : List Char) (opened : Outcome IoErr Port) (baudRate fuel : Nat)
    (command : Command) : Option Bus × List Record × Outcome Empty Nat :=
  match Client.open debug opened baudRate with
  | .ok client =>
    match announced io path baudRate fuel command ⟨client, []⟩ with
    | (p, .ok ()) => (some p.bus, p.records, .ok 0)
    | (p, .err ()) => (some p.bus, p.records, .ok 1)
    | (p, .panic) => (some p.bus, p.records, .panic)
    | (p, .hang) => (some p.bus, p.records, .hang)
  | .err e => (none, [ownRecord (.error, (Failure.openPort e).text io path)], .ok 1)
  | .panic => (none, [], .panic)
  | .hang => (none, [], .hang)

end Cli
end Dxl
