import Verif.Model.Port

/-! # `src/serial_port/serial2.rs`: the trait implemented with the `serial2` crate

The serial port of the `serial2` crate is an environment: below, `Tty` and the functions in the namespace `Tty` describe what
its methods do (they are not code of this repository, only called by it). The functions in the namespace `Serial2` are the
methods of the trait. -/

namespace Dxl

/-- `serial2::Settings`, obtained and changed in `src/serial_port/serial2.rs:14-15`: the baud rate, and the settings this code
never mentions. Numbers stand for the values of the other settings. -/
structure Settings where
  baudRate : Nat
  charSize : Nat
  stopBits : Nat
  parity : Nat
  flowControl : Nat
  deriving Repr, DecidableEq

/-- `serial2::SerialPort`, on which the methods of `src/serial_port/serial2.rs:5-43` are called: the clock of the system, what
will be received (as for `Port`), the settings of the device, the read timeout, future results of the calls, and the number of
`read` calls so far. -/
structure Tty where
  now : Nat
  rx : List RxEvent
  tail : Tail
  settings : Settings
  readTimeout : Nat
  /-- Results of future `get_configuration` calls (`none` is `Ok`); `Ok` when exhausted. The same for the lists below. -/
  getRes : List (Option IoErr)
  setRes : List (Option IoErr)
  timeoutRes : List (Option IoErr)
  /-- The error of `Settings::set_baud_rate` for a rate that is not supported. -/
  rateErr : Nat → Option IoErr
  /-- The error of `Settings::get_baud_rate` for a configuration with a rate that can not be told. -/
  rateUnknown : Option IoErr
  reads : Nat

namespace Tty

/-- `serial2::SerialPort::get_configuration`, called in `src/serial_port/serial2.rs:10, 14`. -/
def getConfiguration : SO Tty IoErr Settings := fun t =>
  match t.getRes with
  | some e :: rest => ({ t with getRes := rest }, .err e)
  | none :: rest => ({ t with getRes := rest }, .ok t.settings)
  | [] => (t, .ok t.settings)

/-- `serial2::SerialPort::set_configuration`, called in `src/serial_port/serial2.rs:16`. -/
def setConfiguration (settings : Settings) : SO Tty IoErr Unit := fun t =>
  match t.setRes with
  | some e :: rest => ({ t with setRes := rest }, .err e)
  | none :: rest => ({ t with setRes := rest, settings := settings }, .ok ())
  | [] => ({ t with settings := settings }, .ok ())

/-- `serial2::SerialPort::set_read_timeout`, called in `src/serial_port/serial2.rs:28`. -/
def setReadTimeout (timeout : Nat) : SO Tty IoErr Unit := fun t =>
  match t.timeoutRes with
  | some e :: rest => ({ t with timeoutRes := rest }, .err e)
  | none :: rest => ({ t with timeoutRes := rest, readTimeout := timeout }, .ok ())
  | [] => ({ t with readTimeout := timeout }, .ok ())

/-- `serial2::SerialPort::read`, called in `src/serial_port/serial2.rs:29`: waits for the next event, but no longer than the read
timeout, and returns what has arrived, at most `cap` bytes. Simplification: it waits exactly that long. -/
def read (cap : Nat) : SO Tty IoErr (List Byte) := fun t =>
  let t := { t with reads := t.reads + 1 }
  match t.rx with
  | [] =>
    match t.tail with
    | .silent => ({ t with now := t.now + t.readTimeout }, .err .timedOut)
    | .broken e => (t, .err e)
  | .data at_ bs :: rest =>
    if at_ ≤ t.now + t.readTimeout then
      if bs.length ≤ cap then ({ t with now := max t.now at_, rx := rest }, .ok bs)
      else ({ t with now := max t.now at_, rx := .data at_ (bs.drop cap) :: rest }, .ok (bs.take cap))
    else ({ t with now := t.now + t.readTimeout }, .err .timedOut)
  | .fail at_ e :: rest =>
    if at_ ≤ t.now + t.readTimeout then ({ t with now := max t.now at_, rx := rest }, .err e)
    else ({ t with now := t.now + t.readTimeout }, .err .timedOut)

end Tty

namespace Serial2

/-- `baud_rate`, `src/serial_port/serial2.rs:9-11`. -/
def baudRate : SO Tty IoErr Nat := do
  let configuration ← Tty.getConfiguration
  let t ← SO.get
  SO.lift (match t.rateUnknown with | some e => .err e | none => .ok configuration.baudRate)

/-- `set_baud_rate`, `src/serial_port/serial2.rs:13-18`. `settings.set_baud_rate` only changes a local copy. -/
def setBaudRate (rate : Nat) : SO Tty IoErr Unit := do
  let settings ← Tty.getConfiguration
  let t ← SO.get
  let settings ← SO.lift (match t.rateErr rate with | some e => .err e | none => .ok { settings with baudRate := rate })
  Tty.setConfiguration settings
  pure ()

/-- `read`, `src/serial_port/serial2.rs:24-30`. `checked_duration_since` is `None` if the deadline is past. -/
def read (cap deadline : Nat) : SO Tty IoErr (List Byte) := do
  let t ← SO.get
  let timeout ← SO.lift (if t.now ≤ deadline then .ok (deadline - t.now) else .err .timedOut)
  Tty.setReadTimeout timeout
  Tty.read cap

/-- `make_deadline`, `src/serial_port/serial2.rs:36-38`: `Instant::now() + timeout` panics if the clock of the platform, with
its largest time `limit`, can not represent the sum. -/
def makeDeadline (limit timeout : Nat) (t : Tty) : Outcome IoErr Nat :=
  if t.now + timeout ≤ limit then .ok (t.now + timeout) else .panic

end Serial2

end Dxl
