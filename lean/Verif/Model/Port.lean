import Verif.Model.Error

/-!
# The serial port: trait `SerialPort`, `src/serial_port/mod.rs`

The port is an environment, described by a script (see DESIGN.md). Times are in nanoseconds on the clock of the
port, `Instant` and `Duration` are both `Nat`. The behaviour of `read` with respect to deadlines is that of the
`serial2` implementation, `src/serial_port/serial2.rs:24-30`.
-/

namespace Dxl

/-- Something that happens on the receiving side of the port at a time, seen by `read`, `src/serial_port/mod.rs:28`. -/
inductive RxEvent where
  /-- Bytes become available. -/
  | data (time : Nat) (bytes : List Byte)
  /-- A read fails. -/
  | fail (time : Nat) (e : IoErr)
  deriving Repr, DecidableEq

/-- What happens when the script is exhausted: nothing is received any more, or every read fails with the same error
(for example because the device was unplugged); `src/serial_port/mod.rs:28`. -/
inductive Tail where
  | silent
  | broken (e : IoErr)
  deriving Repr, DecidableEq

/-- A call made by the crate to the serial port, `src/serial_port/mod.rs:19-37`. -/
inductive Call where
  | discard (ok : Bool)
  | write (bytes : List Byte) (ok : Bool)
  | read (cap deadline : Nat)
  | setBaud (rate : Nat) (ok : Bool)
  deriving Repr, DecidableEq

/-- A serial port: present time, future of the receiving side, future results of the other calls, and
a log of all calls made so far (oldest first). An implementation of `SerialPort`, `src/serial_port/mod.rs:11-38`. -/
structure Port where
  now : Nat
  rx : List RxEvent
  tail : Tail
  /-- Results of future `discard_input_buffer` calls (`none` is `Ok`); `Ok` when exhausted. -/
  discardRes : List (Option IoErr)
  /-- "Maybe a no-op on some platforms", `src/serial_port/mod.rs:24`. -/
  discardIsNoop : Bool
  /-- Duration and result of future `write_all` calls; immediate and `Ok` when exhausted. -/
  writeRes : List (Nat × Option IoErr)
  /-- Results of future `set_baud_rate` calls. -/
  baudRes : List (Option IoErr)
  /-- The configured baud rate. -/
  rate : Nat
  /-- Result of `baud_rate()`: `none` is `Ok(rate)`. -/
  rateErr : Option IoErr
  log : List Call
  deriving Repr, DecidableEq

/-- Has the event happened already, and is it removed by discarding the input buffer?
`src/serial_port/mod.rs:24-25`. -/
def RxEvent.discardable (now : Nat) : RxEvent → Bool
  | .data t _ => decide (t ≤ now)
  | .fail _ _ => false

namespace Port

/-- Size of the script: bytes plus events. (Bounds the number of reads; no Rust code.) -/
def measure (p : Port) : Nat :=
  (p.rx.map fun e => match e with | .data _ bs => bs.length + 1 | .fail _ _ => 1).sum

/-- `SerialPort::baud_rate`, `src/serial_port/mod.rs:19`. -/
def baudRate (p : Port) : Outcome IoErr Nat :=
  match p.rateErr with
  | none => .ok p.rate
  | some e => .err e

/-- `SerialPort::set_baud_rate`, `src/serial_port/mod.rs:22`. -/
def setBaudRate (rate : Nat) : SO Port IoErr Unit := fun p =>
  match p.baudRes with
  | some e :: rest => ({ p with baudRes := rest, log := p.log ++ [.setBaud rate false] }, .err e)
  | none :: rest => ({ p with baudRes := rest, rate := rate, log := p.log ++ [.setBaud rate true] }, .ok ())
  | [] => ({ p with rate := rate, log := p.log ++ [.setBaud rate true] }, .ok ())

/-- The effect of a successful discard: bytes that arrived are gone, unless the platform ignores the request,
`src/serial_port/mod.rs:24`. -/
def dropArrived (p : Port) : List RxEvent :=
  if p.discardIsNoop then p.rx else p.rx.filter fun e => !e.discardable p.now

/-- `SerialPort::discard_input_buffer`, `src/serial_port/mod.rs:25`. -/
def discardInputBuffer : SO Port IoErr Unit := fun p =>
  match p.discardRes with
  | some e :: rest => ({ p with discardRes := rest, log := p.log ++ [.discard false] }, .err e)
  | none :: rest => ({ p with discardRes := rest, rx := p.dropArrived, log := p.log ++ [.discard true] }, .ok ())
  | [] => ({ p with rx := p.dropArrived, log := p.log ++ [.discard true] }, .ok ())

/-- `SerialPort::write_all`, `src/serial_port/mod.rs:31`. -/
def writeAll (bytes : List Byte) : SO Port IoErr Unit := fun p =>
  match p.writeRes with
  | (dt, some e) :: rest =>
    ({ p with writeRes := rest, now := p.now + dt, log := p.log ++ [.write bytes false] }, .err e)
  | (dt, none) :: rest =>
    ({ p with writeRes := rest, now := p.now + dt, log := p.log ++ [.write bytes true] }, .ok ())
  | [] => ({ p with log := p.log ++ [.write bytes true] }, .ok ())

/-- `SerialPort::make_deadline`, `src/serial_port/serial2.rs:36-38`. -/
def makeDeadline (p : Port) (timeout : Nat) : Nat := p.now + timeout

/-- `SerialPort::read`, `src/serial_port/serial2.rs:24-30`, into a slice of `cap` bytes; returns the bytes read
(at most `cap`). -/
def read (cap deadline : Nat) : SO Port IoErr (List Byte) := fun p =>
  let p := { p with log := p.log ++ [.read cap deadline] }
  if deadline < p.now then (p, .err .timedOut)
  else match p.rx with
    | [] =>
      match p.tail with
      | .silent => ({ p with now := deadline }, .err .timedOut)
      | .broken e => (p, .err e)
    | .data t bs :: rest =>
      if t ≤ deadline then
        if bs.length ≤ cap then ({ p with now := max p.now t, rx := rest }, .ok bs)
        else ({ p with now := max p.now t, rx := .data t (bs.drop cap) :: rest }, .ok (bs.take cap))
      else ({ p with now := deadline }, .err .timedOut)
    | .fail t e :: rest =>
      if t ≤ deadline then ({ p with now := max p.now t, rx := rest }, .err e)
      else ({ p with now := deadline }, .err .timedOut)

end Port

end Dxl
