import Verif.Model.Mock
import Verif.Model.MockSerial

/-! # `run_mock`, `tests/common/mock/mod.rs:43-54`, and `MockDevice::run`: the threads of an integration test

The threads are the code of `Model/Client.lean` and `Model/Mock.lean`, each on its own port of the line of
`Model/MockSerial.lean`. That code runs on the scripts of `Model/Port.lean`; a thread takes part in an execution of the line if
some script gives it the answers that the line gave (for every sequence of answers there is a script: `script_complete`).
Simplifications: the clock of the script has nothing to do with that of the line, so that a read can time out or return bytes
at any time; in `Saw` the size of the slice given to a read is not compared, either (in `Traced` it is). Both allow more
executions than the code has. -/

namespace Dxl

/-- What a thread sees of its port: a read that returns bytes, a read that fails, a write being asked for;
`src/serial_port/mod.rs:28, 31`. -/
inductive Seen where
  | got (bytes : List Byte)
  | failed (e : IoErr)
  | wrote (bytes : List Byte)
  deriving Repr, DecidableEq

/-- The calls that lead from one state of the port to another, `src/serial_port/mod.rs:22-31`, as seen by the code that makes
them. Calls of `discard_input_buffer` and `set_baud_rate` are left out: on this line they do nothing,
`tests/common/mock/mock_serial_port.rs:61-72`. (The log that is part of the state of the port tells which calls were made, so
that there is only one such list: `saw_unique`.) -/
inductive Saw : Port → List Seen → Port → Prop
  | nil (p : Port) : Saw p [] p
  | got {p p₁ p₂ : Port} {cap deadline : Nat} {bytes : List Byte} {es : List Seen}
      (h : Port.read cap deadline p = (p₁, .ok bytes)) (h' : Saw p₁ es p₂) : Saw p (.got bytes :: es) p₂
  | failed {p p₁ p₂ : Port} {cap deadline : Nat} {e : IoErr} {es : List Seen}
      (h : Port.read cap deadline p = (p₁, .err e)) (h' : Saw p₁ es p₂) : Saw p (.failed e :: es) p₂
  | wrote {p p₁ p₂ : Port} {bytes : List Byte} {o : Outcome IoErr Unit} {es : List Seen}
      (h : Port.writeAll bytes p = (p₁, o)) (h' : Saw p₁ es p₂) : Saw p (.wrote bytes :: es) p₂
  | discarded {p p₁ p₂ : Port} {o : Outcome IoErr Unit} {es : List Seen}
      (h : Port.discardInputBuffer p = (p₁, o)) (h' : Saw p₁ es p₂) : Saw p es p₂
  | baud {p p₁ p₂ : Port} {rate : Nat} {o : Outcome IoErr Unit} {es : List Seen}
      (h : Port.setBaudRate rate p = (p₁, o)) (h' : Saw p₁ es p₂) : Saw p es p₂

/-- What a thread does with its port: a read being asked for, with the size of the slice, its result, a write being asked for;
`src/serial_port/mod.rs:28, 31`. -/
inductive PortAct where
  | asked (cap : Nat)
  | got (bytes : List Byte)
  | failed (e : IoErr)
  | wrote (bytes : List Byte)
  deriving Repr, DecidableEq

/-- The calls that lead from one state of the port to another, `src/serial_port/mod.rs:22-31`, like `Saw`, and with the size of the
slice of each read. -/
inductive Traced : Port → List PortAct → Port → Prop
  | nil (p : Port) : Traced p [] p
  | got {p p₁ p₂ : Port} {cap deadline : Nat} {bytes : List Byte} {es : List PortAct}
      (h : Port.read cap deadline p = (p₁, .ok bytes)) (h' : Traced p₁ es p₂) : Traced p (.asked cap :: .got bytes :: es) p₂
  | failed {p p₁ p₂ : Port} {cap deadline : Nat} {e : IoErr} {es : List PortAct}
      (h : Port.read cap deadline p = (p₁, .err e)) (h' : Traced p₁ es p₂) : Traced p (.asked cap :: .failed e :: es) p₂
  | wrote {p p₁ p₂ : Port} {bytes : List Byte} {o : Outcome IoErr Unit} {es : List PortAct}
      (h : Port.writeAll bytes p = (p₁, o)) (h' : Traced p₁ es p₂) : Traced p (.wrote bytes :: es) p₂
  | discarded {p p₁ p₂ : Port} {o : Outcome IoErr Unit} {es : List PortAct}
      (h : Port.discardInputBuffer p = (p₁, o)) (h' : Traced p₁ es p₂) : Traced p es p₂
  | baud {p p₁ p₂ : Port} {rate : Nat} {o : Outcome IoErr Unit} {es : List PortAct}
      (h : Port.setBaudRate rate p = (p₁, o)) (h' : Traced p₁ es p₂) : Traced p es p₂

namespace MockDevice

/-- The loop of `run`, `tests/common/mock/mock_device.rs:60-173`, with `n` iterations before the flag is found to be set (or
before a panic, which ends the thread). -/
def run {ε : Type} (fuel : Nat) : (n : Nat) → SO MockDevice ε Unit
  | 0 => pure ()
  | n + 1 => do
    step fuel
    run fuel n

end MockDevice

namespace MockSerial

/-- What a step is for the thread of port `i`, `tests/common/mock/mock_serial_port.rs:74-102`. -/
def Act.for (i : Nat) : Act → Option Seen
  | .take j bytes => if j = i then some (.got bytes) else none
  | .expire j => if j = i then some (.failed .timedOut) else none
  | .startWrite j data => if j = i then some (.wrote data) else none
  | _ => none

/-- What the thread of port `i` has seen of the line so far, `tests/common/mock/mock_serial_port.rs:74-102`. -/
def history (i : Nat) (as : List Act) : List Seen := as.filterMap (Act.for i)

/-- What a step is for the thread of port `i`, with the reads that are asked for,
`tests/common/mock/mock_serial_port.rs:74-102`. -/
def Act.traceFor (i : Nat) : Act → Option PortAct
  | .startRead j cap _ => if j = i then some (.asked cap) else none
  | .take j bytes => if j = i then some (.got bytes) else none
  | .expire j => if j = i then some (.failed .timedOut) else none
  | .startWrite j data => if j = i then some (.wrote data) else none
  | _ => none

/-- What the thread of port `i` has done so far, `tests/common/mock/mock_serial_port.rs:74-102`. -/
def trace (i : Nat) (as : List Act) : List PortAct := as.filterMap (Act.traceFor i)

/-- The execution `as` of the line is possible for the threads of the motors, `tests/common/mock/mod.rs:35-36, 50`: each of them
is a new `MockDevice` that has run its loop for some number of iterations, perhaps not to the end of the last one. -/
def Motors (ids : List Byte) (as : List Act) : Prop :=
  ∀ (k : Nat) (id : Byte), ids[k]? = some id →
    ∃ (debug : Bool) (port : Port) (device : Bus) (fuel n : Nat) (es : List Seen),
      Device.new debug port = .ok device ∧
      Saw port es ((MockDevice.run fuel n : SO MockDevice Empty Unit) (.new id device)).1.device.serialPort ∧
      history (k + 1) as <+: es

/-- `device_t.into_iter().for_each(|d| d.join().unwrap())`, `tests/common/mock/mod.rs:53`: `join` waits for the thread, and returns an
error if it has panicked. -/
def joinAll {ε : Type} : (threads : List (Outcome ε Unit)) → Outcome ε Unit
  | [] => .ok ()
  | .ok _ :: threads => joinAll threads
  | .err _ :: _ => .panic
  | .panic :: _ => .panic
  | .hang :: _ => .hang

/-- `run_mock`, `tests/common/mock/mod.rs:51-53`, once the threads are started: the outcomes of `test` and of the threads. (If `test`
panics then the flag is not set and the threads are not joined.) -/
def runMock {ε : Type} (test : Outcome ε Unit) (threads : List (Outcome ε Unit)) : Outcome ε Unit := test.bind fun _ => joinAll threads

end MockSerial
end Dxl
