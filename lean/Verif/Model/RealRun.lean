import Verif.Model.Cli
import Verif.Model.IntegrationTests

/-! # `tests/common/real.rs`: the integration tests on real motors

Modelled: the settings from the environment, opening the port, the test, and the mutex that keeps the tests of one process
from using the port at the same time. Simplifications: the messages of the assertions are left out; the mutex is as documented
in the standard library (a guard locks it until it is dropped; a guard that is dropped by a thread that panicked poisons the
mutex; locking a poisoned mutex gives a guard all the same, inside the error); the creation of the mutex by `LazyLock` is left
out; strings are lists of bytes (UTF-8). -/

namespace Dxl
namespace Real

/-- What `std::env::var` finds, `tests/common/real.rs:12, 13, 19`: no such variable, one that is not UTF-8, or a string. -/
inductive Var where
  | absent
  | notUnicode
  | present (s : List Byte)
  deriving Repr, DecidableEq

/-- The result of `std::env::var`, without the reason of a failure, `tests/common/real.rs:12, 13, 19`. -/
def Var.read : Var → Option (List Byte)
  | absent => none
  | notUnicode => none
  | present s => some s

/-- The variables that are read, `tests/common/real.rs:12, 13, 19`. -/
structure Env where
  serialPath : Var
  serialBaud : Var
  deviceIds : Var
  deriving Repr, DecidableEq

/-- The bytes of `"/dev/ttyUSB0"`, `tests/common/real.rs:5`. -/
def defaultSerialPath : List Byte :=
  [0x2F#8, 0x64#8, 0x65#8, 0x76#8, 0x2F#8, 0x74#8, 0x74#8, 0x79#8, 0x55#8, 0x53#8, 0x42#8, 0x30#8]

/-- `DEFAULT_BAUD`, `tests/common/real.rs:6`. -/
def defaultBaud : BitVec 32 := 56700#32

/-- `DEFAULT_IDS`, `tests/common/real.rs:7`. -/
def defaultIds : List Byte := [1#8, 2#8]

/-- The loop of `u32::from_str` of the standard library (`tests/common/real.rs:15`): `result` is the value of the digits so far.
`none` for an invalid digit and for overflow (`checked_mul` and `checked_add`). -/
def parseDigits : (digits : List Byte) → (result : BitVec 32) → Option (BitVec 32)
  | [], result => some result
  | c :: digits, result =>
    if 0x30#8 ≤ c ∧ c ≤ 0x39#8 then
      if result.toNat * 10 < 4294967296 then
        if (result * 10#32).toNat + (c - 0x30#8).toNat < 4294967296 then
          parseDigits digits (result * 10#32 + (c - 0x30#8).setWidth 32)
        else none
      else none
    else none

/-- `u32::from_str` of the standard library (`s.parse()`, `tests/common/real.rs:15`): not empty, an optional `+` that is not
all, and decimal digits. -/
def parseU32 : (src : List Byte) → Option (BitVec 32)
  | [] => none
  | [0x2B#8] => none
  | 0x2B#8 :: digits => parseDigits digits 0#32
  | digits => parseDigits digits 0#32

/-- `ids.split(",")`, `tests/common/real.rs:21`: the pieces between the commas. -/
def splitComma : List Byte → List (List Byte)
  | [] => [[]]
  | c :: s =>
    if c = 0x2C#8 then [] :: splitComma s
    else match splitComma s with
      | [] => [[c]]
      | piece :: pieces => (c :: piece) :: pieces

/-- The pieces are parsed as `u8`, `tests/common/real.rs:22-26`; `none` if one can not be parsed. -/
def parseIds : List (List Byte) → Option (List Byte)
  | [] => some []
  | piece :: pieces =>
    match Cli.parseU8 piece with
    | none => none
    | some id =>
      match parseIds pieces with
      | none => none
      | some ids => some (id :: ids)

/-- `path`, `tests/common/real.rs:12`. -/
def path (env : Env) : List Byte :=
  match env.serialPath.read with
  | some s => s
  | none => defaultSerialPath

/-- `baud`, `tests/common/real.rs:13-18`. -/
def baud {ε : Type} (env : Env) : Outcome ε (BitVec 32) :=
  match env.serialBaud.read with
  | some s =>
    match parseU32 s with
    | some n => .ok n
    | none => .panic
  | none => .ok defaultBaud

/-- `ids`, `tests/common/real.rs:19-28`. -/
def ids {ε : Type} (env : Env) : Outcome ε (List Byte) :=
  match env.deviceIds.read with
  | some s =>
    match parseIds (splitComma s) with
    | some ids => .ok ids
    | none => .panic
  | none => .ok defaultIds

/-- What a thread does that others can notice, `tests/common/real.rs:11, 29, 30`: the mutex is locked, the port is opened or
could not be opened, it is used, it is closed (the client is dropped), the guard is dropped, possibly by a thread that panics. -/
inductive Act where
  | lock
  | openFailed (path : List Byte) (baud : BitVec 32)
  | opened (path : List Byte) (baud : BitVec 32)
  | use (call : Call)
  | close
  | unlock (panicking : Bool)
  deriving Repr, DecidableEq

/-- The calls the test makes on its port, and its end: the client belongs to the test (`tests/common/real.rs:30`), which drops it
when it returns and when it panics; the guard is dropped after that. A test that does not end keeps both. -/
def body (test : SO Bus Empty Unit) (client : Bus) : List Act :=
  let (after, result) := test client
  (after.serialPort.log.drop client.serialPort.log.length).map .use ++
    match result with
    | .ok _ => [.close, .unlock false]
    | .err e => nomatch e
    | .panic => [.close, .unlock true]
    | .hang => []

/-- `run`, `tests/common/real.rs:9-31`: what a thread does that runs a test. `port` is what opening the port with that path and
baud rate gives. -/
def run (debug : Bool) (env : Env) (port : List Byte → BitVec 32 → Outcome IoErr Port)
    (test : List Byte → SO Bus Empty Unit) : List Act :=
  .lock ::
    match (baud env : Outcome IoErr (BitVec 32)) with
    | .ok rate =>
      match (ids env : Outcome IoErr (List Byte)) with
      | .ok motors =>
        match Client.open debug (port (path env) rate) rate.toNat with
        | .ok client => .opened (path env) rate :: body (test motors) client
        | .err _ => [.openFailed (path env) rate, .unlock true]
        | .panic => [.openFailed (path env) rate, .unlock true]
        | .hang => []
      | _ => [.unlock true]
    | _ => [.unlock true]

/-! ## Threads -/

/-- `SERIAL_MUTEX`, `tests/common/real.rs:4`: who holds the guard, and whether a thread has panicked with it. -/
structure Mutex where
  holder : Option Nat
  poisoned : Bool
  deriving Repr, DecidableEq

/-- A process that runs tests: what is left to do for each thread, and the mutex, `tests/common/real.rs:4-31`. -/
structure Process where
  threads : List (List Act)
  mutex : Mutex
  deriving Repr, DecidableEq

/-- What an action of thread `i` does to the mutex, `none` if it has to wait. `let _lock = SERIAL_MUTEX.lock()`,
`tests/common/real.rs:11`, waits until the mutex is free, and `_lock` contains the guard whether the mutex is poisoned or not; the
guard is dropped at the end of the scope, `tests/common/real.rs:31`. -/
def Mutex.act (m : Mutex) (i : Nat) : Act → Option Mutex
  | .lock => match m.holder with
    | none => some { m with holder := some i }
    | some _ => none
  | .unlock panicking => some { holder := none, poisoned := m.poisoned || panicking }
  | _ => some m

/-- One thread takes one step; threads run in any order, `tests/common/real.rs:10-11`. -/
inductive Process.Step : Process → Nat → Act → Process → Prop
  | mk {p : Process} {i : Nat} {a : Act} {rest : List Act} {m : Mutex}
      (h : p.threads[i]? = some (a :: rest)) (hm : p.mutex.act i a = some m) :
      Process.Step p i a { threads := p.threads.set i rest, mutex := m }

/-- An execution: which thread did what, oldest first; `tests/common/real.rs:10-11`. -/
inductive Process.Steps : Process → List (Nat × Act) → Process → Prop
  | nil (p : Process) : Process.Steps p [] p
  | cons {p p₁ p₂ : Process} {i : Nat} {a : Act} {as : List (Nat × Act)}
      (h : Process.Step p i a p₁) (h' : Process.Steps p₁ as p₂) : Process.Steps p ((i, a) :: as) p₂

/-- The tests of a process before they begin, `tests/common/real.rs:4`. -/
def Process.start (threads : List (List Act)) : Process := { threads, mutex := { holder := none, poisoned := false } }

end Real
end Dxl
