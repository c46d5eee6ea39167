import Verif.Model.Basic

/-! # `tests/common/mock/mock_serial_port.rs` and `tests/common/mock/mod.rs`: the simulated line

Each port is used by one thread. The steps of the threads are interleaved in any order. What a thread does while it holds a
mutex is one step: no other thread can see or change the buffer then, and no thread ever holds two mutexes. (A `try_lock` that
fails because another thread holds the mutex is the step `miss`, possible at any time; a `lock` just waits.)
Simplifications: `Instant` is `Nat`, log messages and names of the ports are left out. -/

namespace Dxl
namespace MockSerial

/-- What the thread of a port is doing. -/
inductive Thread where
  /-- Neither in `read` nor in `write_all`. -/
  | idle
  /-- In the loop of `read`, `tests/common/mock/mock_serial_port.rs:75-94`. `checked`: line 76 found that the deadline has not
  passed. -/
  | reading (cap deadline : Nat) (checked : Bool)
  /-- In the loop of `write_all`, `tests/common/mock/mock_serial_port.rs:98-100`, with these buffers still to come. -/
  | writing (data : List Byte) (pending : List Nat)
  /-- Panicked, with these buffers not yet written to. -/
  | panicked (pending : List Nat)
  deriving Repr, DecidableEq

/-- A `SharedBuffer`, `tests/common/mock/mock_serial_port.rs:6-9`: the contents of the `Vec`, and whether a thread panicked while
it held the mutex. -/
structure Shared where
  data : List Byte
  poisoned : Bool
  deriving Repr, DecidableEq

/-- All ports. Port `i` reads from buffer `i` and writes to the buffers `others i` (`other_device_buffers`),
`tests/common/mock/mock_serial_port.rs:34-40`. -/
structure State where
  now : Nat
  buffers : Nat → Shared
  threads : Nat → Thread

/-- Before any thread runs: `MockSerial::new`, `tests/common/mock/mock_serial_port.rs:43-50`. -/
def init : State := { now := 0, buffers := fun _ => ⟨[], false⟩, threads := fun _ => .idle }

/-- The thread of port `i` moves on to `t`, `tests/common/mock/mock_serial_port.rs:74-102`. -/
def State.thread (s : State) (i : Nat) (t : Thread) : State :=
  { s with threads := fun k => if k = i then t else s.threads k }

/-- Buffer `j` changes to `b`, `tests/common/mock/mock_serial_port.rs:28-31, 88`. -/
def State.buffer (s : State) (j : Nat) (b : Shared) : State :=
  { s with buffers := fun k => if k = j then b else s.buffers k }

/-- What happens in a step, `tests/common/mock/mock_serial_port.rs:74-102`. -/
inductive Act where
  /-- Time passes. -/
  | tick
  /-- `read` is called with a slice of `cap` bytes. -/
  | startRead (i cap deadline : Nat)
  /-- Line 76: the deadline has not passed. -/
  | check (i : Nat)
  /-- Lines 76-78: it has; `read` returns `TimedOut`. -/
  | expire (i : Nat)
  /-- Line 79: no guard, or lines 80-82: nothing there. -/
  | miss (i : Nat)
  /-- Lines 79-92: `read` returns these bytes. -/
  | take (i : Nat) (bytes : List Byte)
  /-- Lines 84-86: `read` panics with the mutex locked. -/
  | crash (i : Nat)
  /-- `write_all` is called. -/
  | startWrite (i : Nat) (data : List Byte)
  /-- Lines 98-100 and 28-31 for the next buffer. -/
  | append (i : Nat)
  /-- Line 29: the mutex of the next buffer is poisoned, `unwrap` panics. -/
  | fail (i : Nat)
  /-- Line 101: `write_all` returns. -/
  | finish (i : Nat)
  deriving Repr, DecidableEq

/-- One step, `tests/common/mock/mock_serial_port.rs:74-102`. `others i` are the buffers port `i` writes to. -/
inductive Step (others : Nat → List Nat) : State → Act → State → Prop
  | tick {s : State} : Step others s .tick { s with now := s.now + 1 }
  | startRead {s : State} {i cap deadline : Nat} (h : s.threads i = .idle) :
      Step others s (.startRead i cap deadline) (s.thread i (.reading cap deadline false))
  | check {s : State} {i cap deadline : Nat} (h : s.threads i = .reading cap deadline false) (hd : s.now ≤ deadline) :
      Step others s (.check i) (s.thread i (.reading cap deadline true))
  | expire {s : State} {i cap deadline : Nat} (h : s.threads i = .reading cap deadline false) (hd : deadline < s.now) :
      Step others s (.expire i) (s.thread i .idle)
  | miss {s : State} {i cap deadline : Nat} (h : s.threads i = .reading cap deadline true) :
      Step others s (.miss i) (s.thread i (.reading cap deadline false))
  | take {s : State} {i cap deadline : Nat} (h : s.threads i = .reading cap deadline true)
      (hp : (s.buffers i).poisoned = false) (hn : (s.buffers i).data ≠ []) (hl : (s.buffers i).data.length ≤ cap) :
      Step others s (.take i (s.buffers i).data) ((s.thread i .idle).buffer i ⟨[], false⟩)
  | crash {s : State} {i cap deadline : Nat} (h : s.threads i = .reading cap deadline true)
      (hp : (s.buffers i).poisoned = false) (hl : cap < (s.buffers i).data.length) :
      Step others s (.crash i) ((s.thread i (.panicked [])).buffer i ⟨(s.buffers i).data, true⟩)
  | startWrite {s : State} {i : Nat} {data : List Byte} (h : s.threads i = .idle) :
      Step others s (.startWrite i data) (s.thread i (.writing data (others i)))
  | append {s : State} {i j : Nat} {data : List Byte} {pending : List Nat} (h : s.threads i = .writing data (j :: pending))
      (hp : (s.buffers j).poisoned = false) :
      Step others s (.append i) ((s.thread i (.writing data pending)).buffer j ⟨(s.buffers j).data ++ data, false⟩)
  | fail {s : State} {i j : Nat} {data : List Byte} {pending : List Nat} (h : s.threads i = .writing data (j :: pending))
      (hp : (s.buffers j).poisoned = true) :
      Step others s (.fail i) (s.thread i (.panicked (j :: pending)))
  | finish {s : State} {i : Nat} {data : List Byte} (h : s.threads i = .writing data []) :
      Step others s (.finish i) (s.thread i .idle)

/-- Any number of steps of any threads, `tests/common/mock/mock_serial_port.rs:74-102`. -/
inductive Run (others : Nat → List Nat) : State → List Act → State → Prop
  | nil (s : State) : Run others s [] s
  | snoc {s s' s'' : State} {as : List Act} {a : Act} (h : Run others s as s') (h' : Step others s' a s'') :
      Run others s (as ++ [a]) s''

/-- The connections made by `new_client_device`, `tests/common/mock/mod.rs:11-41`: port 0 is that of the client, port `k + 1` that
of the device with ID `ids[k]`. `client_serial.add_device` and `serial.add_device`, lines 17-18, then lines 27-33. -/
def newClientDevice (ids : List Byte) : Nat → List Nat
  | 0 => (List.range ids.length).map (· + 1)
  | k + 1 =>
    if k < ids.length then 0 :: ((List.range ids.length).filter fun j => ids[k]? != ids[j]?).map (· + 1) else []

end MockSerial
end Dxl
