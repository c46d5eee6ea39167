import Verif.Model.Basic

/-! # `src/bus/mod.rs`: the macro `static_buffer!`

One occurrence of the macro, evaluated any number of times, by any threads. Each evaluation has a number. The steps of the
evaluations are interleaved in any order. This is faithful although the swap is `Relaxed`: all atomic operations on one
location have a total order (its modification order), and a swap reads the value directly before its own in that order. What is
not modelled is what `Relaxed` leaves open about *other* locations: only the evaluation that was first to swap goes on to use the
buffer, so that nothing has to be ordered with it. -/

namespace Dxl
namespace StaticBuffer

/-- How far an evaluation is in `src/bus/mod.rs:60-74`. -/
inductive Eval where
  /-- before line 64 -/
  | start
  /-- after the swap of line 64 returned this -/
  | swapped (old : Bool)
  /-- after line 65 -/
  | panicked
  /-- after lines 67-73: it got the `&'static mut [u8]` -/
  | holds
  deriving Repr, DecidableEq

/-- The statics `USED` and `BUFFER` (`src/bus/mod.rs:62-63`) and the evaluations. -/
structure State where
  used : Bool
  buffer : List Byte
  evals : Nat → Eval

/-- The initial values of the statics, `src/bus/mod.rs:62-63`. -/
def init (N : Nat) : State := { used := false, buffer := List.replicate N 0#8, evals := fun _ => .start }

/-- What the code of `src/bus/mod.rs:60-74` does in a step, or later its user. -/
inductive Action where
  /-- `USED.swap(true, Ordering::Relaxed)` -/
  | swap (i : Nat)
  /-- The rest of the evaluation. -/
  | finish (i : Nat)
  /-- Some use of the slice an evaluation returned: other bytes are stored in it. -/
  | store (i : Nat) (bytes : List Byte)
  deriving Repr, DecidableEq

/-- One evaluation moves on in `src/bus/mod.rs:60-74`. -/
def State.set (s : State) (i : Nat) (e : Eval) : State := { s with evals := fun j => if j = i then e else s.evals j }

/-- One step, `src/bus/mod.rs:64-73`. A slice can only be used by the code that has it, and it keeps its length. -/
inductive Step : State → Action → State → Prop
  | swap {s : State} {i : Nat} (h : s.evals i = .start) :
      Step s (.swap i) { s.set i (.swapped s.used) with used := true }
  | panic {s : State} {i : Nat} (h : s.evals i = .swapped true) : Step s (.finish i) (s.set i .panicked)
  | take {s : State} {i : Nat} (h : s.evals i = .swapped false) : Step s (.finish i) (s.set i .holds)
  | store {s : State} {i : Nat} {bytes : List Byte} (h : s.evals i = .holds) (hl : bytes.length = s.buffer.length) :
      Step s (.store i bytes) { s with buffer := bytes }

/-- Any number of steps of any evaluations of `src/bus/mod.rs:60-74`. -/
inductive Run : State → List Action → State → Prop
  | nil (s : State) : Run s [] s
  | snoc {s s' s'' : State} {as : List Action} {a : Action} (h : Run s as s') (h' : Step s' a s'') : Run s (as ++ [a]) s''

end StaticBuffer
end Dxl
