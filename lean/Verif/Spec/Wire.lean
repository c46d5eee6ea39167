import Verif.Model.Port

/-! # Specification: time on a serial line

Bytes on a line that is used by one sender at a time. Definitions on the script of the environment (`Port`); they do not refer to
any code of the crate. -/

namespace Dxl.Spec.Wire

/-- The time that `n` bytes take at `baud` bits per second, in nanoseconds, rounded up. A byte is sent as ten bits: a start bit,
eight bits of data and a stop bit. -/
def duration (baud n : Nat) : Nat := (n * 10 * 1000000000 + baud - 1) / baud

/-- A byte that the port hands over at some time between these two. -/
structure Due where
  earliest : Nat
  latest : Nat
  byte : BitVec 8
  deriving Repr, DecidableEq

/-- A transmission that begins at `start`, without pauses: `bytes` are what comes after its first `sent` bytes. The port hands
over a byte when it is complete, or up to `latency` later. -/
def due (baud latency start : Nat) : (sent : Nat) → (bytes : List (BitVec 8)) → List Due
  | _, [] => []
  | sent, x :: rest =>
    ⟨start + duration baud (sent + 1), start + duration baud (sent + 1) + latency, x⟩ :: due baud latency start (sent + 1) rest

/-- The port hands over these bytes, each at a time when it is due, any number of them at once. -/
inductive Received : List RxEvent → List Due → Prop
  | nil : Received [] []
  | data {t : Nat} {now later : List Due} {events : List RxEvent} : now ≠ [] → (∀ d ∈ now, d.earliest ≤ t ∧ t ≤ d.latest) →
      Received events later → Received (.data t (now.map (·.byte)) :: events) (now ++ later)

end Dxl.Spec.Wire
