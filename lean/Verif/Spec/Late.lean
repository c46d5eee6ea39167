import Verif.Model.Port
import Verif.Spec.Frame
import Verif.Spec.Stuff

/-! # Answers that come too late

Used by C95. No reference to the code of the crate; the script of the serial port (`RxEvent`) is that of `Model/Port.lean`. -/

namespace Dxl.Spec

/-- A status packet, and when its pieces come out of the serial port. -/
structure LateAnswer where
  sender : BitVec 8
  error : BitVec 8
  params : List (BitVec 8)
  /-- The body, as it is sent. -/
  wire : List (BitVec 8)
  pieces : List (Nat × List (BitVec 8))

namespace LateAnswer

def events (a : LateAnswer) : List RxEvent := a.pieces.map fun p => .data p.1 p.2

/-- The pieces are those of a valid status packet with this sender, error byte and parameters that fits in `cap` bytes. -/
structure Valid (cap : Nat) (a : LateAnswer) : Prop where
  whole : a.pieces.flatMap (·.2) = frame a.sender a.wire
  pieces : ∀ p ∈ a.pieces, p.2 ≠ []
  means : Unstuffs a.wire (0x55#8 :: a.error :: a.params)
  short : a.wire.length + 2 < 2 ^ 16
  fits : (frame a.sender a.wire).length ≤ cap

/-- When all pieces are there, seen from someone who looks from `start` on. -/
def complete (start : Nat) (a : LateAnswer) : Nat := a.pieces.foldl (fun t p => max t p.1) start

end LateAnswer

/-- The answers are one call behind. The first call begins at `now`; each call is given by the time for which it writes, and the
time for which it then waits. While it does so the next answer comes, and the call after it begins when that is complete. What
is left comes later. -/
def OneBehind : (now : Nat) → List (Nat × Nat) → List LateAnswer → Prop
  | now, [], answers => ∀ a ∈ answers, ∀ p ∈ a.pieces, now < p.1
  | _, _ :: _, [] => False
  | now, (writing, waiting) :: calls, a :: answers =>
    (∀ p ∈ a.pieces, now < p.1 ∧ p.1 ≤ now + writing + waiting) ∧ OneBehind (a.complete (now + writing)) calls answers

end Dxl.Spec
