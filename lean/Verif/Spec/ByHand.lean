import Verif.Model.Bus

/-! # Using the port by hand: what is needed to state C98 -/

namespace Dxl

/-- What somebody with a reference to the port can do: wait, read, write, discard. -/
inductive ByHand (p : Port) : Port → Prop
  | nothing : ByHand p p
  | wait {q : Port} (h : ByHand p q) (d : Nat) : ByHand p { q with now := q.now + d }
  | read {q : Port} (h : ByHand p q) (cap deadline : Nat) : ByHand p (Port.read cap deadline q).1
  | write {q : Port} (h : ByHand p q) (bytes : List Byte) : ByHand p (Port.writeAll bytes q).1
  | discard {q : Port} (h : ByHand p q) : ByHand p (Port.discardInputBuffer q).1

/-- This bus, if the port had received something else. -/
def Bus.receiving (b : Bus) (r : List RxEvent) : Bus := { b with serialPort := { b.serialPort with rx := r } }

/-- Nothing was written to the port between these states. -/
def Unsent (b b' : Bus) : Prop :=
  ∃ calls, b'.serialPort.log = b.serialPort.log ++ calls ∧ ∀ bytes ok, Call.write bytes ok ∉ calls

end Dxl
