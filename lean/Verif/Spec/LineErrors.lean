import Verif.Spec.Frame

/-! # Specification: errors on a serial line -/

namespace Dxl.Spec

/-- The bits of a byte in the order in which a serial line sends them: the least significant first. -/
def byteLine (b : BitVec 8) : List Bool :=
  [b.getLsbD 0, b.getLsbD 1, b.getLsbD 2, b.getLsbD 3, b.getLsbD 4, b.getLsbD 5, b.getLsbD 6, b.getLsbD 7]

/-- The data bits of a message in the order in which a serial line sends them. -/
def lineBits (m : List (BitVec 8)) : List Bool := m.flatMap byteLine

/-- One to three bits of a packet of at most 4099 bytes are wrong, or some within 10 consecutive bits. -/
inductive LineDamage (sent received : List (BitVec 8)) : Prop
  | few (hsize : sent.length ≤ 4099) (hsome : 0 < (diff (lineBits sent) (lineBits received)).count true)
      (hfew : (diff (lineBits sent) (lineBits received)).count true ≤ 3)
  | burst (a b : Nat) (w : List Bool) (hw : w.length ≤ 10) (hsome : true ∈ w)
      (h : diff (lineBits sent) (lineBits received) = List.replicate a false ++ w ++ List.replicate b false)

end Dxl.Spec
