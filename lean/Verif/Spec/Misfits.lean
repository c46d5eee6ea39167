/-! # Specification: occurrences of `FF FF FD` that the code does not count

No reference to the model. -/

namespace Dxl.Spec

/-- Number of `FD`s in `d` that end a run of 3, 4, 6, 7, 9, 10, ... `FF`s, if a run of `r` `FF`s precedes `d`. -/
def misfits : Nat → List (BitVec 8) → Nat
  | _, [] => 0
  | r, b :: d =>
    if b = 0xFF#8 then misfits (r + 1) d
    else (if b = 0xFD#8 ∧ 2 ≤ r ∧ r % 3 ≠ 2 then 1 else 0) + misfits 0 d

end Dxl.Spec
