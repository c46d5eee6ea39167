/-! # Specification: damage on the line -/

namespace Dxl.Spec

/-- One bit of `sent` is changed, in its byte number `i`. -/
def OneBitOff (i : Nat) (sent received : List (BitVec 8)) : Prop :=
  ∃ before byte after, ∃ bit : Fin 8, sent = before ++ byte :: after ∧
    received = before ++ (byte ^^^ (1#8 <<< bit.val)) :: after ∧ before.length = i

end Dxl.Spec
