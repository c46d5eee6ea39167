import Verif.Spec.Stream
import Verif.Spec.Input

/-! # When a reader has nothing more to wait for

Used by C85. The bytes that arrive until a time are `arriving` (`Spec/Input.lean`), the first packet in them is found by
`parse` (`Spec/Stream.lean`). -/

namespace Dxl.Spec

/-- By time `T` everything before a failure of the port has arrived, and the failure is there. -/
def failsBy (T : Nat) : List RxEvent → Tail → Prop
  | [], .silent => False
  | [], .broken _ => True
  | .data t _ :: rest, tail => t ≤ T ∧ failsBy T rest tail
  | .fail t _ :: _, _ => t ≤ T

/-- By time `T` the bytes `old` and those that arrived contain a complete packet, or the header of one that is too large for
`cap` bytes, or the port failed: there is no reason to wait any longer. -/
def Settled (cap : Nat) (old : List (BitVec 8)) (rx : List RxEvent) (tail : Tail) (T : Nat) : Prop :=
  parse cap (old ++ arriving T rx) ≠ .more ∨ failsBy T rx tail

/-- A wait from `start` to at most `D` that ends at `t`: at the first moment at which the matter is settled, or, if that is
not the case until `D`, exactly then. -/
inductive EndsWhen (settled : Nat → Prop) (start D : Nat) : Nat → Prop
  | settled {t : Nat} : start ≤ t → t ≤ D → settled t → (∀ T, start ≤ T → settled T → t ≤ T) → EndsWhen settled start D t
  | timeout : (∀ T, start ≤ T → T ≤ D → ¬ settled T) → EndsWhen settled start D D

end Dxl.Spec
