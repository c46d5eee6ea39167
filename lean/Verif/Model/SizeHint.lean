import Verif.Model.Instructions

/-! # How many items an iterator announces -/

namespace Dxl

/-- `size_hint` of `SyncReadBytes` and `SyncRead`, `src/instructions/sync_read.rs:154-156, 281-283`: a lower bound and perhaps an upper
bound. `usize` is `Nat`; the subtraction in `remaining` panics when it would go below zero. -/
def SyncIter.sizeHint {ε : Type} (s : SyncIter) : Outcome ε (Nat × Option Nat) := do
  let n ← s.remaining
  pure (0, some n)

/-- `size_hint` of `BulkReadBytes`, `src/instructions/bulk_read.rs:144-146`. -/
def BulkIter.sizeHint {ε : Type} (s : BulkIter) : Outcome ε (Nat × Option Nat) := do
  let n ← s.remaining
  pure (0, some n)

/-- `size_hint` of `Scan`: `src/instructions/ping.rs:121-133` does not define one, so it is the default of `Iterator`. -/
def scanSizeHint (_ : Bus) : Nat × Option Nat := (0, none)

end Dxl
