import Verif.Model.Instructions

/-! # Panics while an iterator over responses exists

The iterators have destructors that use the serial port, `src/instructions/sync_read.rs:129-140, 258-267`,
`src/instructions/bulk_read.rs:120-130` and `src/instructions/ping.rs:112-120`. The language runs a destructor when the scope of the
iterator ends, be it because its code returns or because it panics. Simplifications: `panic = "unwind"`, the default; calls that
change nothing (`remaining`, `size_hint`) are left out of the code that uses an iterator. -/

namespace Dxl

/-- Code that has an iterator with items `ι`, and comes to a value `ω`. The iterator holds the only reference to the client
(`client: &'a mut Client`, `src/instructions/sync_read.rs:98, 227`, `src/instructions/bulk_read.rs:99`,
`src/instructions/ping.rs:65`), so all that the code can do with either is to ask for the next item. What it does then may depend on
the item. -/
inductive LoopCode (ι ω : Type) where
  | returns (a : ω)
  | panics
  | asks (k : Option ι → LoopCode ι ω)

/-- Running such code, `src/instructions/sync_read.rs:150-152, 277-279`, `src/instructions/bulk_read.rs:140-142`,
`src/instructions/ping.rs:129-131`: a panic in `next` is one of the code. -/
def LoopCode.run {σ ι ω : Type} (next : SO σ Empty (Option ι)) : LoopCode ι ω → SO σ Empty ω
  | .returns a => pure a
  | .panics => SO.panic
  | .asks k => do
    let x ← next
    (k x).run next

/-- How the scope of an iterator ends: its code and the destructor (`src/instructions/sync_read.rs:135-139`) have returned; a panic
goes on to the caller, who can catch it; the process is aborted; or there is no end. -/
inductive ScopeEnd (ω : Type) where
  | returned (a : ω)
  | unwound
  | aborted
  | hung
  deriving Repr, DecidableEq

/-- The end of the scope of an iterator, `src/instructions/sync_read.rs:129-140, 258-267`, `src/instructions/bulk_read.rs:120-130` and
`src/instructions/ping.rs:112-120`: the destructor runs; a panic in a destructor that runs because of a panic aborts the process. -/
def scopeOf {σ ι ω : Type} (next : SO σ Empty (Option ι)) (drop : SO σ Empty Unit) (code : LoopCode ι ω) (s : σ) : σ × ScopeEnd ω :=
  match code.run next s with
  | (s, .ok a) =>
    match drop s with
    | (s, .ok _) => (s, .returned a)
    | (s, .panic) => (s, .unwound)
    | (s, .hang) => (s, .hung)
  | (s, .panic) =>
    match drop s with
    | (s, .ok _) => (s, .unwound)
    | (s, .panic) => (s, .aborted)
    | (s, .hang) => (s, .hung)
  | (s, .hang) => (s, .hung)

end Dxl
