/-!
# Base of the model: bytes, outcomes, state passing, checked slices

This file models no particular function of the crate. It fixes how Rust constructs are represented:
`Result`, panics, `&mut` state, and slice indexing with its panics. The lines cited here are one place each where the construct
occurs.
-/

namespace Dxl

/-- `u8`, for example in `src/bus/packet.rs:12`. -/
abbrev Byte := BitVec 8

/-- `u16`, for example in `src/bus/data.rs:163`. -/
abbrev U16 := BitVec 16

/-- Outcome of running Rust code: `Ok(a)`, `Err(e)`, a panic, or no termination (for example of the
`loop` in `src/bus/mod.rs:236-262`). -/
inductive Outcome (ε α : Type) where
  | ok (a : α)
  | err (e : ε)
  | panic
  | hang
  deriving Repr, DecidableEq

namespace Outcome

/-- The operator `?`, for example in `src/bus/mod.rs:203`. -/
def bind {ε α β : Type} : Outcome ε α → (α → Outcome ε β) → Outcome ε β
  | ok a, f => f a
  | err e, _ => err e
  | panic, _ => panic
  | hang, _ => hang

instance {ε : Type} : Monad (Outcome ε) where
  pure := ok
  bind := bind

/-- `map_err` / the conversion done by `?`, for example in `src/bus/mod.rs:203`. -/
def mapErr {ε ε' α : Type} (f : ε → ε') : Outcome ε α → Outcome ε' α
  | ok a => ok a
  | err e => err (f e)
  | panic => panic
  | hang => hang

end Outcome

/-- Code with access to a mutable state `σ` (`&mut self`, `&mut [u8]`, for example in `src/bus/mod.rs:146-155`).
The state is kept on every outcome, also on errors and panics. -/
def SO (σ ε α : Type) : Type := σ → σ × Outcome ε α

namespace SO

/-- Sequencing with `?`, for example in `src/bus/mod.rs:203`. -/
def bind {σ ε α β : Type} (m : SO σ ε α) (f : α → SO σ ε β) : SO σ ε β := fun s =>
  match m s with
  | (s', .ok a) => f a s'
  | (s', .err e) => (s', .err e)
  | (s', .panic) => (s', .panic)
  | (s', .hang) => (s', .hang)

instance {σ ε : Type} : Monad (SO σ ε) where
  pure a := fun s => (s, .ok a)
  bind := bind

/-- Run code that does not touch the state, for example a check as in `src/bus/mod.rs:156`. -/
def lift {σ ε α : Type} (o : Outcome ε α) : SO σ ε α := fun s => (s, o)

/-- Read `self`, for example in `src/bus/mod.rs:310`. -/
def get {σ ε : Type} : SO σ ε σ := fun s => (s, .ok s)

/-- Assign to fields of `self`, for example in `src/bus/mod.rs:319-320`. -/
def modify {σ ε : Type} (f : σ → σ) : SO σ ε Unit := fun s => (f s, .ok ())

/-- `return Err(e)`, for example in `src/bus/mod.rs:246-248`. -/
def throw {σ ε α : Type} (e : ε) : SO σ ε α := fun s => (s, .err e)

/-- A panic, for example of an index out of bounds in `src/bus/packet.rs:13`. -/
def panic {σ ε α : Type} : SO σ ε α := fun s => (s, .panic)

/-- No termination, possible for `src/bus/mod.rs:236-262`. -/
def hang {σ ε α : Type} : SO σ ε α := fun s => (s, .hang)

/-- `map_err(f)?`, for example in `src/bus/mod.rs:227`. -/
def mapErr {σ ε ε' α : Type} (f : ε → ε') (m : SO σ ε α) : SO σ ε' α := fun s =>
  ((m s).1, (m s).2.mapErr f)

/-- `assert!(c)`, for example in `src/bus/mod.rs:125`. -/
def assert {σ ε : Type} (c : Bool) : SO σ ε Unit := if c then pure () else panic

/-- Run code on a field of the state, for example on `self.serial_port` in `src/bus/mod.rs:140`. -/
def zoom {σ τ ε α : Type} (g : σ → τ) (p : τ → σ → σ) (m : SO τ ε α) : SO σ ε α := fun s =>
  (p (m (g s)).1 s, (m (g s)).2)

end SO

/-- `l[i]`: panics if out of bounds; for example in `src/bus/packet.rs:13`. -/
def idx {ε : Type} (l : List Byte) (i : Nat) : Outcome ε Byte :=
  match l[i]? with
  | some b => .ok b
  | none => .panic

/-- `&l[a..b]`: panics if `a > b` or `b > l.len()`; for example in `src/device.rs:272-273`. -/
def slice {ε : Type} (l : List Byte) (a b : Nat) : Outcome ε (List Byte) :=
  if a ≤ b ∧ b ≤ l.length then .ok ((l.take b).drop a) else .panic

/-- `&l[a..]`: panics if `a > l.len()`; for example in `src/bus/mod.rs:268`. -/
def sliceFrom {ε : Type} (l : List Byte) (a : Nat) : Outcome ε (List Byte) :=
  slice l a l.length

/-- `l[i] = v`: panics if out of bounds; for example in `src/bus/mod.rs:162`. -/
def setIdx {ε : Type} (i : Nat) (v : Byte) : SO (List Byte) ε Unit := fun l =>
  if i < l.length then (l.set i v, .ok ()) else (l, .panic)

/-- Run `m` on `&mut l[a..b]`: panics if `a > b` or `b > l.len()`; for example in `src/bus/mod.rs:203`. -/
def onSlice {ε α : Type} (a b : Nat) (m : SO (List Byte) ε α) : SO (List Byte) ε α := fun l =>
  if a ≤ b ∧ b ≤ l.length then
    (l.take a ++ (m ((l.take b).drop a)).1 ++ l.drop b, (m ((l.take b).drop a)).2)
  else (l, .panic)

/-- Run `m` on `&mut l[a..]`, for example in `src/bus/mod.rs:163`. -/
def onSliceFrom {ε α : Type} (a : Nat) (m : SO (List Byte) ε α) : SO (List Byte) ε α := fun l =>
  onSlice a l.length m l

/-- `l.copy_from_slice(src)`: panics if the lengths differ; for example in `src/instructions/write.rs:31`. -/
def copyFromSlice {ε : Type} (src : List Byte) : SO (List Byte) ε Unit := fun l =>
  if l.length = src.length then (src, .ok ()) else (l, .panic)

end Dxl
