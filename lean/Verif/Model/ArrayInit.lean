import Verif.Model.Basic

/-! # Ownership in `ArrayInitializer`, `src/bus/data.rs:113-161`

`Data.lean` models what `decode` for arrays computes. Here the same loop is modelled with regard to who owns the decoded
elements: an element is a token (the number of its `T::decode` call), and every destructor call is recorded.
Simplifications: the bytes play no role, decoding element `i` has the given outcome; and destructors do not panic. -/

namespace Dxl

/-- `ArrayInitializer<T, N>`, `src/bus/data.rs:113-116`: the slots, `none` if uninitialized. -/
structure ArrayInitializer where
  data : List (Option Nat)
  initialized : Nat
  deriving Repr, DecidableEq

/-- The elements made so far (`T::decode`, `src/bus/data.rs:100`), and those whose destructor ran
(`src/bus/data.rs:151-160`), in order. -/
structure Ledger where
  made : List Nat
  dropped : List Nat
  deriving Repr, DecidableEq

namespace ArrayInitializer

/-- `new`, `src/bus/data.rs:119-124`. -/
def new (N : Nat) : ArrayInitializer := ⟨List.replicate N none, 0⟩

/-- `push`, `src/bus/data.rs:130-136`. A call in violation of the safety contract would be undefined behaviour; the model
then panics, like the debug assertion. -/
def push (value : Nat) : SO ArrayInitializer Unit Unit := fun a =>
  if a.initialized < a.data.length then ({ data := a.data.set a.initialized (some value), initialized := a.initialized + 1 }, .ok ())
  else (a, .panic)

/-- `Drop::drop`, `src/bus/data.rs:151-160`: the destructors run on the first `initialized` slots. Dropping an
uninitialized slot would be undefined behaviour; it is left out of the list. -/
def drop (a : ArrayInitializer) (l : Ledger) : Ledger :=
  { l with dropped := l.dropped ++ (a.data.take a.initialized).filterMap id }

/-- `finish`, `src/bus/data.rs:142-147`: the array is read out as a bitwise copy; then `self`, which `finish` took by
value, goes out of scope, which runs `Drop::drop`. -/
def finish (a : ArrayInitializer) (l : Ledger) : Ledger × List Nat := (a.drop l, a.data.filterMap id)

end ArrayInitializer

/-- The loop of `<[T; N]>::decode`, `src/bus/data.rs:99-105`, from index `i`, `n` elements to go. If `T::decode` fails or
panics, the initializer is dropped on the way out. -/
def decodeTokensLoop (element : Nat → Outcome Unit Unit) :
    (n i : Nat) → ArrayInitializer → Ledger → Ledger × Outcome Unit (List Nat)
  | 0, _, a, l => ((a.finish l).1, .ok (a.finish l).2)
  | n + 1, i, a, l =>
    match element i with
    | .ok () =>
      let l := { l with made := l.made ++ [i] }
      match ArrayInitializer.push i a with
      | (a, .ok ()) => decodeTokensLoop element n (i + 1) a l
      | (a, _) => (a.drop l, .panic)
    | .err () => (a.drop l, .err ())
    | .panic => (a.drop l, .panic)
    | .hang => (l, .hang)

/-- `<[T; N]>::decode`, `src/bus/data.rs:96-110`: the ledger afterwards and the elements handed to the caller. -/
def decodeTokens (N : Nat) (element : Nat → Outcome Unit Unit) : Ledger × Outcome Unit (List Nat) :=
  decodeTokensLoop element N 0 (.new N) ⟨[], []⟩

end Dxl
