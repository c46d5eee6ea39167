import Verif.Model.Error

/-! # `src/bus/bytestuff.rs` -/

namespace Dxl

/-- `PATTERN`, `src/bus/bytestuff.rs:8`. -/
def pattern : List Byte := [0xFF#8, 0xFF#8, 0xFD#8, 0xFD#8]

/-- The `for` loop of `unstuff_inplace`, `src/bus/bytestuff.rs:18-30`: `n` iterations starting at index `i`.
Returns the final value of `deleted`. -/
def unstuffLoop {ε : Type} : (n i deleted state : Nat) → SO (List Byte) ε Nat
  | 0, _, deleted, _ => pure deleted
  | n + 1, i, deleted, state => do
    let data ← SO.get
    let b ← SO.lift (idx data i)
    let p ← SO.lift (idx pattern state)
    let state := if b = p then state + 1 else 0
    if state = 4 then
      unstuffLoop n (i + 1) (deleted + 1) 0
    else if deleted > 0 then
      -- `i - deleted` underflow would panic (debug) or index out of bounds (release)
      if deleted ≤ i then
        setIdx (i - deleted) b
        unstuffLoop n (i + 1) deleted state
      else SO.panic
    else
      unstuffLoop n (i + 1) deleted state

/-- `unstuff_inplace`, `src/bus/bytestuff.rs:14-33`. -/
def unstuffInplace {ε : Type} : SO (List Byte) ε Nat := do
  let data ← SO.get
  let deleted ← unstuffLoop data.length 0 0 0
  if deleted ≤ data.length then pure (data.length - deleted) else SO.panic

/-- The loop of `stuffing_required`, `src/bus/bytestuff.rs:39-49`. -/
def stuffingRequiredLoop {ε : Type} : (data : List Byte) → (state count : Nat) → Outcome ε Nat
  | [], _, count => .ok count
  | byte :: data, state, count => do
    let p ← idx pattern state
    let state := if byte = p then state + 1 else 0
    if state = 4 - 1 then
      stuffingRequiredLoop data 0 (count + 1)
    else
      stuffingRequiredLoop data state count

/-- `stuffing_required`, `src/bus/bytestuff.rs:36-52`. -/
def stuffingRequired {ε : Type} (data : List Byte) : Outcome ε Nat := stuffingRequiredLoop data 0 0

/-- The condition `read_pos >= 2 && buffer[read_pos - 2..][..3] == PATTERN[..3]`, `src/bus/bytestuff.rs:74`. -/
def patternEndsAt {ε : Type} (buffer : List Byte) (readPos : Nat) : Outcome ε Bool :=
  if readPos ≥ 2 then do
    let s ← slice buffer (readPos - 2) (readPos - 2 + 3)
    pure (decide (s = pattern.take 3))
  else pure false

/-- The `while` loop of `stuff_inplace`, `src/bus/bytestuff.rs:71-82`. `fuel` bounds the iterations
(each one increases `read`). Returns the final `stuffing_applied`.
`buffer[read_pos - 2..][..3]` is the slice `read_pos - 2 .. read_pos + 1`. -/
def stuffLoop {ε : Type} (len required : Nat) : (fuel read applied : Nat) → SO (List Byte) ε Nat
  | fuel, read, applied =>
    if read < len ∧ applied < required then
      match fuel with
      | 0 => SO.hang
      | fuel + 1 => do
        let readPos := len - read - 1
        let writePos := readPos + (required - applied)
        let buffer ← SO.get
        let here ← SO.lift (patternEndsAt buffer readPos)
        if here then
          if 3 ≤ writePos then
            onSlice (writePos - 3) (writePos - 3 + 4) (copyFromSlice pattern)
            stuffLoop len required fuel (read + 3) (applied + 1)
          else SO.panic
        else do
          let b ← SO.lift (idx buffer readPos)
          setIdx writePos b
          stuffLoop len required fuel (read + 1) applied
    else pure applied

/-- `stuff_inplace`, `src/bus/bytestuff.rs:60-86`. `debug` says whether debug assertions are enabled. -/
def stuffInplace (debug : Bool) (len : Nat) : SO (List Byte) BufferTooSmall Nat := do
  let buffer ← SO.get
  let used ← SO.lift (slice buffer 0 len)
  let required ← SO.lift (stuffingRequired used)
  if required = 0 then
    pure len
  else
    SO.lift (BufferTooSmall.check (len + required) buffer.length)
    let applied ← stuffLoop len required len 0 0
    SO.assert (!debug || decide (applied = required))
    pure (len + required)

end Dxl
