import Verif.Model.Words

/-! # Iterators of a caller that may never end

`Model/Words.lean` has the same functions for iterators that end. Here an iterator is what its calls of `next` return, for each
call, and a loop may run forever: it is given a number of rounds, and the result is `hang` if that is not enough. What a loop
does is what it does for all large numbers of rounds. -/

namespace Dxl

/-- An iterator with `len()`, `src/instructions/sync_write.rs:49, 80`: what `next()` returns when called for the `i`-th time. A
`for` loop stops at the first `None`. -/
structure CallerStream (α : Type) where
  len : Nat
  next : Nat → Option α

/-- An iterator over `BulkWriteData`, `src/instructions/bulk_write.rs:57-76`: the lengths of the data that its clone gives, and
the items that the iterator itself gives. -/
structure StreamWrites where
  counted : Nat → Option Nat
  written : Nat → Option BulkWriteData

namespace Client

/-- The loop of `sync_write_bytes`, `src/instructions/sync_write.rs:60-66`, from index `i`. -/
def syncWriteBytesLoopE (w : Nat) (debug : Bool) (count stride : Nat) (next : Nat → Option CallerCommand) :
    (rounds i : Nat) → SO (List Byte) BufferTooSmall Unit
  | 0, _ => SO.hang
  | rounds + 1, i =>
    match next i with
    | none => pure ()
    | some c => do
      SO.assert (decide (c.checked.length = count))
      let start ← SO.lift (usizeMul w debug i stride)
      let start ← SO.lift (usizeAdd w debug 4 start)
      onSliceFrom start (onSlice 0 stride (do
        setIdx 0 c.motorId
        onSliceFrom 1 (copyFromSlice c.copied)))
      syncWriteBytesLoopE w debug count stride next rounds (i + 1)

theorem syncWriteBytesLoopE_length (w : Nat) (debug : Bool) (count stride : Nat) (next : Nat → Option CallerCommand) (rounds : Nat) :
    ∀ i, KeepsLength (syncWriteBytesLoopE w debug count stride next rounds i) := by
  induction rounds with
  | zero => intro i; exact .lift .hang
  | succ rounds ih =>
    intro i
    unfold syncWriteBytesLoopE
    match next i with
    | none => exact .pure ()
    | some c =>
      exact .bind (.assert _) fun _ => .bind (.lift _) fun _ => .bind (.lift _) fun _ =>
        .bind (.onSliceFrom _ (.onSlice _ _ (.bind (.setIdx _ _) fun _ => .onSliceFrom _ (.copyFromSlice _)))) fun _ => ih (i + 1)

/-- The encoder of `sync_write_bytes`, `src/instructions/sync_write.rs:57-68`. -/
def syncWriteBytesEncoderE (w : Nat) (debug : Bool) (address count : U16) (stride : Nat) (next : Nat → Option CallerCommand)
    (rounds : Nat) : Encoder where
  run := do
    onSliceFrom 0 (writeU16Le address)
    onSliceFrom 2 (writeU16Le count)
    syncWriteBytesLoopE w debug count.toNat stride next rounds 0
  length_eq := KeepsLength.bind (.onSliceFrom _ (.writeU16Le _)) fun _ =>
    .bind (.onSliceFrom _ (.writeU16Le _)) fun _ => syncWriteBytesLoopE_length _ _ _ _ next rounds 0

/-- `Client::sync_write_bytes`, `src/instructions/sync_write.rs:41-69`. -/
def syncWriteBytesE (w rounds : Nat) (address count : U16) (data : CallerStream CallerCommand) : SO Bus WriteError Unit := do
  let debug := (← SO.get).debug
  let stride ← SO.lift (usizeAdd w debug 1 count.toNat)
  let body ← SO.lift (usizeMul w debug data.len stride)
  let parameterCount ← SO.lift (usizeAdd w debug 4 body)
  writeInstructionW w broadcast InstructionId.syncWrite parameterCount
    (syncWriteBytesEncoderE w debug address count stride data.next rounds)

/-- The loop of `sync_write`, `src/instructions/sync_write.rs:90-95`, from index `i`. -/
def syncWriteLoopE {α : Type} (w : Nat) (debug : Bool) (d : DataTy α) (stride : Nat) (next : Nat → Option (SyncWriteData α)) :
    (rounds i : Nat) → SO (List Byte) BufferTooSmall Unit
  | 0, _ => SO.hang
  | rounds + 1, i =>
    match next i with
    | none => pure ()
    | some c => do
      let start ← SO.lift (usizeMul w debug i stride)
      let start ← SO.lift (usizeAdd w debug 4 start)
      onSliceFrom start (onSlice 0 stride (do
        setIdx 0 c.motorId
        onSliceFrom 1 (d.encode c.data)))
      syncWriteLoopE w debug d stride next rounds (i + 1)

theorem syncWriteLoopE_length {α : Type} (w : Nat) (debug : Bool) (d : DataTy α) (stride : Nat)
    (next : Nat → Option (SyncWriteData α)) (rounds : Nat) :
    ∀ i, KeepsLength (syncWriteLoopE w debug d stride next rounds i) := by
  induction rounds with
  | zero => intro i; exact .lift .hang
  | succ rounds ih =>
    intro i
    unfold syncWriteLoopE
    match next i with
    | none => exact .pure ()
    | some c =>
      exact .bind (.lift _) fun _ => .bind (.lift _) fun _ =>
        .bind (.onSliceFrom _ (.onSlice _ _ (.bind (.setIdx _ _) fun _ => .onSliceFrom _ (d.encode_length _)))) fun _ => ih (i + 1)

/-- The encoder of `sync_write`, `src/instructions/sync_write.rs:87-97`. -/
def syncWriteEncoderE {α : Type} (w : Nat) (debug : Bool) (d : DataTy α) (address : U16) (count stride : Nat)
    (next : Nat → Option (SyncWriteData α)) (rounds : Nat) : Encoder where
  run := do
    onSliceFrom 0 (writeU16Le address)
    onSliceFrom 2 (writeU16Le (BitVec.ofNat 16 count))
    syncWriteLoopE w debug d stride next rounds 0
  length_eq := KeepsLength.bind (.onSliceFrom _ (.writeU16Le _)) fun _ =>
    .bind (.onSliceFrom _ (.writeU16Le _)) fun _ => syncWriteLoopE_length _ _ d _ next rounds 0

/-- `Client::sync_write`, `src/instructions/sync_write.rs:75-98`. The count is `size_of::<u8>()` in the code. -/
def syncWriteE {α : Type} (w rounds : Nat) (d : DataTy α) (address : U16) (data : CallerStream (SyncWriteData α)) :
    SO Bus WriteError Unit := do
  let debug := (← SO.get).debug
  let count := 1
  let stride ← SO.lift (usizeAdd w debug 1 count)
  let body ← SO.lift (usizeMul w debug data.len stride)
  let parameterCount ← SO.lift (usizeAdd w debug 4 body)
  writeInstructionW w broadcast InstructionId.syncWrite parameterCount
    (syncWriteEncoderE w debug d address count stride data.next rounds)

/-- The first loop of `bulk_write`, `src/instructions/bulk_write.rs:58-71`, from item `i`. -/
def bulkWriteCountE {ε : Type} (w : Nat) (debug : Bool) (counted : Nat → Option Nat) :
    (rounds i parameterCount : Nat) → Outcome ε Nat
  | 0, _, _ => .hang
  | rounds + 1, i, parameterCount =>
    match counted i with
    | none => .ok parameterCount
    | some n =>
      if n > 65535 then .panic
      else do
        let size ← usizeAdd w debug 5 n
        let parameterCount ← usizeAdd w debug parameterCount size
        bulkWriteCountE w debug counted rounds (i + 1) parameterCount

/-- The encoding loop of `bulk_write`, `src/instructions/bulk_write.rs:75-84`, from item `i`. -/
def bulkWriteLoopE (w : Nat) (debug : Bool) (written : Nat → Option BulkWriteData) :
    (rounds i offset : Nat) → SO (List Byte) BufferTooSmall Unit
  | 0, _, _ => SO.hang
  | rounds + 1, i, offset =>
    match written i with
    | none => pure ()
    | some c => do
      let buffer ← SO.get
      SO.assert (decide (offset ≤ buffer.length))
      let size ← SO.lift (usizeAdd w debug 5 c.data.length)
      let next ← SO.lift (usizeAdd w debug offset size)
      onSliceFrom offset (do
        onSliceFrom 0 (writeU8Le c.motorId)
        onSliceFrom 1 (writeU16Le c.address)
        onSliceFrom 3 (writeU16Le (BitVec.ofNat 16 c.data.length))
        onSliceFrom 5 (onSlice 0 c.data.length (copyFromSlice c.data)))
      bulkWriteLoopE w debug written rounds (i + 1) next

theorem bulkWriteLoopE_length (w : Nat) (debug : Bool) (written : Nat → Option BulkWriteData) (rounds : Nat) :
    ∀ i offset, KeepsLength (bulkWriteLoopE w debug written rounds i offset) := by
  induction rounds with
  | zero => intro i offset; exact .lift .hang
  | succ rounds ih =>
    intro i offset
    unfold bulkWriteLoopE
    match written i with
    | none => exact .pure ()
    | some c =>
      exact .bind .get fun _ => .bind (.assert _) fun _ => .bind (.lift _) fun _ => .bind (.lift _) fun _ =>
        .bind (.onSliceFrom _ (.bind (.onSliceFrom _ (.writeU8Le _)) fun _ =>
        .bind (.onSliceFrom _ (.writeU16Le _)) fun _ => .bind (.onSliceFrom _ (.writeU16Le _)) fun _ =>
          .onSliceFrom _ (.onSlice _ _ (.copyFromSlice _)))) fun _ => ih _ _

/-- `Client::bulk_write`, `src/instructions/bulk_write.rs:48-87`. -/
def bulkWriteE (w rounds : Nat) (writes : StreamWrites) : SO Bus WriteError Unit := do
  let debug := (← SO.get).debug
  let parameterCount ← SO.lift (bulkWriteCountE w debug writes.counted rounds 0 0)
  writeInstructionW w broadcast InstructionId.bulkWrite parameterCount
    ⟨bulkWriteLoopE w debug writes.written rounds 0 0, bulkWriteLoopE_length w debug writes.written rounds 0 0⟩

end Client
end Dxl
