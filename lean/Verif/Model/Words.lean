import Verif.Model.Instructions

/-! # Sizes as machine words, and the iterators of a caller

The rest of the model counts bytes with natural numbers. Here the arithmetic on sizes is done as the code does it: with
`usize` of `w` bits (16, 32 or 64), where an overflow panics in a debug build and wraps in a release build. Only the functions in
which a size comes from outside are repeated: the parameter count given to `write_packet` and `write_status`, the `len()` and the
items of the iterators given to `sync_write_bytes`, `sync_write` and `bulk_write`, the length field of a received packet and the
expected number of parameters of a response.

What a caller's type says is not trusted here: `ExactSizeIterator::len`, `Clone` and `AsRef` are safe traits, so `len()` need not be
the number of items, the clone of an iterator need not give the same items, and `as_ref()` need not return the same slice twice. -/

namespace Dxl

/-- `a + b` in `usize` of `w` bits, for example in `src/bus/packet.rs:119`: an overflow panics with overflow checks and wraps
without. -/
def usizeAdd {ε : Type} (w : Nat) (debug : Bool) (a b : Nat) : Outcome ε Nat :=
  if a + b < 2 ^ w then .ok (a + b) else if debug then .panic else .ok ((a + b) % 2 ^ w)

/-- `a * b` in `usize` of `w` bits, for example in `src/instructions/sync_write.rs:56`. -/
def usizeMul {ε : Type} (w : Nat) (debug : Bool) (a b : Nat) : Outcome ε Nat :=
  if a * b < 2 ^ w then .ok (a * b) else if debug then .panic else .ok ((a * b) % 2 ^ w)

/-- `a - b` in `usize` of `w` bits, for example in `src/bus/mod.rs:265`. -/
def usizeSub {ε : Type} (w : Nat) (debug : Bool) (a b : Nat) : Outcome ε Nat :=
  if b ≤ a then .ok (a - b) else if debug then .panic else .ok ((2 ^ w + a - b) % 2 ^ w)

/-- `InstructionPacket::message_len`, `src/bus/packet.rs:118-120`; the additions are done from left to right. -/
def InstructionPacket.messageLenW {ε : Type} (w : Nat) (debug : Bool) (parameters : Nat) : Outcome ε Nat := do
  let n ← usizeAdd w debug headerSize 1
  let n ← usizeAdd w debug n parameters
  usizeAdd w debug n 2

/-- `StatusPacket::message_len`, `src/bus/packet.rs:88-90`. -/
def StatusPacket.messageLenW {ε : Type} (w : Nat) (debug : Bool) (parameters : Nat) : Outcome ε Nat := do
  let n ← usizeAdd w debug headerSize 2
  let n ← usizeAdd w debug n parameters
  usizeAdd w debug n 2

/-- `stuff_inplace`, `src/bus/bytestuff.rs:60-86`. The loop counts with natural numbers: none of its sums exceeds
`len + stuffing_required`, which is checked before. -/
def stuffInplaceW (w : Nat) (debug : Bool) (len : Nat) : SO (List Byte) BufferTooSmall Nat := do
  let buffer ← SO.get
  let used ← SO.lift (slice buffer 0 len)
  let required ← SO.lift (stuffingRequired used)
  if required = 0 then
    pure len
  else
    let total ← SO.lift (usizeAdd w debug len required)
    SO.lift (BufferTooSmall.check total buffer.length)
    let applied ← stuffLoop len required len 0 0
    SO.assert (!debug || decide (applied = required))
    SO.lift (usizeAdd w debug len required)

namespace Bus

/-- `Bus::write_packet`, `src/bus/mod.rs:183-229`. `&mut buffer[8..][..parameter_count]` is a slice of a slice: no sum is
computed for it. -/
def writePacketW (w : Nat) (packetId instructionId : Byte) (parameterCount : Nat) (encode : Encoder) :
    SO Bus WriteError Unit := do
  let b ← SO.get
  let bufferLen := b.writeBuffer.length
  -- Check if the buffer can hold the unstuffed message.
  let messageLen ← SO.lift (InstructionPacket.messageLenW w b.debug parameterCount)
  SO.lift ((BufferTooSmall.check messageLen bufferLen).mapErr .bufferTooSmall)
  -- Add the header, with a placeholder for the length field.
  onWriteBuffer (setIdx 4 packetId)
  onWriteBuffer (setIdx 5 0#8)
  onWriteBuffer (setIdx 6 0#8)
  onWriteBuffer (setIdx 7 instructionId)
  onWriteBuffer ((onSliceFrom 8 (onSlice 0 parameterCount encode.run)).mapErr .bufferTooSmall)
  -- Perform bitstuffing on the body.
  let bodyLen ← SO.lift (usizeAdd w b.debug 1 parameterCount)
  let stuffedBodyLen ← onWriteBuffer
    ((onSliceFrom headerSize (stuffInplaceW w b.debug bodyLen)).mapErr .bufferTooSmall)
  let len ← SO.lift (lengthField b.debug stuffedBodyLen)
  onWriteBuffer (onSliceFrom 5 (writeU16Le len))
  -- Add checksum.
  let checksumIndex ← SO.lift (usizeAdd w b.debug headerSize stuffedBodyLen)
  let buffer := (← SO.get).writeBuffer
  let summed ← SO.lift (slice buffer 0 checksumIndex)
  let checksum ← SO.lift (calculateChecksum 0#16 summed)
  onWriteBuffer (onSliceFrom checksumIndex (writeU16Le checksum))
  -- Throw away old data in the read buffer and the kernel read buffer.
  SO.modify fun b => { b with readLen := 0, usedBytes := 0 }
  onPort (Port.discardInputBuffer.mapErr .discardBuffer)
  -- Send message.
  let messageEnd ← SO.lift (usizeAdd w b.debug checksumIndex 2)
  let buffer := (← SO.get).writeBuffer
  let stuffedMessage ← SO.lift (slice buffer 0 messageEnd)
  onPort ((Port.writeAll stuffedMessage).mapErr .write)

/-- `Bus::write_status`, `src/bus/mod.rs:146-166`. -/
def writeStatusW (w : Nat) (packetId error : Byte) (parameterCount : Nat) (encode : Encoder) :
    SO Bus WriteError Unit := do
  let b ← SO.get
  let messageLen ← SO.lift (StatusPacket.messageLenW w b.debug parameterCount)
  SO.lift ((BufferTooSmall.check messageLen b.writeBuffer.length).mapErr .bufferTooSmall)
  let count ← SO.lift (usizeAdd w b.debug parameterCount 1)
  writePacketW w packetId InstructionId.status count (statusEncoder error encode)

/-- The part of the loop in `read_packet_deadline` that decides whether a whole message is buffered,
`src/bus/mod.rs:241-253`. -/
def messageReadyW (w : Nat) : SO Bus ReadError (Option Nat) := do
  let b ← SO.get
  if b.readLen > headerSize then
    let readBuffer ← SO.lift (slice b.readBuffer 0 b.readLen)
    let lenBytes ← SO.lift (sliceFrom readBuffer 5)
    let bodyLen ← SO.lift (readU16Le lenBytes)
    let messageLen ← SO.lift (usizeAdd w b.debug headerSize bodyLen.toNat)
    match BufferTooSmall.check messageLen b.readBuffer.length with
    | .err e =>
      consumeReadBytes headerSize
      SO.throw (.bufferFull e)
    | _ =>
      if b.readLen ≥ messageLen then pure (some messageLen)
      else pure none
  else pure none

/-- The loop in `Bus::read_packet_deadline`, `src/bus/mod.rs:236-262`. The other sums, `self.used_bytes + garbage_len` and
`self.read_len += new_data`, are at most the length of the read buffer and are left as they are. -/
def readLoopW (w deadline : Nat) : (fuel : Nat) → SO Bus ReadError Nat
  | 0 => SO.hang
  | fuel + 1 => do
    removeGarbage
    match ← messageReadyW w with
    | some n => pure n
    | none =>
      readMore deadline
      readLoopW w deadline fuel

/-- The rest of `Bus::read_packet_deadline` once a message is buffered, `src/bus/mod.rs:264-298`. -/
def finishPacketW (w : Nat) (stuffedMessageLen : Nat) : SO Bus ReadError Packet := do
  let b ← SO.get
  let parametersEnd ← SO.lift (usizeSub w b.debug stuffedMessageLen 2)
  let crcBytes ← SO.lift (sliceFrom b.readBuffer parametersEnd)
  let checksumMessage ← SO.lift (readU16Le crcBytes)
  let summed ← SO.lift (slice b.readBuffer 0 parametersEnd)
  let checksumComputed ← SO.lift (calculateChecksum 0#16 summed)
  if checksumMessage ≠ checksumComputed then
    consumeReadBytes stuffedMessageLen
    SO.throw (.invalidMessage (.checksum checksumMessage checksumComputed))
  else
    let usedBytes ← SO.lift (usizeAdd w b.debug b.usedBytes stuffedMessageLen)
    SO.modify fun b => { b with usedBytes := usedBytes }
    let parameterCount ← onReadBuffer (onSlice headerSize parametersEnd unstuffInplace)
    let dataEnd ← SO.lift (usizeAdd w b.debug headerSize parameterCount)
    let b ← SO.get
    let data ← SO.lift (slice b.readBuffer 0 dataEnd)
    let packet : Packet := ⟨data⟩
    let instruction ← SO.lift packet.instructionId
    if instruction = InstructionId.status ∧ parameterCount < 1 then
      SO.throw (.invalidMessage (.parameterCount 0 (.min 1)))
    else pure packet

/-- `Bus::read_packet_deadline`, `src/bus/mod.rs:232-299`. -/
def readPacketDeadlineW (w deadline : Nat) : SO Bus ReadError Packet := do
  let b ← SO.get
  SO.lift ((BufferTooSmall.check (headerSize + 3) b.readBuffer.length).mapErr .bufferFull)
  let stuffedMessageLen ← readLoopW w deadline (b.serialPort.measure + 1)
  finishPacketW w stuffedMessageLen

end Bus

/-- The size used for the timeout of a response, `src/client.rs:200`: `message_len(..) as u32` truncates. -/
def responseSizeW {ε : Type} (w : Nat) (debug : Bool) (expected : U16) : Outcome ε Nat := do
  let n ← StatusPacket.messageLenW w debug expected.toNat
  pure (n % 2 ^ 32)

/-- An iterator of a caller that has a `len()` (`ExactSizeIterator`, `src/instructions/sync_write.rs:49, 80`): what it says its
length is, and what it gives. For iterators that never end see `Model/Endless.lean`. -/
structure CallerIter (α : Type) where
  len : Nat
  items : List α
  deriving Repr, DecidableEq

/-- A command given to `sync_write_bytes`, `src/instructions/sync_write.rs:60-65`: the slice that `data.as_ref()` returns where its
length is checked, and the one it returns where it is copied. -/
structure CallerCommand where
  motorId : Byte
  checked : List Byte
  copied : List Byte
  deriving Repr, DecidableEq

/-- What an iterator over `BulkWriteData` gives, `src/instructions/bulk_write.rs:57-76`: the lengths of the data of the items of its
clone, which is counted, and the items of the iterator itself, which are written. -/
structure CallerWrites where
  counted : List Nat
  written : List BulkWriteData
  deriving Repr, DecidableEq

namespace Client

/-- `Client::write_instruction`, `src/client.rs:163-175`. -/
def writeInstructionW (w : Nat) (packetId instructionId : Byte) (parameterCount : Nat) (encode : Encoder) :
    SO Bus WriteError Unit := Bus.writePacketW w packetId instructionId parameterCount encode

/-- The loop of `sync_write_bytes`, `src/instructions/sync_write.rs:60-66`, from index `i`. -/
def syncWriteBytesLoopW (w : Nat) (debug : Bool) (count stride : Nat) :
    (i : Nat) → List CallerCommand → SO (List Byte) BufferTooSmall Unit
  | _, [] => pure ()
  | i, c :: rest => do
    SO.assert (decide (c.checked.length = count))
    let start ← SO.lift (usizeMul w debug i stride)
    let start ← SO.lift (usizeAdd w debug 4 start)
    onSliceFrom start (onSlice 0 stride (do
      setIdx 0 c.motorId
      onSliceFrom 1 (copyFromSlice c.copied)))
    syncWriteBytesLoopW w debug count stride (i + 1) rest

theorem syncWriteBytesLoopW_length (w : Nat) (debug : Bool) (count stride : Nat) (l : List CallerCommand) :
    ∀ i, KeepsLength (syncWriteBytesLoopW w debug count stride i l) := by
  induction l with
  | nil => intro i; exact .pure ()
  | cons c rest ih =>
    intro i
    exact .bind (.assert _) fun _ => .bind (.lift _) fun _ => .bind (.lift _) fun _ =>
      .bind (.onSliceFrom _ (.onSlice _ _ (.bind (.setIdx _ _) fun _ => .onSliceFrom _ (.copyFromSlice _)))) fun _ => ih (i + 1)

/-- The encoder of `sync_write_bytes`, `src/instructions/sync_write.rs:57-68`. -/
def syncWriteBytesEncoderW (w : Nat) (debug : Bool) (address count : U16) (stride : Nat) (items : List CallerCommand) :
    Encoder where
  run := do
    onSliceFrom 0 (writeU16Le address)
    onSliceFrom 2 (writeU16Le count)
    syncWriteBytesLoopW w debug count.toNat stride 0 items
  length_eq := KeepsLength.bind (.onSliceFrom _ (.writeU16Le _)) fun _ =>
    .bind (.onSliceFrom _ (.writeU16Le _)) fun _ => syncWriteBytesLoopW_length _ _ _ _ items 0

/-- `Client::sync_write_bytes`, `src/instructions/sync_write.rs:41-69`. -/
def syncWriteBytesW (w : Nat) (address count : U16) (data : CallerIter CallerCommand) : SO Bus WriteError Unit := do
  let debug := (← SO.get).debug
  let stride ← SO.lift (usizeAdd w debug 1 count.toNat)
  let body ← SO.lift (usizeMul w debug data.len stride)
  let parameterCount ← SO.lift (usizeAdd w debug 4 body)
  writeInstructionW w broadcast InstructionId.syncWrite parameterCount
    (syncWriteBytesEncoderW w debug address count stride data.items)

/-- The loop of `sync_write`, `src/instructions/sync_write.rs:90-95`, from index `i`. -/
def syncWriteLoopW {α : Type} (w : Nat) (debug : Bool) (d : DataTy α) (stride : Nat) :
    (i : Nat) → List (SyncWriteData α) → SO (List Byte) BufferTooSmall Unit
  | _, [] => pure ()
  | i, c :: rest => do
    let start ← SO.lift (usizeMul w debug i stride)
    let start ← SO.lift (usizeAdd w debug 4 start)
    onSliceFrom start (onSlice 0 stride (do
      setIdx 0 c.motorId
      onSliceFrom 1 (d.encode c.data)))
    syncWriteLoopW w debug d stride (i + 1) rest

theorem syncWriteLoopW_length {α : Type} (w : Nat) (debug : Bool) (d : DataTy α) (stride : Nat) (l : List (SyncWriteData α)) :
    ∀ i, KeepsLength (syncWriteLoopW w debug d stride i l) := by
  induction l with
  | nil => intro i; exact .pure ()
  | cons c rest ih =>
    intro i
    exact .bind (.lift _) fun _ => .bind (.lift _) fun _ =>
      .bind (.onSliceFrom _ (.onSlice _ _ (.bind (.setIdx _ _) fun _ => .onSliceFrom _ (d.encode_length _)))) fun _ => ih (i + 1)

/-- The encoder of `sync_write`, `src/instructions/sync_write.rs:87-97`. -/
def syncWriteEncoderW {α : Type} (w : Nat) (debug : Bool) (d : DataTy α) (address : U16) (count stride : Nat)
    (items : List (SyncWriteData α)) : Encoder where
  run := do
    onSliceFrom 0 (writeU16Le address)
    onSliceFrom 2 (writeU16Le (BitVec.ofNat 16 count))
    syncWriteLoopW w debug d stride 0 items
  length_eq := KeepsLength.bind (.onSliceFrom _ (.writeU16Le _)) fun _ =>
    .bind (.onSliceFrom _ (.writeU16Le _)) fun _ => syncWriteLoopW_length _ _ d _ items 0

/-- `Client::sync_write`, `src/instructions/sync_write.rs:75-98`. The count is `size_of::<u8>()` in the code. -/
def syncWriteW {α : Type} (w : Nat) (d : DataTy α) (address : U16) (data : CallerIter (SyncWriteData α)) :
    SO Bus WriteError Unit := do
  let debug := (← SO.get).debug
  let count := 1
  let stride ← SO.lift (usizeAdd w debug 1 count)
  let body ← SO.lift (usizeMul w debug data.len stride)
  let parameterCount ← SO.lift (usizeAdd w debug 4 body)
  writeInstructionW w broadcast InstructionId.syncWrite parameterCount
    (syncWriteEncoderW w debug d address count stride data.items)

/-- The first loop of `bulk_write`, `src/instructions/bulk_write.rs:58-71`. -/
def bulkWriteCountW {ε : Type} (w : Nat) (debug : Bool) : (counted : List Nat) → (parameterCount : Nat) → Outcome ε Nat
  | [], parameterCount => .ok parameterCount
  | n :: rest, parameterCount =>
    if n > 65535 then .panic
    else do
      let size ← usizeAdd w debug 5 n
      let parameterCount ← usizeAdd w debug parameterCount size
      bulkWriteCountW w debug rest parameterCount

/-- The encoding loop of `bulk_write`, `src/instructions/bulk_write.rs:75-84`. -/
def bulkWriteLoopW (w : Nat) (debug : Bool) : (offset : Nat) → List BulkWriteData → SO (List Byte) BufferTooSmall Unit
  | _, [] => pure ()
  | offset, c :: rest => do
    -- `&mut buffer[offset..]` comes before the sum
    let buffer ← SO.get
    SO.assert (decide (offset ≤ buffer.length))
    let size ← SO.lift (usizeAdd w debug 5 c.data.length)
    let next ← SO.lift (usizeAdd w debug offset size)
    onSliceFrom offset (do
      onSliceFrom 0 (writeU8Le c.motorId)
      onSliceFrom 1 (writeU16Le c.address)
      onSliceFrom 3 (writeU16Le (BitVec.ofNat 16 c.data.length))
      onSliceFrom 5 (onSlice 0 c.data.length (copyFromSlice c.data)))
    bulkWriteLoopW w debug next rest

theorem bulkWriteLoopW_length (w : Nat) (debug : Bool) (l : List BulkWriteData) :
    ∀ offset, KeepsLength (bulkWriteLoopW w debug offset l) := by
  induction l with
  | nil => intro i; exact .pure ()
  | cons c rest ih =>
    intro i
    exact .bind .get fun _ => .bind (.assert _) fun _ => .bind (.lift _) fun _ => .bind (.lift _) fun _ =>
      .bind (.onSliceFrom _ (.bind (.onSliceFrom _ (.writeU8Le _)) fun _ =>
      .bind (.onSliceFrom _ (.writeU16Le _)) fun _ => .bind (.onSliceFrom _ (.writeU16Le _)) fun _ =>
        .onSliceFrom _ (.onSlice _ _ (.copyFromSlice _)))) fun _ => ih _

/-- `Client::bulk_write`, `src/instructions/bulk_write.rs:48-87`. -/
def bulkWriteW (w : Nat) (writes : CallerWrites) : SO Bus WriteError Unit := do
  let debug := (← SO.get).debug
  let parameterCount ← SO.lift (bulkWriteCountW w debug writes.counted 0)
  writeInstructionW w broadcast InstructionId.bulkWrite parameterCount
    ⟨bulkWriteLoopW w debug 0 writes.written, bulkWriteLoopW_length w debug writes.written 0⟩

end Client
end Dxl
