import Verif.Spec.Request

/-! # Specification: a motor as a memory

What a motor does with the instructions addressed to it, as a state machine on abstract requests; no reference to the
model, to bytes on a wire or to buffers. -/

namespace Dxl.Spec

/-- The bytes from `start` on, or nothing if they are not all in the memory. -/
def load (memory : List (BitVec 8)) (start count : Nat) : Option (List (BitVec 8)) :=
  if start + count ≤ memory.length then some ((List.range count).map fun i => memory.getD (start + i) 0#8) else none

/-- The memory after writing the data at `start`, or nothing if they do not all fit: address by address, the new value
if it is written, and otherwise the old one. -/
def store (memory : List (BitVec 8)) (start : Nat) (data : List (BitVec 8)) : Option (List (BitVec 8)) :=
  if start + data.length ≤ memory.length then
    some ((List.range memory.length).map fun i =>
      if start ≤ i ∧ i < start + data.length then data.getD (i - start) 0#8 else memory.getD i 0#8)
  else none

/-- The state of a motor: its control table, and the write registered by `regWrite`. -/
structure Servo where
  memory : List (BitVec 8)
  registered : Option (BitVec 16 × List (BitVec 8))
  deriving Repr, DecidableEq

/-- The answer of a motor. -/
structure ServoReply where
  error : BitVec 8
  data : List (BitVec 8)
  deriving Repr, DecidableEq

namespace Servo

/-- Nothing went wrong. -/
def done : ServoReply := ⟨0#8, []⟩

/-- The error number for an access outside of the control table. -/
def outside : ServoReply := ⟨7#8, []⟩

/-- A write, and the answer. -/
def put (s : Servo) (address : BitVec 16) (data : List (BitVec 8)) : Servo × ServoReply :=
  match store s.memory address.toNat data with
  | some m => ({ s with memory := m }, done)
  | none => (s, outside)

/-- The answer to a read. -/
def get (s : Servo) (address count : BitVec 16) : ServoReply :=
  match load s.memory address.toNat count.toNat with
  | some data => ⟨0#8, data⟩
  | none => outside

/-- What the motor does, for the requests it answers. The answer to a ping is the model number and the firmware version. -/
def serve (s : Servo) : Request → Option (Servo × ServoReply)
  | .ping => some (s, ⟨0#8, [10#8, 20#8, 46#8]⟩)
  | .read address count => some (s, s.get address count)
  | .write address data => some (s.put address data)
  | .regWrite address data => some ({ s with registered := some (address, data) }, done)
  | .action =>
    match s.registered with
    | some (address, data) => some (put { s with registered := none } address data)
    | none => some (s, outside)
  | _ => none

/-- What the motor with this ID does with the instructions for several motors, and its answer if it has to give one: each
motor has its own part in the instruction, writes are not answered, and only motors that are listed react. -/
def hear (s : Servo) (id : BitVec 8) : Request → Option (Servo × Option ServoReply)
  | .syncRead address count ids => some (s, if id ∈ ids then some (s.get address count) else none)
  | .bulkRead reads => some (s, (reads.find? fun r => r.1 = id).map fun r => s.get r.2.1 r.2.2)
  | .syncWrite address _ writes =>
    match writes.find? fun w => w.1 = id with
    | some w => some ((s.put address w.2).1, none)
    | none => some (s, none)
  | .bulkWrite writes =>
    match writes.find? fun w => w.1 = id with
    | some w => some ((s.put w.2.1 w.2.2).1, none)
    | none => some (s, none)
  | _ => none

end Servo

/-- What is stored is loaded. -/
example : (store [1#8, 2#8, 3#8, 4#8] 1 [9#8, 8#8]).bind (load · 0 3) = some [1#8, 9#8, 8#8] ∧
    store [1#8, 2#8, 3#8, 4#8] 3 [9#8, 8#8] = none := by decide

end Dxl.Spec
