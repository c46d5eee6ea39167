import Verif.Model.Construct

/-! # The simulated motor of the integration tests: `tests/common/mock/mock_device.rs`

An application of `Device`: a loop that reads instructions and answers them from a control table.

Simplifications: the serial port is the script of `Model/Port.lean` instead of `MockSerial` (whose `read` panics if
the buffer is too small for all that was received, and whose `discard_input_buffer` does nothing); one iteration of
the loop is modelled, the flag that ends the loop is not; a panic ends the thread; log messages are left out. -/

namespace Dxl

namespace ControlTable

/-- `ControlTable::read`, `tests/common/mock/mock_device.rs:21-29`. -/
def read {ε : Type} (data : List Byte) (address length : U16) : Outcome ε (Option (List Byte)) :=
  let start := address.toNat
  let stop := start + length.toNat
  if stop > data.length then .ok none
  else do
    let bytes ← slice data start stop
    pure (some bytes)

/-- `ControlTable::write`, `tests/common/mock/mock_device.rs:31-40`. -/
def write {ε : Type} (address : U16) (bytes : List Byte) : SO (List Byte) ε Bool := do
  let data ← SO.get
  let start := address.toNat
  let stop := start + bytes.length
  if stop > data.length then pure false
  else do
    onSlice start stop (copyFromSlice bytes)
    pure true

end ControlTable

/-- `MockDevice`, `tests/common/mock/mock_device.rs:43-48`. -/
structure MockDevice where
  id : Byte
  device : Bus
  controlTable : List Byte
  actionRegister : Option (U16 × List Byte)
  deriving Repr, DecidableEq

namespace MockDevice

/-- `MockDevice::new`, `tests/common/mock/mock_device.rs:51-58`. -/
def new (id : Byte) (device : Bus) : MockDevice :=
  { id, device, controlTable := List.replicate 200 0#8, actionRegister := none }

/-- Run code on `self.device`, `tests/common/mock/mock_device.rs:45`. -/
def onDevice {ε α : Type} (m : SO Bus ε α) : SO MockDevice ε α :=
  SO.zoom MockDevice.device (fun b d => { d with device := b }) m

/-- Run code on `self.control_table`, `tests/common/mock/mock_device.rs:46`. -/
def onTable {ε α : Type} (m : SO (List Byte) ε α) : SO MockDevice ε α :=
  SO.zoom MockDevice.controlTable (fun t d => { d with controlTable := t }) m

/-- `let_assert!(Ok(()) = …)`: an error is a panic; for example in `tests/common/mock/mock_device.rs:94`. -/
def assertOk {σ ε ε' : Type} (m : SO σ ε Unit) : SO σ ε' Unit := do
  match ← m.attempt with
  | .ok () => pure ()
  | .error _ => SO.panic

/-- The encoder `|buffer| { buffer.copy_from_slice(data); Ok(()) }`, `tests/common/mock/mock_device.rs:88-91, 180-183`. -/
def dataEncoder (data : List Byte) : Encoder := ⟨copyFromSlice data, KeepsLength.copyFromSlice data⟩

/-- The encoder for the reply to a ping, `tests/common/mock/mock_device.rs:77-82`. -/
def pingEncoder : Encoder :=
  ⟨do setIdx 0 10#8; setIdx 1 20#8; setIdx 2 46#8,
    KeepsLength.bind (.setIdx _ _) fun _ => KeepsLength.bind (.setIdx _ _) fun _ => .setIdx _ _⟩

/-- The answer from the control table, `tests/common/mock/mock_device.rs:86-95` (and the same in lines 178-188). -/
def reply {ε : Type} (address length : U16) : SO MockDevice ε Unit := do
  let d ← SO.get
  match ← SO.lift (ControlTable.read d.controlTable address length) with
  | some data => assertOk (onDevice (Device.writeStatus d.id 0#8 length.toNat (dataEncoder data)))
  | none => assertOk (onDevice (Device.writeStatusError d.id 0x07#8))

/-- The timeout of all reads: `Duration::from_millis(10)`, `tests/common/mock/mock_device.rs:63, 194`. -/
def timeout : Nat := 10000000

/-- The inner loop of `handle_sync_bulk_read`, waiting for the reply of another motor,
`tests/common/mock/mock_device.rs:191-212`: `true` is `break`, `false` is `return`. `fuel` bounds the number of
iterations. -/
def awaitReply {ε : Type} (nextId : Byte) : (fuel : Nat) → SO MockDevice ε Bool
  | 0 => SO.hang
  | fuel + 1 => do
    match ← (onDevice (Device.read timeout)).attempt with
    | .ok ⟨id, .unknown instruction _⟩ =>
      if instruction = InstructionId.status ∧ id = nextId then pure true else pure false
    | .ok _ => pure false
    | .error (.io e) => if e.isTimeout then awaitReply nextId fuel else pure false
    | .error _ => pure false

/-- `handle_sync_bulk_read`, `tests/common/mock/mock_device.rs:175-216`. -/
def handleSyncBulkRead {ε : Type} (fuel : Nat) (address length : U16) : (ids : List Byte) → SO MockDevice ε Unit
  | [] => pure ()
  | nextId :: ids => do
    let d ← SO.get
    if nextId = d.id then reply address length
    else if ← awaitReply nextId fuel then handleSyncBulkRead fuel address length ids
    else pure ()

/-- `iter().step_by(5)`, `tests/common/mock/mock_device.rs:123`. -/
def everyFifth : List Byte → List Byte
  | [] => []
  | a :: rest => a :: everyFifth (rest.drop 4)
termination_by l => l.length
decreasing_by simp; omega

/-- `u16::from_le_bytes(parameters[a..b].try_into().unwrap())`, for example in `tests/common/mock/mock_device.rs:128-129`. -/
def u16At {ε : Type} (parameters : List Byte) (a b : Nat) : Outcome ε U16 := do
  readU16Le (← slice parameters a b)

/-- The loop that looks for the part of a bulk write for this motor, `tests/common/mock/mock_device.rs:133-143`. -/
def findBulkWrite {ε : Type} (own : Byte) (parameters : List Byte) (idIndex : Nat) : (fuel : Nat) → Outcome ε Nat
  | 0 => .hang
  | fuel + 1 => do
    let id ← idx parameters idIndex
    if id = own then pure idIndex
    else do
      let length ← u16At parameters (idIndex + 3) (idIndex + 5)
      findBulkWrite own parameters (idIndex + length.toNat) fuel

/-- `self.control_table.write(…)` followed by the answer, `tests/common/mock/mock_device.rs:98-102, 157-161`. -/
def writeAndAnswer {ε : Type} (address : U16) (parameters : List Byte) : SO MockDevice ε Unit := do
  let d ← SO.get
  if ← onTable (ControlTable.write address parameters) then assertOk (onDevice (Device.writeStatusOk d.id))
  else assertOk (onDevice (Device.writeStatusError d.id 0x07#8))

/-- The `match` on the instruction, `tests/common/mock/mock_device.rs:73-170`. -/
def handle {ε : Type} (fuel : Nat) : Instructions → SO MockDevice ε Unit
  | .ping => do
    let d ← SO.get
    assertOk (onDevice (Device.writeStatus d.id 0#8 3 pingEncoder))
  | .read address length => reply address length
  | .write address parameters => writeAndAnswer address parameters
  | .syncRead address length ids => do
    let d ← SO.get
    if ids.contains d.id then handleSyncBulkRead fuel address length ids else pure ()
  | .syncWrite address length parameters => do
    let d ← SO.get
    match parameters.idxOf? d.id with
    | none => pure ()
    | some idIndex => do
      let bytes ← SO.lift (slice parameters (idIndex + 1) (idIndex + 1 + length.toNat))
      let _ ← onTable (ControlTable.write address bytes)
  | .bulkRead parameters => do
    let d ← SO.get
    let ids := everyFifth parameters
    match ids.idxOf? d.id with
    | none => pure ()
    | some idIndex => do
      let idIndex := idIndex * 5
      let address ← SO.lift (u16At parameters (idIndex + 1) (idIndex + 3))
      let length ← SO.lift (u16At parameters (idIndex + 3) (idIndex + 5))
      handleSyncBulkRead fuel address length ids
  | .bulkWrite parameters => do
    let d ← SO.get
    let idIndex ← SO.lift (findBulkWrite d.id parameters 0 fuel)
    let address ← SO.lift (u16At parameters (idIndex + 1) (idIndex + 3))
    let length ← SO.lift (u16At parameters (idIndex + 3) (idIndex + 5))
    let bytes ← SO.lift (slice parameters (idIndex + 5) (idIndex + 5 + length.toNat))
    let _ ← onTable (ControlTable.write address bytes)
  | .regWrite address parameters => do
    SO.modify fun d => { d with actionRegister := some (address, parameters) }
    let d ← SO.get
    assertOk (onDevice (Device.writeStatusOk d.id))
  | .action => do
    let d ← SO.get
    match d.actionRegister with
    | some (address, parameters) => do
      SO.modify fun d => { d with actionRegister := none }
      writeAndAnswer address parameters
    | none => assertOk (onDevice (Device.writeStatusError d.id 0x07#8))
  | .factoryReset _ => SO.panic
  | .reboot => SO.panic
  | .clear _ => SO.panic
  | .unknown _ _ => pure ()

/-- One iteration of the loop in `run`, `tests/common/mock/mock_device.rs:63-171`. -/
def step {ε : Type} (fuel : Nat) : SO MockDevice ε Unit := do
  match ← (onDevice (Device.read timeout)).attempt with
  | .error (.io e) => if e.isTimeout then pure () else SO.panic
  | .error _ => SO.panic
  | .ok packet => do
    let d ← SO.get
    if packet.id ≠ d.id ∧ packet.id ≠ 254#8 then pure ()
    else handle fuel packet.instruction

end MockDevice
end Dxl
