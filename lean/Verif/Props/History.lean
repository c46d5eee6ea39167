import Verif.Lemmas.History
import Verif.Props.Receive

/-! # C22, C43: histories of API calls

`Op` lists every public operation of the crate that touches a bus: the methods of `Client` and `Device`, and the methods
and destructors of the iterators, which hold a `&mut Client`. -/

namespace Dxl.Props
open Spec

/-- A call into the crate with its arguments. For an iterator, the arguments include its state besides the client.
The `fuel` of the destructors is the number of iterations the loop is observed for. -/
inductive Op : Type 1 where
  | setBaudRate (rate : Nat)
  | writeInstruction (id instr : Byte) (n : Nat) (enc : Encoder)
  | transferSingle (id instr : Byte) (n : Nat) (expected : U16) (enc : Encoder)
  | readStatusResponseTimeout (timeout : Nat)
  | readStatusResponse (expected : U16)
  | action (id : Byte)
  | broadcastAction
  | reboot (id : Byte)
  | broadcastReboot
  | clearRevolutionCounter (id : Byte)
  | broadcastClearRevolutionCounter
  | clearError (id : Byte)
  | broadcastClearError
  | factoryReset (id : Byte) (kind : Client.FactoryResetKind)
  | broadcastFactoryReset (kind : Client.FactoryResetKind)
  | readRaw (id : Byte) (address count : U16)
  | readBytes (id : Byte) (address count : U16)
  | read {α : Type} (d : DataTy α) (id : Byte) (address : U16)
  | write {α : Type} (d : DataTy α) (id : Byte) (address : U16) (value : α)
  | writeBytes (id : Byte) (address : U16) (data : List Byte)
  | regWrite {α : Type} (d : DataTy α) (id : Byte) (address : U16) (value : α)
  | regWriteBytes (id : Byte) (address : U16) (data : List Byte)
  | ping (id : Byte)
  | scan
  | scanNext
  | scanDrop (fuel : Nat)
  | syncReadBytes (ids : List Byte) (address count : U16)
  | syncRead {α : Type} (d : DataTy α) (ids : List Byte) (address : U16)
  | syncNextBytes (count : U16) (ids : List Byte) (index : Nat)
  | syncNext {α : Type} (d : DataTy α) (ids : List Byte) (index : Nat)
  | syncDropBytes (count : U16) (ids : List Byte) (index fuel : Nat)
  | syncDrop {α : Type} (d : DataTy α) (ids : List Byte) (index fuel : Nat)
  | bulkReadBytes (reads : List BulkReadData)
  | bulkNext (reads : List BulkReadData) (index : Nat)
  | bulkDrop (reads : List BulkReadData) (index : Nat)
  | syncWriteBytes (address count : U16) (data : List (SyncWriteData (List Byte)))
  | syncWrite {α : Type} (d : DataTy α) (address : U16) (data : List (SyncWriteData α))
  | bulkWrite (writes : List BulkWriteData)
  | deviceSetBaudRate (rate : Nat)
  | deviceReadRaw (timeout : Nat)
  | deviceRead (timeout : Nat)
  | deviceReadOwned (timeout : Nat)
  | deviceWriteStatus (id error : Byte) (n : Nat) (enc : Encoder)
  | deviceWriteStatusError (id error : Byte)
  | deviceWriteStatusOk (id : Byte)

/-- The bus after the call, whatever its outcome. -/
def Op.run (b : Bus) : Op → Bus
  | .setBaudRate rate => (Client.setBaudRate rate b).1
  | .deviceSetBaudRate rate => (Device.setBaudRate rate b).1
  | .writeInstruction id instr n enc => (Client.writeInstruction id instr n enc b).1
  | .transferSingle id instr n expected enc => (Client.transferSingle id instr n expected enc b).1
  | .readStatusResponseTimeout timeout => (Client.readStatusResponseTimeout timeout b).1
  | .readStatusResponse expected => (Client.readStatusResponse expected b).1
  | .action id => (Client.action id b).1
  | .broadcastAction => (Client.broadcastAction b).1
  | .reboot id => (Client.reboot id b).1
  | .broadcastReboot => (Client.broadcastReboot b).1
  | .clearRevolutionCounter id => (Client.clearRevolutionCounter id b).1
  | .broadcastClearRevolutionCounter => (Client.broadcastClearRevolutionCounter b).1
  | .clearError id => (Client.clearError id b).1
  | .broadcastClearError => (Client.broadcastClearError b).1
  | .factoryReset id kind => (Client.factoryReset id kind b).1
  | .broadcastFactoryReset kind => (Client.broadcastFactoryReset kind b).1
  | .readRaw id address count => (Client.readRaw id address count b).1
  | .readBytes id address count => (Client.readBytes id address count b).1
  | .read d id address => (Client.read d id address b).1
  | .write d id address value => (Client.write d id address value b).1
  | .writeBytes id address data => (Client.writeBytes id address data b).1
  | .regWrite d id address value => (Client.regWrite d id address value b).1
  | .regWriteBytes id address data => (Client.regWriteBytes id address data b).1
  | .ping id => (Client.ping id b).1
  | .scan => (Client.scan b).1
  | .scanNext => (Client.scanNext (ε := Empty) b).1
  | .scanDrop fuel => (Client.scanDrop (ε := Empty) fuel b).1
  | .syncReadBytes ids address count => (Client.syncReadBytes ids address count b).1
  | .syncRead d ids address => (Client.syncRead d ids address b).1
  | .syncNextBytes count ids index => (SyncIter.nextBytes (ε := Empty) ⟨b, count, ids, index⟩).1.client
  | .syncNext d ids index => (SyncIter.next d (ε := Empty) ⟨b, d.size, ids, index⟩).1.client
  | .syncDropBytes count ids index fuel => (SyncIter.dropBytes (ε := Empty) fuel ⟨b, count, ids, index⟩).1.client
  | .syncDrop d ids index fuel => (SyncIter.drop d (ε := Empty) fuel ⟨b, d.size, ids, index⟩).1.client
  | .bulkReadBytes reads => (Client.bulkReadBytes reads b).1
  | .bulkNext reads index => (BulkIter.next (ε := Empty) ⟨b, reads, index⟩).1.client
  | .bulkDrop reads index => (BulkIter.drop (ε := Empty) ⟨b, reads, index⟩).1.client
  | .syncWriteBytes address count data => (Client.syncWriteBytes address count data b).1
  | .syncWrite d address data => (Client.syncWrite d address data b).1
  | .bulkWrite writes => (Client.bulkWrite writes b).1
  | .deviceReadRaw timeout => (Device.readRawInstructionTimeout timeout b).1
  | .deviceRead timeout => (Device.read timeout b).1
  | .deviceReadOwned timeout => (Device.readOwned timeout b).1
  | .deviceWriteStatus id error n enc => (Device.writeStatus id error n enc b).1
  | .deviceWriteStatusError id error => (Device.writeStatusError id error b).1
  | .deviceWriteStatusOk id => (Device.writeStatusOk id b).1

theorem Op.run_step (op : Op) {b : Bus} (hb : b.Inv) : Step b (op.run b) := by
  have hw := fun id instr n enc => Bus.writePacket_sound id instr n enc b hb
  have hi := fun id instr n enc => Client.instruct_sound id instr n enc b hb
  have hst := fun id error n enc => Bus.writeStatus_sound id error n enc b hb
  cases op with
  | setBaudRate rate => exact Bus.setBaudRate_sound rate b hb
  | transferSingle id instr n expected enc => exact Client.transferSingle_sound id instr n expected enc b hb
  | readStatusResponseTimeout timeout => exact Client.readStatusResponseTimeout_sound timeout b hb
  | readStatusResponse expected => exact Client.readStatusResponse_sound expected b hb
  | readRaw id address count => exact Client.readRaw_sound id address count b hb
  | readBytes id address count => exact Client.readBytes_sound id address count b hb
  | read d id address => exact Client.read_sound d id address b hb
  | ping id => exact Client.ping_sound id b hb
  | scanNext => exact Client.scanNext_sound b hb
  | scanDrop fuel => exact Client.scanDrop_sound fuel b hb
  | syncNextBytes count ids index => exact SyncIter.nextBytes_sound ⟨b, count, ids, index⟩ hb
  | syncNext d ids index => exact SyncIter.next_sound d ⟨b, d.size, ids, index⟩ hb
  | syncDropBytes count ids index fuel => exact SyncIter.dropBytes_sound fuel ⟨b, count, ids, index⟩ hb
  | syncDrop d ids index fuel => exact SyncIter.drop_sound d fuel ⟨b, d.size, ids, index⟩ hb
  | bulkReadBytes reads => exact Client.bulkReadBytes_sound reads b hb
  | bulkNext reads index => exact BulkIter.next_sound ⟨b, reads, index⟩ hb
  | bulkDrop reads index => exact BulkIter.drop_sound ⟨b, reads, index⟩ hb
  | bulkWrite writes => exact Client.bulkWrite_sound writes b hb
  | deviceSetBaudRate rate => exact Bus.setBaudRate_sound rate b hb
  | deviceReadRaw timeout => exact Device.readRawInstructionTimeout_sound timeout b hb
  | deviceRead timeout => exact Device.read_sound timeout b hb
  | deviceReadOwned timeout => exact Device.readOwned_sound timeout b hb
  | deviceWriteStatus id error n enc => exact hst _ _ _ _
  | deviceWriteStatusError id error => exact hst _ _ _ _
  | deviceWriteStatusOk id => exact hst _ _ _ _
  | writeInstruction | broadcastAction | broadcastReboot | broadcastClearRevolutionCounter | broadcastClearError
  | broadcastFactoryReset | scan | syncReadBytes | syncRead | syncWriteBytes | syncWrite => exact hw _ _ _ _
  | action | reboot | clearRevolutionCounter | clearError | factoryReset | write | writeBytes | regWrite
  | regWriteBytes => exact hi _ _ _ _

/-- The bus after a sequence of calls. -/
def history (b : Bus) (ops : List Op) : Bus := ops.foldl Op.run b

theorem history_step (ops : List Op) : ∀ {b : Bus}, b.Inv → Step b (history b ops) := by
  induction ops with
  | nil => exact fun h => .refl h
  | cons op ops ih =>
    intro b hb
    have h1 := Op.run_step op hb
    exact h1.trans (ih h1.inv)

/-- A freshly constructed bus, `Client::with_buffers*`, `Device::with_buffers*`. -/
def Constructed (port : Port) (readBuffer writeBuffer : List Byte) (b : Bus) : Prop :=
  ∃ debug, Bus.withBuffers debug port readBuffer writeBuffer = .ok b ∨
    ∃ rate, Bus.withBuffersAndBaudRate (ε := Empty) debug port readBuffer writeBuffer rate = .ok b

theorem withBuffersAndBaudRate_ok {ε : Type} {debug : Bool} {port : Port} {readBuffer writeBuffer : List Byte} {rate : Nat}
    {b : Bus} (h : Bus.withBuffersAndBaudRate (ε := ε) debug port readBuffer writeBuffer rate = .ok b) :
    b.Inv ∧ b.serialPort = port ∧ b.baudRate = rate ∧ b.readBuffer = readBuffer ∧
      b.writeBuffer.length = writeBuffer.length := by
  unfold Bus.withBuffersAndBaudRate at h
  split at h
  · rename_i hl
    simp only [headerSize] at hl
    simp only [Outcome.ok.injEq] at h
    subst h
    refine ⟨⟨⟨Nat.le_refl _, Nat.zero_le _⟩, ⟨?_, ?_⟩⟩, rfl, rfl, rfl, ?_⟩
    · simp [headerPrefix]; omega
    · simp [headerPrefix]
    · simp [headerPrefix]; omega
  · simp at h

theorem withBuffers_ok {debug : Bool} {port : Port} {readBuffer writeBuffer : List Byte}
    {b : Bus} (h : Bus.withBuffers debug port readBuffer writeBuffer = .ok b) :
    port.rateErr = none ∧ Bus.withBuffersAndBaudRate (ε := IoErr) debug port readBuffer writeBuffer port.rate = .ok b := by
  unfold Bus.withBuffers Port.baudRate at h
  split at h
  · rename_i he; exact ⟨he, h⟩
  · simp at h

theorem constructed_ok {port : Port} {readBuffer writeBuffer : List Byte} {b : Bus}
    (h : Constructed port readBuffer writeBuffer b) :
    b.Inv ∧ b.serialPort = port ∧ b.readBuffer = readBuffer ∧ b.writeBuffer.length = writeBuffer.length := by
  obtain ⟨debug, h | ⟨rate, h⟩⟩ := h
  · obtain ⟨h1, h2, _, h4⟩ := withBuffersAndBaudRate_ok (withBuffers_ok h).2; exact ⟨h1, h2, h4⟩
  · obtain ⟨h1, h2, _, h4⟩ := withBuffersAndBaudRate_ok h; exact ⟨h1, h2, h4⟩

/-! ## C22 -/

/-- **C22** After any sequence of calls on a new bus, whatever their outcome. -/
theorem c22_bookkeeping {port : Port} {readBuffer writeBuffer : List Byte} {b : Bus}
    (h : Constructed port readBuffer writeBuffer b) (ops : List Op) :
    let c := history b ops
    c.usedBytes ≤ c.readLen ∧ c.readLen ≤ c.readBuffer.length ∧ c.readBuffer.length = readBuffer.length ∧
      c.writeBuffer.length = writeBuffer.length ∧ 10 ≤ c.writeBuffer.length ∧
      c.writeBuffer.take 4 = [0xFF#8, 0xFF#8, 0xFD#8, 0x00#8] := by
  obtain ⟨h1, _, h3, h4⟩ := constructed_ok h
  have hs := history_step ops h1
  exact ⟨hs.inv.rInv.used_le, hs.inv.rInv.len_le, by rw [hs.readSize, h3], by rw [hs.writeSize, h4],
    hs.inv.wInv.size, hs.inv.wInv.prefix_eq⟩

/-- The hypotheses on the bus in the theorems about single calls hold for every bus a program can have. -/
theorem c22_invariants_reachable {port : Port} {readBuffer writeBuffer : List Byte} {b : Bus}
    (h : Constructed port readBuffer writeBuffer b) (ops : List Op) : (history b ops).RInv ∧ (history b ops).WInv :=
  ⟨(history_step ops (constructed_ok h).1).inv.rInv, (history_step ops (constructed_ok h).1).inv.wInv⟩

/-- Construction fails, with a panic, exactly if the write buffer is smaller than 10 bytes. -/
theorem c22_construction {debug : Bool} {port : Port} {readBuffer writeBuffer : List Byte} (rate : Nat) :
    if 10 ≤ writeBuffer.length then
      ∃ b, Bus.withBuffersAndBaudRate (ε := Empty) debug port readBuffer writeBuffer rate = .ok b
    else Bus.withBuffersAndBaudRate (ε := Empty) debug port readBuffer writeBuffer rate = .panic := by
  unfold Bus.withBuffersAndBaudRate
  simp only [headerSize, ge_iff_le, Nat.reduceAdd]
  split <;> simp

/-! ## C43 -/

/-- **C43** The baud rate is the one given to the serial port by the last successful `set_baud_rate`, or the initial one.
`calls` are all calls made to the serial port since then. -/
theorem c43_baud_rate {debug : Bool} {port : Port} {readBuffer writeBuffer : List Byte} {b : Bus} {rate : Nat}
    (h : Bus.withBuffersAndBaudRate (ε := Empty) debug port readBuffer writeBuffer rate = .ok b) (ops : List Op) :
    ∃ calls, (history b ops).serialPort.log = port.log ++ calls ∧ (history b ops).baudRate = lastRate rate calls := by
  obtain ⟨h1, h2, h3, _⟩ := withBuffersAndBaudRate_ok h
  obtain ⟨calls, h5, h6, _⟩ := (history_step ops h1).calls
  exact ⟨calls, by rw [h5, h2], by rw [h6, h3]⟩

/-- **C43** If the bus got its rate from the serial port, the two agree forever. -/
theorem c43_agrees_with_port {debug : Bool} {port : Port} {readBuffer writeBuffer : List Byte} {b : Bus}
    (h : Bus.withBuffers debug port readBuffer writeBuffer = .ok b) (ops : List Op) :
    (history b ops).baudRate = (history b ops).serialPort.rate := by
  obtain ⟨h1, h2, h3, _⟩ := withBuffersAndBaudRate_ok (withBuffers_ok h).2
  obtain ⟨calls, _, h6, h7⟩ := (history_step ops h1).calls
  rw [h6, h7, h3, h2]

/-- **C43** `set_baud_rate`, of the client and of the device, asks the serial port once for the given rate; on success the
rate is stored, on failure nothing changes but that the port has been called. -/
theorem c43_set_baud_rate (rate : Nat) (b : Bus) {m : SO Bus IoErr Unit}
    (hm : m = Client.setBaudRate rate ∨ m = Device.setBaudRate rate) :
    (∃ p, m b = ({ b with serialPort := p, baudRate := rate }, .ok ()) ∧
      p.log = b.serialPort.log ++ [.setBaud rate true] ∧ p.rate = rate ∧ p.rx = b.serialPort.rx) ∨
    (∃ p e, m b = ({ b with serialPort := p }, .err e) ∧
      p.log = b.serialPort.log ++ [.setBaud rate false] ∧ p.rate = b.serialPort.rate ∧ p.rx = b.serialPort.rx) := by
  rcases hm with rfl | rfl <;> exact Bus.setBaudRate_cases rate b

/-! ## Concrete cases -/

/-- A port on which the second `set_baud_rate` fails. -/
def flakyPort : Port := { quietPort with baudRes := [none, some (.other 3), none] }

/-- A history with a failed rate change, a failing write, a panic in an encoder and garbage on the line. -/
example : ∃ b, Bus.withBuffers true { flakyPort with rx := [.data 0 [1#8, 0xFF#8]] } (List.replicate 12 0#8)
      (List.replicate 12 0#8) = .ok b ∧
    let c := history b [.setBaudRate 9600, .setBaudRate 1200, .writeBytes 1#8 0#16 [1#8, 2#8, 3#8], .ping 7#8,
      .regWrite (DataTy.unsigned 4) 1#8 0#16 5#32]
    c.baudRate = 9600 ∧ c.serialPort.rate = 9600 ∧ c.readLen = 0 ∧ c.writeBuffer.length = 12 ∧
      c.serialPort.log.length = 5 :=
  ⟨_, rfl, by decide +kernel⟩

/-! ## The theorems on concrete cases -/

/-- A bus on a port that fails to set the baud rate the second time. -/
def flakyBus : Bus :=
  { serialPort := flakyPort, baudRate := 57600, readBuffer := List.replicate 12 0#8, readLen := 0, usedBytes := 0,
    writeBuffer := headerPrefix ++ List.replicate 8 0#8, debug := true }

theorem flakyBus_made : Bus.withBuffers true flakyPort (List.replicate 12 0#8) (List.replicate 12 0#8) = .ok flakyBus := rfl

def flakyOps : List Op := [.setBaudRate 9600, .setBaudRate 1200, .writeBytes 1#8 0#16 [1#8, 2#8, 3#8], .ping 7#8,
  .regWrite (DataTy.unsigned 4) 1#8 0#16 5#32]

example := c22_bookkeeping ⟨true, .inl flakyBus_made⟩ flakyOps
example := c22_invariants_reachable ⟨true, .inl flakyBus_made⟩ flakyOps
example := c43_baud_rate (debug := true) (port := flakyPort) (readBuffer := List.replicate 12 0#8) (writeBuffer := List.replicate 12 0#8)
  (rate := 57600) (b := flakyBus) rfl flakyOps
example := c43_agrees_with_port flakyBus_made flakyOps

end Dxl.Props
