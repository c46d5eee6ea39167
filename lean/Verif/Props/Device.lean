import Verif.Model.Device
import Verif.Lemmas.Drops
import Verif.Props.Layout

/-!
# C24-C26, C47: the device side

`Device::read` and its relatives, and what a device makes of the instructions of a client.
-/

namespace Dxl.Props
open Dxl Spec

/-! ## C26: only instructions -/

/-- A read that returns a packet takes some bytes. -/
theorem read_ok_work {b c : Bus} {D : Nat} {pkt : Packet} (hb : b.RInv) (e : Bus.readPacketDeadline D b = (c, .ok pkt)) :
    c.work < b.work := by
  by_cases hN : 10 ≤ b.readBuffer.length
  · have hres := Bus.readPacketDeadline_result D hb hN
    rw [e] at hres
    generalize ho : (c, (Outcome.ok pkt : Outcome ReadError Packet)) = r at hres
    cases hres with
    | packet h1 h2 h3 =>
      obtain ⟨rfl, -⟩ := Prod.mk.inj ho
      have hp := parse_packet h2
      have ht := h1.total
      have hl := Bus.parse_length h2
      unfold Bus.work
      rw [h3.pending, h3.port]
      simp only [List.length_append] at hl
      have := hp.2.2.1
      omega
    | tooBig => cases ho
    | ended => cases ho
  · rw [c17_tiny_buffer D (by omega)] at e
    cases e

theorem read_like (D : Nat) {b : Bus} (hb : b.RInv) :
    (Bus.readPacketDeadline D b).1.RInv ∧ (Bus.readPacketDeadline D b).1.readBuffer.length = b.readBuffer.length := by
  by_cases hN : 10 ≤ b.readBuffer.length
  · obtain ⟨c, o, e, hl, hr, -⟩ := Bus.readPacketDeadline_stream D hb hN
    rw [e]
    exact ⟨hr, hl.readSize⟩
  · rw [c17_tiny_buffer D (by omega)]
    exact ⟨hb, rfl⟩

/-- All of the items are status packets. -/
def Statuses (size : Nat) (items : List Item) : Prop := ∀ i ∈ items, i.Ok size ∧ i.instr = 0x55#8

theorem asInstruction_carries {ε : Type} {pkt : Packet} {id instr : Byte} {params : List Byte} (h : Carries pkt id instr params) :
    pkt.asInstruction (ε := ε) = .ok (if instr = 0x55#8 then none else some ⟨pkt⟩) := by
  unfold Packet.asInstruction
  rw [(carries_accessors h ε).2.1]
  by_cases hi : instr = 0x55#8 <;> simp [hi, InstructionId.status, pure, bind, Outcome.bind]

/-- One turn of the loop. -/
theorem readRawLoop_succ {D fuel : Nat} {b c : Bus} {o : Outcome ReadError Packet} (e : Bus.readPacketDeadline D b = (c, o)) :
    (∀ pkt id params, o = .ok pkt → Carries pkt id 0x55#8 params → Device.readRawLoop D (fuel + 1) b = Device.readRawLoop D fuel c) ∧
    (∀ pkt id instr params, o = .ok pkt → Carries pkt id instr params → instr ≠ 0x55#8 →
      Device.readRawLoop D (fuel + 1) b = (c, .ok ⟨pkt⟩)) ∧
    (∀ r, o = .err r → Device.readRawLoop D (fuel + 1) b = (c, .err r)) ∧
    (o = .panic → Device.readRawLoop D (fuel + 1) b = (c, .panic)) := by
  refine ⟨?_, ?_, ?_, ?_⟩
  · rintro pkt id params rfl hc
    rw [Device.readRawLoop, SO.bind_ok e, asInstruction_carries hc, SO.lift_ok_bind]
    rfl
  · rintro pkt id instr params rfl hc hi
    rw [Device.readRawLoop, SO.bind_ok e, asInstruction_carries hc, SO.lift_ok_bind, if_neg hi]
    rfl
  · rintro r rfl
    rw [Device.readRawLoop, SO.bind_err e]
  · rintro rfl
    rw [Device.readRawLoop, SO.bind_panic e]

/-- What the loop does: it takes status packets, then the result of one more read is the result. -/
theorem readRawLoop_spec (D : Nat) : ∀ (fuel : Nat) (b : Bus), b.RInv → b.work < fuel →
    ∃ items c₀ c o o', Statuses b.readBuffer.length items ∧ stream D b = itemBytes items ++ stream D c₀ ∧ c₀.RInv ∧
      c₀.readBuffer.length = b.readBuffer.length ∧ Bus.readPacketDeadline D c₀ = (c, o') ∧
      b.serialPort.now ≤ c.serialPort.now ∧ c.serialPort.now ≤ max b.serialPort.now D ∧
      Device.readRawLoop D fuel b = (c, o) ∧
      ((∃ pkt id instr params, o' = .ok pkt ∧ o = .ok ⟨pkt⟩ ∧ Carries pkt id instr params ∧ instr ≠ 0x55#8) ∨
        (∃ r, o' = .err r ∧ o = .err r) ∨ (o' = .panic ∧ o = .panic)) := by
  intro fuel
  induction fuel with
  | zero => intro b _ h; omega
  | succ fuel ih =>
    intro b hb hf
    have ht := c20_deadline D hb
    have hl := read_like D hb
    have hh := c19_terminates D hb
    rcases e : Bus.readPacketDeadline D b with ⟨c, o'⟩
    rw [e] at ht hl hh
    dsimp only at ht hl hh
    have hs := readRawLoop_succ (fuel := fuel) e
    cases o' with
    | ok pkt =>
      obtain ⟨g, id, wire, instr, params, rest, h1, h2, h3, h4, h5, h6, h7⟩ := c16_returned_is_valid hb e
      by_cases hi : instr = 0x55#8
      · subst hi
        have hw := read_ok_work hb e
        obtain ⟨items, c₀, c', o, o', i1, i2, i3, i4, i5, i6, i7, i8, i9⟩ := ih c hl.1 (by omega)
        refine ⟨⟨g, id, wire, 0x55#8, params⟩ :: items, c₀, c', o, o', ?_, ?_, i3, by rw [i4, hl.2], i5, by omega, by omega,
          by rw [hs.1 _ _ _ rfl h6, i8], i9⟩
        · intro i hi
          rcases List.mem_cons.mp hi with rfl | hi
          · exact ⟨⟨h2, h3, h4, h5⟩, rfl⟩
          · rw [← hl.2]
            exact i1 i hi
        · rw [h1, ← h7, i2]
          simp [itemBytes]
      · exact ⟨[], b, c, _, _, by simp [Statuses], by simp [itemBytes], hb, rfl, e, ht.1, ht.2, hs.2.1 _ _ _ _ rfl h6 hi,
          .inl ⟨pkt, id, instr, params, rfl, rfl, h6, hi⟩⟩
    | err r =>
      exact ⟨[], b, c, _, _, by simp [Statuses], by simp [itemBytes], hb, rfl, e, ht.1, ht.2, hs.2.2.1 _ rfl, .inr (.inl ⟨r, rfl, rfl⟩)⟩
    | panic =>
      exact ⟨[], b, c, _, _, by simp [Statuses], by simp [itemBytes], hb, rfl, e, ht.1, ht.2, hs.2.2.2 rfl, .inr (.inr ⟨rfl, rfl⟩)⟩
    | hang => exact absurd rfl hh

theorem work_fuel {b : Bus} (hb : b.RInv) : b.work < b.readLen + b.serialPort.measure + 1 := by
  have := Bus.pending_length hb
  unfold Bus.work
  omega

theorem readRaw_eq (timeout : Nat) (b : Bus) : Device.readRawInstructionTimeout timeout b =
    Device.readRawLoop (b.serialPort.now + timeout) (b.readLen + b.serialPort.measure + 1) b := by
  unfold Device.readRawInstructionTimeout
  rw [SO.get_bind]
  rfl

/-- **C26** Status packets are skipped, and the first instruction packet is returned; what follows it is kept. -/
theorem c26_first_instruction {timeout : Nat} {b : Bus} (hb : b.RInv) {statuses : List Item}
    (hst : Statuses b.readBuffer.length statuses) {i : Item} (hi : i.Ok b.readBuffer.length) (hn : i.instr ≠ 0x55#8)
    {rest : List Byte} (hs : stream (b.serialPort.now + timeout) b = itemBytes (statuses ++ [i]) ++ rest) :
    ∃ c pkt, Device.readRawInstructionTimeout timeout b = (c, .ok ⟨pkt⟩) ∧ Carries pkt i.id i.instr i.params ∧
      stream (b.serialPort.now + timeout) c = rest ∧ c.RInv := by
  rw [readRaw_eq]
  have hf := work_fuel hb
  generalize b.readLen + b.serialPort.measure + 1 = fuel at hf
  generalize b.serialPort.now + timeout = D at hs
  induction statuses generalizing b fuel with
  | nil =>
    rcases e : Bus.readPacketDeadline D b with ⟨c, o⟩
    cases fuel with
    | zero => omega
    | succ fuel =>
      obtain ⟨pkt, rfl, hc, hr⟩ := c14_packet_after_garbage hb hi.garbage hi.length hi.fits hi.body
        (rest := rest) (by rw [hs]; simp [itemBytes]) e
      have := read_like D hb
      rw [e] at this
      exact ⟨c, pkt, (readRawLoop_succ e).2.1 _ _ _ _ rfl hc hn, hc, hr, this.1⟩
  | cons j js ih =>
    rcases e : Bus.readPacketDeadline D b with ⟨c, o⟩
    cases fuel with
    | zero => omega
    | succ fuel =>
      have hj := hst j (by simp)
      obtain ⟨pkt, rfl, hc, hr⟩ := c14_packet_after_garbage hb hj.1.garbage hj.1.length hj.1.fits hj.1.body
        (rest := itemBytes (js ++ [i]) ++ rest) (by rw [hs]; simp [itemBytes]) e
      have hl := read_like D hb
      rw [e] at hl
      dsimp only at hl
      have hw := read_ok_work hb e
      rw [hj.2] at hc
      rw [(readRawLoop_succ e).1 _ _ _ rfl hc]
      exact ih hl.1 (fun k hk => by rw [hl.2]; exact hst k (by simp [hk])) (by rw [hl.2]; exact hi) fuel (by omega) hr

/-- **C26** Conversely, a returned instruction was the first in the stream: only status packets preceded it. -/
theorem c26_returned_is_first {timeout : Nat} {b c : Bus} {p : InstructionPacket} (hb : b.RInv)
    (h : Device.readRawInstructionTimeout timeout b = (c, .ok p)) :
    ∃ statuses i rest, Statuses b.readBuffer.length statuses ∧ i.Ok b.readBuffer.length ∧ i.instr ≠ 0x55#8 ∧
      stream (b.serialPort.now + timeout) b = itemBytes (statuses ++ [i]) ++ rest ∧ Carries p.packet i.id i.instr i.params ∧
      stream (b.serialPort.now + timeout) c = rest := by
  rw [readRaw_eq] at h
  obtain ⟨items, c₀, c', o, o', i1, i2, i3, i4, i5, -, -, i8, i9⟩ := readRawLoop_spec (b.serialPort.now + timeout) _ b hb (work_fuel hb)
  rw [h] at i8
  obtain ⟨rfl, rfl⟩ := Prod.mk.inj i8
  rcases i9 with ⟨pkt, id, instr, params, rfl, ho, hc, hi⟩ | ⟨r, -, ho⟩ | ⟨-, ho⟩
  · cases ho
    obtain ⟨g, id', wire, instr', params', rest, h1, h2, h3, h4, h5, h6, h7⟩ := c16_returned_is_valid i3 i5
    have he : instr' = instr := by
      have a := (carries_accessors hc Empty).2.1
      have b := (carries_accessors h6 Empty).2.1
      rw [a] at b
      exact (Outcome.ok.inj b).symm
    refine ⟨items, ⟨g, id', wire, instr', params'⟩, rest, i1, ⟨h2, h3, by rw [← i4]; exact h4, h5⟩, he ▸ hi, ?_, h6, h7⟩
    rw [i2, h1]
    simp [itemBytes]
  · cases ho
  · cases ho

/-- **C26** An error is that of a read that followed only status packets, and in particular it is returned at once. -/
theorem c26_error_after_statuses {timeout : Nat} {b c : Bus} {r : ReadError} (hb : b.RInv)
    (h : Device.readRawInstructionTimeout timeout b = (c, .err r)) :
    ∃ statuses c₀, Statuses b.readBuffer.length statuses ∧
      stream (b.serialPort.now + timeout) b = itemBytes statuses ++ stream (b.serialPort.now + timeout) c₀ ∧
      Bus.readPacketDeadline (b.serialPort.now + timeout) c₀ = (c, .err r) := by
  rw [readRaw_eq] at h
  obtain ⟨items, c₀, c', o, o', i1, i2, i3, i4, i5, -, -, i8, i9⟩ := readRawLoop_spec (b.serialPort.now + timeout) _ b hb (work_fuel hb)
  rw [h] at i8
  obtain ⟨rfl, rfl⟩ := Prod.mk.inj i8
  rcases i9 with ⟨pkt, id, instr, params, rfl, ho, hc, hi⟩ | ⟨r, ho', ho⟩ | ⟨-, ho⟩
  · cases ho
  · cases ho
    exact ⟨items, c₀, i1, i2, by rw [i5, ho']⟩
  · cases ho

/-- **C26** The loop ends, within the timeout: one deadline holds for all the packets that are skipped. -/
theorem c26_terminates (timeout : Nat) {b : Bus} (hb : b.RInv) :
    (Device.readRawInstructionTimeout timeout b).2 ≠ .hang ∧
      (Device.readRawInstructionTimeout timeout b).1.serialPort.now ≤ b.serialPort.now + timeout := by
  rw [readRaw_eq]
  obtain ⟨items, c₀, c', o, o', -, -, -, -, -, -, i7, i8, i9⟩ := readRawLoop_spec (b.serialPort.now + timeout) _ b hb (work_fuel hb)
  rw [i8]
  refine ⟨?_, by dsimp only; omega⟩
  rcases i9 with ⟨pkt, id, instr, params, -, rfl, -⟩ | ⟨r, -, rfl⟩ | ⟨-, rfl⟩ <;> simp

/-! ## C24: what a device makes of the instructions of a client -/

/-- The instruction as a device should see it, with the same arguments. -/
def decoded : Request → Instructions
  | .ping => .ping
  | .read address count => .read address count
  | .write address data => .write address data
  | .regWrite address data => .regWrite address data
  | .action => .action
  | .factoryReset .resetAll => .factoryReset .all
  | .factoryReset .keepId => .factoryReset .exceptId
  | .factoryReset .keepIdAndBaudRate => .factoryReset .exceptIdBaudRate
  | .reboot => .reboot
  | .clearRevolutionCount => .clear .multiTurns
  | .clearError => .clear .errors
  | .syncRead address count ids => .syncRead address count ids
  | .syncWrite address count writes => .syncWrite address count (writes.flatMap fun w => w.1 :: w.2)
  | .bulkRead reads => .bulkRead (reads.flatMap fun r => r.1 :: (le16 r.2.1 ++ le16 r.2.2))
  | .bulkWrite writes =>
    .bulkWrite (writes.flatMap fun w => w.1 :: (le16 w.2.1 ++ le16 (BitVec.ofNat 16 w.2.2.length) ++ w.2.2))

theorem u16At_le16 (v : U16) (pre rest : List Byte) {a b : Nat} (ha : a = pre.length) (hb : b = a + 2) :
    Device.u16At (pre ++ (le16 v ++ rest)) a b = .ok v := by
  subst ha hb
  unfold Device.u16At
  have h : slice (ε := InvalidMessage) (pre ++ (le16 v ++ rest)) pre.length (pre.length + 2) = .ok (le16 v ++ []) := by
    rw [slice_ok (by omega) (by simp [le16])]
    simp [le16, List.take_append, List.take_of_length_le, Nat.le_add_right]
  rw [h]
  exact readU16Le_le16 v []

/-- Every instruction of the protocol, with any arguments, is understood. -/
theorem parseInstruction_request (r : Request) : Device.parseInstruction r.number r.parameters = .ok (decoded r) := by
  have h1 : ∀ (v : U16) (rest : List Byte), Device.u16At (le16 v ++ rest) 0 2 = .ok v := fun v rest => u16At_le16 v [] rest rfl rfl
  have h2 : ∀ (u v : U16) (rest : List Byte), Device.u16At (le16 u ++ (le16 v ++ rest)) 2 4 = .ok v :=
    fun u v rest => u16At_le16 v (le16 u) rest rfl rfl
  have h3 : ∀ (v : U16) (rest : List Byte), sliceFrom (ε := InvalidMessage) (le16 v ++ rest) 2 = .ok rest := by
    intro v rest
    rw [sliceFrom_ok (by simp [le16])]
    simp [le16]
  have h4 : ∀ (u v : U16) (rest : List Byte), sliceFrom (ε := InvalidMessage) (le16 u ++ (le16 v ++ rest)) 4 = .ok rest := by
    intro u v rest
    rw [sliceFrom_ok (by simp [le16])]
    simp [le16]
  have h0 : ∀ u v : U16, Device.u16At (le16 u ++ le16 v) 2 4 = .ok v := fun u v => by
    simpa using h2 u v []
  have h5 : ∀ n : Nat, 4 ≤ 2 + (2 + n) := fun n => by omega
  cases r with
  | factoryReset kind => cases kind <;> rfl
  | _ =>
    simp [Request.number, Request.parameters, Device.parseInstruction, InstructionId.ping, InstructionId.read,
      InstructionId.write, InstructionId.regWrite, InstructionId.action, InstructionId.factoryReset, InstructionId.reboot,
      InstructionId.clear, InstructionId.syncRead, InstructionId.syncWrite, InstructionId.bulkRead, InstructionId.bulkWrite,
      checkCount, checkCountMin, h0, h1, h2, h3, h4, h5, le16_length, decoded, pure, bind, Outcome.bind, idx]

theorem toInstruction_carries {pkt : Packet} {id instr : Byte} {params : List Byte} (h : Carries pkt id instr params) :
    Device.toInstruction ⟨pkt⟩ = (do
      let i ← Device.parseInstruction instr params
      pure { id, instruction := i }) := by
  obtain ⟨h1, h2, h3, -⟩ := carries_accessors h InvalidMessage
  have h1' : (InstructionPacket.mk pkt).packetId (ε := InvalidMessage) = .ok id := h1
  have h2' : (InstructionPacket.mk pkt).instructionId (ε := InvalidMessage) = .ok instr := h2
  unfold Device.toInstruction
  rw [h1', h2', h3]
  rfl

/-- What `Device::read` returns for the first instruction packet in the stream. -/
theorem deviceRead_first {timeout : Nat} {b : Bus} (hb : b.RInv) {statuses : List Item}
    (hst : Statuses b.readBuffer.length statuses) {i : Item} (hi : i.Ok b.readBuffer.length) (hn : i.instr ≠ 0x55#8)
    {rest : List Byte} (hs : stream (b.serialPort.now + timeout) b = itemBytes (statuses ++ [i]) ++ rest) :
    ∃ c, Device.read timeout b = (c, (Device.parseInstruction i.instr i.params).mapErr .invalidMessage >>= fun x =>
        .ok { id := i.id, instruction := x }) ∧
      stream (b.serialPort.now + timeout) c = rest ∧ c.RInv := by
  obtain ⟨c, pkt, h1, h2, h3, h4⟩ := c26_first_instruction hb hst hi hn hs
  refine ⟨c, ?_, h3, h4⟩
  unfold Device.read
  rw [SO.bind_ok h1, SO.lift_apply, toInstruction_carries h2]
  cases Device.parseInstruction i.instr i.params <;> rfl

/-- `f` was written to the port between the states `b` and `c`, completely. -/
def Wrote (b c : Bus) (f : List Byte) : Prop :=
  ∃ calls, c.serialPort.log = b.serialPort.log ++ calls ∧ Call.write f true ∈ calls

/-- Whatever `m` sends, successfully or not: a device that receives the packet, after any number of status packets and any
garbage, decodes it as this instruction, addressed to this ID. What follows the packet is left in the stream. -/
def Understood {ε α : Type} (m : SO Bus ε α) (id : Byte) (i : Instructions) : Prop :=
  ∀ (b c d : Bus) (o : Outcome ε α) (timeout : Nat) (statuses : List Item) (g f rest : List Byte), b.WInv → b.baudRate < 2 ^ 32 →
    m b = (c, o) → Wrote b c f → d.RInv → Statuses d.readBuffer.length statuses → ¬ header <:+: g →
    f.length ≤ 65542 → f.length ≤ d.readBuffer.length →
    stream (d.serialPort.now + timeout) d = itemBytes statuses ++ g ++ f ++ rest →
    ∃ d', Device.read timeout d = (d', .ok ⟨id, i⟩) ∧ stream (d.serialPort.now + timeout) d' = rest ∧ d'.RInv

/-- The methods of `Client` that send an instruction, and the instruction that each is for (without those of `OddAsks`). -/
inductive Asks : {ε α : Type} → SO Bus ε α → Byte → Request → Prop
  | ping (id) : Asks (Client.ping id) id .ping
  | scan : Asks Client.scan 0xFE#8 .ping
  | readBytes (id address count) : Asks (Client.readBytes id address count) id (.read address count)
  | read {α : Type} (d : DataTy α) (id address) : Asks (Client.read d id address) id (.read address d.size)
  | writeBytes (id address data) : Asks (Client.writeBytes id address data) id (.write address data)
  | write {α : Type} {d : DataTy α} {valid : α → Prop} {f : α → List Byte} (hd : ImplData d valid f) (id address) (v : α)
      (hv : valid v) : Asks (Client.write d id address v) id (.write address (f v))
  | regWriteBytes (id address data) : Asks (Client.regWriteBytes id address data) id (.regWrite address data)
  | action (id) : Asks (Client.action id) id .action
  | broadcastAction : Asks Client.broadcastAction 0xFE#8 .action
  | reboot (id) : Asks (Client.reboot id) id .reboot
  | broadcastReboot : Asks Client.broadcastReboot 0xFE#8 .reboot
  | factoryReset (id kind) : Asks (Client.factoryReset id kind) id (.factoryReset (resetKind kind))
  | broadcastFactoryReset (kind) : Asks (Client.broadcastFactoryReset kind) 0xFE#8 (.factoryReset (resetKind kind))
  | clearRevolutionCounter (id) : Asks (Client.clearRevolutionCounter id) id .clearRevolutionCount
  | broadcastClearRevolutionCounter : Asks Client.broadcastClearRevolutionCounter 0xFE#8 .clearRevolutionCount
  | syncReadBytes (ids address count) : Asks (Client.syncReadBytes ids address count) 0xFE#8 (.syncRead address count ids)
  | syncRead {α : Type} (d : DataTy α) (ids address) : Asks (Client.syncRead d ids address) 0xFE#8 (.syncRead address d.size ids)
  | syncWriteBytes (address count) (data : List (SyncWriteData (List Byte))) :
      Asks (Client.syncWriteBytes address count data) 0xFE#8
        (.syncWrite address count (data.map fun c => (c.motorId, c.data)))
  | bulkReadBytes (reads) : Asks (Client.bulkReadBytes reads) 0xFE#8 (.bulkRead (reads.map bulkReadSpec))
  | bulkWrite (writes) : Asks (Client.bulkWrite writes) 0xFE#8 (.bulkWrite (writes.map bulkWriteSpec))

/-- The methods that do not send what they should (C34, C35, C46). -/
inductive OddAsks : {ε α : Type} → SO Bus ε α → Byte → Request → Prop
  | clearError (id) : OddAsks (Client.clearError id) id .clearError
  | broadcastClearError : OddAsks Client.broadcastClearError 0xFE#8 .clearError
  | regWrite {α : Type} {d : DataTy α} {valid : α → Prop} {f : α → List Byte} (hd : ImplData d valid f) (id address) (v : α)
      (hv : valid v) : OddAsks (Client.regWrite d id address v) id (.regWrite address (f v))
  | syncWrite {α : Type} {d : DataTy α} {valid : α → Prop} {f : α → List Byte} (hd : ImplData d valid f) (address)
      (data : List (SyncWriteData α)) (hv : ∀ c ∈ data, valid c.data) :
      OddAsks (Client.syncWrite d address data) 0xFE#8 (.syncWrite address d.size (data.map fun c => (c.motorId, f c.data)))

/-- C24 in full. -/
def C24_statement : Prop :=
  ∀ {ε α : Type} (m : SO Bus ε α) (id : Byte) (r : Request), Asks m id r ∨ OddAsks m id r → Understood m id (decoded r)

/-- `m` completely writes no packets but the one for this body. -/
def OnlySends {ε α : Type} (m : SO Bus ε α) (id : Byte) (body : List Byte) : Prop :=
  ∀ (b c : Bus) (o : Outcome ε α) (f : List Byte), b.WInv → b.baudRate < 2 ^ 32 → m b = (c, o) → Wrote b c f →
    ∃ wire, StuffedForm body wire ∧ f = frame id wire

theorem Sends.only {ε α : Type} {m : SO Bus ε α} {id : Byte} {body : List Byte} (h : Sends m id body) : OnlySends m id body := by
  rintro b c o f hb hbaud hm ⟨calls, h1, h2⟩
  rcases (h b hb hbaud).2.2 c o hm with ⟨wire, calls', h3, h4, h5⟩ | ⟨calls', h4, h5⟩
  · rw [h1, List.append_assoc] at h4
    have h4 := List.append_cancel_left h4
    rw [h4] at h2
    refine ⟨wire, h3, ?_⟩
    simp at h2
    rcases h2 with h2 | h2
    · exact h2
    · obtain ⟨_, _, h⟩ := h5 _ h2
      cases h
  · rw [h1] at h4
    rw [List.append_cancel_left h4] at h2
    exact absurd rfl (h5 _ h2 f).1

theorem OnlySends.of_silent {ε α : Type} {m : SO Bus ε α} {id : Byte} {body : List Byte}
    (h : ∀ b : Bus, b.WInv → (m b).1.serialPort = b.serialPort) : OnlySends m id body := by
  rintro b c o f hb hbaud hm ⟨calls, h1, h2⟩
  have := h b hb
  rw [hm] at this
  dsimp only at this
  rw [this] at h1
  have : calls = [] := by simpa using h1
  simp [this] at h2

theorem asks_only {ε α : Type} {m : SO Bus ε α} {id : Byte} {r : Request} (h : Asks m id r) : OnlySends m id r.body := by
  cases h with
  | ping => exact (c46_ping_partial _).only
  | scan => exact c46_scan_partial.only
  | readBytes => exact (c46_read_bytes_partial _ _ _).only
  | read => exact (c46_read_partial _ _ _).only
  | writeBytes => exact (c46_write_bytes_partial _ _ _).only
  | write hd _ _ _ hv => exact (c46_write_partial hd _ _ hv).only
  | regWriteBytes => exact (c46_reg_write_bytes_partial _ _ _).only
  | action => exact (c46_action_partial _).1.only
  | broadcastAction => exact (c46_action_partial 0#8).2.only
  | reboot => exact (c46_reboot_partial _).1.only
  | broadcastReboot => exact (c46_reboot_partial 0#8).2.only
  | factoryReset => exact (c46_factory_reset_partial _ _).1.only
  | broadcastFactoryReset => exact (c46_factory_reset_partial 0#8 _).2.only
  | clearRevolutionCounter => exact (c46_clear_revolution_counter_partial _).1.only
  | broadcastClearRevolutionCounter => exact (c46_clear_revolution_counter_partial 0#8).2.only
  | syncReadBytes => exact (c46_sync_read_partial _ _ _).1.only
  | syncRead d ids address => exact ((c46_sync_read_partial ids address 0#16).2 d).only
  | syncWriteBytes address count data =>
    by_cases h : ∀ c ∈ data, c.data.length = count.toNat
    · exact (c36_sync_write_bytes address count data h).only
    · have h : ∃ c ∈ data, c.data.length ≠ count.toNat := by simpa using h
      refine OnlySends.of_silent fun b hb => ?_
      have := c36_panics address count data h hb
      by_cases hn : 14 + data.length * (1 + count.toNat) ≤ b.writeBuffer.length
      · obtain ⟨w, hw⟩ := this.1 hn
        rw [hw]
      · rw [this.2 (by omega)]
  | bulkReadBytes reads =>
    by_cases h : ∃ i j : Nat, ∃ r s : BulkReadData, i < j ∧ reads[i]? = some r ∧ reads[j]? = some s ∧ r.motorId = s.motorId
    · exact OnlySends.of_silent fun b _ => by rw [c38_duplicates_panic reads h b]
    · exact (c38_layout reads h).only
  | bulkWrite writes =>
    by_cases h : ∃ w ∈ writes, 65535 < w.data.length
    · exact OnlySends.of_silent fun b _ => by rw [c37_long_data_panics_partial writes h b]
    · exact (c37_layout_partial writes (by simpa using h)).only

/-- What a device makes of a body that was sent. -/
theorem understood_of_only {ε α : Type} {m : SO Bus ε α} {id instr : Byte} {params : List Byte} {i : Instructions}
    (h : OnlySends m id (instr :: params)) (hi : instr ≠ 0x55#8) (hp : Device.parseInstruction instr params = .ok i)
    (hbody : Survives (instr :: params)) : Understood m id i := by
  intro b c d o timeout statuses g f rest hb hbaud hm hf hd hst hg hlen hfit hs
  obtain ⟨wire, hw, rfl⟩ := h b c o f hb hbaud hm hf
  rw [Bus.frame_length] at hlen
  have := deviceRead_first (i := ⟨g, id, wire, instr, params⟩) hd hst ⟨hg, show wire.length + 2 < 2 ^ 16 by omega, hfit, survives_unstuffs hw hbody⟩ hi
    (rest := rest) (by rw [hs]; simp [itemBytes])
  dsimp only at this
  rw [hp] at this
  exact this

theorem request_number_ne (r : Request) : r.number ≠ 0x55#8 := by
  cases r <;> simp [Request.number]

/-- **C24** (partial: the English claim has no hypothesis on the body, and is about the methods of `OddAsks`, too) The
instruction sent by a method of `Client` is decoded as the corresponding instruction, with the same arguments. -/
theorem c24_understood_partial {ε α : Type} {m : SO Bus ε α} {id : Byte} {r : Request} (h : Asks m id r)
    (hbody : Survives r.body) : Understood m id (decoded r) :=
  understood_of_only (asks_only h) (request_number_ne r) (parseInstruction_request r) hbody

/-- **C24** The same for `reg_write` of types of one byte; for larger types nothing is ever sent. (C34 says what is sent for
types of no bytes.) -/
theorem c24_reg_write_partial {α : Type} {d : DataTy α} {valid : α → Prop} {f : α → List Byte} (hd : ImplData d valid f)
    (h0 : d.size ≠ 0#16) (id : Byte) (address : U16) {v : α} (hv : valid v)
    (hbody : Survives (Request.regWrite address (f v)).body) :
    Understood (Client.regWrite d id address v) id (.regWrite address (f v)) := by
  refine understood_of_only ?_ (request_number_ne (.regWrite address (f v))) (parseInstruction_request (.regWrite address (f v))) hbody
  by_cases h1 : d.size = 1#16
  · exact (c34_reg_write_one_byte_partial hd h1 id address hv).only
  · refine OnlySends.of_silent fun b hb => ?_
    have h2 : 2 ≤ d.size.toNat := by
      have a : d.size.toNat ≠ 0 := fun h => h0 (BitVec.eq_of_toNat_eq (by simpa using h))
      have b : d.size.toNat ≠ 1 := fun h => h1 (BitVec.eq_of_toNat_eq (by simpa using h))
      omega
    by_cases hn : 13 ≤ b.writeBuffer.length
    · obtain ⟨w, hw⟩ := c34_reg_write_larger_fails_partial hd h2 id address hv hb hn
      rw [hw]
    · have := Bus.writePacket_too_small id InstructionId.regWrite 3 (Client.writeEncoder d address v) b (by omega)
      unfold Client.regWrite Client.instruct
      rw [SO.bind_err (e := .writeError (.bufferTooSmall ⟨13, b.writeBuffer.length⟩)) (s' := b)]
      rw [SO.mapErr_apply]
      unfold Client.writeInstruction Bus.writeInstruction
      rw [this]
      rfl

/-- **C24** The same for `sync_write`. (C35 says what is sent without motors or with types of no bytes.) -/
theorem c24_sync_write_partial {α : Type} {d : DataTy α} {valid : α → Prop} {f : α → List Byte} (hd : ImplData d valid f)
    (address : U16) (data : List (SyncWriteData α)) (hv : ∀ c ∈ data, valid c.data)
    (h0 : d.size = 1#16 ∨ d.size ≠ 0#16 ∧ data ≠ [])
    (hbody : Survives (Request.syncWrite address d.size (data.map fun c => (c.motorId, f c.data))).body) :
    Understood (Client.syncWrite d address data) 0xFE#8
      (.syncWrite address d.size (data.flatMap fun c => c.motorId :: f c.data)) := by
  have hr := parseInstruction_request (.syncWrite address d.size (data.map fun c => (c.motorId, f c.data)))
  have he : decoded (.syncWrite address d.size (data.map fun c => (c.motorId, f c.data))) =
      .syncWrite address d.size (data.flatMap fun c => c.motorId :: f c.data) := by
    simp [decoded, List.flatMap_map]
  rw [he] at hr
  refine understood_of_only ?_ (request_number_ne _) hr hbody
  by_cases h1 : d.size = 1#16
  · exact (c35_sync_write_one_byte_partial hd h1 address data hv).only
  · obtain ⟨h0, hne⟩ := h0.resolve_left h1
    refine OnlySends.of_silent fun b hb => ?_
    have h2 : 2 ≤ d.size.toNat := by
      have a : d.size.toNat ≠ 0 := fun h => h0 (BitVec.eq_of_toNat_eq (by simpa using h))
      have b : d.size.toNat ≠ 1 := fun h => h1 (BitVec.eq_of_toNat_eq (by simpa using h))
      omega
    obtain ⟨c, data, rfl⟩ := List.exists_cons_of_ne_nil hne
    by_cases hn : 14 + 2 * (data.length + 1) ≤ b.writeBuffer.length
    · obtain ⟨w, hw⟩ := c35_sync_write_larger_fails_partial hd h2 address c data (hv c (by simp)) hb hn
      rw [hw]
    · unfold Client.syncWrite Client.writeInstruction Bus.writeInstruction
      rw [Bus.writePacket_too_small _ _ _ _ _ (by simp only [List.length_cons]; omega)]

/-- **C24** What `clear_error` sends is decoded as an instruction to clear the revolution counter. -/
theorem c24_clear_error_partial (id : Byte) : Understood (Client.clearError id) id (.clear .multiTurns) ∧
    Understood Client.broadcastClearError 0xFE#8 (.clear .multiTurns) := by
  have hs : Survives [0x10#8, 0x01#8, 0x45#8, 0x52#8, 0x43#8, 0x4C#8] := c23_survives_partial (by decide)
  exact ⟨understood_of_only (c46_clear_error_partial id).1.only (by decide) rfl hs,
    understood_of_only (c46_clear_error_partial id).2.only (by decide) rfl hs⟩

/-- The frame that is sent by `clear_error`. -/
def clearErrorFrame : List Byte := frame 1#8 [0x10#8, 0x01#8, 0x45#8, 0x52#8, 0x43#8, 0x4C#8]

/-- **C24** is false as stated: `clear_error` is understood as something else. -/
theorem c24_refuted : ¬ C24_statement := by
  intro h
  obtain ⟨d', h1, -⟩ := h (Client.clearError 1#8) 1#8 .clearError (.inr (.clearError 1#8)) (quietBus true 40)
    (Client.clearError 1#8 (quietBus true 40)).1 (busWith clearErrorFrame) (Client.clearError 1#8 (quietBus true 40)).2 5 [] []
    clearErrorFrame [] (quietBus_wInv true 40 (by decide)) (by decide) rfl
    ⟨(Client.clearError 1#8 (quietBus true 40)).1.serialPort.log, by simp [quietBus, quietPort], by decide +kernel⟩
    (busWith_rInv _) (by simp [Statuses]) (by decide) (by decide +kernel) (by decide +kernel) (by decide +kernel)
  have : (Device.read 5 (busWith clearErrorFrame)).2 = .ok ⟨1#8, .clear .errors⟩ := congrArg (·.2) h1
  revert this
  decide +kernel

/-- **C24** is also false without the odd methods, because of the stuffing (C23): here `write_bytes`. -/
theorem c24_refuted_stuffing : ¬ ∀ (id : Byte) (address : U16) (data : List Byte),
    Understood (Client.writeBytes id address data) id (.write address data) := by
  intro h
  obtain ⟨d', h1, -⟩ := h 1#8 0xFFFF#16 (trickyParams.drop 2) (quietBus true 40)
    (Client.writeBytes 1#8 0xFFFF#16 (trickyParams.drop 2) (quietBus true 40)).1 (busWith trickyFrame)
    (Client.writeBytes 1#8 0xFFFF#16 (trickyParams.drop 2) (quietBus true 40)).2 5 [] []
    trickyFrame [] (quietBus_wInv true 40 (by decide)) (by decide) rfl
    ⟨(Client.writeBytes 1#8 0xFFFF#16 (trickyParams.drop 2) (quietBus true 40)).1.serialPort.log,
      by simp [quietBus, quietPort], by decide +kernel⟩
    (busWith_rInv _) (by simp [Statuses]) (by decide) (by decide +kernel) (by decide +kernel) (by decide +kernel)
  have : (Device.read 5 (busWith trickyFrame)).2 = .ok ⟨1#8, .write 0xFFFF#16 (trickyParams.drop 2)⟩ := congrArg (·.2) h1
  revert this
  decide +kernel

/-! ## C25: `read_owned` -/

/-- C25 in full. -/
def C25_statement : Prop := ∀ (timeout : Nat) (b : Bus), Device.readOwned timeout b = Device.read timeout b

/-- **C25** (partial: the English claim is without the exception) `read_owned` does and returns the same as `read`, for
every input and every outcome, except that a bulk write becomes a bulk read. -/
theorem c25_read_owned_partial (timeout : Nat) (b : Bus) :
    (Device.readOwned timeout b).1 = (Device.read timeout b).1 ∧
    ((∀ id params, (Device.read timeout b).2 ≠ .ok ⟨id, .bulkWrite params⟩) →
      (Device.readOwned timeout b).2 = (Device.read timeout b).2) ∧
    ∀ id params, (Device.read timeout b).2 = .ok ⟨id, .bulkWrite params⟩ →
      (Device.readOwned timeout b).2 = .ok ⟨id, .bulkRead params⟩ := by
  unfold Device.readOwned Device.read
  simp only [SO.bind_def]
  rcases Device.readRawInstructionTimeout timeout b with ⟨c, o⟩
  cases o with
  | ok p =>
    simp only [SO.lift_apply, Device.toOwnedInstruction]
    cases Device.toInstruction p with
    | ok i =>
      obtain ⟨id, i⟩ := i
      cases i <;> simp [Device.toOwned, Outcome.mapErr, pure, bind, Outcome.bind]
    | _ => simp [Outcome.mapErr, bind, Outcome.bind]
  | _ => simp

/-- A bulk write of one byte to one motor. -/
def bulkWriteFrame : List Byte := frame 0xFE#8 [0x93#8, 0x01#8, 0x40#8, 0x00#8, 0x01#8, 0x00#8, 0x07#8]

/-- **C25** is false as stated. -/
theorem c25_refuted : ¬ C25_statement := by
  intro h
  have h := congrArg (·.2) (h 5 (busWith bulkWriteFrame))
  revert h
  decide +kernel

/-! ## C47: all packets are decoded or rejected -/

/-- The instructions whose parameters have a fixed or a least length: the number, and the lengths that are accepted. -/
def acceptedLength (instr : Byte) (n : Nat) : Prop :=
  (instr = 0x02#8 → n = 4) ∧ (instr = 0x03#8 ∨ instr = 0x04#8 → 2 ≤ n) ∧ (instr = 0x06#8 → n = 1) ∧
    (instr = 0x10#8 → 1 ≤ n) ∧ (instr = 0x82#8 ∨ instr = 0x83#8 → 4 ≤ n)

/-- The number of an instruction as a device sees it. -/
def numberOf : Instructions → Byte
  | .ping => 0x01#8
  | .read .. => 0x02#8
  | .write .. => 0x03#8
  | .regWrite .. => 0x04#8
  | .action => 0x05#8
  | .factoryReset _ => 0x06#8
  | .reboot => 0x08#8
  | .clear _ => 0x10#8
  | .syncRead .. => 0x82#8
  | .syncWrite .. => 0x83#8
  | .bulkRead _ => 0x92#8
  | .bulkWrite _ => 0x93#8
  | .unknown i _ => i

/-- The parameters that an instruction as a device sees it was made of: all of them, or those that were looked at. -/
def parametersOf : Instructions → List Byte
  | .ping | .action | .reboot => []
  | .read a n => le16 a ++ le16 n
  | .write a data => le16 a ++ data
  | .regWrite a data => le16 a ++ data
  | .factoryReset .all => [0xFF#8]
  | .factoryReset .exceptId => [0x01#8]
  | .factoryReset .exceptIdBaudRate => [0x02#8]
  | .factoryReset (.unknown p) => [p]
  | .clear .multiTurns => [0x01#8]
  | .clear .errors => [0x02#8]
  | .clear (.reserved p) => [p]
  | .syncRead a n ids => le16 a ++ le16 n ++ ids
  | .syncWrite a n data => le16 a ++ le16 n ++ data
  | .bulkRead data => data
  | .bulkWrite data => data
  | .unknown _ data => data

/-- The variants for unknown things are used for nothing else. -/
def Canonical : Instructions → Prop
  | .unknown i _ => ∀ r : Request, r.number ≠ i
  | .factoryReset (.unknown p) => ∀ kind, (Request.factoryReset kind).parameters ≠ [p]
  | .clear (.reserved p) => p ≠ 0x01#8 ∧ p ≠ 0x02#8
  | _ => True

theorem u16At_cons (a b : Byte) (rest : List Byte) : Device.u16At (a :: b :: rest) 0 2 = .ok (mk16 a b) := by
  unfold Device.u16At
  rw [slice_ok (by omega) (by simp)]
  exact readU16Le_cons a b []

theorem u16At_cons₂ (x y a b : Byte) (rest : List Byte) : Device.u16At (x :: y :: a :: b :: rest) 2 4 = .ok (mk16 a b) := by
  unfold Device.u16At
  rw [slice_ok (by omega) (by simp)]
  exact readU16Le_cons a b []

theorem sliceFrom_two {ε : Type} (a b : Byte) (rest : List Byte) : sliceFrom (ε := ε) (a :: b :: rest) 2 = .ok rest := by
  rw [sliceFrom_ok (by simp)]
  rfl

theorem sliceFrom_four {ε : Type} (a b c d : Byte) (rest : List Byte) :
    sliceFrom (ε := ε) (a :: b :: c :: d :: rest) 4 = .ok rest := by
  rw [sliceFrom_ok (by simp)]
  rfl

/-- **C47** Every body of an instruction packet is decoded or rejected. -/
theorem c47_decode_total (instr : Byte) (params : List Byte) :
    (acceptedLength instr params.length → ∃ i, Device.parseInstruction instr params = .ok i ∧ Canonical i ∧
      numberOf i = instr ∧ parametersOf i <+: params ∧
      (instr ≠ 0x01#8 → instr ≠ 0x05#8 → instr ≠ 0x08#8 → instr ≠ 0x10#8 → parametersOf i = params)) ∧
    (¬ acceptedLength instr params.length → ∃ e, Device.parseInstruction instr params = .err (.parameterCount params.length e)) := by
  have key : ∀ i, Device.parseInstruction instr params = .ok i → Canonical i → numberOf i = instr → parametersOf i = params →
      ∃ i, Device.parseInstruction instr params = .ok i ∧ Canonical i ∧
        numberOf i = instr ∧ parametersOf i <+: params ∧
        (instr ≠ 0x01#8 → instr ≠ 0x05#8 → instr ≠ 0x08#8 → instr ≠ 0x10#8 → parametersOf i = params) :=
    fun i a b c d => ⟨i, a, b, c, d ▸ List.prefix_rfl, fun _ _ _ _ => d⟩
  by_cases h1 : instr = 0x01#8
  · subst h1
    exact ⟨fun _ => ⟨.ping, rfl, trivial, rfl, List.nil_prefix, by simp⟩, fun h => absurd (by simp [acceptedLength]) h⟩
  by_cases h2 : instr = 0x02#8
  · subst h2
    match params with
    | [a, b, c, d] =>
      refine ⟨fun _ => key (.read (mk16 a b) (mk16 c d)) ?_ trivial rfl ?_, fun h => absurd (by simp [acceptedLength]) h⟩
      · simp [Device.parseInstruction, InstructionId.ping, InstructionId.read, checkCount, u16At_cons, u16At_cons₂, bind, pure,
          Outcome.bind]
      · simp [parametersOf, le16_mk16]
    | [] | [_] | [_, _] | [_, _, _] => exact ⟨fun h => absurd (h.1 rfl) (by simp), fun _ => ⟨_, rfl⟩⟩
    | _ :: _ :: _ :: _ :: _ :: l =>
      refine ⟨fun h => absurd (h.1 rfl) (by simp), fun _ => ⟨.exact 4, ?_⟩⟩
      simp [Device.parseInstruction, InstructionId.ping, InstructionId.read, checkCount, bind, Outcome.bind]
  by_cases h3 : instr = 0x03#8
  · subst h3
    match params with
    | a :: b :: l =>
      refine ⟨fun _ => key (.write (mk16 a b) l) ?_ trivial rfl ?_, fun h => absurd (by simp [acceptedLength]) h⟩
      · simp [Device.parseInstruction, InstructionId.ping, InstructionId.read, InstructionId.write, checkCountMin, u16At_cons,
          sliceFrom_two, bind, pure, Outcome.bind]
      · simp [parametersOf, le16_mk16]
    | [] | [_] => exact ⟨fun h => absurd (h.2.1 (.inl rfl)) (by simp), fun _ => ⟨_, rfl⟩⟩
  by_cases h4 : instr = 0x04#8
  · subst h4
    match params with
    | a :: b :: l =>
      refine ⟨fun _ => key (.regWrite (mk16 a b) l) ?_ trivial rfl ?_, fun h => absurd (by simp [acceptedLength]) h⟩
      · simp [Device.parseInstruction, InstructionId.ping, InstructionId.read, InstructionId.write, InstructionId.regWrite,
          checkCountMin, u16At_cons, sliceFrom_two, bind, pure, Outcome.bind]
      · simp [parametersOf, le16_mk16]
    | [] | [_] => exact ⟨fun h => absurd (h.2.1 (.inr rfl)) (by simp), fun _ => ⟨_, rfl⟩⟩
  by_cases h5 : instr = 0x05#8
  · subst h5
    exact ⟨fun _ => ⟨.action, rfl, trivial, rfl, List.nil_prefix, by simp⟩, fun h => absurd (by simp [acceptedLength]) h⟩
  by_cases h6 : instr = 0x06#8
  · subst h6
    match params with
    | [p] =>
      refine ⟨fun _ => ?_, fun h => absurd (by simp [acceptedLength]) h⟩
      by_cases ha : p = 0xFF#8
      · exact key (.factoryReset .all) (by subst ha; rfl) trivial rfl (by simp [parametersOf, ha])
      by_cases hb : p = 0x01#8
      · exact key (.factoryReset .exceptId) (by subst hb; rfl) trivial rfl (by simp [parametersOf, hb])
      by_cases hc : p = 0x02#8
      · exact key (.factoryReset .exceptIdBaudRate) (by subst hc; rfl) trivial rfl (by simp [parametersOf, hc])
      refine key (.factoryReset (.unknown p)) ?_ ?_ rfl rfl
      · show Outcome.ok (Instructions.factoryReset (if p = 0xFF#8 then _ else _)) = _
        rw [if_neg ha, if_neg hb, if_neg hc]
      · intro kind
        cases kind <;> simp [Request.parameters, Ne.symm ha, Ne.symm hb, Ne.symm hc]
    | [] => exact ⟨fun h => absurd (h.2.2.1 rfl) (by simp), fun _ => ⟨_, rfl⟩⟩
    | _ :: _ :: l =>
      refine ⟨fun h => absurd (h.2.2.1 rfl) (by simp), fun _ => ⟨.exact 1, ?_⟩⟩
      simp [Device.parseInstruction, InstructionId.ping, InstructionId.read, InstructionId.write, InstructionId.regWrite,
        InstructionId.action, InstructionId.factoryReset, checkCount, bind, Outcome.bind]
  by_cases h8 : instr = 0x08#8
  · subst h8
    exact ⟨fun _ => ⟨.reboot, rfl, trivial, rfl, List.nil_prefix, by simp⟩, fun h => absurd (by simp [acceptedLength]) h⟩
  by_cases h10 : instr = 0x10#8
  · subst h10
    match params with
    | p :: l =>
      refine ⟨fun _ => ?_, fun h => absurd (by simp [acceptedLength]) h⟩
      have hp : Device.parseInstruction 0x10#8 (p :: l) =
          .ok (.clear (if p = 0x01#8 then .multiTurns else if p = 0x02#8 then .errors else .reserved p)) := by
        simp [Device.parseInstruction, InstructionId.ping, InstructionId.read, InstructionId.write, InstructionId.regWrite,
          InstructionId.action, InstructionId.factoryReset, InstructionId.reboot, InstructionId.clear, checkCountMin, idx,
          bind, pure, Outcome.bind]
      refine ⟨_, hp, ?_, rfl, ?_, by simp⟩
      · by_cases ha : p = 0x01#8
        · simp [ha, Canonical]
        by_cases hb : p = 0x02#8
        · simp [hb, Canonical]
        simp [ha, hb, Canonical]
      · by_cases ha : p = 0x01#8
        · simp [ha, parametersOf]
        by_cases hb : p = 0x02#8
        · simp [hb, parametersOf]
        simp [ha, hb, parametersOf]
    | [] => exact ⟨fun h => absurd (h.2.2.2.1 rfl) (by simp), fun _ => ⟨_, rfl⟩⟩
  by_cases h82 : instr = 0x82#8
  · subst h82
    match params with
    | a :: b :: c :: d :: l =>
      refine ⟨fun _ => key (.syncRead (mk16 a b) (mk16 c d) l) ?_ trivial rfl ?_, fun h => absurd (by simp [acceptedLength]) h⟩
      · simp [Device.parseInstruction, InstructionId.ping, InstructionId.read, InstructionId.write, InstructionId.regWrite,
          InstructionId.action, InstructionId.factoryReset, InstructionId.reboot, InstructionId.clear, InstructionId.syncRead,
          checkCountMin, u16At_cons, u16At_cons₂, sliceFrom_four, bind, pure, Outcome.bind]
      · simp [parametersOf, le16_mk16]
    | [] | [_] | [_, _] | [_, _, _] => exact ⟨fun h => absurd (h.2.2.2.2 (.inl rfl)) (by simp), fun _ => ⟨_, rfl⟩⟩
  by_cases h83 : instr = 0x83#8
  · subst h83
    match params with
    | a :: b :: c :: d :: l =>
      refine ⟨fun _ => key (.syncWrite (mk16 a b) (mk16 c d) l) ?_ trivial rfl ?_, fun h => absurd (by simp [acceptedLength]) h⟩
      · simp [Device.parseInstruction, InstructionId.ping, InstructionId.read, InstructionId.write, InstructionId.regWrite,
          InstructionId.action, InstructionId.factoryReset, InstructionId.reboot, InstructionId.clear, InstructionId.syncRead,
          InstructionId.syncWrite, checkCountMin, u16At_cons, u16At_cons₂, sliceFrom_four, bind, pure, Outcome.bind]
      · simp [parametersOf, le16_mk16]
    | [] | [_] | [_, _] | [_, _, _] => exact ⟨fun h => absurd (h.2.2.2.2 (.inr rfl)) (by simp), fun _ => ⟨_, rfl⟩⟩
  by_cases h92 : instr = 0x92#8
  · subst h92
    exact ⟨fun _ => key (.bulkRead params) rfl trivial rfl rfl, fun h => absurd (by simp [acceptedLength]) h⟩
  by_cases h93 : instr = 0x93#8
  · subst h93
    exact ⟨fun _ => key (.bulkWrite params) rfl trivial rfl rfl, fun h => absurd (by simp [acceptedLength]) h⟩
  refine ⟨fun _ => key (.unknown instr params) ?_ ?_ rfl rfl, fun h => absurd ?_ h⟩
  · simp [Device.parseInstruction, InstructionId.ping, InstructionId.read, InstructionId.write, InstructionId.regWrite,
      InstructionId.action, InstructionId.factoryReset, InstructionId.reboot, InstructionId.clear, InstructionId.syncRead,
      InstructionId.syncWrite, InstructionId.bulkRead, InstructionId.bulkWrite, h1, h2, h3, h4, h5, h6, h8, h10, h82, h83, h92, h93]
  · intro r hr
    subst hr
    cases r <;> simp [Request.number] at *
  · simp [acceptedLength, h2, h3, h4, h6, h10, h82, h83]

/-- **C47** So `Device::read`, when the next instruction packet in the stream has this body, returns what its body says or
an error about the number of parameters. In both cases the packet is taken from the stream and nothing behind it. -/
theorem c47_read_total {timeout : Nat} {b : Bus} (hb : b.RInv) {statuses : List Item}
    (hst : Statuses b.readBuffer.length statuses) {p : Item} (hp : p.Ok b.readBuffer.length) (hn : p.instr ≠ 0x55#8)
    {rest : List Byte} (hs : stream (b.serialPort.now + timeout) b = itemBytes (statuses ++ [p]) ++ rest) :
    ∃ c, stream (b.serialPort.now + timeout) c = rest ∧ c.RInv ∧
      (acceptedLength p.instr p.params.length → ∃ i, Device.read timeout b = (c, .ok ⟨p.id, i⟩) ∧ Canonical i ∧
        numberOf i = p.instr ∧ parametersOf i <+: p.params) ∧
      (¬ acceptedLength p.instr p.params.length → ∃ e,
        Device.read timeout b = (c, .err (.invalidMessage (.parameterCount p.params.length e)))) := by
  obtain ⟨c, h1, h2, h3⟩ := deviceRead_first hb hst hp hn hs
  have h4 := c47_decode_total p.instr p.params
  refine ⟨c, h2, h3, fun h => ?_, fun h => ?_⟩
  · obtain ⟨i, a, b, c, d, -⟩ := h4.1 h
    exact ⟨i, by rw [h1, a]; rfl, b, c, d⟩
  · obtain ⟨e, he⟩ := h4.2 h
    exact ⟨e, by rw [h1, he]; rfl⟩

/-- **C47** `Device::read` panics only where the reader of packets does (C18): decoding never panics. -/
theorem c47_no_panic {timeout : Nat} {b : Bus} (hb : b.RInv) :
    (Device.read timeout b).2 = .panic ↔ (Device.readRawInstructionTimeout timeout b).2 = .panic := by
  unfold Device.read
  rcases h : Device.readRawInstructionTimeout timeout b with ⟨c, o⟩
  cases o with
  | ok p =>
    obtain ⟨_, i, _, -, -, -, -, hc, -⟩ := c26_returned_is_first hb h
    obtain ⟨p⟩ := p
    rw [SO.bind_ok h, SO.lift_apply, toInstruction_carries hc]
    have h4 := c47_decode_total i.instr i.params
    by_cases ha : acceptedLength i.instr i.params.length
    · obtain ⟨x, hx, -⟩ := h4.1 ha
      rw [hx]
      simp [bind, Outcome.bind, pure, Outcome.mapErr]
    · obtain ⟨x, hx⟩ := h4.2 ha
      rw [hx]
      simp [bind, Outcome.bind, Outcome.mapErr]
  | err e => rw [SO.bind_err h]; simp
  | panic => rw [SO.bind_panic h]; simp
  | hang => rw [SO.bind_hang h]; simp

/-! ## C24, exactly -/

theorem parametersOf_decoded (r : Request) (h : r.number ≠ 0x10#8) : parametersOf (decoded r) = r.parameters := by
  cases r with
  | factoryReset kind => cases kind <;> rfl
  | clearRevolutionCount => exact absurd rfl h
  | clearError => exact absurd rfl h
  | _ => rfl

/-- The requests without parameters that a user chooses, other than an address and a count. -/
def Request.Fixed : Request → Prop
  | .ping | .read .. | .action | .factoryReset _ | .reboot | .clearRevolutionCount | .clearError => True
  | _ => False

theorem number_not_fixed {r : Request} (h : ¬ Request.Fixed r) :
    r.number ≠ 0x01#8 ∧ r.number ≠ 0x05#8 ∧ r.number ≠ 0x08#8 ∧ r.number ≠ 0x10#8 := by
  cases r with
  | write | regWrite | syncRead | syncWrite | bulkRead | bulkWrite => simp [Request.number]
  | _ => exact absurd trivial h

theorem survives_fixed {r : Request} (h : Request.Fixed r) : Survives r.body := by
  have short : ∀ d : List Byte, d.length < 4 → Survives d := fun d hd =>
    c23_survives_partial fun hi => by have := hi.length_le; simp at this; omega
  cases r with
  | ping | action | reboot => exact short _ (by decide)
  | factoryReset kind => cases kind <;> exact short _ (by decide)
  | clearRevolutionCount | clearError => exact c23_survives_partial (by decide)
  | read address count =>
    by_cases hi : [0xFF#8, 0xFF#8, 0xFF#8, 0xFD#8] <:+: (Request.read address count).body
    · have he : le16 address ++ le16 count = [0xFF#8, 0xFF#8, 0xFF#8, 0xFD#8] := by
        have hi : [0xFF#8, 0xFF#8, 0xFF#8, 0xFD#8] <:+: 0x02#8 :: (le16 address ++ le16 count) := hi
        rcases List.infix_cons_iff.mp hi with hi | hi
        · obtain ⟨t, ht⟩ := hi
          simp at ht
        · exact (hi.eq_of_length (by simp [le16])).symm
      change Survives (0x02#8 :: (le16 address ++ le16 count))
      rw [he, ← codeUnstuff_codeStuff_iff]
      decide
    · exact c23_survives_partial hi
  | _ => exact h.elim

/-- **C24** Whatever their arguments: ping, scan, reads, actions, reboots, factory resets and clearing the revolution counter
are understood. -/
theorem c24_fixed_understood {ε α : Type} {m : SO Bus ε α} {id : Byte} {r : Request} (h : Asks m id r)
    (hr : Request.Fixed r) : Understood m id (decoded r) :=
  c24_understood_partial h (survives_fixed hr)

/-- **C24** (partial: the English claim says that this is always so) Whenever a device receives what a method of `Client`
has sent, it decodes the corresponding instruction with the same arguments exactly if the body survives stuffing and
unstuffing. In every case it decodes something or reports the wrong number of parameters, and takes just this packet from
the stream. -/
theorem c24_understood_exact_partial {ε α : Type} {m : SO Bus ε α} {id : Byte} {r : Request} (h : Asks m id r)
    {b c d : Bus} {o : Outcome ε α} {timeout : Nat} {statuses : List Item} {g f rest : List Byte} (hb : b.WInv)
    (hbaud : b.baudRate < 2 ^ 32) (hm : m b = (c, o)) (hf : Wrote b c f) (hd : d.RInv)
    (hst : Statuses d.readBuffer.length statuses) (hg : ¬ header <:+: g) (hlen : f.length ≤ 65542)
    (hfit : f.length ≤ d.readBuffer.length)
    (hs : stream (d.serialPort.now + timeout) d = itemBytes statuses ++ g ++ f ++ rest) :
    ∃ d' x, Device.read timeout d = (d', x) ∧ stream (d.serialPort.now + timeout) d' = rest ∧ d'.RInv ∧
      (x = .ok ⟨id, decoded r⟩ ↔ Survives r.body) ∧
      ((∃ i, x = .ok ⟨id, i⟩ ∧ numberOf i = r.number) ∨ ∃ n e, x = .err (.invalidMessage (.parameterCount n e))) := by
  obtain ⟨wire, hw, rfl⟩ := asks_only h b c o f hb hbaud hm hf
  rw [Bus.frame_length] at hlen
  obtain ⟨params, hp⟩ : ∃ params, codeUnstuff wire = r.number :: params := by
    obtain ⟨t, ht⟩ : ∃ t, wire = r.number :: t := by
      rw [stuffedForm_iff.mp hw]
      exact codeStuff_cons _ _
    rw [ht]
    exact codeUnstuff_cons _ _
  have hsurv : params = r.parameters ↔ Survives r.body := by
    rw [← unstuffs_iff_survives hw, unstuffs_iff, hp]
    simp [Request.body]
  have hok : (⟨g, id, wire, r.number, params⟩ : Item).Ok d.readBuffer.length :=
    ⟨hg, show wire.length + 2 < 2 ^ 16 by omega, hfit, (unstuffs_iff _ _).mpr hp⟩
  obtain ⟨d', h1, h2, h3⟩ := deviceRead_first hd hst hok (request_number_ne r) (rest := rest)
    (by rw [hs]; simp [itemBytes])
  dsimp only at h1
  refine ⟨d', _, h1, h2, h3, ?_, ?_⟩
  · constructor
    · intro hx
      by_cases hfix : Request.Fixed r
      · exact survives_fixed hfix
      · rw [← hsurv]
        have hn := number_not_fixed hfix
        by_cases ha : acceptedLength r.number params.length
        · obtain ⟨i, i1, -, -, -, i2⟩ := (c47_decode_total r.number params).1 ha
          rw [i1] at hx
          have hi : i = decoded r := by simpa [Outcome.mapErr, bind, Outcome.bind] using hx
          rw [← i2 hn.1 hn.2.1 hn.2.2.1 hn.2.2.2, hi, parametersOf_decoded r hn.2.2.2]
        · obtain ⟨e, he⟩ := (c47_decode_total r.number params).2 ha
          rw [he] at hx
          simp [Outcome.mapErr, bind, Outcome.bind] at hx
    · intro hx
      rw [hsurv.mpr hx, parseInstruction_request]
      rfl
  · by_cases ha : acceptedLength r.number params.length
    · obtain ⟨i, i1, -, i2, -⟩ := (c47_decode_total r.number params).1 ha
      exact .inl ⟨i, by rw [i1]; rfl, i2⟩
    · obtain ⟨e, he⟩ := (c47_decode_total r.number params).2 ha
      exact .inr ⟨_, e, by rw [he]; rfl⟩

/-! ## Concrete cases of the theorems above -/

/-- C26: two status packets with garbage around, in several pieces, then a ping. -/
example : ((Device.readRawInstructionTimeout 100 (busWithChunks [(0, sampleGarbage), (3, sampleFrame),
      (4, frame 2#8 [0x55#8, 0x00#8] ++ (frame 7#8 [0x01#8]).take 4), (9, (frame 7#8 [0x01#8]).drop 4 ++ [0x33#8])])).2 =
        .ok ⟨samplePacket (frame 7#8 [0x01#8])⟩) := by decide +kernel

/-- C26: the ping comes too late. -/
example : (Device.readRawInstructionTimeout 8 (busWithChunks [(0, sampleFrame), (9, frame 7#8 [0x01#8])])).2 =
    .err (.io .timedOut) := by decide +kernel

/-- C24: `sync_write_bytes` of two bytes for two motors, with bytes to be stuffed, and what a device makes of it. -/
def syncWriteBus : Bus := (Client.syncWriteBytes 0x0074#16 2#16 [⟨1#8, [0xFF#8, 0xFF#8]⟩, ⟨0xFD#8, [0x01#8, 0x02#8]⟩] (quietBus true 40)).1

example : (∃ wire, syncWriteBus.serialPort.log = [.discard true, .write (frame 0xFE#8 wire) true] ∧
    (Device.read 5 { busWith (sampleGarbage ++ frame 0xFE#8 wire) with readBuffer := List.replicate 40 0#8 }).2 =
      .ok ⟨0xFE#8, .syncWrite 0x0074#16 2#16 [1#8, 0xFF#8, 0xFF#8, 0xFD#8, 0x01#8, 0x02#8]⟩) :=
  ⟨[0x83#8, 0x74#8, 0x00#8, 0x02#8, 0x00#8, 0x01#8, 0xFF#8, 0xFF#8, 0xFD#8, 0xFD#8, 0x01#8, 0x02#8], by decide +kernel, by decide +kernel⟩

/-- C24: the methods reach the hypotheses of `Understood`. -/
example : Wrote (quietBus true 40) syncWriteBus
    (frame 0xFE#8 [0x83#8, 0x74#8, 0x00#8, 0x02#8, 0x00#8, 0x01#8, 0xFF#8, 0xFF#8, 0xFD#8, 0xFD#8, 0x01#8, 0x02#8]) :=
  ⟨syncWriteBus.serialPort.log, rfl, by decide +kernel⟩

/-- C25: a sync write is the same for both, a bulk write is not. -/
example : (Device.readOwned 5 (busWith (frame 0xFE#8 [0x83#8, 0x74#8, 0x00#8, 0x02#8, 0x00#8]))).2 =
      .ok ⟨0xFE#8, .syncWrite 0x0074#16 2#16 []⟩ ∧
    (Device.read 5 (busWith bulkWriteFrame)).2 = .ok ⟨0xFE#8, .bulkWrite [0x01#8, 0x40#8, 0x00#8, 0x01#8, 0x00#8, 0x07#8]⟩ ∧
    (Device.readOwned 5 (busWith bulkWriteFrame)).2 = .ok ⟨0xFE#8, .bulkRead [0x01#8, 0x40#8, 0x00#8, 0x01#8, 0x00#8, 0x07#8]⟩ := by
  decide +kernel

/-- C47: a read with five parameters is rejected, a factory reset of a kind that does not exist is not. -/
example : (Device.read 5 (busWith (frame 1#8 [0x02#8, 0x74#8, 0x00#8, 0x02#8, 0x00#8, 0x00#8]))).2 =
      .err (.invalidMessage (.parameterCount 5 (.exact 4))) ∧
    (Device.read 5 (busWith (frame 1#8 [0x06#8, 0x07#8]))).2 = .ok ⟨1#8, .factoryReset (.unknown 0x07#8)⟩ := by
  decide +kernel

/-! ## The theorems on concrete cases -/

/-- A status packet, then a write that is stuffed. -/
def heardStatuses : List Item := [⟨sampleGarbage, 1#8, [0x55#8, 0#8, 0xA6#8, 0#8, 0#8, 0#8], 0x55#8, [0#8, 0xA6#8, 0#8, 0#8, 0#8]⟩]
def heardWrite : Item := ⟨[0xFF#8], 9#8, [0x03#8, 0xFF#8, 0xFF#8, 0xFD#8, 0xFD#8], 0x03#8, [0xFF#8, 0xFF#8, 0xFD#8]⟩
def hearingBus : Bus :=
  busWithChunks [(3, (itemBytes (heardStatuses ++ [heardWrite])).take 15), (9, (itemBytes (heardStatuses ++ [heardWrite])).drop 15 ++ [0x33#8])]

theorem heardStatuses_ok : Statuses hearingBus.readBuffer.length heardStatuses := by
  intro i hi
  obtain rfl := List.mem_singleton.mp hi
  exact ⟨⟨by decide +kernel, by decide, by decide +kernel, sampleBody⟩, rfl⟩

theorem heardWrite_ok : heardWrite.Ok hearingBus.readBuffer.length := ⟨by decide +kernel, by decide, by decide +kernel, stuffedBody⟩

example := c26_first_instruction (timeout := 100) (busWithChunks_rInv _) heardStatuses_ok heardWrite_ok (by decide) (rest := [0x33#8])
  (by decide +kernel)
example := c26_returned_is_first (timeout := 100) (b := hearingBus) (busWithChunks_rInv _)
  (p := ⟨⟨(frame 9#8 [0x03#8, 0xFF#8, 0xFF#8, 0xFD#8, 0xFD#8]).take 11⟩⟩) (pair_eq (by decide +kernel))
example := c26_error_after_statuses (timeout := 5) (b := hearingBus) (busWithChunks_rInv _) (r := .io .timedOut) (pair_eq (by decide +kernel))
example := c26_terminates 5 (b := hearingBus) (busWithChunks_rInv _)
example := c47_read_total (timeout := 100) (busWithChunks_rInv _) heardStatuses_ok heardWrite_ok (by decide) (rest := [0x33#8])
  (by decide +kernel)
example := c47_no_panic (timeout := 100) (b := hearingBus) (busWithChunks_rInv _)
example := (c47_decode_total 0x02#8 [0x74#8, 0#8, 4#8, 0#8]).1 ⟨fun _ => rfl, by decide, by decide, by decide, by decide⟩
example := (c47_decode_total 0x02#8 [0x74#8, 0#8, 4#8]).2 fun h => absurd (h.1 rfl) (by decide)

/-- A write that is sent and heard, between a status packet and other bytes. -/
example := c24_understood_partial (Asks.writeBytes 9#8 116#16 [0xFF#8, 0xFF#8, 0xFD#8]) survives_FFFFFD (quietBus true 40) _ 
  (busWithChunks [(3, itemBytes heardStatuses ++ sampleGarbage ++ (frame 9#8 [0x03#8, 0x74#8, 0#8, 0xFF#8, 0xFF#8, 0xFD#8, 0xFD#8] ++ [1#8]))]) _
  100 heardStatuses sampleGarbage (frame 9#8 [0x03#8, 0x74#8, 0#8, 0xFF#8, 0xFF#8, 0xFD#8, 0xFD#8]) [1#8]
  (quietBus_wInv true 40 (by decide)) (by decide) (Prod.eta _).symm
  ⟨_, (List.nil_append _).symm, by decide +kernel⟩
  (busWithChunks_rInv _) heardStatuses_ok (by decide +kernel) (by decide +kernel) (by decide +kernel) (by decide +kernel)
example := c24_fixed_understood (Asks.ping 7#8) trivial
example := c24_reg_write_partial (implUnsigned (n := 2) (by decide)) (by decide) 1#8 116#16 (v := 0x1234#16) trivial
  (c23_survives_partial (by decide +kernel))
example := c24_sync_write_partial (implUnsigned (n := 2) (by decide)) 116#16 [⟨1#8, 0x1234#16⟩, ⟨2#8, 7#16⟩] (fun _ _ => trivial)
  (.inr ⟨by decide, by decide⟩) (c23_survives_partial (by decide +kernel))
example := (c25_read_owned_partial 5 (busWith bulkWriteFrame)).2.2 0xFE#8 [0x01#8, 0x40#8, 0x00#8, 0x01#8, 0x00#8, 0x07#8] (by decide +kernel)

end Dxl.Props
