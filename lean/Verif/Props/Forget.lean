import Verif.Lemmas.ForgetBus
import Verif.Lemmas.JustReads
import Verif.Model.Getters
import Verif.Model.Construct
import Verif.Props.Standin
import Verif.Props.Iterators

/-! # C87: the past does not matter

Two clients (or devices) on the same port, with the same baud rate and buffers of the same sizes, that hold the same unread
bytes, do the same from then on, whatever happened to them before. A call that sends an instruction first does the same whatever
is unread. The exception are encoders that do not fill their slice: `reg_write` and `sync_write` of a type without bytes. -/

namespace Dxl.Props
open Spec

/-- The calls that send something before anything is read, or do not read at all. Encoders given by the caller must overwrite
their slice, or fail; so must the `encode` function of the data, in a slice of the size that the method gives to it. -/
inductive Instructs : {ε α : Type} → SO Bus ε α → Prop
  | setBaudRate (rate) : Instructs (Client.setBaudRate rate)
  | deviceSetBaudRate (rate) : Instructs (Device.setBaudRate rate)
  | writeInstruction (id instr n enc) (h : Overwrites n enc.run) : Instructs (Client.writeInstruction id instr n enc)
  | transferSingle (id instr n expected enc) (h : Overwrites n enc.run) : Instructs (Client.transferSingle id instr n expected enc)
  | action (id) : Instructs (Client.action id)
  | broadcastAction : Instructs Client.broadcastAction
  | reboot (id) : Instructs (Client.reboot id)
  | broadcastReboot : Instructs Client.broadcastReboot
  | clearRevolutionCounter (id) : Instructs (Client.clearRevolutionCounter id)
  | broadcastClearRevolutionCounter : Instructs Client.broadcastClearRevolutionCounter
  | clearError (id) : Instructs (Client.clearError id)
  | broadcastClearError : Instructs Client.broadcastClearError
  | factoryReset (id kind) : Instructs (Client.factoryReset id kind)
  | broadcastFactoryReset (kind) : Instructs (Client.broadcastFactoryReset kind)
  | readRaw (id address count) : Instructs (Client.readRaw id address count)
  | readBytes (id address count) : Instructs (Client.readBytes id address count)
  | read {α : Type} (d : DataTy α) (id address) : Instructs (Client.read d id address)
  | write {α : Type} (d : DataTy α) (id address) (value : α) (h : Overwrites d.size.toNat (d.encode value)) :
      Instructs (Client.write d id address value)
  | writeBytes (id address data) : Instructs (Client.writeBytes id address data)
  | regWrite {α : Type} (d : DataTy α) (id address) (value : α) (h : Overwrites 1 (d.encode value)) :
      Instructs (Client.regWrite d id address value)
  | regWriteBytes (id address data) : Instructs (Client.regWriteBytes id address data)
  | ping (id) : Instructs (Client.ping id)
  | scan : Instructs Client.scan
  | syncReadBytes (ids address count) : Instructs (Client.syncReadBytes ids address count)
  | syncRead {α : Type} (d : DataTy α) (ids address) : Instructs (Client.syncRead d ids address)
  | bulkReadBytes (reads) : Instructs (Client.bulkReadBytes reads)
  | syncWriteBytes (address count data) : Instructs (Client.syncWriteBytes address count data)
  | syncWrite {α : Type} (d : DataTy α) (address) (data : List (SyncWriteData α))
      (h : ∀ x ∈ data, Overwrites 1 (d.encode x.data)) : Instructs (Client.syncWrite d address data)
  | bulkWrite (writes) : Instructs (Client.bulkWrite writes)
  | deviceWriteStatus (id error n enc) (h : Overwrites n enc.run) : Instructs (Device.writeStatus id error n enc)
  | deviceWriteStatusError (id error) : Instructs (Device.writeStatusError id error)
  | deviceWriteStatusOk (id) : Instructs (Device.writeStatusOk id)

/-- The calls that only read. An iterator is called with its motors and its index, and returns the new index. -/
inductive Listens : {ε α : Type} → SO Bus ε α → Prop
  | readStatusResponseTimeout (timeout) : Listens (Client.readStatusResponseTimeout timeout)
  | readStatusResponse (expected) : Listens (Client.readStatusResponse expected)
  | scanNext : Listens (Client.scanNext (ε := Empty))
  | scanDrop (n) : Listens (Client.scanDrop (ε := Empty) n)
  | syncNextBytes (count ids index) : Listens (overSyncScript count ids index (SyncIter.nextBytes (ε := Empty)))
  | syncNext {α : Type} (d : DataTy α) (ids index) : Listens (overSyncScript d.size ids index (SyncIter.next (ε := Empty) d))
  | syncDropBytes (count ids index n) : Listens (overSyncScript count ids index (SyncIter.dropBytes (ε := Empty) n))
  | syncDrop {α : Type} (d : DataTy α) (ids index n) : Listens (overSyncScript d.size ids index (SyncIter.drop (ε := Empty) d n))
  | bulkNext (reads index) : Listens (overBulkScript reads index (BulkIter.next (ε := Empty)))
  | bulkDrop (reads index) : Listens (overBulkScript reads index (BulkIter.drop (ε := Empty)))
  | deviceReadRaw (timeout) : Listens (Device.readRawInstructionTimeout timeout)
  | deviceRead (timeout) : Listens (Device.read timeout)
  | deviceReadOwned (timeout) : Listens (Device.readOwned timeout)

open Client in
theorem instructs_starts {ε α : Type} {m : SO Bus ε α} (h : Instructs m) : Starts m := by
  cases h with
  | setBaudRate | deviceSetBaudRate => exact starts_setBaudRate _
  | writeInstruction _ _ _ _ h => exact starts_writePacket _ _ h
  | transferSingle _ _ _ _ _ h => exact transferSingle_starts _ _ _ h
  | action | reboot => exact instruct_starts _ _ nothing_overwrites
  | broadcastAction | broadcastReboot | scan => exact starts_writePacket _ _ nothing_overwrites
  | clearRevolutionCounter | clearError => exact instruct_starts _ _ (constEncoder_overwrites _ _)
  | broadcastClearRevolutionCounter | broadcastClearError => exact starts_writePacket _ _ (constEncoder_overwrites _ _)
  | factoryReset => exact instruct_starts _ _ (factoryReset_overwrites _)
  | broadcastFactoryReset => exact starts_writePacket _ _ (factoryReset_overwrites _)
  | readRaw => exact readRaw_starts _ _ _
  | readBytes | read => exact (readRaw_starts _ _ _).lift _
  | write _ _ _ _ h => exact instruct_starts _ _ (writeEncoder_overwrites _ h)
  | regWrite _ _ _ _ h => exact instruct_starts _ _ (writeEncoder_overwrites _ h)
  | writeBytes | regWriteBytes => exact instruct_starts _ _ (writeBytesEncoder_overwrites _ _ _)
  | ping => exact ping_starts _
  | syncReadBytes | syncRead => exact starts_writePacket _ _ (syncReadEncoder_overwrites _ _ _)
  | bulkReadBytes => exact bulkRead_starts _
  | syncWriteBytes => exact starts_writePacket _ _ (syncWriteBytes_overwrites _ _ _)
  | syncWrite _ _ _ h => exact starts_writePacket _ _ (syncWrite_overwrites _ h)
  | bulkWrite => exact bulkWrite_starts _
  | deviceWriteStatus _ _ _ _ h => exact Device.writeStatus_starts _ _ h
  | deviceWriteStatusError | deviceWriteStatusOk => exact Device.writeStatus_starts _ _ nothing_overwrites

theorem overSync_forgets {ε α : Type} {m : SO SyncIter ε α} (count : U16) (ids : List Byte) (index : Nat)
    (h : Forgets SyncIter.Twins SyncIter.Twins m) : Forgets Bus.Twins Bus.Twins (overSyncScript count ids index m) := by
  intro b c hbc
  obtain ⟨h1, h2⟩ := h ⟨b, count, ids, index⟩ ⟨c, count, ids, index⟩ ⟨hbc, rfl, rfl, rfl⟩
  refine ⟨?_, h2.client⟩
  simp only [overSyncScript]
  rw [h1, h2.rest.2.2]

theorem overBulk_forgets {ε α : Type} {m : SO BulkIter ε α} (reads : List BulkReadData) (index : Nat)
    (h : Forgets BulkIter.Twins BulkIter.Twins m) : Forgets Bus.Twins Bus.Twins (overBulkScript reads index m) := by
  intro b c hbc
  obtain ⟨h1, h2⟩ := h ⟨b, reads, index⟩ ⟨c, reads, index⟩ ⟨hbc, rfl, rfl⟩
  refine ⟨?_, h2.client⟩
  simp only [overBulkScript]
  rw [h1, h2.rest.2]

/-- **C87** With twins, each call has the same outcome and leaves twins. -/
theorem c87_next {ε α : Type} {m : SO Bus ε α} (h : Instructs m ∨ Listens m) : Forgets Bus.Twins Bus.Twins m := by
  rcases h with h | h
  · exact (instructs_starts h).twins
  · cases h with
    | readStatusResponseTimeout => exact Client.readStatusResponseTimeout_forgets _
    | readStatusResponse => exact Client.readStatusResponse_forgets _
    | scanNext => exact Client.scanNext_forgets
    | scanDrop => exact Client.scanDrop_forgets _
    | syncNextBytes => exact overSync_forgets _ _ _ SyncIter.nextBytes_forgets
    | syncNext d => exact overSync_forgets _ _ _ (SyncIter.next_forgets d)
    | syncDropBytes => exact overSync_forgets _ _ _ (SyncIter.dropBytes_forgets _)
    | syncDrop d => exact overSync_forgets _ _ _ (SyncIter.drop_forgets d _)
    | bulkNext => exact overBulk_forgets _ _ BulkIter.next_forgets
    | bulkDrop => exact overBulk_forgets _ _ BulkIter.drop_forgets
    | deviceReadRaw => exact Device.readRaw_forgets _
    | deviceRead | deviceReadOwned => exact (Device.readRaw_forgets _).then fun _ => forgets_lift _

/-- **C87** A call that sends first does the same whatever bytes are unread. -/
theorem c87_instruct {ε α : Type} {m : SO Bus ε α} (h : Instructs m) : Forgets Bus.Kin Bus.Kin m := (instructs_starts h).kin

/-- **C87** After a packet was sent, nothing of what was received before is left: an iterator that is made with it does the same
too. -/
theorem c87_sent {b c : Bus} (id instr : Byte) {n : Nat} {enc : Encoder} (h : Bus.Kin b c) (he : Overwrites n enc.run)
    (ho : (Client.writeInstruction id instr n enc b).2 = .ok ()) :
    Bus.Twins (Client.writeInstruction id instr n enc b).1 (Client.writeInstruction id instr n enc c).1 :=
  (Bus.writePacket_wrote id instr he h).sent ho

/-- **C87** The instructions that make an iterator: scan, sync read and bulk read. -/
theorem c87_iterators {b c : Bus} (h : Bus.Kin b c) {m : SO Bus WriteError Unit}
    (hm : m = Client.scan ∨ (∃ ids address count, m = Client.syncReadBytes ids address count) ∨
      (∃ (α : Type) (d : DataTy α) (ids : List Byte) (address : U16), m = Client.syncRead d ids address) ∨
      ∃ reads, m = Client.bulkReadBytes reads) (ho : (m b).2 = .ok ()) : Bus.Twins (m b).1 (m c).1 := by
  rcases hm with rfl | ⟨ids, address, count, rfl⟩ | ⟨α, d, ids, address, rfl⟩ | ⟨reads, rfl⟩
  · exact c87_sent _ _ h Client.nothing_overwrites ho
  · exact c87_sent _ _ h (Client.syncReadEncoder_overwrites _ _ _) ho
  · exact c87_sent _ _ h (Client.syncReadEncoder_overwrites _ _ _) ho
  · by_cases hd : Client.hasDuplicateId reads = true
    · exfalso
      have e : Client.bulkReadBytes reads = SO.panic := if_pos hd
      rw [e] at ho
      cases ho
    · have e : Client.bulkReadBytes reads = Client.writeInstruction broadcast InstructionId.bulkRead (5 * reads.length)
          ⟨Client.bulkReadEncodeLoop 0 reads, Client.bulkReadEncodeLoop_length reads 0⟩ := if_neg hd
      rw [e] at ho ⊢
      exact c87_sent _ _ h (Client.bulkRead_overwrites reads) ho

/-- **C87** Any number of calls, one after another. -/
theorem c87_session {b c : Bus} (h : Bus.Twins b c) : ∀ (calls : List BusCall), (∀ m ∈ calls, Instructs m.run ∨ Listens m.run) →
    SameTalk b c calls := by
  intro calls
  induction calls generalizing b c with
  | nil => exact fun _ => h.port
  | cons m rest ih =>
    intro hm
    obtain ⟨h1, h2⟩ := c87_next (hm m List.mem_cons_self) b c h
    exact ⟨h1, h2.port, ih h2 fun x hx => hm x (List.mem_cons_of_mem _ hx)⟩

/-- **C87** Any number of calls that each send first, whatever bytes are unread. -/
theorem c87_session_instruct {b c : Bus} (h : Bus.Kin b c) : ∀ (calls : List BusCall), (∀ m ∈ calls, Instructs m.run) →
    SameTalk b c calls := by
  intro calls
  induction calls generalizing b c with
  | nil => exact fun _ => h.port
  | cons m rest ih =>
    intro hm
    obtain ⟨h1, h2⟩ := c87_instruct (hm m List.mem_cons_self) b c h
    exact ⟨h1, h2.port, ih h2 fun x hx => hm x (List.mem_cons_of_mem _ hx)⟩

/-- **C87** Two clients or devices with any buffers of the same sizes, and any past: calls of any kind, also failed ones and
ones that panicked. What matters is the port, the baud rate and what is unread. -/
theorem c87_history {port port' : Port} {r w r' w' : List Byte} {b c : Bus} (hb : Constructed port r w b)
    (hc : Constructed port' r' w' c) (past past' : List Op) (hr : r'.length = r.length) (hw : w'.length = w.length)
    (hp : (history c past').serialPort = (history b past).serialPort) (hrate : (history c past').baudRate = (history b past).baudRate)
    (hd : c.debug = b.debug) (hu : (history c past').pending = (history b past).pending) (calls : List BusCall)
    (hm : ∀ m ∈ calls, Instructs m.run ∨ Listens m.run) : SameTalk (history b past) (history c past') calls := by
  obtain ⟨i1, -, i3, i4⟩ := constructed_ok hb
  obtain ⟨j1, -, j3, j4⟩ := constructed_ok hc
  have sb := history_step past i1
  have sc := history_step past' j1
  refine c87_session ⟨⟨⟨sb.inv.rInv, sc.inv.rInv⟩, ⟨sb.inv.wInv, sc.inv.wInv⟩, hp, hrate, ?_, ?_, ?_⟩, hu⟩ calls hm
  · rw [sb.debug, sc.debug, hd]
  · rw [sb.readSize, sc.readSize, i3, j3, hr]
  · rw [sb.writeSize, sc.writeSize, i4, j4, hw]

/-- **C87** Taking the port out of a client and making a new one with it, with buffers of the same sizes, changes nothing for
calls that send first: the bytes in the read buffer are lost (as documented), but nobody would have seen them. The rate of the
new client is what the old one had. -/
theorem c87_remade {debug : Bool} {port : Port} {r w r' w' : List Byte} {b c : Bus}
    (hb : Client.withBuffers debug port r w = .ok b) (past : List Op)
    (hc : Client.withBuffers debug (Client.intoSerialPort (history b past)) r' w' = .ok c)
    (hr : r'.length = r.length) (hw : w'.length = w.length) :
    Client.baudRate c = Client.baudRate (history b past) ∧
      ∀ calls : List BusCall, (∀ m ∈ calls, Instructs m.run) → SameTalk (history b past) c calls := by
  have hb' : Bus.withBuffers debug port r w = .ok b := by
    unfold Client.withBuffers at hb
    cases h : Bus.withBuffers debug port r w <;> rw [h] at hb <;> simp at hb ⊢ <;> exact hb
  have hc' : Bus.withBuffers debug (history b past).serialPort r' w' = .ok c := by
    unfold Client.withBuffers Client.intoSerialPort at hc
    cases h : Bus.withBuffers debug (history b past).serialPort r' w' <;> rw [h] at hc <;> simp at hc ⊢ <;> exact hc
  have hrate := c43_agrees_with_port hb' past
  obtain ⟨i1, i2, i3, i4, i5⟩ := withBuffersAndBaudRate_ok (withBuffers_ok hb').2
  obtain ⟨j1, j2, j3, j4, j5⟩ := withBuffersAndBaudRate_ok (withBuffers_ok hc').2
  have sb := history_step past i1
  have db : b.debug = debug := by
    have h := (withBuffers_ok hb').2
    unfold Bus.withBuffersAndBaudRate at h
    split at h
    · rw [← Outcome.ok.inj h]
    · cases h
  have dc : c.debug = debug := by
    have h := (withBuffers_ok hc').2
    unfold Bus.withBuffersAndBaudRate at h
    split at h
    · rw [← Outcome.ok.inj h]
    · cases h
  have e : c.baudRate = (history b past).baudRate := by rw [j3, hrate]
  refine ⟨e, fun calls hm => c87_session_instruct ⟨⟨sb.inv.rInv, j1.rInv⟩, ⟨sb.inv.wInv, j1.wInv⟩, j2, e, ?_, ?_, ?_⟩ calls hm⟩
  · rw [dc, sb.debug, db]
  · rw [sb.readSize, i4, j4, hr]
  · rw [sb.writeSize, i5, j5, hw]

/-- **C43** What `baud_rate()` returns is the rate of the port that `serial_port()` and `into_serial_port()` return, for client
and device, after any calls. -/
theorem c43_getters {debug : Bool} {port : Port} {r w : List Byte} {b : Bus}
    (h : Client.withBuffers debug port r w = .ok b ∨ Device.withBuffers debug port r w = .ok b) (past : List Op) :
    Client.baudRate (history b past) = (Client.serialPort (history b past)).rate ∧
    Client.baudRate (history b past) = (Client.intoSerialPort (history b past)).rate ∧
    Device.baudRate (history b past) = (Device.serialPort (history b past)).rate ∧
    Device.baudRate (history b past) = (Device.intoSerialPort (history b past)).rate := by
  have hb : Bus.withBuffers debug port r w = .ok b := by
    rcases h with h | h
    · unfold Client.withBuffers at h
      cases e : Bus.withBuffers debug port r w <;> rw [e] at h <;> simp at h ⊢ <;> exact h
    · unfold Device.withBuffers at h
      cases e : Bus.withBuffers debug port r w <;> rw [e] at h <;> simp at h ⊢ <;> exact h
  have := c43_agrees_with_port hb past
  exact ⟨this, this, this, this⟩

/-! ## Which encoders overwrite their slice -/

/-- **C87** The types of the crate overwrite a slice of their size, and fail with a smaller one. In a larger slice old bytes stay.
So `write` never sends old bytes; `reg_write` and `sync_write`, which give a slice of one byte to every type, send an old byte
exactly for the types without bytes. -/
theorem c87_data {α : Type} {d : DataTy α} {valid : α → Prop} {f : α → List Byte} (h : ImplData d valid f) {v : α} (hv : valid v)
    (n : Nat) : Overwrites n (d.encode v) ↔ n ≤ d.size.toNat := by
  have hc := c28_round_trip_partial d valid f h
  constructor
  · intro ho
    refine Nat.le_of_not_lt fun hn => ?_
    obtain ⟨-, h2⟩ := ho (List.replicate n 0#8) (List.replicate n 1#8) (by simp) (by simp)
    rw [hc.encode v hv _ (by simp; omega), hc.encode v hv _ (by simp; omega)] at h2
    have h3 := List.append_cancel_left (h2 rfl)
    rw [List.drop_replicate, List.drop_replicate] at h3
    obtain ⟨k, hk⟩ : ∃ k, n - d.size.toNat = k + 1 := ⟨n - d.size.toNat - 1, by omega⟩
    rw [hk] at h3
    have := congrArg List.head? h3
    simp [List.replicate_succ] at this
  · intro hn s t hs ht
    by_cases he : n = d.size.toNat
    · rw [hc.encode_exact hv (by omega), hc.encode_exact hv (by omega)]
      exact ⟨rfl, fun _ => rfl⟩
    · rw [hc.short v hv _ (by omega), hc.short v hv _ (by omega), hs, ht]
      exact ⟨rfl, fun h => by simp at h⟩

/-- **C87** The typed calls of the crate's own types that never send old bytes. -/
theorem c87_typed {α : Type} {d : DataTy α} {valid : α → Prop} {f : α → List Byte} (h : ImplData d valid f) (id : Byte)
    (address : U16) {v : α} (hv : valid v) :
    Instructs (Client.write d id address v) ∧
    (d.size ≠ 0#16 → Instructs (Client.regWrite d id address v)) ∧
    (d.size ≠ 0#16 → ∀ data : List (SyncWriteData α), (∀ x ∈ data, valid x.data) → Instructs (Client.syncWrite d address data)) := by
  have hs : d.size ≠ 0#16 → 1 ≤ d.size.toNat := fun hne => by
    refine Nat.one_le_iff_ne_zero.mpr fun h0 => hne ?_
    apply BitVec.eq_of_toNat_eq
    rw [h0]
    rfl
  exact ⟨.write d id address v ((c87_data h hv _).mpr (Nat.le_refl _)),
    fun hne => .regWrite d id address v ((c87_data h hv _).mpr (hs hne)),
    fun hne data hd => .syncWrite d address data fun x hx => (c87_data h (hd x hx) _).mpr (hs hne)⟩

/-- **C87** What `reg_write` sends for a value without bytes: the byte that an earlier packet left in the write buffer. -/
theorem c87_stale {α : Type} {d : DataTy α} {valid : α → Prop} {f : α → List Byte} (h : ImplData d valid f)
    (hs : d.size = 0#16) (id : Byte) (address : U16) {v : α} (hv : valid v) {b c : Bus} {r : Response Unit} (hb : b.WInv)
    (ho : Client.regWrite d id address v b = (c, .ok r)) :
    ∃ old calls, b.writeBuffer[10]? = some old ∧
      c.serialPort.log = b.serialPort.log ++ [.discard true,
        .write (frame id (codeStuff (0x04#8 :: (le16 address ++ [old])))) true] ++ calls ∧
      ∀ call ∈ calls, ∃ cap D, call = .read cap D := by
  have hc := c28_round_trip_partial d valid f h
  have hz : d.size.toNat = 0 := by rw [hs]; rfl
  unfold Client.regWrite Client.instruct at ho
  rw [SO.bind_def, SO.mapErr_apply] at ho
  rcases e : Client.writeInstruction id InstructionId.regWrite (2 + 1) (Client.writeEncoder d address v) b with ⟨b1, o⟩
  rw [e] at ho
  cases o with
  | ok u =>
    obtain ⟨params, dt, h1, h2, h3, h4, h5, h6, rfl⟩ := Bus.writePacket_ok hb e
    have hl := Bus.paramSlice_length h3
    obtain ⟨x, y, z, hp⟩ : ∃ x y z, b.paramSlice (2 + 1) = [x, y, z] := by
      match b.paramSlice (2 + 1), hl with
      | [x, y, z], _ => exact ⟨x, y, z, rfl⟩
    have hold : b.writeBuffer[10]? = some z := by
      have := congrArg (fun l => l[2]?) hp
      simp only [Bus.paramSlice] at this
      rw [List.getElem?_drop, List.getElem?_take] at this
      simpa using this
    have hz' : f v = [] := List.eq_nil_of_length_eq_zero (by rw [hc.length v hv, hz])
    have henc : (Client.writeEncoder d address v).run [x, y, z] = (le16 address ++ [z], .ok ()) := by
      have e1 : onSliceFrom (ε := BufferTooSmall) 0 (writeU16Le address) [x, y, z] = (le16 address ++ [z], .ok ()) := by
        rw [onSliceFrom_ok _ (by simp)]
        rw [List.drop_zero, writeU16Le_eq' address (by simp)]
        simp
      have e2 : onSliceFrom 2 (d.encode v) (le16 address ++ [z]) = (le16 address ++ [z], .ok ()) := by
        rw [onSliceFrom_ok _ (by simp [le16])]
        have hx : (le16 address ++ [z]).drop 2 = [z] := by simp [le16]
        have hy : (le16 address ++ [z]).take 2 = le16 address := by simp [le16]
        rw [hx, hy, hc.encode v hv [z] (by omega), hz', hz]
        simp
      unfold Client.writeEncoder
      dsimp only
      rw [SO.bind_ok e1]
      exact e2
    rw [hp, henc] at h1
    obtain ⟨rfl, -⟩ := Prod.mk.inj h1
    have hj : JustReads ((Client.readResponseIfNotBroadcast id).mapErr TransferError.readError) := by
      refine OnlyReadsOn.mapErr _ ?_
      unfold Client.readResponseIfNotBroadcast
      split
      · exact .pure _
      · exact .bind (.bind .get fun _ => .bind (.lift _) fun _ => .bind .get fun _ =>
          .bind (Bus.readPacketDeadline_just _) fun _ => .lift _) fun _ => .lift _
    have hk : ∀ s, ((Client.readResponseIfNotBroadcast id).mapErr TransferError.readError) s = (c, .ok r) → ReadsOnly s c :=
      fun s hr => by
        have := hj s
        rw [hr] at this
        exact this
    dsimp only [Outcome.mapErr] at ho
    obtain ⟨calls, k1, k2⟩ := (hk _ ho).calls
    refine ⟨z, calls, hold, ?_, k2⟩
    rw [k1]
    simp [Port.wrote, Port.discarded, InstructionId.regWrite]
  | _ => cases ho

/-! ## The theorems on concrete cases -/

/-- A client with an old packet in its write buffer, and an unread status packet behind a used one. -/
def usedClient : Bus :=
  { quietBus true 16 with
    readBuffer := List.replicate 9 0x11#8 ++ [0xFF#8, 0xFF#8] ++ List.replicate 9 0x22#8
    readLen := 11
    usedBytes := 9
    writeBuffer := headerPrefix ++ List.replicate 16 0x77#8 }

/-- A client that holds the same bytes, but is otherwise new. -/
def newClient : Bus :=
  { quietBus true 16 with readBuffer := [0xFF#8, 0xFF#8] ++ List.replicate 18 0#8, readLen := 2 }

theorem used_new : Bus.Twins usedClient newClient :=
  ⟨⟨⟨⟨by decide, by decide⟩, ⟨by decide, by decide⟩⟩, ⟨⟨by decide, by decide⟩, ⟨by decide, by decide⟩⟩, rfl, rfl, rfl, by decide,
    by decide⟩, by decide⟩

theorem used_quiet : Bus.Kin usedClient (quietBus true 16) :=
  ⟨⟨⟨by decide, by decide⟩, ⟨by decide, by decide⟩⟩, ⟨⟨by decide, by decide⟩, ⟨by decide, by decide⟩⟩, rfl, rfl, rfl, by decide,
    by decide⟩

/-- **C87** The buses are not the same, and with an empty value they do not send the same. -/
theorem c87_not_for_empty_values :
    (Client.regWrite (DataTy.array (DataTy.unsigned 1) 0 (by decide)) 0xFE#8 5#16 [] usedClient).1.serialPort.log =
      [.discard true, .write (frame 0xFE#8 [0x04#8, 5#8, 0#8, 0x77#8]) true] ∧
    (Client.regWrite (DataTy.array (DataTy.unsigned 1) 0 (by decide)) 0xFE#8 5#16 [] newClient).1.serialPort.log =
      [.discard true, .write (frame 0xFE#8 [0x04#8, 5#8, 0#8, 0#8]) true] ∧
    (Client.syncWrite (DataTy.array (DataTy.unsigned 1) 0 (by decide)) 5#16 [⟨3#8, []⟩] usedClient).1.serialPort.log =
      [.discard true, .write (frame 0xFE#8 [0x83#8, 5#8, 0#8, 1#8, 0#8, 3#8, 0x77#8]) true] ∧
    (Client.syncWrite (DataTy.array (DataTy.unsigned 1) 0 (by decide)) 5#16 [⟨3#8, []⟩] newClient).1.serialPort.log =
      [.discard true, .write (frame 0xFE#8 [0x83#8, 5#8, 0#8, 1#8, 0#8, 3#8, 0#8]) true] := by
  decide +kernel

example := c87_next (.inr (.readStatusResponse 3#16)) usedClient newClient used_new
example := c87_next (.inr (.deviceRead 100)) usedClient newClient used_new
example := c87_instruct (.writeBytes 7#8 116#16 [1#8, 2#8]) usedClient (quietBus true 16) used_quiet
example := c87_sent 7#8 3#8 used_quiet (Client.constEncoder_overwrites [1#8, 2#8] 2) (by decide +kernel)
example := c87_iterators used_quiet (.inr (.inl ⟨[1#8, 2#8], 116#16, 4#16, rfl⟩)) (by decide +kernel)
example := c87_session used_new [⟨Client.readStatusResponse 3#16⟩, ⟨Client.scan⟩, ⟨Client.scanNext (ε := Empty)⟩]
  (by
    intro m hm
    simp only [List.mem_cons, List.not_mem_nil, or_false] at hm
    rcases hm with rfl | rfl | rfl
    · exact .inr (.readStatusResponse _)
    · exact .inl .scan
    · exact .inr .scanNext)
example := c87_session_instruct used_quiet [⟨Client.ping 3#8⟩, ⟨Client.setBaudRate 9600⟩]
  (by
    intro m hm
    simp only [List.mem_cons, List.not_mem_nil, or_false] at hm
    rcases hm with rfl | rfl
    · exact .ping _
    · exact .setBaudRate _)
example := c87_history ⟨true, .inl flakyBus_made⟩ ⟨true, .inl flakyBus_made⟩ flakyOps flakyOps rfl rfl rfl rfl rfl rfl
  [⟨Client.ping 3#8⟩] (fun m hm => by
    rw [List.mem_singleton] at hm
    subst hm
    exact .inl (.ping _))
example := c87_remade (debug := true) (port := flakyPort) (r := List.replicate 12 0#8) (w := List.replicate 12 0#8)
  (r' := List.replicate 12 9#8) (w' := List.replicate 12 9#8) (b := flakyBus) rfl flakyOps rfl rfl rfl
example := c43_getters (debug := true) (port := flakyPort) (r := List.replicate 12 0#8) (w := List.replicate 12 0#8) (b := flakyBus)
  (.inr rfl) flakyOps
example := c87_data (implUnsigned (n := 2) (by decide)) (v := 0x1234#16) trivial 1
example := c87_typed (implUnsigned (n := 2) (by decide)) 7#8 116#16 (v := 0x1234#16) trivial
/-- `[u8; 0]` -/
def emptyTy : DataTy (List (BitVec (8 * 1))) := DataTy.array (DataTy.unsigned 1) 0 (by decide)
theorem emptyTy_impl : ∃ valid f, ImplData emptyTy valid f ∧ valid [] :=
  ⟨_, _, ImplData.array (implUnsigned (n := 1) (by decide)) 0 (by decide), rfl, by simp⟩
theorem stale_ok : (Client.regWrite emptyTy 0xFE#8 5#16 [] usedClient).2 = .ok ⟨0xFE#8, false, ()⟩ := by decide +kernel
example : ∃ c : Bus, ∃ r : Response Unit, Client.regWrite emptyTy 0xFE#8 5#16 [] usedClient = (c, .ok r) := ⟨_, _, pair_eq stale_ok⟩
example {c : Bus} {r : Response Unit} (h : Client.regWrite emptyTy 0xFE#8 5#16 [] usedClient = (c, .ok r)) :=
  emptyTy_impl.elim fun _ h1 => h1.elim fun _ h2 =>
    c87_stale h2.1 (by decide) 0xFE#8 5#16 h2.2 (b := usedClient) ⟨by decide, by decide⟩ h

end Dxl.Props
