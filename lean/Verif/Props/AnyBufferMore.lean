import Verif.Model.AnyBufferClient
import Verif.Props.AnyBuffer
import Verif.Model.Unwind

/-! # C104: all methods of client and device with any buffer type -/

namespace Dxl.Props

open Spec

variable {B : BufferImpl} {view : B.Buf → List Byte}

/-- Code that does the same seen through `see`. -/
def SameThrough {σ τ ε α : Type} (see : σ → τ) (m : SO σ ε α) (n : SO τ ε α) : Prop :=
  ∀ s, see (m s).1 = (n (see s)).1 ∧ (m s).2 = (n (see s)).2

namespace SameThrough

variable {σ τ ε ε' α β : Type} {see : σ → τ}

theorem bind {m : SO σ ε α} {n : SO τ ε α} {f : α → SO σ ε β} {g : α → SO τ ε β} (hm : SameThrough see m n)
    (hf : ∀ a, SameThrough see (f a) (g a)) : SameThrough see (m >>= f) (n >>= g) := by
  intro b
  obtain ⟨h1, h2⟩ := hm b
  rw [SO.bind_def, SO.bind_def]
  rcases hmb : m b with ⟨b', o⟩
  rcases hnb : n (see b) with ⟨c', o'⟩
  rw [hmb, hnb] at h1 h2
  simp only at h1 h2
  subst h1 h2
  cases o with
  | ok a => exact hf a b'
  | _ => exact ⟨rfl, rfl⟩

theorem lift (o : Outcome ε α) : SameThrough see (SO.lift o) (SO.lift o) := fun _ => ⟨rfl, rfl⟩

theorem pure (a : α) : SameThrough see (Pure.pure a : SO σ ε α) (Pure.pure a) := fun _ => ⟨rfl, rfl⟩

theorem panic : SameThrough see (SO.panic : SO σ ε α) SO.panic := fun _ => ⟨rfl, rfl⟩

theorem hang : SameThrough see (SO.hang : SO σ ε α) SO.hang := fun _ => ⟨rfl, rfl⟩

theorem get {f : σ → SO σ ε β} {g : τ → SO τ ε β} (h : ∀ s, SameThrough see (f s) (g (see s))) :
    SameThrough see (SO.get >>= f) (SO.get >>= g) := fun s => h s s

theorem mapErr {m : SO σ ε α} {n : SO τ ε α} (h : SameThrough see m n) (f : ε → ε') : SameThrough see (m.mapErr f) (n.mapErr f) :=
  fun s => ⟨(h s).1, congrArg (Outcome.mapErr f) (h s).2⟩

theorem attempt {m : SO σ ε α} {n : SO τ ε α} (h : SameThrough see m n) :
    SameThrough see (m.attempt : SO σ ε' _) (n.attempt : SO τ ε' _) := by
  intro s
  obtain ⟨h1, h2⟩ := h s
  unfold SO.attempt
  rcases hm : m s with ⟨t, o⟩
  rcases hn : n (see s) with ⟨u, p⟩
  rw [hm, hn] at h1 h2
  dsimp only at h1 h2
  subst h1 h2
  cases o <;> exact ⟨rfl, rfl⟩

end SameThrough

theorem same_write (hB : B.Lawful view) (id instr : Byte) (n : Nat) (enc : Encoder) :
    SameThrough (BusIn.see view) (BusIn.writePacket id instr n enc) (Client.writeInstruction id instr n enc) :=
  BusIn.sim_writePacket hB.toMutLawful id instr n enc

theorem same_packet (hB : B.Lawful view) (D : Nat) :
    SameThrough (BusIn.see view) (BusIn.readPacket D 1) (Bus.readPacketDeadline D) :=
  fun b => BusIn.sim_readPacket hB D b

theorem same_timeout (hB : B.Lawful view) (t : Nat) :
    SameThrough (BusIn.see view) (BusIn.readStatusResponseTimeout t 1) (Client.readStatusResponseTimeout t) :=
  .get fun _ => .bind (same_packet hB _) fun _ => .lift _

theorem same_response (hB : B.Lawful view) (k : U16) :
    SameThrough (BusIn.see view) (BusIn.readStatusResponse k 1) (Client.readStatusResponse k) :=
  .get fun _ => .bind (.lift _) fun _ => same_timeout hB _

theorem same_call (hB : B.Lawful view) (id instr : Byte) (n : Nat) (k : U16) (enc : Encoder) :
    SameThrough (BusIn.see view) (BusIn.transferSingle id instr n k enc 1) (Client.transferSingle id instr n k enc) :=
  fun b => c104_same_call hB id instr n k enc b

theorem same_empty (hB : B.Lawful view) (id : Byte) :
    SameThrough (BusIn.see view) (BusIn.readResponseIfNotBroadcast id 1) (Client.readResponseIfNotBroadcast id) := by
  unfold BusIn.readResponseIfNotBroadcast Client.readResponseIfNotBroadcast
  by_cases h : id = broadcast
  · rw [if_pos h, if_pos h]; exact .pure _
  · rw [if_neg h, if_neg h]; exact .bind (same_response hB _) fun _ => .lift _

theorem same_instruct (hB : B.Lawful view) (id instr : Byte) (n : Nat) (enc : Encoder) :
    SameThrough (BusIn.see view) (BusIn.instruct id instr n enc 1) (Client.instruct id instr n enc) :=
  .bind ((same_write hB id instr n enc).mapErr _) fun _ => (same_empty hB id).mapErr _

theorem same_readRaw (hB : B.Lawful view) (id : Byte) (address count : U16) :
    SameThrough (BusIn.see view) (BusIn.readRaw id address count 1) (Client.readRaw id address count) :=
  .bind (same_call hB _ _ _ _ _) fun _ => .bind (.lift _) fun _ => .bind (.lift _) fun _ => .pure _

theorem same_scanNext {ε : Type} (hB : B.Lawful view) :
    SameThrough (ε := ε) (BusIn.see view) (BusIn.scanNext 1) Client.scanNext := by
  refine .bind (SameThrough.attempt (.get fun b => .bind (.lift _) fun _ => .bind (same_timeout hB _) fun _ => .lift _)) fun r => ?_
  rcases r with (e | e | e | e) | r
  · exact .pure _
  · dsimp only
    by_cases h : e.isTimeout
    · rw [if_pos h, if_pos h]; exact .pure _
    · rw [if_neg h, if_neg h]; exact .pure _
  · exact .pure _
  · exact .pure _
  · exact .pure _

theorem same_rawLoop (hB : B.Lawful view) (D : Nat) : ∀ n,
    SameThrough (BusIn.see view) (BusIn.readRawLoop D 1 n) (Device.readRawLoop D n) := by
  intro n
  induction n with
  | zero => exact .hang
  | succ n ih =>
    refine .bind (same_packet hB D) fun p => .bind (.lift _) fun o => ?_
    cases o with
    | some i => exact .pure _
    | none => exact ih

theorem same_raw (hB : B.Lawful view) (t : Nat) :
    SameThrough (BusIn.see view) (BusIn.readRawInstructionTimeout t 1) (Device.readRawInstructionTimeout t) :=
  .get fun _ => same_rawLoop hB _ _

/-- The methods of `Client` and `Device` with a buffer type, and the same with lists for buffers. -/
inductive BufferMethod (B : BufferImpl) : {ε α : Type} → SO (BusIn B) ε α → SO Bus ε α → Prop
  | setBaudRate (rate : Nat) : BufferMethod B (BusIn.setBaudRate rate) (Client.setBaudRate rate)
  | action (id : Byte) : BufferMethod B (BusIn.action id 1) (Client.action id)
  | broadcastAction : BufferMethod B BusIn.broadcastAction Client.broadcastAction
  | reboot (id : Byte) : BufferMethod B (BusIn.reboot id 1) (Client.reboot id)
  | broadcastReboot : BufferMethod B BusIn.broadcastReboot Client.broadcastReboot
  | clearRevolutionCounter (id : Byte) : BufferMethod B (BusIn.clearRevolutionCounter id 1) (Client.clearRevolutionCounter id)
  | broadcastClearRevolutionCounter :
      BufferMethod B BusIn.broadcastClearRevolutionCounter Client.broadcastClearRevolutionCounter
  | clearError (id : Byte) : BufferMethod B (BusIn.clearError id 1) (Client.clearError id)
  | broadcastClearError : BufferMethod B BusIn.broadcastClearError Client.broadcastClearError
  | factoryReset (id : Byte) (kind : Client.FactoryResetKind) :
      BufferMethod B (BusIn.factoryReset id kind 1) (Client.factoryReset id kind)
  | broadcastFactoryReset (kind : Client.FactoryResetKind) :
      BufferMethod B (BusIn.broadcastFactoryReset kind) (Client.broadcastFactoryReset kind)
  | readBytes (id : Byte) (address count : U16) : BufferMethod B (BusIn.readBytes id address count 1) (Client.readBytes id address count)
  | read {α : Type} (d : DataTy α) (id : Byte) (address : U16) : BufferMethod B (BusIn.read d id address 1) (Client.read d id address)
  | write {α : Type} (d : DataTy α) (id : Byte) (address : U16) (data : α) :
      BufferMethod B (BusIn.write d id address data 1) (Client.write d id address data)
  | writeBytes (id : Byte) (address : U16) (data : List Byte) :
      BufferMethod B (BusIn.writeBytes id address data 1) (Client.writeBytes id address data)
  | regWriteBytes (id : Byte) (address : U16) (data : List Byte) :
      BufferMethod B (BusIn.regWriteBytes id address data 1) (Client.regWriteBytes id address data)
  | regWrite {α : Type} (d : DataTy α) (id : Byte) (address : U16) (data : α) :
      BufferMethod B (BusIn.regWrite d id address data 1) (Client.regWrite d id address data)
  | ping (id : Byte) : BufferMethod B (BusIn.ping id 1) (Client.ping id)
  | scan : BufferMethod B BusIn.scan Client.scan
  | scanNext {ε : Type} : BufferMethod B (BusIn.scanNext (ε := ε) 1) Client.scanNext
  | scanDrop {ε : Type} (n : Nat) : BufferMethod B (BusIn.scanDrop (ε := ε) 1 n) (Client.scanDrop n)
  | syncReadBytes (ids : List Byte) (address count : U16) :
      BufferMethod B (BusIn.syncReadBytes ids address count) (Client.syncReadBytes ids address count)
  | syncRead {α : Type} (d : DataTy α) (ids : List Byte) (address : U16) :
      BufferMethod B (BusIn.syncRead d ids address) (Client.syncRead d ids address)
  | bulkReadBytes (reads : List BulkReadData) : BufferMethod B (BusIn.bulkReadBytes reads) (Client.bulkReadBytes reads)
  | syncWriteBytes (address count : U16) (data : List (SyncWriteData (List Byte))) :
      BufferMethod B (BusIn.syncWriteBytes address count data) (Client.syncWriteBytes address count data)
  | syncWrite {α : Type} (d : DataTy α) (address : U16) (data : List (SyncWriteData α)) :
      BufferMethod B (BusIn.syncWrite d address data) (Client.syncWrite d address data)
  | bulkWrite (writes : List BulkWriteData) : BufferMethod B (BusIn.bulkWrite writes) (Client.bulkWrite writes)
  | deviceRead (t : Nat) : BufferMethod B (BusIn.deviceRead t 1) (Device.read t)
  | deviceReadOwned (t : Nat) : BufferMethod B (BusIn.deviceReadOwned t 1) (Device.readOwned t)
  | writeStatus (id error : Byte) (n : Nat) (enc : Encoder) :
      BufferMethod B (BusIn.writeStatus id error n enc) (Device.writeStatus id error n enc)
  | writeStatusError (id error : Byte) : BufferMethod B (BusIn.writeStatusError id error) (Device.writeStatusError id error)
  | writeStatusOk (id : Byte) : BufferMethod B (BusIn.writeStatusOk id) (Device.writeStatusOk id)

/-- **C104** With a buffer type that lends the same bytes each time, with the changes made to them, every method of client and device
does exactly what it does with a `Vec` of the same contents. -/
theorem c104_same_method (hB : B.Lawful view) {ε α : Type} {m : SO (BusIn B) ε α} {n : SO Bus ε α} (h : BufferMethod B m n)
    (b : BusIn B) : (m b).1.see view = (n (b.see view)).1 ∧ (m b).2 = (n (b.see view)).2 := by
  suffices h : SameThrough (BusIn.see view) m n from h b
  cases h with
  | setBaudRate rate =>
    intro b
    unfold BusIn.setBaudRate BusIn.onRest Client.setBaudRate Bus.setBaudRate Bus.onPort
    simp only [SO.zoom, SO.bind_def, BusIn.see]
    rcases Port.setBaudRate rate b.rest.serialPort with ⟨p, _ | e | _ | _⟩ <;> exact ⟨rfl, rfl⟩
  | action id => exact same_instruct hB _ _ _ _
  | broadcastAction => exact same_write hB _ _ _ _
  | reboot id => exact same_instruct hB _ _ _ _
  | broadcastReboot => exact same_write hB _ _ _ _
  | clearRevolutionCounter id => exact same_instruct hB _ _ _ _
  | broadcastClearRevolutionCounter => exact same_write hB _ _ _ _
  | clearError id => exact same_instruct hB _ _ _ _
  | broadcastClearError => exact same_write hB _ _ _ _
  | factoryReset id kind => exact same_instruct hB _ _ _ _
  | broadcastFactoryReset kind => exact same_write hB _ _ _ _
  | readBytes id address count => exact .bind (same_readRaw hB _ _ _) fun _ => .lift _
  | read d id address => exact .bind (same_readRaw hB _ _ _) fun _ => .lift _
  | write d id address data => exact same_instruct hB _ _ _ _
  | writeBytes id address data => exact same_instruct hB _ _ _ _
  | regWriteBytes id address data => exact same_instruct hB _ _ _ _
  | regWrite d id address data => exact same_instruct hB _ _ _ _
  | ping id => exact .bind (same_call hB _ _ _ _ _) fun _ => .lift _
  | scan => exact same_write hB _ _ _ _
  | scanNext => exact same_scanNext hB
  | scanDrop n =>
    induction n with
    | zero => exact .hang
    | succ n ih =>
      refine .bind (same_scanNext hB) fun o => ?_
      cases o with
      | some _ => exact ih
      | none => exact .pure _
  | syncReadBytes ids address count => exact same_write hB _ _ _ _
  | syncRead d ids address => exact same_write hB _ _ _ _
  | bulkReadBytes reads =>
    unfold BusIn.bulkReadBytes Client.bulkReadBytes
    by_cases h : Client.hasDuplicateId reads
    · rw [if_pos h, if_pos h]; exact .panic
    · rw [if_neg h, if_neg h]; exact same_write hB _ _ _ _
  | syncWriteBytes address count data => exact same_write hB _ _ _ _
  | syncWrite d address data => exact same_write hB _ _ _ _
  | bulkWrite writes => exact .bind (.lift _) fun _ => same_write hB _ _ _ _
  | deviceRead t => exact .bind (same_raw hB _) fun _ => .lift _
  | deviceReadOwned t => exact .bind (same_raw hB _) fun _ => .lift _
  | writeStatus id error n enc => exact BusIn.sim_writeStatus hB id error n enc
  | writeStatusError id error => exact BusIn.sim_writeStatus hB _ _ _ _
  | writeStatusOk id => exact BusIn.sim_writeStatus hB _ _ _ _

/-- A sync read seen with lists for buffers. -/
def seeSync (view : B.Buf → List Byte) (s : SyncIterIn B) : SyncIter := ⟨s.client.see view, s.count, s.motorIds, s.index⟩

/-- A bulk read seen with lists for buffers. -/
def seeBulk (view : B.Buf → List Byte) (s : BulkIterIn B) : BulkIter := ⟨s.client.see view, s.reads, s.index⟩

theorem same_syncClient {ε α : Type} {m : SO (BusIn B) ε α} {n : SO Bus ε α} (h : SameThrough (BusIn.see view) m n) :
    SameThrough (seeSync view) (SyncIterIn.onClient m) (SyncIter.onClient n) := by
  intro s
  obtain ⟨h1, h2⟩ := h s.client
  refine ⟨?_, h2⟩
  unfold SyncIterIn.onClient SyncIter.onClient SO.zoom seeSync
  dsimp only
  rw [h1]

theorem same_bulkClient {ε α : Type} {m : SO (BusIn B) ε α} {n : SO Bus ε α} (h : SameThrough (BusIn.see view) m n) :
    SameThrough (seeBulk view) (BulkIterIn.onClient m) (BulkIter.onClient n) := by
  intro s
  obtain ⟨h1, h2⟩ := h s.client
  refine ⟨?_, h2⟩
  unfold BulkIterIn.onClient BulkIter.onClient SO.zoom seeBulk
  dsimp only
  rw [h1]

theorem same_popMotor {ε : Type} : SameThrough (ε := ε) (seeSync view) SyncIterIn.popMotorId SyncIter.popMotorId := by
  intro s
  unfold SyncIterIn.popMotorId SyncIter.popMotorId seeSync
  dsimp only
  cases s.motorIds[s.index]? <;> exact ⟨rfl, rfl⟩

theorem same_popData {ε : Type} : SameThrough (ε := ε) (seeBulk view) BulkIterIn.pop BulkIter.pop := by
  intro s
  unfold BulkIterIn.pop BulkIter.pop seeBulk
  dsimp only
  cases s.reads[s.index]? <;> exact ⟨rfl, rfl⟩

theorem same_nextBytes {ε : Type} (hB : B.Lawful view) :
    SameThrough (ε := ε) (seeSync view) (SyncIterIn.nextBytes 1) SyncIter.nextBytes := by
  refine .bind same_popMotor fun o => ?_
  cases o with
  | none => exact .pure _
  | some id =>
    exact .bind (SameThrough.attempt (.get fun s => .bind (same_syncClient (same_response hB _)) fun _ => .bind (.lift _) fun _ => .lift _))
      fun _ => .pure _

theorem same_next {α ε : Type} (hB : B.Lawful view) (d : DataTy α) :
    SameThrough (ε := ε) (seeSync view) (SyncIterIn.next d 1) (SyncIter.next d) := by
  refine .bind same_popMotor fun o => ?_
  cases o with
  | none => exact .pure _
  | some id =>
    exact .bind (SameThrough.attempt (.bind (same_syncClient (same_response hB _)) fun _ => .bind (.lift _) fun _ => .lift _)) fun _ => .pure _

theorem same_nextBulk {ε : Type} (hB : B.Lawful view) :
    SameThrough (ε := ε) (seeBulk view) (BulkIterIn.next 1) BulkIter.next := by
  refine .bind same_popData fun o => ?_
  cases o with
  | none => exact .pure _
  | some r =>
    exact .bind (SameThrough.attempt (.bind (same_bulkClient (same_response hB _)) fun _ => .bind (.lift _) fun _ => .lift _)) fun _ => .pure _

theorem same_dropBytes {ε : Type} (hB : B.Lawful view) : ∀ n,
    SameThrough (ε := ε) (seeSync view) (SyncIterIn.dropBytes 1 n) (SyncIter.dropBytes n) := by
  intro n
  induction n with
  | zero => exact .hang
  | succ n ih =>
    refine .bind same_popMotor fun o => ?_
    cases o with
    | none => exact .pure _
    | some id => exact .get fun s => .bind (SameThrough.attempt (same_syncClient (same_response hB _))) fun _ => ih

theorem same_drop {α ε : Type} (hB : B.Lawful view) (d : DataTy α) : ∀ n,
    SameThrough (ε := ε) (seeSync view) (SyncIterIn.drop d 1 n) (SyncIter.drop d n) := by
  intro n
  induction n with
  | zero => exact .hang
  | succ n ih =>
    refine .bind (same_next hB d) fun o => ?_
    cases o with
    | none => exact .pure _
    | some id => exact ih

theorem same_dropBulk {ε : Type} (hB : B.Lawful view) : SameThrough (ε := ε) (seeBulk view) (BulkIterIn.drop 1) BulkIter.drop := by
  have loop : ∀ l, SameThrough (ε := ε) (seeBulk view) (BulkIterIn.dropLoop 1 l) (BulkIter.dropLoop l) := by
    intro l
    induction l with
    | nil => exact .pure _
    | cons r l ih => exact .bind (SameThrough.attempt (same_bulkClient (same_response hB _))) fun _ => ih
  refine .get fun s => ?_
  show SameThrough _ (if s.index ≤ s.reads.length then _ else _) (if s.index ≤ s.reads.length then _ else _)
  by_cases h : s.index ≤ s.reads.length
  · rw [if_pos h, if_pos h]; exact loop _
  · rw [if_neg h, if_neg h]; exact .panic

theorem same_scope {σ τ ι ω : Type} {see : σ → τ} {next : SO σ Empty (Option ι)} {next' : SO τ Empty (Option ι)}
    {drop : SO σ Empty Unit} {drop' : SO τ Empty Unit} (hn : SameThrough see next next') (hd : SameThrough see drop drop')
    (code : LoopCode ι ω) (s : σ) :
    see (scopeOf next drop code s).1 = (scopeOf next' drop' code (see s)).1 ∧
      (scopeOf next drop code s).2 = (scopeOf next' drop' code (see s)).2 := by
  have run : ∀ code : LoopCode ι ω, SameThrough see (code.run next) (code.run next') := by
    intro code
    induction code with
    | returns a => exact .pure _
    | panics => exact .panic
    | asks k ih => exact .bind hn ih
  obtain ⟨h1, h2⟩ := run code s
  unfold scopeOf
  rcases hc : code.run next s with ⟨t, o⟩
  rcases hx : code.run next' (see s) with ⟨u, p⟩
  rw [hc, hx] at h1 h2
  dsimp only at h1 h2
  subst h1 h2
  obtain ⟨h3, h4⟩ := hd t
  cases o with
  | ok a =>
    dsimp only
    rcases hz : drop t with ⟨v, q⟩
    rcases hy : drop' (see t) with ⟨w, r⟩
    rw [hz, hy] at h3 h4
    dsimp only at h3 h4
    subst h3 h4
    cases q with
    | err e => exact e.elim
    | _ => exact ⟨rfl, rfl⟩
  | err e => exact e.elim
  | panic =>
    dsimp only
    rcases hz : drop t with ⟨v, q⟩
    rcases hy : drop' (see t) with ⟨w, r⟩
    rw [hz, hy] at h3 h4
    dsimp only at h3 h4
    subst h3 h4
    cases q with
    | err e => exact e.elim
    | _ => exact ⟨rfl, rfl⟩
  | hang => exact ⟨rfl, rfl⟩

/-- **C104** The same for any code that uses the iterator of a sync or bulk read or a scan, with its destructor and the panics of both. -/
theorem c104_same_scope (hB : B.Lawful view) {α ω : Type} (d : DataTy α) (n : Nat) :
    (∀ (code : LoopCode (Except ReadError (Response (List Byte))) ω) (s : SyncIterIn B),
      seeSync view (scopeOf (SyncIterIn.nextBytes 1) (SyncIterIn.dropBytes 1 n) code s).1 =
          (scopeOf SyncIter.nextBytes (SyncIter.dropBytes n) code (seeSync view s)).1 ∧
        (scopeOf (SyncIterIn.nextBytes 1) (SyncIterIn.dropBytes 1 n) code s).2 =
          (scopeOf SyncIter.nextBytes (SyncIter.dropBytes n) code (seeSync view s)).2) ∧
    (∀ (code : LoopCode (Except ReadError (Response α)) ω) (s : SyncIterIn B),
      seeSync view (scopeOf (SyncIterIn.next d 1) (SyncIterIn.drop d 1 n) code s).1 =
          (scopeOf (SyncIter.next d) (SyncIter.drop d n) code (seeSync view s)).1 ∧
        (scopeOf (SyncIterIn.next d 1) (SyncIterIn.drop d 1 n) code s).2 =
          (scopeOf (SyncIter.next d) (SyncIter.drop d n) code (seeSync view s)).2) ∧
    (∀ (code : LoopCode (Except ReadError (Response (List Byte))) ω) (s : BulkIterIn B),
      seeBulk view (scopeOf (BulkIterIn.next 1) (BulkIterIn.drop 1) code s).1 =
          (scopeOf BulkIter.next BulkIter.drop code (seeBulk view s)).1 ∧
        (scopeOf (BulkIterIn.next 1) (BulkIterIn.drop 1) code s).2 = (scopeOf BulkIter.next BulkIter.drop code (seeBulk view s)).2) ∧
    (∀ (code : LoopCode (Except ReadError (Response Client.Ping)) ω) (b : BusIn B),
      (scopeOf (BusIn.scanNext 1) (BusIn.scanDrop 1 n) code b).1.see view =
          (scopeOf Client.scanNext (Client.scanDrop n) code (b.see view)).1 ∧
        (scopeOf (BusIn.scanNext 1) (BusIn.scanDrop 1 n) code b).2 = (scopeOf Client.scanNext (Client.scanDrop n) code (b.see view)).2) :=
  ⟨fun code s => same_scope (same_nextBytes hB) (same_dropBytes hB n) code s,
    fun code s => same_scope (same_next hB d) (same_drop hB d n) code s,
    fun code s => same_scope (same_nextBulk hB) (same_dropBulk hB) code s,
    fun code b => same_scope (same_scanNext hB) (fun b => c104_same_method hB (.scanDrop n) b) code b⟩

example := c104_same_method countingBuffer_lawful (.ping 1#8) (countingBus (busWith (frame 1#8 [0x55#8, 0#8])))
example := c104_same_method countingBuffer_lawful (.bulkWrite [⟨1#8, 2#16, [3#8]⟩]) (countingBus (quietBus true 40))
example := c104_same_method countingBuffer_lawful (.deviceRead 9) (countingBus (busWith (frame 1#8 [1#8])))
/-- A device with the counting buffer receives a ping. -/
example : (BusIn.deviceRead 9 1 (countingBus (busWith (frame 1#8 [1#8])))).2 = .ok ⟨1#8, .ping⟩ := by decide +kernel
/-- A sync read from two motors with the counting buffer, where the answer of the first has arrived. -/
def countingSync : SyncIterIn countingBuffer := ⟨countingBus (busWith (frame 1#8 [0x55#8, 0#8, 7#8])), 1#16, [1#8, 2#8], 0⟩

example (d : DataTy U16) := (c104_same_scope countingBuffer_lawful d (ω := Nat) 3).1 (.asks fun _ => .panics) countingSync
/-- It gives the answer of the first motor. -/
example : (match (SyncIterIn.nextBytes (ε := Empty) 1 countingSync).2 with
    | .ok (some (.ok r)) => some (r.motorId, r.alert, r.data)
    | _ => none) = some (1#8, false, [7#8]) := by decide +kernel

end Dxl.Props
