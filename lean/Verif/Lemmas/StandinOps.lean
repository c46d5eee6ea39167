import Verif.Lemmas.Standin
import Verif.Model.AnyClient

/-! # The methods of clients and devices, with any port and with a script -/

namespace Dxl
open Spec Props

/-- Not an error of the port. -/
def NotIo {α : Type} (o : Outcome ReadError α) : Prop := ∀ e, o ≠ .err (.io e)

theorem NotIo.bind {α β : Type} {o : Outcome ReadError α} {k : α → Outcome ReadError β} (ho : NotIo o) (hk : ∀ a, NotIo (k a)) :
    NotIo (o >>= k) := by
  cases o with
  | ok a => exact hk a
  | err e =>
    intro x hx
    refine ho x ?_
    cases hx
    rfl
  | panic => intro x hx; cases hx
  | hang => intro x hx; cases hx

theorem NotIo.pure {α : Type} (a : α) : NotIo (Pure.pure a) := fun _ h => by cases h

theorem NotIo.mapErr {ε α : Type} {g : ε → ReadError} {o : Outcome ε α} (h : ∀ x e, g x ≠ .io e) : NotIo (o.mapErr g) := by
  intro e he
  cases o with
  | err x =>
    simp only [Outcome.mapErr] at he
    exact h x e (by injection he)
  | ok a => cases he
  | panic => cases he
  | hang => cases he

theorem NotIo.idx (l : List Byte) (i : Nat) : NotIo (Dxl.idx l i) := by
  intro e h
  unfold Dxl.idx at h
  split at h <;> cases h

theorem NotIo.sliceFrom (l : List Byte) (i : Nat) : NotIo (Dxl.sliceFrom l i) := by
  intro e h
  unfold Dxl.sliceFrom slice at h
  split at h <;> cases h

theorem NotIo.asStatus (p : Packet) : NotIo p.asStatus := by
  unfold Packet.asStatus
  refine .bind (.idx _ _) fun i => ?_
  split <;> exact .pure _

theorem NotIo.checkStatus (p : Packet) : NotIo (Client.checkStatus p) := by
  unfold Client.checkStatus
  refine .bind (.asStatus p) fun s => ?_
  cases s with
  | none => exact .bind (.idx _ _) fun _ => fun e h => by cases h
  | some s => exact .bind (.idx _ _) fun _ => .bind (.mapErr fun _ _ h => by cases h) fun _ => .pure _

theorem NotIo.alert (s : StatusPacket) : NotIo s.alert := .bind (.idx _ _) fun _ => .pure _

theorem NotIo.decode {α : Type} (d : DataTy α) (s : StatusPacket) : NotIo (decodeStatusPacket d s) := by
  unfold decodeStatusPacket
  exact .bind (.idx _ _) fun _ => .bind (.mapErr fun _ _ h => by cases h) fun _ => .bind (.idx _ _) fun _ =>
    .bind (.alert s) fun _ => .bind (.sliceFrom _ _) fun _ => .bind (.mapErr fun _ _ h => by cases h) fun _ => .pure _

theorem NotIo.checkResponse (s : StatusPacket) (id : Byte) (count : U16) : NotIo (SyncIter.checkResponse s id count) := by
  unfold SyncIter.checkResponse
  exact .bind (.idx _ _) fun _ => .bind (.mapErr fun _ _ h => by cases h) fun _ => .bind (.sliceFrom _ _) fun _ =>
    .mapErr fun _ _ h => by cases h

variable {P : PortImpl} {L R : Type} {V : View P L R} {w : Nat} {α α' : Type}

theorem both_read {o : Outcome ReadError α} (h : NotIo o) : o = (o.mapErr BusOf.readError).both P.readErr (fun x => x) := by
  cases o with
  | err e =>
    cases e with
    | io e => exact absurd rfl (h e)
    | _ => rfl
  | _ => rfl

theorem both_transfer {o : Outcome ReadError α} (h : NotIo o) :
    o.mapErr TransferError.readError = (o.mapErr BusOf.transferError).both P.transferErr (fun x => x) := by
  cases o with
  | err e =>
    cases e with
    | io e => exact absurd rfl (h e)
    | _ => rfl
  | _ => rfl

theorem both_mapErr {ε ε₁ ε₂ : Type} {f : ε₁ → ε₂} {h : ε → ε₁} {h' : ε → ε₂} (o : Outcome ε α) (he : ∀ e, h' e = f (h e)) :
    o.mapErr h' = (o.mapErr h).both f (fun x => x) := by
  cases o with
  | err e => simp only [Outcome.mapErr, Outcome.both, he]
  | _ => rfl

theorem both_time {ε ε' : Type} (f : ε → ε') (size rate : Nat) :
    messageTransferTime (ε := ε') size rate = (messageTransferTime (ε := ε) size rate).both f (fun x => x) := by
  rcases transferTime_cases size rate with ⟨t, h⟩ | h
  · rw [h, h]; rfl
  · rw [h, h]; rfl

theorem both_idx {ε ε' : Type} (f : ε → ε') (l : List Byte) (i : Nat) :
    idx (ε := ε') l i = (idx (ε := ε) l i).both f (fun x => x) := by
  unfold idx
  split <;> rfl

theorem both_sliceFrom {ε ε' : Type} (f : ε → ε') (l : List Byte) (i : Nat) :
    sliceFrom (ε := ε') l i = (sliceFrom (ε := ε) l i).both f (fun x => x) := by
  unfold sliceFrom slice
  split <;> rfl

theorem both_asInstruction {ε ε' : Type} (f : ε → ε') (p : Packet) :
    p.asInstruction (ε := ε') = (p.asInstruction (ε := ε)).both f (fun x => x) := by
  unfold Packet.asInstruction Packet.instructionId
  rw [both_idx f]
  cases idx (ε := ε) p.data 7 with
  | ok i =>
    change (if i ≠ InstructionId.status then Pure.pure _ else Pure.pure _) =
      Outcome.both f _ (if i ≠ InstructionId.status then Pure.pure _ else Pure.pure _)
    split <;> rfl
  | _ => rfl

namespace BusOf

/-- Asking for a deadline. -/
theorem transfers_deadline (hP : P.Polite) {f : ReadErrorOf P.Error → ReadError} {g : α → α'} {timeout : Nat}
    {k : P.Instant → SO (BusOf P) (ReadErrorOf P.Error) α} {m' : SO Bus ReadError α'}
    (h : ∀ D, Transfers (busView P) w f g (k D) m') : Transfers (busView P) w f g (makeDeadline timeout >>= k) m' := by
  intro b hg hh
  have hd := hP.deadline timeout b.port
  have hrec : ∀ rec, P.Records rec → rec (P.makeDeadline timeout b.port).1 = rec b.port := fun rec hr => hr.deadline _ _
  have hm : makeDeadline timeout b = ({ b with port := (P.makeDeadline timeout b.port).1 },
      (P.makeDeadline timeout b.port).2.mapErr nofun) := rfl
  rw [SO.bind_def, hm] at hh ⊢
  rcases e : P.makeDeadline timeout b.port with ⟨p1, o⟩
  rw [e] at hd hh hrec
  cases o with
  | ok D =>
    simp only [Outcome.mapErr_ok] at hh ⊢
    obtain ⟨h1, t, h2, h3⟩ := h D ⟨p1, b.rest⟩ hg hh
    refine ⟨h1, t, fun rec hr => ?_, h3⟩
    rw [h2 rec hr]
    change rec p1 ++ _ = rec b.port ++ _
    rw [hrec rec hr]
  | err e => exact nomatch e
  | panic => exact absurd rfl hd
  | hang => exact absurd rfl hh

theorem transfers_setBaudRate (hP : P.Polite) (rate : Nat) :
    Transfers (busView P) w P.ioErr (fun x => x) (setBaudRate rate) (Bus.setBaudRate rate) := by
  intro b hg hh
  obtain ⟨p, r⟩ := b
  obtain ⟨hr, hw⟩ := hg
  have hb := hP.baud rate p
  have h1 : setBaudRate rate (⟨p, r⟩ : BusOf P) = match P.setBaudRate rate p with
      | (p', .ok ()) => (⟨p', { r with baudRate := rate }⟩, .ok ())
      | (p', .err e) => (⟨p', r⟩, .err e)
      | (p', .panic) => (⟨p', r⟩, .panic)
      | (p', .hang) => (⟨p', r⟩, .hang) := by
    unfold setBaudRate
    rw [SO.bind_def, onPort_apply]
    rcases P.setBaudRate rate p with ⟨p', o⟩
    cases o <;> rfl
  have h2 : ∀ d q' o, Port.setBaudRate rate d.serialPort = (q', o) → Bus.setBaudRate rate d =
      match o with
      | .ok () => ({ d.onto q' with baudRate := rate }, .ok ())
      | .err e => (d.onto q', .err e)
      | .panic => (d.onto q', .panic)
      | .hang => (d.onto q', .hang) := by
    intro d q' o ho
    unfold Bus.setBaudRate
    rw [SO.bind_def, Bus.onPort_apply, ho]
    cases o <;> rfl
  rw [h1] at hh ⊢
  have hrecOk : ∀ rec, P.Records rec → _ := fun rec h => h.baud_ok rate p
  have hrecErr : ∀ rec, P.Records rec → _ := fun rec h => h.baud_err rate p
  rcases e : P.setBaudRate rate p with ⟨p', o⟩
  rw [e] at hb hh hrecOk hrecErr
  cases o with
  | ok _ =>
    refine ⟨⟨⟨hr.1, hr.2⟩, hw⟩, [.setBaud rate none], fun rec h => hrecOk rec h rfl, fun d es hd hsc => ?_⟩
    obtain ⟨q', k1, k2, k3⟩ := scripted_baud hsc
    change Port.setBaudRate rate d.serialPort = _ at k1
    rw [h2 d _ _ k1]
    exact ⟨rfl, ⟨⟨hd.rInv.1, hd.rInv.2⟩, hd.pending, ⟨hd.like.1, hd.like.2, rfl, hd.like.4⟩⟩, k2, k3⟩
  | err x =>
    refine ⟨⟨⟨hr.1, hr.2⟩, hw⟩, [.setBaud rate (some (P.ioErr x))], fun rec h => hrecErr rec h x rfl, fun d es hd hsc => ?_⟩
    obtain ⟨q', k1, k2, k3⟩ := scripted_baud hsc
    change Port.setBaudRate rate d.serialPort = _ at k1
    rw [h2 d _ _ k1]
    exact ⟨rfl, ⟨⟨hd.rInv.1, hd.rInv.2⟩, hd.pending, ⟨hd.like.1, hd.like.2, hd.like.3, hd.like.4⟩⟩, k2, k3⟩
  | panic => exact absurd rfl hb
  | hang => exact absurd rfl hh

theorem transfers_writeStatus (hP : P.Polite) (id error : Byte) (n : Nat) (enc : Encoder) :
    Transfers (busView P) w P.writeErr (fun x => x) (writeStatus id error n enc) (Bus.writeStatus id error n enc) := by
  unfold writeStatus Bus.writeStatus
  refine Transfers.get (V := busView P) (fun b => b.rest.writeBuffer.length) (fun b => b.writeBuffer.length)
    (k := fun x => do
      SO.lift ((BufferTooSmall.check (StatusPacket.messageLen n) x).mapErr .bufferTooSmall)
      writePacket id InstructionId.status (n + 1) (Bus.statusEncoder error enc))
    (k' := fun x => do
      SO.lift ((BufferTooSmall.check (StatusPacket.messageLen n) x).mapErr .bufferTooSmall)
      Bus.writePacket id InstructionId.status (n + 1) (Bus.statusEncoder error enc))
    (fun s s' h => by rw [h.like.writeBuffer]) fun x => ?_
  exact Transfers.bind (g := fun x => x) (.lift (both_mapErr _ fun _ => rfl)) fun _ => transfers_write hP w _ _ _ _

theorem transfers_statusTimeout (hP : P.Polite) (timeout fuel : Nat) :
    Transfers (busView P) w P.readErr (fun x => x) (readStatusResponseTimeout w timeout fuel)
      (Client.readStatusResponseTimeout timeout) := by
  unfold readStatusResponseTimeout
  refine transfers_deadline hP fun D => ?_
  refine Transfers.congr (m' := Bus.readPacketDeadline timeout >>= fun p => SO.lift (Client.checkStatus p))
    (Transfers.bind (transfers_read hP w D timeout fuel) fun p => .lift (both_read (.checkStatus p))) ?_
  intro s s' es hrel hsc _
  unfold Client.readStatusResponseTimeout
  rw [SO.get_bind]
  have : s'.serialPort.makeDeadline timeout = timeout := by
    have := hsc.now
    change s'.serialPort.now = 0 at this
    simp [Port.makeDeadline, this]
  rw [this]

theorem transfers_status (hP : P.Polite) (expected : U16) (fuel : Nat) :
    Transfers (busView P) w P.readErr (fun x => x) (readStatusResponse w expected fuel) (Client.readStatusResponse expected) := by
  unfold readStatusResponse Client.readStatusResponse
  refine Transfers.get (V := busView P) (fun b => b.rest.baudRate) (fun b => b.baudRate)
    (k := fun x => do
      let time ← SO.lift (messageTransferTime (StatusPacket.messageLen expected.toNat % 2 ^ 32) x)
      readStatusResponseTimeout w (time + Client.flatTimeout) fuel)
    (k' := fun x => do
      let time ← SO.lift (messageTransferTime (StatusPacket.messageLen expected.toNat % 2 ^ 32) x)
      Client.readStatusResponseTimeout (time + Client.flatTimeout))
    (fun s s' h => by rw [h.like.baudRate]) fun x => ?_
  exact Transfers.bind (g := fun x => x) (.lift (both_time _ _ _)) fun t => transfers_statusTimeout hP _ _

theorem transfers_instruction (hP : P.Polite) (id instr : Byte) (n : Nat) (enc : Encoder) :
    Transfers (busView P) w P.transferErr (fun x => x) ((writePacket id instr n enc).mapErr .writeError)
      ((Client.writeInstruction id instr n enc).mapErr .writeError) :=
  Transfers.mapErr (transfers_write hP w id instr n enc) fun _ => rfl

theorem transfers_single (hP : P.Polite) (id instr : Byte) (n : Nat) (expected : U16) (enc : Encoder) (fuel : Nat) :
    Transfers (busView P) w P.transferErr (fun x => x) (transferSingle w id instr n expected enc fuel)
      (Client.transferSingle id instr n expected enc) := by
  unfold transferSingle Client.transferSingle
  refine Transfers.bind (transfers_instruction hP _ _ _ _) fun _ =>
    Transfers.bind (Transfers.mapErr (transfers_status hP _ _) fun _ => rfl) fun s =>
    Transfers.bind (g := fun x => x) (.lift (both_idx _ _ _)) fun a =>
    Transfers.bind (g := fun x => x) (.lift (both_mapErr _ fun _ => rfl)) fun _ => .pure s

theorem transfers_ifNotBroadcast (hP : P.Polite) (id : Byte) (fuel : Nat) :
    Transfers (busView P) w P.readErr (fun x => x) (readResponseIfNotBroadcast w id fuel) (Client.readResponseIfNotBroadcast id) := by
  unfold readResponseIfNotBroadcast Client.readResponseIfNotBroadcast
  split
  · exact .pure _
  · exact Transfers.bind (transfers_status hP _ _) fun s => .lift (both_mapErr _ fun _ => rfl)

theorem transfers_instruct (hP : P.Polite) (id instr : Byte) (n : Nat) (enc : Encoder) (fuel : Nat) :
    Transfers (busView P) w P.transferErr (fun x => x) (instruct w id instr n enc fuel) (Client.instruct id instr n enc) := by
  unfold instruct Client.instruct
  exact Transfers.bind (transfers_instruction hP _ _ _ _) fun _ =>
    Transfers.mapErr (transfers_ifNotBroadcast hP _ _) fun _ => rfl

theorem transfers_readRaw (hP : P.Polite) (id : Byte) (address count : U16) (fuel : Nat) :
    Transfers (busView P) w P.transferErr (fun x => x) (readRaw w id address count fuel) (Client.readRaw id address count) := by
  unfold readRaw Client.readRaw
  exact Transfers.bind (transfers_single hP _ _ _ _ _ _) fun s =>
    Transfers.bind (g := fun x => x) (.lift (both_sliceFrom _ _ _)) fun a =>
    Transfers.bind (g := fun x => x) (.lift (both_mapErr _ fun _ => rfl)) fun _ => .pure s

theorem transfers_readBytes (hP : P.Polite) (id : Byte) (address count : U16) (fuel : Nat) :
    Transfers (busView P) w P.transferErr (fun x => x) (readBytes w id address count fuel) (Client.readBytes id address count) := by
  unfold readBytes Client.readBytes
  exact Transfers.bind (transfers_readRaw hP _ _ _ _) fun s => .lift (both_mapErr _ fun _ => rfl)

theorem transfers_readData (hP : P.Polite) (d : DataTy α) (id : Byte) (address : U16) (fuel : Nat) :
    Transfers (busView P) w P.transferErr (fun x => x) (read w d id address fuel) (Client.read d id address) := by
  unfold read Client.read
  exact Transfers.bind (transfers_readRaw hP _ _ _ _) fun s => .lift (both_transfer (.decode d s))

theorem transfers_ping (hP : P.Polite) (id : Byte) (fuel : Nat) :
    Transfers (busView P) w P.transferErr (fun x => x) (ping w id fuel) (Client.ping id) := by
  unfold ping Client.ping
  exact Transfers.bind (transfers_single hP _ _ _ _ _ _) fun s => .lift (both_mapErr _ fun _ => rfl)

theorem transfers_scanNextResponse (hP : P.Polite) (fuel : Nat) :
    Transfers (busView P) w P.readErr (fun x => x) (scanNextResponse w fuel) Client.scanNextResponse := by
  unfold scanNextResponse Client.scanNextResponse
  refine Transfers.get (V := busView P) (fun b => b.rest.baudRate) (fun b => b.baudRate)
    (k := fun x => do
      let responseTime ← SO.lift (messageTransferTime 14 x)
      let response ← readStatusResponseTimeout w (responseTime * 253 + Client.flatTimeout) fuel
      SO.lift ((Client.toPingResponse response).mapErr .invalidMessage))
    (k' := fun x => do
      let responseTime ← SO.lift (messageTransferTime 14 x)
      let response ← Client.readStatusResponseTimeout (responseTime * 253 + Client.flatTimeout)
      SO.lift ((Client.toPingResponse response).mapErr .invalidMessage))
    (fun s s' h => by rw [h.like.baudRate]) fun x => ?_
  exact Transfers.bind (g := fun x => x) (.lift (both_time _ _ _)) fun t =>
    Transfers.bind (transfers_statusTimeout hP _ _) fun s => .lift (both_mapErr _ fun _ => rfl)

theorem transfers_scanNext (hP : P.Polite) (fuel : Nat) {ε : Type} :
    Transfers (ε := ε) (ε' := ε) (busView P) w (fun x => x) P.item (scanNext w fuel) Client.scanNext := by
  unfold scanNext Client.scanNext
  refine Transfers.bind (transfers_scanNextResponse hP fuel).attempt fun r => ?_
  cases r with
  | ok a => exact .pure (some (Except.ok a))
  | error e =>
    cases e with
    | io e =>
      simp only [PortImpl.readErr, PortImpl.ioErr]
      by_cases ht : P.isTimeoutError e = true
      · simp only [ht, if_true, IoErr.isTimeout]
        exact .pure none
      · simp only [ht, IoErr.isTimeout]
        have := Transfers.pure (V := busView P) (w := w) (f := fun x : ε => x) (g := P.item (α := Response Client.Ping))
          (some (.error (.io e)))
        simpa [PortImpl.item, PortImpl.readErr, PortImpl.ioErr, ht] using this
    | bufferFull e => exact .pure (some (Except.error (ReadErrorOf.bufferFull e)))
    | invalidMessage e => exact .pure (some (Except.error (ReadErrorOf.invalidMessage e)))
    | motorError e => exact .pure (some (Except.error (ReadErrorOf.motorError e)))

theorem transfers_scanDrop (hP : P.Polite) (fuel : Nat) {ε : Type} (n : Nat) :
    Transfers (ε := ε) (ε' := ε) (busView P) w (fun x => x) (fun x => x) (scanDrop w fuel n) (Client.scanDrop n) := by
  induction n with
  | zero => exact .hang
  | succ n ih =>
    unfold scanDrop Client.scanDrop
    refine Transfers.bind (transfers_scanNext hP fuel) fun r => ?_
    cases r with
    | none => exact .pure ()
    | some r =>
      cases r with
      | ok a => exact ih
      | error e => exact ih

theorem transfers_bulkRead (hP : P.Polite) (reads : List BulkReadData) :
    Transfers (busView P) w P.writeErr (fun x => x) (bulkReadBytes reads) (Client.bulkReadBytes reads) := by
  unfold bulkReadBytes Client.bulkReadBytes
  split
  · exact .panic
  · exact transfers_write hP w _ _ _ _

theorem both_bulkCount {ε ε' : Type} (f : ε → ε') (l : List BulkWriteData) : ∀ n,
    Client.bulkWriteCount (ε := ε') l n = (Client.bulkWriteCount (ε := ε) l n).both f (fun x => x) := by
  induction l with
  | nil => intro n; rfl
  | cons a l ih =>
    intro n
    unfold Client.bulkWriteCount
    split
    · rfl
    · exact ih _

theorem transfers_bulkWrite (hP : P.Polite) (writes : List BulkWriteData) :
    Transfers (busView P) w P.writeErr (fun x => x) (bulkWrite writes) (Client.bulkWrite writes) := by
  unfold bulkWrite Client.bulkWrite
  exact Transfers.bind (g := fun x => x) (.lift (both_bulkCount _ _ _)) fun n => transfers_write hP w _ _ _ _

theorem transfers_rawLoop (hP : P.Polite) (D : P.Instant) (E fuel n : Nat) :
    Transfers (busView P) w P.readErr (fun x => x) (readRawLoop w D fuel n) (Device.readRawLoop E n) := by
  induction n with
  | zero => exact .hang
  | succ n ih =>
    unfold readRawLoop Device.readRawLoop
    refine Transfers.bind (transfers_read hP w D E fuel) fun p =>
      Transfers.bind (g := fun x => x) (.lift (both_asInstruction _ _)) fun i => ?_
    cases i with
    | some i => exact .pure i
    | none => exact ih

theorem rawLoop_mono_step (E : Nat) (n : Nat) : ∀ b : Bus,
    (Device.readRawLoop E n b).2 ≠ .hang → Device.readRawLoop E (n + 1) b = Device.readRawLoop E n b := by
  induction n with
  | zero => intro b h; exact absurd rfl h
  | succ n ih =>
    intro b h
    rw [Device.readRawLoop] at h
    rw [Device.readRawLoop, Device.readRawLoop]
    rw [SO.bind_def] at h
    rw [SO.bind_def, SO.bind_def]
    rcases hg : Bus.readPacketDeadline E b with ⟨b1, o1⟩
    rw [hg] at h
    cases o1 with
    | ok p =>
      simp only at h ⊢
      rw [SO.bind_def] at h
      rw [SO.bind_def, SO.bind_def]
      rcases hi : (SO.lift p.asInstruction : SO Bus ReadError _) b1 with ⟨b2, o2⟩
      rw [hi] at h
      cases o2 with
      | ok i =>
        cases i with
        | some i => rfl
        | none => exact ih b2 h
      | _ => rfl
    | _ => rfl

theorem rawLoop_mono (E : Nat) {n m : Nat} (hnm : n ≤ m) {b : Bus} (h : (Device.readRawLoop E n b).2 ≠ .hang) :
    Device.readRawLoop E m b = Device.readRawLoop E n b := by
  obtain ⟨k, rfl⟩ := Nat.le.dest hnm
  induction k with
  | zero => rfl
  | succ k ih =>
    have hk := ih (by omega)
    rw [show n + (k + 1) = n + k + 1 from rfl, rawLoop_mono_step E _ b (by rw [hk]; exact h), hk]

theorem transfers_raw (hP : P.Polite) (timeout fuel : Nat) :
    Transfers (busView P) w P.readErr (fun x => x) (readRawInstructionTimeout w timeout fuel)
      (Device.readRawInstructionTimeout timeout) := by
  unfold readRawInstructionTimeout
  refine transfers_deadline hP fun D => (transfers_rawLoop hP D timeout fuel fuel).congr ?_
  intro s s' es hrel hsc hne
  have hd : s'.serialPort.makeDeadline timeout = timeout := by
    have := hsc.now
    change s'.serialPort.now = 0 at this
    simp [Port.makeDeadline, this]
  have ht := (c26_terminates timeout hrel.rInv).1
  unfold Device.readRawInstructionTimeout at ht ⊢
  rw [SO.get_bind, hd] at ht ⊢
  by_cases h : fuel ≤ s'.readLen + s'.serialPort.measure + 1
  · exact rawLoop_mono timeout h hne
  · exact (rawLoop_mono timeout (by omega) ht).symm

theorem transfers_deviceRead (hP : P.Polite) (timeout fuel : Nat) :
    Transfers (busView P) w P.readErr (fun x => x) (deviceRead w timeout fuel) (Device.read timeout) := by
  unfold deviceRead Device.read
  exact Transfers.bind (transfers_raw hP _ _) fun p => .lift (both_mapErr _ fun _ => rfl)

theorem transfers_deviceReadOwned (hP : P.Polite) (timeout fuel : Nat) :
    Transfers (busView P) w P.readErr (fun x => x) (deviceReadOwned w timeout fuel) (Device.readOwned timeout) := by
  unfold deviceReadOwned Device.readOwned
  exact Transfers.bind (transfers_raw hP _ _) fun p => .lift (both_mapErr _ fun _ => rfl)

end BusOf

/-- Iterators of synchronous reads. -/
def syncView (P : PortImpl) : View P (SyncIterOf P) SyncIter where
  good := fun w s => (busView P).good w s.client
  rel := fun s s' => Bus.Alike s.client.rest s'.client ∧ s'.count = s.count ∧ s'.motorIds = s.motorIds ∧ s'.index = s.index
  leftPort := fun s => s.client.port
  rightPort := fun s => s.client.serialPort

namespace SyncIterOf

theorem transfers_client {ε ε' β β' : Type} {f : ε → ε'} {g : β → β'} {m : SO (BusOf P) ε β} {m' : SO Bus ε' β'}
    (h : Transfers (busView P) w f g m m') : Transfers (syncView P) w f g (onClient m) (SyncIter.onClient m') := by
  intro s hs hh
  obtain ⟨h1, t, h2, h3⟩ := h s.client hs hh
  refine ⟨h1, t, h2, fun s' es hrel hsc => ?_⟩
  obtain ⟨j1, j2, j3, j4⟩ := h3 s'.client es hrel.1 hsc
  exact ⟨j1, ⟨j2, hrel.2⟩, j3, j4⟩

theorem transfers_pop {ε ε' : Type} {f : ε → ε'} :
    Transfers (syncView P) w f (fun x => x) popMotorId SyncIter.popMotorId := by
  intro s hs hh
  unfold popMotorId at hh ⊢
  cases e : s.motorIds[s.index]? with
  | none =>
    refine ⟨hs, [], fun _ _ => by simp, fun s' es hrel hsc => ?_⟩
    have : SyncIter.popMotorId (ε := ε') s' = (s', .ok none) := by
      unfold SyncIter.popMotorId
      rw [hrel.2.2.1, hrel.2.2.2, e]
    rw [this]
    exact ⟨rfl, hrel, hsc, by simp [callsOf]⟩
  | some id =>
    refine ⟨hs, [], fun _ _ => by simp [syncView], fun s' es hrel hsc => ?_⟩
    have : SyncIter.popMotorId (ε := ε') s' = ({ s' with index := s'.index + 1 }, .ok (some id)) := by
      unfold SyncIter.popMotorId
      rw [hrel.2.2.1, hrel.2.2.2, e]
    rw [this]
    refine ⟨rfl, ⟨hrel.1, hrel.2.1, hrel.2.2.1, ?_⟩, hsc, by simp [callsOf, syncView]⟩
    simp only [hrel.2.2.2]

theorem transfers_nextResponseBytes (hP : P.Polite) (id : Byte) (fuel : Nat) :
    Transfers (syncView P) w P.readErr (fun x => x) (nextResponseBytes w id fuel) (SyncIter.nextResponseBytes id) := by
  unfold nextResponseBytes SyncIter.nextResponseBytes
  refine Transfers.get (V := syncView P) (fun s => s.count) (fun s => s.count)
    (k := fun x => do
      let response ← onClient (BusOf.readStatusResponse w x fuel)
      SO.lift ((SyncIter.checkResponse response id x).mapErr BusOf.readError)
      SO.lift ((decodeStatusPacketBytes response).mapErr .motorError))
    (k' := fun x => do
      let response ← SyncIter.onClient (Client.readStatusResponse x)
      SO.lift (SyncIter.checkResponse response id x)
      SO.lift ((decodeStatusPacketBytes response).mapErr .motorError))
    (fun s s' h => h.2.1) fun x => ?_
  exact Transfers.bind (transfers_client (BusOf.transfers_status hP _ _)) fun s =>
    Transfers.bind (g := fun x => x) (.lift (both_read (.checkResponse _ _ _))) fun _ => .lift (both_mapErr _ fun _ => rfl)

theorem transfers_nextResponse (hP : P.Polite) (d : DataTy α) (id : Byte) (fuel : Nat) :
    Transfers (syncView P) w P.readErr (fun x => x) (nextResponse w d id fuel) (SyncIter.nextResponse d id) := by
  unfold nextResponse SyncIter.nextResponse
  exact Transfers.bind (transfers_client (BusOf.transfers_status hP _ _)) fun s =>
    Transfers.bind (g := fun x => x) (.lift (both_read (.checkResponse _ _ _))) fun _ => .lift (both_read (.decode d s))

theorem transfers_nextBytes (hP : P.Polite) (fuel : Nat) {ε : Type} :
    Transfers (ε := ε) (ε' := ε) (syncView P) w (fun x => x) P.item (nextBytes w fuel) SyncIter.nextBytes := by
  unfold nextBytes SyncIter.nextBytes
  refine Transfers.bind transfers_pop fun o => ?_
  cases o with
  | none => exact .pure none
  | some id => exact Transfers.bind (transfers_nextResponseBytes hP id fuel).attempt fun r => by cases r <;> exact .pure (some _)

theorem transfers_next (hP : P.Polite) (d : DataTy α) (fuel : Nat) {ε : Type} :
    Transfers (ε := ε) (ε' := ε) (syncView P) w (fun x => x) P.item (next w d fuel) (SyncIter.next d) := by
  unfold next SyncIter.next
  refine Transfers.bind transfers_pop fun o => ?_
  cases o with
  | none => exact .pure none
  | some id => exact Transfers.bind (transfers_nextResponse hP d id fuel).attempt fun r => by cases r <;> exact .pure (some _)

theorem transfers_dropBytes (hP : P.Polite) (fuel : Nat) {ε : Type} (n : Nat) :
    Transfers (ε := ε) (ε' := ε) (syncView P) w (fun x => x) (fun x => x) (dropBytes w fuel n) (SyncIter.dropBytes n) := by
  induction n with
  | zero => exact .hang
  | succ n ih =>
    unfold dropBytes SyncIter.dropBytes
    refine Transfers.bind transfers_pop fun o => ?_
    cases o with
    | none => exact .pure ()
    | some id =>
      refine Transfers.get (V := syncView P) (fun s => s.count) (fun s => s.count)
        (k := fun x => do
          let _ ← (onClient (BusOf.readStatusResponse w x fuel)).attempt
          dropBytes w fuel n)
        (k' := fun x => do
          let _ ← (SyncIter.onClient (Client.readStatusResponse x)).attempt
          SyncIter.dropBytes n)
        (fun s s' h => h.2.1) fun x => ?_
      exact Transfers.bind (transfers_client (BusOf.transfers_status hP _ _)).attempt fun _ => ih

theorem transfers_drop (hP : P.Polite) (d : DataTy α) (fuel : Nat) {ε : Type} (n : Nat) :
    Transfers (ε := ε) (ε' := ε) (syncView P) w (fun x => x) (fun x => x) (drop w d fuel n) (SyncIter.drop d n) := by
  induction n with
  | zero => exact .hang
  | succ n ih =>
    unfold drop SyncIter.drop
    refine Transfers.bind (transfers_next hP d fuel) fun r => ?_
    cases r with
    | none => exact .pure ()
    | some r =>
      cases r with
      | ok a => exact ih
      | error e => exact ih

end SyncIterOf

/-- Iterators of bulk reads. -/
def bulkView (P : PortImpl) : View P (BulkIterOf P) BulkIter where
  good := fun w s => (busView P).good w s.client
  rel := fun s s' => Bus.Alike s.client.rest s'.client ∧ s'.reads = s.reads ∧ s'.index = s.index
  leftPort := fun s => s.client.port
  rightPort := fun s => s.client.serialPort

namespace BulkIterOf

theorem transfers_client {ε ε' β β' : Type} {f : ε → ε'} {g : β → β'} {m : SO (BusOf P) ε β} {m' : SO Bus ε' β'}
    (h : Transfers (busView P) w f g m m') : Transfers (bulkView P) w f g (onClient m) (BulkIter.onClient m') := by
  intro s hs hh
  obtain ⟨h1, t, h2, h3⟩ := h s.client hs hh
  refine ⟨h1, t, h2, fun s' es hrel hsc => ?_⟩
  obtain ⟨j1, j2, j3, j4⟩ := h3 s'.client es hrel.1 hsc
  exact ⟨j1, ⟨j2, hrel.2⟩, j3, j4⟩

theorem transfers_pop {ε ε' : Type} {f : ε → ε'} : Transfers (bulkView P) w f (fun x => x) pop BulkIter.pop := by
  intro s hs hh
  unfold pop at hh ⊢
  cases e : s.reads[s.index]? with
  | none =>
    refine ⟨hs, [], fun _ _ => by simp, fun s' es hrel hsc => ?_⟩
    have : BulkIter.pop (ε := ε') s' = (s', .ok none) := by
      unfold BulkIter.pop
      rw [hrel.2.1, hrel.2.2, e]
    rw [this]
    exact ⟨rfl, hrel, hsc, by simp [callsOf]⟩
  | some id =>
    refine ⟨hs, [], fun _ _ => by simp [bulkView], fun s' es hrel hsc => ?_⟩
    have : BulkIter.pop (ε := ε') s' = ({ s' with index := s'.index + 1 }, .ok (some id)) := by
      unfold BulkIter.pop
      rw [hrel.2.1, hrel.2.2, e]
    rw [this]
    refine ⟨rfl, ⟨hrel.1, hrel.2.1, ?_⟩, hsc, by simp [callsOf, bulkView]⟩
    simp only [hrel.2.2]

theorem transfers_nextResponse (hP : P.Polite) (id : Byte) (count : U16) (fuel : Nat) :
    Transfers (bulkView P) w P.readErr (fun x => x) (nextResponse w id count fuel) (BulkIter.nextResponse id count) := by
  unfold nextResponse BulkIter.nextResponse
  exact Transfers.bind (transfers_client (BusOf.transfers_status hP _ _)) fun s =>
    Transfers.bind (g := fun x => x) (.lift (both_read (.checkResponse _ _ _))) fun _ => .lift (both_mapErr _ fun _ => rfl)

theorem transfers_next (hP : P.Polite) (fuel : Nat) {ε : Type} :
    Transfers (ε := ε) (ε' := ε) (bulkView P) w (fun x => x) P.item (next w fuel) BulkIter.next := by
  unfold next BulkIter.next
  refine Transfers.bind transfers_pop fun o => ?_
  cases o with
  | none => exact .pure none
  | some r => exact Transfers.bind (transfers_nextResponse hP r.motorId r.count fuel).attempt fun r => by cases r <;> exact .pure (some _)

theorem transfers_dropLoop (hP : P.Polite) (fuel : Nat) {ε : Type} (l : List BulkReadData) :
    Transfers (ε := ε) (ε' := ε) (bulkView P) w (fun x => x) (fun x => x) (dropLoop w fuel l) (BulkIter.dropLoop l) := by
  induction l with
  | nil => exact .pure ()
  | cons r l ih =>
    unfold dropLoop BulkIter.dropLoop
    exact Transfers.bind (transfers_client (BusOf.transfers_status hP _ _)).attempt fun _ => ih

theorem transfers_drop (hP : P.Polite) (fuel : Nat) {ε : Type} :
    Transfers (ε := ε) (ε' := ε) (bulkView P) w (fun x => x) (fun x => x) (drop w fuel) BulkIter.drop := by
  unfold drop BulkIter.drop
  refine Transfers.get (V := bulkView P) (fun s => (s.index, s.reads)) (fun s => (s.index, s.reads))
    (k := fun x => if x.1 ≤ x.2.length then dropLoop w fuel (x.2.drop x.1) else SO.panic)
    (k' := fun x => if x.1 ≤ x.2.length then BulkIter.dropLoop (x.2.drop x.1) else SO.panic)
    (fun s s' h => by rw [h.2.1, h.2.2]) fun x => ?_
  split
  · exact transfers_dropLoop hP fuel _
  · exact .panic

end BulkIterOf
end Dxl
