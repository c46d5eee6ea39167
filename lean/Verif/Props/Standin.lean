import Verif.Lemmas.StandinOps
import Verif.Props.Response
import Verif.Props.Layout
import Verif.Props.History

/-! # C84: what is proved with script ports holds with every port that does not panic or claim too much -/

namespace Dxl.Props
open Dxl Spec

variable {P : PortImpl}

/-- Use an iterator over responses to a synchronous read, made of the client; also gives its new index. -/
def overSync {ε α : Type} (count : U16) (ids : List Byte) (index : Nat) (m : SO (SyncIterOf P) ε α) : SO (BusOf P) ε (α × Nat) :=
  fun b => ((m ⟨b, count, ids, index⟩).1.client,
    (m ⟨b, count, ids, index⟩).2.both (fun e => e) fun a => (a, (m ⟨b, count, ids, index⟩).1.index))

/-- The same with a script port. -/
def overSyncScript {ε α : Type} (count : U16) (ids : List Byte) (index : Nat) (m : SO SyncIter ε α) : SO Bus ε (α × Nat) :=
  fun b => ((m ⟨b, count, ids, index⟩).1.client,
    (m ⟨b, count, ids, index⟩).2.both (fun e => e) fun a => (a, (m ⟨b, count, ids, index⟩).1.index))

/-- Use an iterator over responses to a bulk read. -/
def overBulk {ε α : Type} (reads : List BulkReadData) (index : Nat) (m : SO (BulkIterOf P) ε α) : SO (BusOf P) ε (α × Nat) :=
  fun b => ((m ⟨b, reads, index⟩).1.client,
    (m ⟨b, reads, index⟩).2.both (fun e => e) fun a => (a, (m ⟨b, reads, index⟩).1.index))

/-- The same with a script port. -/
def overBulkScript {ε α : Type} (reads : List BulkReadData) (index : Nat) (m : SO BulkIter ε α) : SO Bus ε (α × Nat) :=
  fun b => ((m ⟨b, reads, index⟩).1.client,
    (m ⟨b, reads, index⟩).2.both (fun e => e) fun a => (a, (m ⟨b, reads, index⟩).1.index))

/-- The methods of `Client`, `Device` and the iterators: with any port, and with a script port. -/
inductive SameMethod (P : PortImpl) (w fuel : Nat) :
    {ε ε' α α' : Type} → SO (BusOf P) ε α → SO Bus ε' α' → (ε → ε') → (α → α') → Prop
  | setBaudRate (rate) : SameMethod P w fuel (BusOf.setBaudRate rate) (Client.setBaudRate rate) P.ioErr fun x => x
  | deviceSetBaudRate (rate) : SameMethod P w fuel (BusOf.setBaudRate rate) (Device.setBaudRate rate) P.ioErr fun x => x
  | writeInstruction (id instr n enc) :
      SameMethod P w fuel (BusOf.writePacket id instr n enc) (Client.writeInstruction id instr n enc) P.writeErr fun x => x
  | transferSingle (id instr n expected enc) :
      SameMethod P w fuel (BusOf.transferSingle w id instr n expected enc fuel) (Client.transferSingle id instr n expected enc)
        P.transferErr fun x => x
  | readStatusResponseTimeout (timeout) :
      SameMethod P w fuel (BusOf.readStatusResponseTimeout w timeout fuel) (Client.readStatusResponseTimeout timeout)
        P.readErr fun x => x
  | readStatusResponse (expected) :
      SameMethod P w fuel (BusOf.readStatusResponse w expected fuel) (Client.readStatusResponse expected) P.readErr fun x => x
  | action (id) : SameMethod P w fuel (BusOf.action w id fuel) (Client.action id) P.transferErr fun x => x
  | broadcastAction : SameMethod P w fuel BusOf.broadcastAction Client.broadcastAction P.writeErr fun x => x
  | reboot (id) : SameMethod P w fuel (BusOf.reboot w id fuel) (Client.reboot id) P.transferErr fun x => x
  | broadcastReboot : SameMethod P w fuel BusOf.broadcastReboot Client.broadcastReboot P.writeErr fun x => x
  | clearRevolutionCounter (id) :
      SameMethod P w fuel (BusOf.clearRevolutionCounter w id fuel) (Client.clearRevolutionCounter id) P.transferErr fun x => x
  | broadcastClearRevolutionCounter :
      SameMethod P w fuel BusOf.broadcastClearRevolutionCounter Client.broadcastClearRevolutionCounter P.writeErr fun x => x
  | clearError (id) : SameMethod P w fuel (BusOf.clearError w id fuel) (Client.clearError id) P.transferErr fun x => x
  | broadcastClearError : SameMethod P w fuel BusOf.broadcastClearError Client.broadcastClearError P.writeErr fun x => x
  | factoryReset (id kind) :
      SameMethod P w fuel (BusOf.factoryReset w id kind fuel) (Client.factoryReset id kind) P.transferErr fun x => x
  | broadcastFactoryReset (kind) :
      SameMethod P w fuel (BusOf.broadcastFactoryReset kind) (Client.broadcastFactoryReset kind) P.writeErr fun x => x
  | readRaw (id address count) :
      SameMethod P w fuel (BusOf.readRaw w id address count fuel) (Client.readRaw id address count) P.transferErr fun x => x
  | readBytes (id address count) :
      SameMethod P w fuel (BusOf.readBytes w id address count fuel) (Client.readBytes id address count) P.transferErr fun x => x
  | read {α : Type} (d : DataTy α) (id address) :
      SameMethod P w fuel (BusOf.read w d id address fuel) (Client.read d id address) P.transferErr fun x => x
  | write {α : Type} (d : DataTy α) (id address) (value : α) :
      SameMethod P w fuel (BusOf.write w d id address value fuel) (Client.write d id address value) P.transferErr fun x => x
  | writeBytes (id address data) :
      SameMethod P w fuel (BusOf.writeBytes w id address data fuel) (Client.writeBytes id address data) P.transferErr fun x => x
  | regWrite {α : Type} (d : DataTy α) (id address) (value : α) :
      SameMethod P w fuel (BusOf.regWrite w d id address value fuel) (Client.regWrite d id address value) P.transferErr
        fun x => x
  | regWriteBytes (id address data) :
      SameMethod P w fuel (BusOf.regWriteBytes w id address data fuel) (Client.regWriteBytes id address data) P.transferErr
        fun x => x
  | ping (id) : SameMethod P w fuel (BusOf.ping w id fuel) (Client.ping id) P.transferErr fun x => x
  | scan : SameMethod P w fuel BusOf.scan Client.scan P.writeErr fun x => x
  | scanNext : SameMethod P w fuel (BusOf.scanNext (ε := Empty) w fuel) (Client.scanNext (ε := Empty)) (fun e => e) P.item
  | scanDrop (n) : SameMethod P w fuel (BusOf.scanDrop (ε := Empty) w fuel n) (Client.scanDrop (ε := Empty) n) (fun e => e)
      fun x => x
  | syncReadBytes (ids address count) :
      SameMethod P w fuel (BusOf.syncReadBytes ids address count) (Client.syncReadBytes ids address count) P.writeErr fun x => x
  | syncRead {α : Type} (d : DataTy α) (ids address) :
      SameMethod P w fuel (BusOf.syncRead d ids address) (Client.syncRead d ids address) P.writeErr fun x => x
  | syncNextBytes (count ids index) :
      SameMethod P w fuel (overSync count ids index (SyncIterOf.nextBytes (ε := Empty) w fuel))
        (overSyncScript count ids index (SyncIter.nextBytes (ε := Empty))) (fun e => e) fun x => (P.item x.1, x.2)
  | syncNext {α : Type} (d : DataTy α) (ids index) :
      SameMethod P w fuel (overSync d.size ids index (SyncIterOf.next (ε := Empty) w d fuel))
        (overSyncScript d.size ids index (SyncIter.next (ε := Empty) d)) (fun e => e) fun x => (P.item x.1, x.2)
  | syncDropBytes (count ids index n) :
      SameMethod P w fuel (overSync count ids index (SyncIterOf.dropBytes (ε := Empty) w fuel n))
        (overSyncScript count ids index (SyncIter.dropBytes (ε := Empty) n)) (fun e => e) fun x => x
  | syncDrop {α : Type} (d : DataTy α) (ids index n) :
      SameMethod P w fuel (overSync d.size ids index (SyncIterOf.drop (ε := Empty) w d fuel n))
        (overSyncScript d.size ids index (SyncIter.drop (ε := Empty) d n)) (fun e => e) fun x => x
  | bulkReadBytes (reads) : SameMethod P w fuel (BusOf.bulkReadBytes reads) (Client.bulkReadBytes reads) P.writeErr fun x => x
  | bulkNext (reads index) :
      SameMethod P w fuel (overBulk reads index (BulkIterOf.next (ε := Empty) w fuel))
        (overBulkScript reads index (BulkIter.next (ε := Empty))) (fun e => e) fun x => (P.item x.1, x.2)
  | bulkDrop (reads index) :
      SameMethod P w fuel (overBulk reads index (BulkIterOf.drop (ε := Empty) w fuel))
        (overBulkScript reads index (BulkIter.drop (ε := Empty))) (fun e => e) fun x => x
  | syncWriteBytes (address count data) :
      SameMethod P w fuel (BusOf.syncWriteBytes address count data) (Client.syncWriteBytes address count data) P.writeErr
        fun x => x
  | syncWrite {α : Type} (d : DataTy α) (address data) :
      SameMethod P w fuel (BusOf.syncWrite d address data) (Client.syncWrite d address data) P.writeErr fun x => x
  | bulkWrite (writes) : SameMethod P w fuel (BusOf.bulkWrite writes) (Client.bulkWrite writes) P.writeErr fun x => x
  | deviceReadRaw (timeout) :
      SameMethod P w fuel (BusOf.readRawInstructionTimeout w timeout fuel) (Device.readRawInstructionTimeout timeout) P.readErr
        fun x => x
  | deviceRead (timeout) : SameMethod P w fuel (BusOf.deviceRead w timeout fuel) (Device.read timeout) P.readErr fun x => x
  | deviceReadOwned (timeout) :
      SameMethod P w fuel (BusOf.deviceReadOwned w timeout fuel) (Device.readOwned timeout) P.readErr fun x => x
  | deviceWriteStatus (id error n enc) :
      SameMethod P w fuel (BusOf.writeStatus id error n enc) (Device.writeStatus id error n enc) P.writeErr fun x => x
  | deviceWriteStatusError (id error) :
      SameMethod P w fuel (BusOf.writeStatusError id error) (Device.writeStatusError id error) P.writeErr fun x => x
  | deviceWriteStatusOk (id) : SameMethod P w fuel (BusOf.writeStatusOk id) (Device.writeStatusOk id) P.writeErr fun x => x

theorem transfers_overSync {w : Nat} {ε ε' α α' : Type} {f : ε → ε'} {g : α → α'} {m : SO (SyncIterOf P) ε α}
    {m' : SO SyncIter ε' α'} (count : U16) (ids : List Byte) (index : Nat) (h : Transfers (syncView P) w f g m m') :
    Transfers (busView P) w f (fun x => (g x.1, x.2)) (overSync count ids index m) (overSyncScript count ids index m') := by
  intro b hb hh
  have hne : (m ⟨b, count, ids, index⟩).2 ≠ .hang := by
    intro hx
    refine hh ?_
    unfold overSync
    rw [hx]
    rfl
  obtain ⟨h1, t, h2, h3⟩ := h ⟨b, count, ids, index⟩ hb hne
  refine ⟨h1, t, h2, fun c es hrel hsc => ?_⟩
  obtain ⟨j1, j2, j3, j4⟩ := h3 ⟨c, count, ids, index⟩ es ⟨hrel, rfl, rfl, rfl⟩ hsc
  refine ⟨?_, j2.1, j3, j4⟩
  have hi := j2.2.2.2
  simp only [overSync, overSyncScript]
  rw [j1, hi]
  cases (m ⟨b, count, ids, index⟩).2 <;> rfl

theorem transfers_overBulk {w : Nat} {ε ε' α α' : Type} {f : ε → ε'} {g : α → α'} {m : SO (BulkIterOf P) ε α}
    {m' : SO BulkIter ε' α'} (reads : List BulkReadData) (index : Nat) (h : Transfers (bulkView P) w f g m m') :
    Transfers (busView P) w f (fun x => (g x.1, x.2)) (overBulk reads index m) (overBulkScript reads index m') := by
  intro b hb hh
  have hne : (m ⟨b, reads, index⟩).2 ≠ .hang := by
    intro hx
    refine hh ?_
    unfold overBulk
    rw [hx]
    rfl
  obtain ⟨h1, t, h2, h3⟩ := h ⟨b, reads, index⟩ hb hne
  refine ⟨h1, t, h2, fun c es hrel hsc => ?_⟩
  obtain ⟨j1, j2, j3, j4⟩ := h3 ⟨c, reads, index⟩ es ⟨hrel, rfl, rfl⟩ hsc
  refine ⟨?_, j2.1, j3, j4⟩
  have hi := j2.2.2
  simp only [overBulk, overBulkScript]
  rw [j1, hi]
  cases (m ⟨b, reads, index⟩).2 <;> rfl

theorem SameMethod.transfers (hP : P.Polite) {w fuel : Nat} {ε ε' α α' : Type} {m : SO (BusOf P) ε α} {m' : SO Bus ε' α'}
    {f : ε → ε'} {g : α → α'} (h : SameMethod P w fuel m m' f g) : Transfers (busView P) w f g m m' := by
  cases h with
  | setBaudRate | deviceSetBaudRate => exact BusOf.transfers_setBaudRate hP _
  | writeInstruction | broadcastAction | broadcastReboot | broadcastClearRevolutionCounter | broadcastClearError
  | broadcastFactoryReset | scan | syncReadBytes | syncRead | syncWriteBytes | syncWrite =>
    exact BusOf.transfers_write hP _ _ _ _ _
  | transferSingle => exact BusOf.transfers_single hP _ _ _ _ _ _
  | readStatusResponseTimeout => exact BusOf.transfers_statusTimeout hP _ _
  | readStatusResponse => exact BusOf.transfers_status hP _ _
  | action | reboot | clearRevolutionCounter | clearError | factoryReset | write | writeBytes | regWrite
  | regWriteBytes => exact BusOf.transfers_instruct hP _ _ _ _ _
  | readRaw => exact BusOf.transfers_readRaw hP _ _ _ _
  | readBytes => exact BusOf.transfers_readBytes hP _ _ _ _
  | read => exact BusOf.transfers_readData hP _ _ _ _
  | ping => exact BusOf.transfers_ping hP _ _
  | scanNext => exact BusOf.transfers_scanNext hP _
  | scanDrop => exact BusOf.transfers_scanDrop hP _ _
  | syncNextBytes => exact transfers_overSync _ _ _ (SyncIterOf.transfers_nextBytes hP _)
  | syncNext => exact transfers_overSync _ _ _ (SyncIterOf.transfers_next hP _ _)
  | syncDropBytes => exact transfers_overSync _ _ _ (SyncIterOf.transfers_dropBytes hP _ _)
  | syncDrop => exact transfers_overSync _ _ _ (SyncIterOf.transfers_drop hP _ _ _)
  | bulkReadBytes => exact BusOf.transfers_bulkRead hP _
  | bulkNext => exact transfers_overBulk _ _ (BulkIterOf.transfers_next hP _)
  | bulkDrop => exact transfers_overBulk _ _ (BulkIterOf.transfers_drop hP _)
  | bulkWrite => exact BusOf.transfers_bulkWrite hP _
  | deviceReadRaw => exact BusOf.transfers_raw hP _ _
  | deviceRead => exact BusOf.transfers_deviceRead hP _ _
  | deviceReadOwned => exact BusOf.transfers_deviceReadOwned hP _ _
  | deviceWriteStatus | deviceWriteStatusError | deviceWriteStatusOk => exact BusOf.transfers_writeStatus hP _ _ _ _

/-- A call of a method. -/
structure Use (P : PortImpl) (w fuel : Nat) where
  {ε ε' α α' : Type}
  any : SO (BusOf P) ε α
  script : SO Bus ε' α'
  err : ε → ε'
  val : α → α'
  same : SameMethod P w fuel any script err val

namespace Use

variable {w fuel : Nat}

/-- The bus after these calls. -/
def after (b : BusOf P) (uses : List (Use P w fuel)) : BusOf P := uses.foldl (fun b u => (u.any b).1) b

/-- The same with a script port. -/
def afterScript (b : Bus) (uses : List (Use P w fuel)) : Bus := uses.foldl (fun b u => (u.script b).1) b

/-- All of these calls return, or panic. -/
def Return : BusOf P → List (Use P w fuel) → Prop
  | _, [] => True
  | b, u :: uses => (u.any b).2 ≠ .hang ∧ Return (u.any b).1 uses

/-- The calls have the same outcomes on both buses, and leave them in the same state. -/
def Agree : BusOf P → Bus → List (Use P w fuel) → Prop
  | _, _, [] => True
  | b, c, u :: uses => (u.script c).2 = (u.any b).2.both u.err u.val ∧ Bus.Alike (u.any b).1.rest (u.script c).1 ∧
      Agree (u.any b).1 (u.script c).1 uses

theorem agree (hP : P.Polite) (uses : List (Use P w fuel)) : ∀ b : BusOf P, (busView P).good w b → Return b uses →
    ∃ t, (∀ rec, P.Records rec → rec (after b uses).port = rec b.port ++ t) ∧
      ∀ c es, Bus.Alike b.rest c → Scripted c.serialPort (t ++ es) → Agree b c uses ∧
        untimed (afterScript c uses).serialPort.log = untimed c.serialPort.log ++ callsOf t := by
  induction uses with
  | nil => exact fun b hb _ => ⟨[], fun _ _ => by simp [after], fun c es h1 h2 => ⟨trivial, by simp [afterScript, callsOf]⟩⟩
  | cons u uses ih =>
    intro b hb hret
    obtain ⟨h1, t, h2, h3⟩ := u.same.transfers hP b hb hret.1
    obtain ⟨t', h4, h5⟩ := ih _ h1 hret.2
    refine ⟨t ++ t', fun rec hr => ?_, fun c es hrel hsc => ?_⟩
    · have a := h4 rec hr
      have b := h2 rec hr
      simp only [busView] at b
      rw [b] at a
      rw [← List.append_assoc]
      exact a
    · obtain ⟨j1, j2, j3, j4⟩ := h3 c (t' ++ es) hrel (by rw [← List.append_assoc]; exact hsc)
      obtain ⟨k1, k2⟩ := h5 _ es j2 j3
      refine ⟨⟨j1, j2, k1⟩, ?_⟩
      simp only [busView] at j4
      rw [j4, List.append_assoc, ← callsOf_append] at k2
      exact k2

end Use

theorem replay_scripted (t : List Dxl.Exchange) : Scripted (replay t) t := ⟨rfl, rfl, rfl, rfl, rfl, rfl⟩

theorem alike_onto {b : Bus} (h : b.RInv) (p : Port) : Bus.Alike b (b.onto p) := ⟨⟨h.1, h.2⟩, rfl, ⟨rfl, rfl, rfl, rfl⟩⟩

/-- **C84** Any number of calls with any port that does not panic and never says that it read more than fits: with the calls of the
port recorded, a script port that replays the record makes every call have the same outcome and leaves the same state, and is
called in the same way. -/
theorem c84_session (hP : P.Polite) {w fuel : Nat} {b : BusOf P} (hr : b.rest.RInv) (hw : b.rest.readBuffer.length < 2 ^ w)
    (uses : List (Use P w fuel)) (hret : Use.Return b uses) :
    ∃ t, (∀ rec, P.Records rec → rec (Use.after b uses).port = rec b.port ++ t) ∧
      Use.Agree b (b.rest.onto (replay t)) uses ∧
      untimed (Use.afterScript (b.rest.onto (replay t)) uses).serialPort.log = callsOf t := by
  obtain ⟨t, h1, h2⟩ := Use.agree hP uses b ⟨hr, hw⟩ hret
  obtain ⟨h3, h4⟩ := h2 (b.rest.onto (replay t)) [] (alike_onto hr _) (by rw [List.append_nil]; exact replay_scripted t)
  exact ⟨t, h1, h3, h4⟩

/-- One call of it. -/
theorem c84_call (hP : P.Polite) {w fuel : Nat} {ε ε' α α' : Type} {m : SO (BusOf P) ε α} {m' : SO Bus ε' α'} {f : ε → ε'}
    {g : α → α'} (h : SameMethod P w fuel m m' f g) {b : BusOf P} (hr : b.rest.RInv) (hw : b.rest.readBuffer.length < 2 ^ w)
    (hret : (m b).2 ≠ .hang) :
    ∃ t, (∀ rec, P.Records rec → rec (m b).1.port = rec b.port ++ t) ∧
      (m' (b.rest.onto (replay t))).2 = (m b).2.both f g ∧
      Bus.Alike (m b).1.rest (m' (b.rest.onto (replay t))).1 ∧
      untimed (m' (b.rest.onto (replay t))).1.serialPort.log = callsOf t ∧
      (m' (b.rest.onto (replay t))).1.serialPort.rx = [] := by
  obtain ⟨-, t, h2, h3⟩ := h.transfers hP b ⟨hr, hw⟩ hret
  obtain ⟨j1, j2, j3, j4⟩ := h3 (b.rest.onto (replay t)) [] (alike_onto hr _) (by rw [List.append_nil]; exact replay_scripted t)
  exact ⟨t, h2, j1, j2, j4, j3.rx⟩

/-- **C84** What is true of the outcome with every script port is true with every polite port: for example that it is no panic. -/
theorem c84_outcome (hP : P.Polite) {w fuel : Nat} {ε ε' α α' : Type} {m : SO (BusOf P) ε α} {m' : SO Bus ε' α'} {f : ε → ε'}
    {g : α → α'} (h : SameMethod P w fuel m m' f g) {b : BusOf P} (hr : b.rest.RInv) (hw : b.rest.readBuffer.length < 2 ^ w)
    (hret : (m b).2 ≠ .hang) {Q : Outcome ε' α' → Prop} (hQ : ∀ p, Q (m' (b.rest.onto p)).2) : Q ((m b).2.both f g) := by
  obtain ⟨t, -, h2, -⟩ := c84_call hP h hr hw hret
  rw [← h2]
  exact hQ _

/-- The call in an exchange. -/
def callOf : Dxl.Exchange → Call
  | .read cap _ _ => .read cap 0
  | .write bytes a => .write bytes a.isNone
  | .discard a => .discard a.isNone
  | .setBaud rate a => .setBaud rate a.isNone

theorem callsOf_map (t : List Dxl.Exchange) : callsOf t = t.map callOf := by
  induction t with
  | nil => rfl
  | cons x t ih => cases x <;> simp [callsOf, callOf, ih]

theorem arriving_rx (D : Nat) (t : List Dxl.Exchange) : arriving D (Script.rx t) = receivedIn t := by
  induction t with
  | nil => rfl
  | cons x t ih =>
    cases x with
    | read cap d a => cases a <;> simp [Script.rx, arriving, receivedIn, ih]
    | _ => exact ih

/-- The port was asked to discard its input, and then to write one frame with this body, which both succeeded; after that it was only
read. -/
def SentTo (t : List Dxl.Exchange) (id : Byte) (body : List Byte) (reads : List Dxl.Exchange) : Prop :=
  ∃ wire, StuffedForm body wire ∧ t = .discard none :: .write (frame id wire) none :: reads ∧
    ∀ x ∈ reads, ∃ cap D a, x = .read cap D a

/-- No write succeeded, and nothing was read. -/
def PortUnsent (t : List Dxl.Exchange) : Prop := ∀ x ∈ t, (∀ f, x ≠ .write f none) ∧ ∀ cap D a, x ≠ .read cap D a

theorem sentTo_of_log {t : List Dxl.Exchange} {id : Byte} {wire body : List Byte} {log calls : List Call}
    (hw : StuffedForm body wire) (h : untimed log = callsOf t)
    (hl : log = [.discard true, .write (frame id wire) true] ++ calls) (hc : ∀ call ∈ calls, ∃ cap D, call = .read cap D) :
    ∃ reads, SentTo t id body reads := by
  subst hl
  rw [callsOf_map] at h
  simp only [untimed, List.cons_append, List.nil_append, List.map_cons] at h
  match t, h with
  | [], h => simp at h
  | [_], h => simp at h
  | x :: y :: t, h =>
    simp only [List.map_cons, List.cons.injEq] at h
    obtain ⟨h1, h2, h3⟩ := h
    have hx : x = .discard none := by
      cases x with
      | discard a => simp [callOf] at h1; simp [h1]
      | _ => simp [callOf] at h1
    have hy : y = .write (frame id wire) none := by
      cases y with
      | write f a => simp [callOf] at h2; simp [h2]
      | _ => simp [callOf] at h2
    refine ⟨t, wire, hw, by rw [hx, hy], fun z hz => ?_⟩
    have : callOf z ∈ t.map callOf := List.mem_map_of_mem hz
    rw [← h3, List.mem_map] at this
    obtain ⟨c, hc1, hc2⟩ := this
    obtain ⟨cap, D, rfl⟩ := hc c hc1
    cases z with
    | read cap D a => exact ⟨_, _, _, rfl⟩
    | _ => simp [callOf] at hc2

theorem portUnsent_of_log {t : List Dxl.Exchange} {log : List Call} (h : untimed log = callsOf t)
    (hc : ∀ call ∈ log, ∀ f, call ≠ .write f true ∧ ∀ cap D, call ≠ .read cap D) : PortUnsent t := by
  intro x hx
  rw [callsOf_map] at h
  have : callOf x ∈ t.map callOf := List.mem_map_of_mem hx
  rw [← h, untimed, List.mem_map] at this
  obtain ⟨c, hc1, hc2⟩ := this
  constructor
  · rintro f rfl
    cases c with
    | write g ok =>
      simp only [callOf, Option.isNone_none, Call.write.injEq] at hc2
      exact (hc _ hc1 g).1 (by rw [hc2.2])
    | _ => simp [callOf] at hc2
  · rintro cap D a rfl
    cases c with
    | read cap D => exact (hc _ hc1 []).2 cap D rfl
    | _ => simp [callOf] at hc2

/-- All that the port was asked to discard or to write was done. -/
def PortAccepted (t : List Dxl.Exchange) : Prop := ∀ x ∈ t, (∀ e, x ≠ .discard (some e)) ∧ ∀ f e, x ≠ .write f (some e)

theorem portAccepted_sendOk {t : List Dxl.Exchange} (h : PortAccepted t) : (replay t).SendOk := by
  have hd : ∀ t, PortAccepted t → ∀ e, (Script.discardRes t).head? ≠ some (some e) := by
    intro t
    induction t with
    | nil => intro _ _ h; simp [Script.discardRes] at h
    | cons x t ih =>
      intro ha e
      have ht : PortAccepted t := fun y hy => ha y (List.mem_cons_of_mem _ hy)
      cases x with
      | discard a =>
        intro h
        simp only [Script.discardRes, List.head?_cons, Option.some.injEq] at h
        exact (ha _ (List.mem_cons_self ..)).1 e (by rw [h])
      | _ => exact ih ht e
  have hw : ∀ t, PortAccepted t → ∀ dt e, (Script.writeRes t).head? ≠ some (dt, some e) := by
    intro t
    induction t with
    | nil => intro _ _ _ h; simp [Script.writeRes] at h
    | cons x t ih =>
      intro ha dt e
      have ht : PortAccepted t := fun y hy => ha y (List.mem_cons_of_mem _ hy)
      cases x with
      | write f a =>
        intro h
        simp only [Script.writeRes, List.head?_cons, Option.some.injEq, Prod.mk.injEq] at h
        exact (ha _ (List.mem_cons_self ..)).2 f e (by rw [h.2])
      | _ => exact ih ht dt e
  exact ⟨hd t h, hw t h⟩

/-- **C84** What the methods of the client send (C46) they send with every polite port. If the port accepts it and the packet fits,
the packet is sent; if the method succeeds, it was sent; and otherwise no packet was written completely. -/
theorem c84_sends (hP : P.Polite) {w fuel : Nat} {ε ε' α α' : Type} {m : SO (BusOf P) ε α} {m' : SO Bus ε' α'} {f : ε → ε'}
    {g : α → α'} (h : SameMethod P w fuel m m' f g) {id : Byte} {body : List Byte} (hs : Sends m' id body) {b : BusOf P}
    (hr : b.rest.RInv) (hw : b.rest.readBuffer.length < 2 ^ w) (hb : b.rest.WInv) (hbaud : b.rest.baudRate < 2 ^ 32)
    (hret : (m b).2 ≠ .hang) :
    ∃ t, (∀ rec, P.Records rec → rec (m b).1.port = rec b.port ++ t) ∧
      (PortAccepted t → Room b.rest (body.length - 1) → ∃ reads, SentTo t id body reads) ∧
      ((∃ a, (m b).2 = .ok a) → ∃ reads, SentTo t id body reads) ∧
      ((∃ reads, SentTo t id body reads) ∨ PortUnsent t) := by
  obtain ⟨t, h1, h2, -, h4, -⟩ := c84_call hP h hr hw hret
  have hs := hs (b.rest.onto (replay t)) ⟨hb.1, hb.2⟩ hbaud
  have hsent : SentBody (b.rest.onto (replay t)) (m' (b.rest.onto (replay t))).1 id body → ∃ reads, SentTo t id body reads := by
    rintro ⟨wire, calls, k1, k2, k3⟩
    exact sentTo_of_log k1 h4 (by rw [k2]; rfl) k3
  refine ⟨t, h1, fun ha hroom => hsent (hs.1 (portAccepted_sendOk ha) hroom), ?_, ?_⟩
  · rintro ⟨a, ha⟩
    rw [ha] at h2
    exact hsent (hs.2.1 ⟨_, h2⟩)
  · rcases hs.2.2 _ _ rfl with k | ⟨calls, k1, k2⟩
    · exact .inl (hsent k)
    · exact .inr (portUnsent_of_log (log := calls) (by
        rw [← h4, k1]; rfl) k2)

/-- An instruction with this body was sent to `id` and the first packet received after that is a status packet of `rid` with this error
byte and these parameters; `rest` was received after it. -/
def ExchangedWith (cap : Nat) (t : List Dxl.Exchange) (id : Byte) (body : List Byte) (rid e : Byte) (ps rest : List Byte) : Prop :=
  ∃ reads, SentTo t id body reads ∧ StatusFirst cap (receivedIn reads) rid e ps rest

theorem exchanged {t : List Dxl.Exchange} {b c : Bus} {id : Byte} {body : List Byte} {n : Nat} {rid e : Byte} {ps : List Byte}
    (h : Exchange (b.onto (replay t)) c id body n rid e ps) (hlog : untimed c.serialPort.log = callsOf t)
    (hrx : c.serialPort.rx = []) : ExchangedWith b.readBuffer.length t id body rid e ps c.pending := by
  obtain ⟨wire, calls, ns, rest, h1, -, h3, h4, h5, h6⟩ := h
  obtain ⟨reads, hs⟩ := sentTo_of_log h1 hlog (by rw [h3]; rfl) fun call hc => by
    obtain ⟨cap, -, hx⟩ := h4 call hc
    exact ⟨_, _, hx⟩
  refine ⟨reads, hs, ?_⟩
  obtain ⟨wire', -, ht, -⟩ := hs
  have hrest : rest = c.pending := by
    rw [← h6, stream, readable, hrx]
    split <;> simp [arriving]
  have hin : newInput (b.onto (replay t)).serialPort = Script.rx t := rfl
  rw [hin, arriving_rx, ht, hrest] at h5
  exact h5

/-- **C84** C30 with every polite port, for `ping`: success means that the ping was sent, and that the first packet to come was the
answer of the motor. -/
theorem c84_ping (hP : P.Polite) {w fuel : Nat} {id : Byte} {b b' : BusOf P} {r : Response Client.Ping} (hb : b.rest.WInv)
    (hr : b.rest.RInv) (hw : b.rest.readBuffer.length < 2 ^ w) (hbaud : b.rest.baudRate < 2 ^ 32)
    (h : BusOf.ping w id fuel b = (b', .ok r)) :
    ∃ t e, (∀ rec, P.Records rec → rec b'.port = rec b.port ++ t) ∧
      ExchangedWith b.rest.readBuffer.length t id Request.ping.body id e (le16 r.data.model ++ [r.data.firmware]) b'.rest.pending ∧
      e.toNat % 128 = 0 ∧ r.motorId = id ∧ r.alert = decide (128 ≤ e.toNat) := by
  obtain ⟨t, h1, h2, h3, h4, h5⟩ := c84_call hP (.ping (fuel := fuel) id) hr hw (by rw [h]; simp)
  rw [h] at h1 h2 h3
  obtain ⟨e, k1, k2, k3, k4⟩ := c30_ping (b := b.rest.onto (replay t)) ⟨hb.1, hb.2⟩ hbaud (Prod.ext rfl h2)
  refine ⟨t, e, h1, ?_, k2, k3, k4⟩
  rw [← h3.pending]
  exact exchanged k1 h4 h5

/-- **C84** The same for `read_bytes`. -/
theorem c84_read_bytes (hP : P.Polite) {w fuel : Nat} {id : Byte} {address count : U16} {b b' : BusOf P}
    {r : Response (List Byte)} (hb : b.rest.WInv) (hr : b.rest.RInv) (hw : b.rest.readBuffer.length < 2 ^ w)
    (hbaud : b.rest.baudRate < 2 ^ 32) (h : BusOf.readBytes w id address count fuel b = (b', .ok r)) :
    ∃ t e, (∀ rec, P.Records rec → rec b'.port = rec b.port ++ t) ∧
      ExchangedWith b.rest.readBuffer.length t id (Request.read address count).body id e r.data b'.rest.pending ∧
      e.toNat % 128 = 0 ∧ r.data.length = count.toNat ∧ r.motorId = id ∧ r.alert = decide (128 ≤ e.toNat) := by
  obtain ⟨t, h1, h2, h3, h4, h5⟩ := c84_call hP (.readBytes (fuel := fuel) id address count) hr hw (by rw [h]; simp)
  rw [h] at h1 h2 h3
  obtain ⟨e, k1, k2, k3, k4⟩ := c30_read_bytes (b := b.rest.onto (replay t)) ⟨hb.1, hb.2⟩ hbaud (Prod.ext rfl h2)
  refine ⟨t, e, h1, ?_, k2, k3, k4⟩
  rw [← h3.pending]
  exact exchanged k1 h4 h5

/-- **C84** The same for `read`, for the types that the crate implements `Data` for. -/
theorem c84_read {α : Type} {d : DataTy α} {valid : α → Prop} {f : α → List Byte} (hd : ImplData d valid f) (hP : P.Polite)
    {w fuel : Nat} {id : Byte} {address : U16} {b b' : BusOf P} {r : Response α} (hb : b.rest.WInv) (hr : b.rest.RInv)
    (hw : b.rest.readBuffer.length < 2 ^ w) (hbaud : b.rest.baudRate < 2 ^ 32)
    (h : BusOf.read w d id address fuel b = (b', .ok r)) :
    ∃ t e, (∀ rec, P.Records rec → rec b'.port = rec b.port ++ t) ∧
      ExchangedWith b.rest.readBuffer.length t id (Request.read address d.size).body id e (f r.data) b'.rest.pending ∧
      valid r.data ∧ e.toNat % 128 = 0 ∧ r.motorId = id ∧ r.alert = decide (128 ≤ e.toNat) := by
  obtain ⟨t, h1, h2, h3, h4, h5⟩ := c84_call hP (.read (fuel := fuel) d id address) hr hw (by rw [h]; simp)
  rw [h] at h1 h2 h3
  obtain ⟨e, k1, k2, k3, k4⟩ := c30_read_value hd (b := b.rest.onto (replay t)) ⟨hb.1, hb.2⟩ hbaud (Prod.ext rfl h2)
  refine ⟨t, e, h1, ?_, k2, k3, k4⟩
  rw [← h3.pending]
  exact exchanged k1 h4 h5

/-- **C84** C31, as far as it holds, with every polite port: the instruction was sent (C46 says with which body), and the confirmation
is a status packet without error, of the motor named in the response. -/
theorem c84_confirmed (hP : P.Polite) {w fuel : Nat} {call : WriteCall} {id : Byte} {body : List Byte}
    {m : SO (BusOf P) (TransferErrorOf P.Error) (Response Unit)} (hm : SameMethod P w fuel m (call.run id) P.transferErr fun x => x)
    (hs : Sends (call.run id) id body) {b b' : BusOf P} {r : Response Unit} (hb : b.rest.WInv)
    (hr : b.rest.RInv) (hw : b.rest.readBuffer.length < 2 ^ w) (hbaud : b.rest.baudRate < 2 ^ 32) (hid : id ≠ 0xFE#8)
    (h : m b = (b', .ok r)) :
    ∃ t e, (∀ rec, P.Records rec → rec b'.port = rec b.port ++ t) ∧
      ExchangedWith b.rest.readBuffer.length t id body r.motorId e [] b'.rest.pending ∧
      e.toNat % 128 = 0 ∧ r.alert = decide (128 ≤ e.toNat) := by
  obtain ⟨t, h1, h2, h3, h4, h5⟩ := c84_call hP hm hr hw (by rw [h]; simp)
  rw [h] at h1 h2 h3
  obtain ⟨body', e, k1, k2, k3⟩ :=
    c31_confirmed_by_some_motor_partial (b := b.rest.onto (replay t)) ⟨hb.1, hb.2⟩ hbaud hid (Prod.ext rfl h2)
  obtain ⟨wire, calls, s1, s2, s3⟩ := (hs (b.rest.onto (replay t)) ⟨hb.1, hb.2⟩ hbaud).2.1 ⟨_, h2⟩
  obtain ⟨reads, hsent⟩ := sentTo_of_log s1 h4 (by rw [s2]; rfl) s3
  obtain ⟨reads', ⟨wire', -, ht', -⟩, hfirst⟩ := exchanged k1 h4 h5
  have hreads : reads' = reads := by
    obtain ⟨wire'', -, ht, -⟩ := hsent
    rw [ht'] at ht
    exact (List.cons.inj (List.cons.inj ht).2).2
  subst hreads
  refine ⟨t, e, h1, ⟨reads', hsent, ?_⟩, k2, k3⟩
  rw [← h3.pending]
  exact hfirst

/-! ## Concrete cases -/

/-- A port that hands out what is in a list, one byte at a time, and then times out; refuses to write more than 30 bytes; and keeps a
record. Errors are numbers, 0 is a timeout. -/
def taped : PortImpl where
  Port := List Byte × List Dxl.Exchange
  Error := Nat
  Instant := Nat
  baudRate := fun p => (p, .ok 57600)
  setBaudRate := fun rate p => ((p.1, p.2 ++ [.setBaud rate none]), .ok ())
  discardInputBuffer := fun p => ((p.1, p.2 ++ [.discard none]), .ok ())
  read := fun _ old p => match old, p.1 with
    | _ :: t, x :: rest => ((rest, p.2 ++ [.read old.length 0 (.ok [x])]), x :: t, .ok 1)
    | _, rest => ((rest, p.2 ++ [.read old.length 0 (.error .timedOut)]), old, .err 0)
  read_length := fun _ old p => by
    cases old with
    | nil => rfl
    | cons a t => cases p.1 <;> rfl
  writeAll := fun bytes p =>
    if bytes.length ≤ 30 then ((p.1, p.2 ++ [.write bytes none]), .ok ())
    else ((p.1, p.2 ++ [.write bytes (some (.other 0))]), .err 5)
  makeDeadline := fun timeout p => (p, .ok timeout)
  isTimeoutError := fun e => decide (e = 0)

theorem taped_polite : taped.Polite where
  read := fun D old p => by
    cases old with
    | nil => exact ⟨by simp [taped], by simp [taped]⟩
    | cons a t =>
      obtain ⟨q, l⟩ := p
      cases q with
      | nil => exact ⟨by simp [taped], by simp [taped]⟩
      | cons x rest => exact ⟨by simp [taped], fun n h => by simp [taped] at h; simp [← h]⟩
  discard := fun p => by simp [taped]
  write := fun bytes p => by
    simp only [taped]
    split <;> simp
  baud := fun rate p => by simp [taped]
  deadline := fun timeout p => by simp [taped]

theorem taped_records : taped.Records Prod.snd where
  read_ok := fun D old p n h => by
    cases old with
    | nil => simp [taped] at h
    | cons a t =>
      obtain ⟨q, l⟩ := p
      cases q with
      | nil => simp [taped] at h
      | cons x rest =>
        simp [taped] at h
        subst h
        rfl
  read_err := fun D old p e h => by
    obtain ⟨q, l⟩ := p
    cases old with
    | nil =>
      cases h
      rfl
    | cons a t =>
      cases q with
      | nil =>
        cases h
        rfl
      | cons x rest => simp [taped] at h
  discard_ok := fun p _ => rfl
  discard_err := fun p e h => by simp [taped] at h
  write_ok := fun bytes p h => by
    simp only [taped] at h ⊢
    split at h
    · rename_i hl; rw [if_pos hl]
    · simp at h
  write_err := fun bytes p e h => by
    simp only [taped] at h ⊢
    split at h
    · simp at h
    · rename_i hl
      cases h
      rw [if_neg hl]
      rfl
  baud_ok := fun rate p _ => rfl
  baud_err := fun rate p e h => by simp [taped] at h
  deadline := fun timeout p => rfl

/-- A bus on that port. -/
def tapedBus (input : List Byte) : BusOf taped := busOf taped (input, [])

theorem tapedBus_ready (input : List Byte) : (tapedBus input).rest.RInv ∧ (tapedBus input).rest.readBuffer.length < 2 ^ 64 ∧
    (tapedBus input).rest.WInv ∧ (tapedBus input).rest.baudRate < 2 ^ 32 :=
  have h := busOf_ready taped (input, [])
  ⟨h.1, h.2.2.1, h.2.2.2.2, by show 57600 < 2 ^ 32; decide⟩

/-- Did it return? -/
def Outcome.returned {ε α : Type} : Outcome ε α → Bool
  | .hang => false
  | _ => true

theorem returned_iff {ε α : Type} {o : Outcome ε α} (h : Outcome.returned o = true) : o ≠ .hang := by
  cases o <;> simp [Outcome.returned] at h ⊢

/-- Noise, the answer to a ping, and the first byte of another packet. -/
def tapedInput : List Byte := [9#8] ++ frame 7#8 [0x55#8, 0x80#8, 6#8, 4#8, 0x26#8] ++ [0xFF#8]

/-- Is this the answer to the ping? -/
def pingGave {E : Type} (model : U16) (firmware : Byte) : Outcome (TransferErrorOf E) (Response Client.Ping) → Bool
  | .ok r => decide (r.motorId = 7#8) && r.alert && decide (r.data.model = model) && decide (r.data.firmware = firmware)
  | _ => false

/-- The ping succeeds, one byte at a time, ... -/
theorem taped_ping : pingGave 0x0406#16 0x26#8 (BusOf.ping 64 7#8 40 (tapedBus tapedInput)).2 = true := by decide +kernel

/-- ... and `c84_ping` says so too. -/
example : ∃ b' r t e, BusOf.ping 64 7#8 40 (tapedBus tapedInput) = (b', .ok r) ∧ b'.port.2 = t ∧
    ExchangedWith 20 t 7#8 [1#8] 7#8 e (le16 r.data.model ++ [r.data.firmware]) b'.rest.pending ∧ r.alert = decide (128 ≤ e.toNat) := by
  rcases h : BusOf.ping 64 7#8 40 (tapedBus tapedInput) with ⟨b', o⟩
  have hp := taped_ping
  rw [h] at hp
  cases o with
  | ok r =>
    have hb := tapedBus_ready tapedInput
    obtain ⟨t, e, h1, h2, -, -, h5⟩ := c84_ping taped_polite hb.2.2.1 hb.1 hb.2.1 hb.2.2.2 h
    exact ⟨b', r, t, e, rfl, by rw [h1 _ taped_records]; rfl, h2, h5⟩
  | _ => simp [pingGave] at hp

/-- What the port was asked for in it. -/
example : callsOf (BusOf.ping 64 7#8 40 (tapedBus tapedInput)).1.port.2 =
    [.discard true, .write (frame 7#8 [1#8]) true] ++ ([20, 20, 19, 18, 17, 16, 15, 14, 13, 12, 11, 10, 9, 8, 7].map fun n => .read n 0) := by
  decide +kernel

/-- A session: it changes the baud rate, pings a motor, fails to send a packet that is too large for the port, fails to get a response,
starts a synchronous read, gets an item of it, and serves as a device. -/
def tapedUses : List (Use taped 64 40) :=
  [⟨_, _, _, _, .setBaudRate 1000000⟩, ⟨_, _, _, _, .ping 7#8⟩, ⟨_, _, _, _, .writeBytes 7#8 0#16 (List.replicate 20 1#8)⟩,
    ⟨_, _, _, _, .readStatusResponse 1#16⟩, ⟨_, _, _, _, .syncReadBytes [7#8] 0#16 1#16⟩,
    ⟨_, _, _, _, .syncNextBytes 1#16 [7#8] 0⟩, ⟨_, _, _, _, .deviceRead 5⟩, ⟨_, _, _, _, .deviceWriteStatusOk 1#8⟩]

theorem tapedUses_return : Use.Return (tapedBus tapedInput) tapedUses :=
  ⟨returned_iff (by decide +kernel), returned_iff (by decide +kernel), returned_iff (by decide +kernel),
    returned_iff (by decide +kernel), returned_iff (by decide +kernel), returned_iff (by decide +kernel),
    returned_iff (by decide +kernel), returned_iff (by decide +kernel), trivial⟩

example : ∃ t, (Use.after (tapedBus tapedInput) tapedUses).port.2 = t ∧
    Use.Agree (tapedBus tapedInput) ((tapedBus tapedInput).rest.onto (replay t)) tapedUses := by
  have hb := tapedBus_ready tapedInput
  obtain ⟨t, h1, h2, -⟩ := c84_session taped_polite hb.1 hb.2.1 tapedUses tapedUses_return
  exact ⟨t, by rw [h1 _ taped_records]; rfl, h2⟩

example : ((BusOf.bulkReadBytes [⟨1#8, 144#16, 2#16⟩, ⟨2#8, 146#16, 1#16⟩, ⟨1#8, 1#16, 1#16⟩] (tapedBus tapedInput)).2.both
    taped.writeErr fun x => x) = .panic := by
  have hb := tapedBus_ready tapedInput
  have hne : (BusOf.bulkReadBytes [⟨1#8, 144#16, 2#16⟩, ⟨2#8, 146#16, 1#16⟩, ⟨1#8, 1#16, 1#16⟩] (tapedBus tapedInput)).2 ≠
      .hang := returned_iff (by decide +kernel)
  exact c84_outcome taped_polite (w := 64) (fuel := 0) (Q := fun o => o = .panic) (.bulkReadBytes _) hb.1 hb.2.1 hne
    fun p => congrArg Prod.snd (c38_duplicates_panic _
      ⟨0, 2, ⟨1#8, 144#16, 2#16⟩, ⟨1#8, 1#16, 1#16⟩, by decide, rfl, rfl, rfl⟩ _)

example : ∃ t, (BusOf.scanNext (ε := Empty) 64 40 (tapedBus tapedInput)).1.port.2 = t ∧
    (Client.scanNext (ε := Empty) ((tapedBus tapedInput).rest.onto (replay t))).2 =
      (BusOf.scanNext (ε := Empty) 64 40 (tapedBus tapedInput)).2.both (fun e => e) taped.item := by
  have hb := tapedBus_ready tapedInput
  obtain ⟨t, h1, h2, -⟩ := c84_call taped_polite (.scanNext (w := 64) (fuel := 40)) hb.1 hb.2.1
    (returned_iff (o := (BusOf.scanNext (ε := Empty) 64 40 (tapedBus tapedInput)).2) (by decide +kernel))
  exact ⟨t, by rw [h1 _ taped_records]; rfl, h2⟩

/-- Its calls: two packets were sent, one was refused, and three reads timed out. -/
example : (Use.after (tapedBus tapedInput) tapedUses).rest.baudRate = 1000000 ∧
    (Use.after (tapedBus tapedInput) tapedUses).port.2.length = 28 := by decide +kernel

example : ∃ t, (BusOf.ping 64 7#8 40 (tapedBus tapedInput)).1.port.2 = t ∧ ∃ reads, SentTo t 7#8 [1#8] reads := by
  have hb := tapedBus_ready tapedInput
  obtain ⟨t, h1, -, h3, -⟩ := c84_sends taped_polite (.ping 7#8) (c46_ping_partial 7#8) hb.1 hb.2.1 hb.2.2.1 hb.2.2.2
    (returned_iff (o := (BusOf.ping 64 7#8 40 (tapedBus tapedInput)).2) (by decide +kernel))
  refine ⟨t, by rw [h1 _ taped_records]; rfl, h3 ?_⟩
  have hp := taped_ping
  cases h : (BusOf.ping 64 7#8 40 (tapedBus tapedInput)).2 with
  | ok r => exact ⟨r, rfl⟩
  | _ => rw [h] at hp; simp [pingGave] at hp

theorem with_outcome {α β : Type} {x : α × β} {o : β} (h : x.2 = o) : x = (x.1, o) := by rw [← h]

/-- Two parameters, little-endian. -/
def tapedAnswer : List Byte := frame 7#8 [0x55#8, 0#8, 0x34#8, 0x12#8]

/-- Are these the data? -/
def gaveData {E α : Type} [DecidableEq α] (data : α) : Outcome (TransferErrorOf E) (Response α) → Bool
  | .ok r => decide (r.data = data)
  | _ => false

theorem gaveData_ok {E α : Type} [DecidableEq α] {data : α} {o : Outcome (TransferErrorOf E) (Response α)}
    (h : gaveData data o = true) : ∃ r, o = .ok r ∧ r.data = data := by
  cases o with
  | ok r => exact ⟨r, rfl, by simpa [gaveData] using h⟩
  | _ => simp [gaveData] at h

example : ∃ t e, (BusOf.readBytes 64 7#8 2#16 2#16 40 (tapedBus tapedAnswer)).1.port.2 = t ∧
    ExchangedWith 20 t 7#8 [2#8, 2#8, 0#8, 2#8, 0#8] 7#8 e [0x34#8, 0x12#8] [] := by
  have hb := tapedBus_ready tapedAnswer
  obtain ⟨r, hr, hd⟩ := gaveData_ok (data := [0x34#8, 0x12#8]) (o := (BusOf.readBytes 64 7#8 2#16 2#16 40 (tapedBus tapedAnswer)).2)
    (by decide +kernel)
  obtain ⟨t, e, h1, h2, -⟩ := c84_read_bytes taped_polite hb.2.2.1 hb.1 hb.2.1 hb.2.2.2 (with_outcome hr)
  refine ⟨t, e, by rw [h1 _ taped_records]; rfl, ?_⟩
  rw [hd, show (BusOf.readBytes 64 7#8 2#16 2#16 40 (tapedBus tapedAnswer)).1.rest.pending = [] by decide +kernel] at h2
  exact h2

example : ∃ t e, (BusOf.read 64 (DataTy.unsigned 2) 7#8 2#16 40 (tapedBus tapedAnswer)).1.port.2 = t ∧
    ExchangedWith 20 t 7#8 [2#8, 2#8, 0#8, 2#8, 0#8] 7#8 e [0x34#8, 0x12#8] [] := by
  have hb := tapedBus_ready tapedAnswer
  obtain ⟨r, hr, hd⟩ := gaveData_ok (data := 0x1234#16)
    (o := (BusOf.read 64 (DataTy.unsigned 2) 7#8 2#16 40 (tapedBus tapedAnswer)).2) (by decide +kernel)
  obtain ⟨t, e, h1, h2, -⟩ := c84_read (.unsigned (by decide) (fun v => toLeBytes 2 v.toNat) fun v => littleEndian_iff.mpr rfl)
    taped_polite hb.2.2.1 hb.1 hb.2.1 hb.2.2.2 (with_outcome hr)
  refine ⟨t, e, by rw [h1 _ taped_records]; rfl, ?_⟩
  rw [hd, show (BusOf.read 64 (DataTy.unsigned 2) 7#8 2#16 40 (tapedBus tapedAnswer)).1.rest.pending = [] by decide +kernel] at h2
  exact h2

/-- Is this the motor that answered? -/
def cameFrom {E α : Type} (id : Byte) : Outcome (TransferErrorOf E) (Response α) → Bool
  | .ok r => r.motorId == id
  | _ => false

theorem cameFrom_ok {E α : Type} {id : Byte} {o : Outcome (TransferErrorOf E) (Response α)}
    (h : cameFrom id o = true) : ∃ r, o = .ok r ∧ r.motorId = id := by
  cases o with
  | ok r => exact ⟨r, rfl, by simpa [cameFrom] using h⟩
  | _ => simp [cameFrom] at h

example : ∃ t e, (BusOf.reboot 64 7#8 40 (tapedBus (frame 7#8 [0x55#8, 0#8]))).1.port.2 = t ∧
    ExchangedWith 20 t 7#8 [8#8] 7#8 e [] [] := by
  have hb := tapedBus_ready (frame 7#8 [0x55#8, 0#8])
  obtain ⟨r, hr, hm⟩ := cameFrom_ok (id := 7#8) (o := (BusOf.reboot 64 7#8 40 (tapedBus (frame 7#8 [0x55#8, 0#8]))).2)
    (by decide +kernel)
  obtain ⟨t, e, h1, h2, -⟩ := c84_confirmed (call := .reboot) taped_polite (.reboot 7#8) (c46_reboot_partial 7#8).1
    hb.2.2.1 hb.1 hb.2.1 hb.2.2.2 (by decide) (with_outcome hr)
  refine ⟨t, e, by rw [h1 _ taped_records]; rfl, ?_⟩
  rw [hm,
    show (BusOf.reboot 64 7#8 40 (tapedBus (frame 7#8 [0x55#8, 0#8]))).1.rest.pending = [] by decide +kernel] at h2
  exact h2

end Dxl.Props
