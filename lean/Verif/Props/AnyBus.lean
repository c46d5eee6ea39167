import Verif.Model.AnyBus
import Verif.Props.AnyBufferMore

/-! # Any serial port and any buffer type at once (C106) -/

namespace Dxl.Props
open Spec

variable {P : PortImpl} {B : BufferImpl} {view : B.Buf → List Byte}

/-- A bus of any types, seen with lists for buffers. -/
def seeAll (view : B.Buf → List Byte) (b : BusAll P B) : BusOf P :=
  { b.rest with rest := { b.rest.rest with readBuffer := view b.readBuffer, writeBuffer := view b.writeBuffer } }

/-- The same bus with another write buffer. -/
def otherWrite (b : BusOf P) (w : List Byte) : BusOf P := { b with rest := { b.rest with writeBuffer := w } }

/-- The same bus with another read buffer. -/
def otherRead (b : BusOf P) (r : List Byte) : BusOf P := { b with rest := { b.rest with readBuffer := r } }

/-- The code uses no write buffer and keeps the length of the read buffer. -/
structure ReadsOnly {ε α : Type} (m : SO (BusOf P) ε α) : Prop where
  free : ∀ b w, m (otherWrite b w) = (otherWrite (m b).1 w, (m b).2)
  keeps : ∀ b, (m b).1.rest.readBuffer.length = b.rest.readBuffer.length

/-- The code uses no read buffer and keeps the length of the write buffer. -/
structure WritesOnly {ε α : Type} (m : SO (BusOf P) ε α) : Prop where
  free : ∀ b r, m (otherRead b r) = (otherRead (m b).1 r, (m b).2)
  keeps : ∀ b, (m b).1.rest.writeBuffer.length = b.rest.writeBuffer.length

theorem readsOnly_onRest {ε α : Type} {m : SO Bus ε α} (h : Bus.OnlyRead m) : ReadsOnly (P := P) (BusOf.onRest m) := by
  refine ⟨fun b w => ?_, fun b => h.keeps b.rest⟩
  have := h.free b.rest w
  unfold BusOf.onRest SO.zoom otherWrite
  dsimp only
  rw [this]

theorem readsOnly_readMore (w : Nat) (D : P.Instant) : ReadsOnly (BusOf.readMore (P := P) w D) := by
  constructor
  · intro b v
    unfold BusOf.readMore otherWrite
    dsimp only
    by_cases h : b.rest.readLen ≤ b.rest.readBuffer.length
    · rw [if_pos h, if_pos h]
      rcases P.read D (b.rest.readBuffer.drop b.rest.readLen) b.port with ⟨p, l, o⟩
      simp only [SO.bind_def, SO.lift_apply]
      cases o with
      | ok n =>
        simp only [Outcome.mapErr]
        rcases usizeAdd (ε := ReadErrorOf P.Error) w b.rest.debug b.rest.readLen n with k | e | _ | _ <;> rfl
      | _ => rfl
    · rw [if_neg h, if_neg h]
  · intro b
    unfold BusOf.readMore
    by_cases h : b.rest.readLen ≤ b.rest.readBuffer.length
    · rw [if_pos h]
      have hl := P.read_length D (b.rest.readBuffer.drop b.rest.readLen) b.port
      rcases hx : P.read D (b.rest.readBuffer.drop b.rest.readLen) b.port with ⟨p, l, o⟩
      rw [hx] at hl
      have hk : (b.rest.readBuffer.take b.rest.readLen ++ l).length = b.rest.readBuffer.length := by
        simp only [List.length_drop] at hl
        simp only [List.length_append, List.length_take]
        omega
      simp only [SO.bind_def, SO.lift_apply]
      cases o with
      | ok n =>
        simp only [Outcome.mapErr]
        rcases usizeAdd (ε := ReadErrorOf P.Error) w b.rest.debug b.rest.readLen n with k | e | _ | _ <;> exact hk
      | _ => exact hk
    · rw [if_neg h]

theorem WritesOnly.bind {ε α β : Type} {m : SO (BusOf P) ε α} {f : α → SO (BusOf P) ε β} (hm : WritesOnly m)
    (hf : ∀ a, WritesOnly (f a)) : WritesOnly (m >>= f) := by
  constructor
  · intro b r
    rw [SO.bind_def, SO.bind_def, hm.free b r]
    rcases m b with ⟨b', o⟩
    cases o with
    | ok a => exact (hf a).free b' r
    | _ => rfl
  · intro b
    have h := hm.keeps b
    rw [SO.bind_def]
    rcases hmb : m b with ⟨b', o⟩
    rw [hmb] at h
    cases o with
    | ok a => exact ((hf a).keeps b').trans h
    | _ => exact h

theorem writesOnly_onPort {ε α : Type} (m : SO P.Port ε α) : WritesOnly (BusOf.onPort m) := ⟨fun _ _ => rfl, fun _ => rfl⟩

theorem writesOnly_onRest {ε α : Type} {m : SO Bus ε α} (h : Bus.OnlyWrite m) : WritesOnly (P := P) (BusOf.onRest m) := by
  refine ⟨fun b w => ?_, fun b => h.keeps b.rest⟩
  have := h.free b.rest w
  unfold BusOf.onRest SO.zoom otherRead
  dsimp only
  rw [this]

theorem WritesOnly.mapErr {ε ε' α : Type} {m : SO (BusOf P) ε α} (h : WritesOnly m) (f : ε → ε') : WritesOnly (m.mapErr f) :=
  ⟨fun b r => by rw [SO.mapErr_apply, SO.mapErr_apply, h.free b r], fun b => h.keeps b⟩

theorem writesOnly_writePacket (id instr : Byte) (n : Nat) (enc : Encoder) : WritesOnly (P := P) (BusOf.writePacket id instr n enc) := by
  refine WritesOnly.bind ((writesOnly_onRest (Bus.onlyWrite_preparePacket id instr n enc)).mapErr _) fun k =>
    (writesOnly_onPort _).bind fun _ => ?_
  constructor
  · intro b r
    rw [SO.get_bind, SO.get_bind]
    exact (WritesOnly.bind (P := P) ⟨fun _ _ => rfl, fun _ => rfl⟩ fun _ => writesOnly_onPort _).free b r
  · intro b
    rw [SO.get_bind]
    exact (WritesOnly.bind (P := P) ⟨fun _ _ => rfl, fun _ => rfl⟩ fun _ => writesOnly_onPort _).keeps b

theorem all_borrowRead {ε α : Type} (hB : B.MutLawful view) {m : SO (BusOf P) ε α} (hm : ReadsOnly m) :
    SameThrough (seeAll view) (BusAll.borrowRead m : SO (BusAll P B) ε α) m := by
  intro b
  have h1 := hB.asMut b.readBuffer
  have hf := hm.free (otherRead b.rest (view b.readBuffer)) (view b.writeBuffer)
  have hk := hm.keeps (otherRead b.rest (view b.readBuffer))
  have hr := hB.release b.readBuffer _ hk
  unfold BusAll.borrowRead
  rcases hx : B.asMut b.readBuffer with ⟨r, o⟩
  rw [hx] at h1 hr
  simp only at h1 hr
  subst h1
  show seeAll view _ = (m (otherWrite (otherRead b.rest (view b.readBuffer)) (view b.writeBuffer))).1 ∧ _ =
    (m (otherWrite (otherRead b.rest (view b.readBuffer)) (view b.writeBuffer))).2
  rw [hf]
  refine ⟨?_, rfl⟩
  unfold seeAll otherWrite
  unfold otherRead at hr
  simp only [hr]
  rfl

theorem all_borrowWrite {ε α : Type} (hB : B.MutLawful view) {m : SO (BusOf P) ε α} (hm : WritesOnly m) :
    SameThrough (seeAll view) (BusAll.borrowWrite m : SO (BusAll P B) ε α) m := by
  intro b
  have h1 := hB.asMut b.writeBuffer
  have hf := hm.free (otherWrite b.rest (view b.writeBuffer)) (view b.readBuffer)
  have hk := hm.keeps (otherWrite b.rest (view b.writeBuffer))
  have hr := hB.release b.writeBuffer _ hk
  unfold BusAll.borrowWrite
  rcases hx : B.asMut b.writeBuffer with ⟨r, o⟩
  rw [hx] at h1 hr
  simp only at h1 hr
  subst h1
  show seeAll view _ = (m (otherRead (otherWrite b.rest (view b.writeBuffer)) (view b.readBuffer))).1 ∧ _ =
    (m (otherRead (otherWrite b.rest (view b.writeBuffer)) (view b.readBuffer))).2
  rw [hf]
  refine ⟨?_, rfl⟩
  unfold seeAll otherRead
  unfold otherWrite at hr
  simp only [hr]
  rfl

theorem all_readRef {ε : Type} (hB : B.Lawful view) :
    SameThrough (seeAll view) (BusAll.readRef : SO (BusAll P B) ε (List Byte)) (SO.get >>= fun b => pure b.rest.readBuffer) := by
  intro b
  have h1 := hB.asRef b.readBuffer
  have h2 := hB.asRef_keeps b.readBuffer
  unfold BusAll.readRef
  rcases hx : B.asRef b.readBuffer with ⟨r, o⟩
  rw [hx] at h1 h2
  simp only at h1 h2
  subst h1
  refine ⟨?_, rfl⟩
  show seeAll view { b with readBuffer := r } = seeAll view b
  unfold seeAll
  simp only [h2]

theorem all_writeRef {ε : Type} (hB : B.Lawful view) :
    SameThrough (seeAll view) (BusAll.writeRef : SO (BusAll P B) ε (List Byte)) (SO.get >>= fun b => pure b.rest.writeBuffer) := by
  intro b
  have h1 := hB.asRef b.writeBuffer
  have h2 := hB.asRef_keeps b.writeBuffer
  unfold BusAll.writeRef
  rcases hx : B.asRef b.writeBuffer with ⟨r, o⟩
  rw [hx] at h1 h2
  simp only at h1 h2
  subst h1
  refine ⟨?_, rfl⟩
  show seeAll view { b with writeBuffer := r } = seeAll view b
  unfold seeAll
  simp only [h2]

theorem onRest_andThen {ε α β : Type} (m : SO Bus ε α) (f : α → SO Bus ε β) :
    (BusOf.onRest (m >>= f) : SO (BusOf P) ε β) = BusOf.onRest m >>= fun a => BusOf.onRest (f a) := by
  funext b
  rw [SO.bind_def]
  unfold BusOf.onRest SO.zoom
  dsimp only
  rw [SO.bind_def]
  rcases m b.rest with ⟨c, _ | _ | _ | _⟩ <;> rfl

theorem onRest_asks {ε β : Type} (f : Bus → SO Bus ε β) :
    (BusOf.onRest (SO.get >>= f) : SO (BusOf P) ε β) = SO.get >>= fun b => BusOf.onRest (f b.rest) := rfl

theorem all_debugAssert {ε : Type} (c : Bool) :
    SameThrough (seeAll view) (BusAll.onRest (BusOf.onRest (Bus.debugAssert c)) : SO (BusAll P B) ε Unit)
      (BusOf.onRest (Bus.debugAssert c)) := by
  intro b
  unfold BusAll.onRest BusOf.onRest SO.zoom
  dsimp only
  rw [BusIn.debugAssert_apply, BusIn.debugAssert_apply]
  exact ⟨rfl, rfl⟩

theorem all_onPort {ε α : Type} (m : SO P.Port ε α) :
    SameThrough (seeAll view) (BusAll.onRest (BusOf.onPort m) : SO (BusAll P B) ε α) (BusOf.onPort m) := fun _ => ⟨rfl, rfl⟩

theorem all_consume {ε : Type} (hB : B.MutLawful view) (len : Nat) :
    SameThrough (seeAll view) (BusAll.consumeReadBytes len : SO (BusAll P B) ε Unit) (BusOf.onRest (Bus.consumeReadBytes len)) := by
  rw [BusIn.consumeReadBytes_steps, onRest_asks]
  refine .get fun b => ?_
  rw [onRest_andThen]
  exact .bind (all_debugAssert _) fun _ => all_borrowRead hB (readsOnly_onRest (Bus.onlyRead_consumeReadBytes len))

theorem all_removeGarbage {ε : Type} (hB : B.MutLawful view) :
    SameThrough (seeAll view) (BusAll.removeGarbage : SO (BusAll P B) ε Unit) (BusOf.onRest Bus.removeGarbage) := by
  rw [BusIn.removeGarbage_steps, onRest_asks]
  refine .get fun b => ?_
  rw [onRest_andThen]
  refine .bind (all_borrowRead hB (readsOnly_onRest Bus.onlyRead_findGarbage)) fun g => ?_
  rw [onRest_andThen]
  refine .bind (all_consume hB _) fun _ => ?_
  rw [onRest_asks]
  exact .get fun b => all_debugAssert _

theorem all_messageReady (hB : B.MutLawful view) :
    SameThrough (seeAll view) (BusAll.messageReady : SO (BusAll P B) ReadError (Option Nat)) (BusOf.onRest Bus.messageReady) := by
  rw [BusIn.messageReady_steps, onRest_asks]
  refine .get fun b => ?_
  show SameThrough _ (if b.rest.rest.readLen > headerSize then _ else _) (BusOf.onRest (if b.rest.rest.readLen > headerSize then _ else _))
  by_cases hl : b.rest.rest.readLen > headerSize
  · rw [if_pos hl, if_pos hl, onRest_andThen]
    refine .bind (all_borrowRead hB (readsOnly_onRest Bus.onlyRead_bodyLen)) fun bodyLen => ?_
    rw [onRest_andThen]
    refine .bind (all_borrowRead hB (readsOnly_onRest Bus.onlyRead_readRoom)) fun room => ?_
    unfold BufferTooSmall.check
    by_cases hc : headerSize + bodyLen ≤ room
    · rw [if_pos hc]
      show SameThrough _ (if b.rest.rest.readLen ≥ headerSize + bodyLen then _ else _)
        (BusOf.onRest (if b.rest.rest.readLen ≥ headerSize + bodyLen then _ else _))
      by_cases hr : b.rest.rest.readLen ≥ headerSize + bodyLen
      · rw [if_pos hr, if_pos hr]; exact fun _ => ⟨rfl, rfl⟩
      · rw [if_neg hr, if_neg hr]; exact fun _ => ⟨rfl, rfl⟩
    · rw [if_neg hc]
      dsimp only
      rw [onRest_andThen]
      exact .bind (all_consume hB _) fun _ _ => ⟨rfl, rfl⟩
  · rw [if_neg hl, if_neg hl]
    exact fun _ => ⟨rfl, rfl⟩

theorem all_readLoop (hB : B.MutLawful view) (w : Nat) (D : P.Instant) (fuel : Nat) :
    SameThrough (seeAll view) (BusAll.readLoop w D fuel : SO (BusAll P B) _ Nat) (BusOf.readLoop w D fuel) := by
  induction fuel with
  | zero => exact .hang
  | succ fuel ih =>
    refine .bind (all_removeGarbage hB) fun _ => .bind ((all_messageReady hB).mapErr _) fun o => ?_
    cases o with
    | some n => exact .pure _
    | none => exact .bind (all_borrowRead hB (readsOnly_readMore w D)) fun _ => ih

theorem all_finish (hB : B.Lawful view) (n : Nat) :
    SameThrough (seeAll view) (BusAll.finishPacket n : SO (BusAll P B) ReadError Packet) (BusOf.onRest (Bus.finishPacket n)) := by
  rw [BusIn.finishPacket_steps, onRest_andThen]
  refine .bind (all_borrowRead hB.toMutLawful (readsOnly_onRest (Bus.onlyRead_checkPacket n))) fun r => ?_
  cases r with
  | error p =>
    dsimp only
    rw [onRest_andThen]
    exact .bind (all_consume hB.toMutLawful _) fun _ _ => ⟨rfl, rfl⟩
  | ok k =>
    dsimp only
    rw [onRest_andThen]
    refine .bind (all_readRef hB) fun lent => ?_
    rw [onRest_andThen]
    refine .bind (fun _ => ⟨rfl, rfl⟩) fun data => ?_
    rw [onRest_andThen]
    refine .bind (fun _ => ⟨rfl, rfl⟩) fun instruction => ?_
    by_cases hc : instruction = InstructionId.status ∧ k < 1
    · rw [if_pos hc, if_pos hc]; exact fun _ => ⟨rfl, rfl⟩
    · rw [if_neg hc, if_neg hc]; exact fun _ => ⟨rfl, rfl⟩

theorem all_packet (hB : B.Lawful view) (w : Nat) (D : P.Instant) (fuel : Nat) :
    SameThrough (seeAll view) (BusAll.readPacketDeadline w D fuel : SO (BusAll P B) _ Packet) (BusOf.readPacketDeadline w D fuel) := by
  refine SameThrough.bind (n := BusOf.onRest Bus.readRoom)
    (g := fun room => SO.lift ((BufferTooSmall.check (headerSize + 3) room).mapErr .bufferFull) >>= fun _ =>
      BusOf.readLoop w D fuel >>= fun n => (BusOf.onRest (Bus.finishPacket n)).mapErr BusOf.readError)
    (all_borrowRead hB.toMutLawful (readsOnly_onRest Bus.onlyRead_readRoom)) fun room => ?_
  exact .bind (.lift _) fun _ => .bind (all_readLoop hB.toMutLawful _ _ _) fun n => (all_finish hB n).mapErr _

theorem all_write (hB : B.Lawful view) (id instr : Byte) (n : Nat) (enc : Encoder) :
    SameThrough (seeAll view) (BusAll.writePacket id instr n enc : SO (BusAll P B) _ Unit) (BusOf.writePacket id instr n enc) :=
  all_borrowWrite hB.toMutLawful (writesOnly_writePacket id instr n enc)

theorem all_status (hB : B.Lawful view) (id error : Byte) (n : Nat) (enc : Encoder) :
    SameThrough (seeAll view) (BusAll.writeStatus id error n enc : SO (BusAll P B) _ Unit) (BusOf.writeStatus id error n enc) :=
  SameThrough.bind (n := SO.get >>= fun b => pure b.rest.writeBuffer)
    (g := fun w => SO.lift ((BufferTooSmall.check (StatusPacket.messageLen n) w.length).mapErr .bufferTooSmall) >>= fun _ =>
      BusOf.writePacket id InstructionId.status (n + 1) (Bus.statusEncoder error enc))
    (all_writeRef hB) fun _ => .bind (.lift _) fun _ => all_write hB _ _ _ _

theorem all_timeout (hB : B.Lawful view) (w t fuel : Nat) :
    SameThrough (seeAll view) (BusAll.readStatusResponseTimeout w t fuel : SO (BusAll P B) _ StatusPacket)
      (BusOf.readStatusResponseTimeout w t fuel) :=
  .bind (all_onPort _) fun _ => .bind (all_packet hB _ _ _) fun _ => .lift _

theorem all_response (hB : B.Lawful view) (w : Nat) (k : U16) (fuel : Nat) :
    SameThrough (seeAll view) (BusAll.readStatusResponse w k fuel : SO (BusAll P B) _ StatusPacket) (BusOf.readStatusResponse w k fuel) :=
  .get fun _ => .bind (.lift _) fun _ => all_timeout hB _ _ _

theorem all_call (hB : B.Lawful view) (w : Nat) (id instr : Byte) (n : Nat) (k : U16) (enc : Encoder) (fuel : Nat) :
    SameThrough (seeAll view) (BusAll.transferSingle w id instr n k enc fuel : SO (BusAll P B) _ StatusPacket)
      (BusOf.transferSingle w id instr n k enc fuel) :=
  .bind ((all_write hB _ _ _ _).mapErr _) fun _ => .bind ((all_response hB _ _ _).mapErr _) fun _ => .bind (.lift _) fun _ =>
    .bind (.lift _) fun _ => .pure _

theorem all_empty (hB : B.Lawful view) (w : Nat) (id : Byte) (fuel : Nat) :
    SameThrough (seeAll view) (BusAll.readResponseIfNotBroadcast w id fuel : SO (BusAll P B) _ (Response Unit))
      (BusOf.readResponseIfNotBroadcast w id fuel) := by
  unfold BusAll.readResponseIfNotBroadcast BusOf.readResponseIfNotBroadcast
  by_cases h : id = broadcast
  · rw [if_pos h, if_pos h]; exact .pure _
  · rw [if_neg h, if_neg h]; exact .bind (all_response hB _ _ _) fun _ => .lift _

theorem all_instruct (hB : B.Lawful view) (w : Nat) (id instr : Byte) (n : Nat) (enc : Encoder) (fuel : Nat) :
    SameThrough (seeAll view) (BusAll.instruct w id instr n enc fuel : SO (BusAll P B) _ (Response Unit))
      (BusOf.instruct w id instr n enc fuel) :=
  .bind ((all_write hB id instr n enc).mapErr _) fun _ => (all_empty hB _ _ _).mapErr _

theorem all_readRaw (hB : B.Lawful view) (w : Nat) (id : Byte) (address count : U16) (fuel : Nat) :
    SameThrough (seeAll view) (BusAll.readRaw w id address count fuel : SO (BusAll P B) _ StatusPacket)
      (BusOf.readRaw w id address count fuel) :=
  .bind (all_call hB _ _ _ _ _ _ _) fun _ => .bind (.lift _) fun _ => .bind (.lift _) fun _ => .pure _

theorem all_scanNext {ε : Type} (hB : B.Lawful view) (w fuel : Nat) :
    SameThrough (ε := ε) (seeAll view) (BusAll.scanNext w fuel : SO (BusAll P B) ε _) (BusOf.scanNext w fuel) := by
  refine .bind (SameThrough.attempt (.get fun b => .bind (.lift _) fun _ => .bind (all_timeout hB _ _ _) fun _ => .lift _)) fun r => ?_
  rcases r with (e | e | e | e) | r
  · exact .pure _
  · dsimp only
    by_cases h : P.isTimeoutError e
    · rw [if_pos h, if_pos h]; exact .pure _
    · rw [if_neg h, if_neg h]; exact .pure _
  · exact .pure _
  · exact .pure _
  · exact .pure _

theorem all_scanDrop {ε : Type} (hB : B.Lawful view) (w fuel n : Nat) :
    SameThrough (ε := ε) (seeAll view) (BusAll.scanDrop w fuel n : SO (BusAll P B) ε _) (BusOf.scanDrop w fuel n) := by
  induction n with
  | zero => exact .hang
  | succ n ih =>
    refine .bind (all_scanNext hB _ _) fun o => ?_
    cases o with
    | some _ => exact ih
    | none => exact .pure _

theorem all_rawLoop (hB : B.Lawful view) (w : Nat) (D : P.Instant) (fuel : Nat) : ∀ n,
    SameThrough (seeAll view) (BusAll.readRawLoop w D fuel n : SO (BusAll P B) _ InstructionPacket) (BusOf.readRawLoop w D fuel n) := by
  intro n
  induction n with
  | zero => exact .hang
  | succ n ih =>
    refine .bind (all_packet hB _ _ _) fun p => .bind (.lift _) fun o => ?_
    cases o with
    | some i => exact .pure _
    | none => exact ih

theorem all_raw (hB : B.Lawful view) (w t fuel : Nat) :
    SameThrough (seeAll view) (BusAll.readRawInstructionTimeout w t fuel : SO (BusAll P B) _ InstructionPacket)
      (BusOf.readRawInstructionTimeout w t fuel) :=
  .bind (all_onPort _) fun _ => all_rawLoop hB _ _ _ _

/-- The methods of `Client` and `Device` with any port and buffer type, and the same with lists for buffers. -/
inductive AllMethod (P : PortImpl) (B : BufferImpl) (w fuel : Nat) : {ε α : Type} → SO (BusAll P B) ε α → SO (BusOf P) ε α → Prop
  | setBaudRate (rate : Nat) : AllMethod P B w fuel (BusAll.setBaudRate rate) (BusOf.setBaudRate rate)
  | action (id : Byte) : AllMethod P B w fuel (BusAll.action w id fuel) (BusOf.action w id fuel)
  | broadcastAction : AllMethod P B w fuel BusAll.broadcastAction BusOf.broadcastAction
  | reboot (id : Byte) : AllMethod P B w fuel (BusAll.reboot w id fuel) (BusOf.reboot w id fuel)
  | broadcastReboot : AllMethod P B w fuel BusAll.broadcastReboot BusOf.broadcastReboot
  | clearRevolutionCounter (id : Byte) : AllMethod P B w fuel (BusAll.clearRevolutionCounter w id fuel) (BusOf.clearRevolutionCounter w id fuel)
  | broadcastClearRevolutionCounter :
      AllMethod P B w fuel BusAll.broadcastClearRevolutionCounter BusOf.broadcastClearRevolutionCounter
  | clearError (id : Byte) : AllMethod P B w fuel (BusAll.clearError w id fuel) (BusOf.clearError w id fuel)
  | broadcastClearError : AllMethod P B w fuel BusAll.broadcastClearError BusOf.broadcastClearError
  | factoryReset (id : Byte) (kind : Client.FactoryResetKind) :
      AllMethod P B w fuel (BusAll.factoryReset w id kind fuel) (BusOf.factoryReset w id kind fuel)
  | broadcastFactoryReset (kind : Client.FactoryResetKind) :
      AllMethod P B w fuel (BusAll.broadcastFactoryReset kind) (BusOf.broadcastFactoryReset kind)
  | readBytes (id : Byte) (address count : U16) : AllMethod P B w fuel (BusAll.readBytes w id address count fuel) (BusOf.readBytes w id address count fuel)
  | read {α : Type} (d : DataTy α) (id : Byte) (address : U16) : AllMethod P B w fuel (BusAll.read w d id address fuel) (BusOf.read w d id address fuel)
  | write {α : Type} (d : DataTy α) (id : Byte) (address : U16) (data : α) :
      AllMethod P B w fuel (BusAll.write w d id address data fuel) (BusOf.write w d id address data fuel)
  | writeBytes (id : Byte) (address : U16) (data : List Byte) :
      AllMethod P B w fuel (BusAll.writeBytes w id address data fuel) (BusOf.writeBytes w id address data fuel)
  | regWriteBytes (id : Byte) (address : U16) (data : List Byte) :
      AllMethod P B w fuel (BusAll.regWriteBytes w id address data fuel) (BusOf.regWriteBytes w id address data fuel)
  | regWrite {α : Type} (d : DataTy α) (id : Byte) (address : U16) (data : α) :
      AllMethod P B w fuel (BusAll.regWrite w d id address data fuel) (BusOf.regWrite w d id address data fuel)
  | ping (id : Byte) : AllMethod P B w fuel (BusAll.ping w id fuel) (BusOf.ping w id fuel)
  | scan : AllMethod P B w fuel BusAll.scan BusOf.scan
  | scanNext {ε : Type} : AllMethod P B w fuel (BusAll.scanNext (ε := ε) w fuel) (BusOf.scanNext w fuel)
  | scanDrop {ε : Type} (n : Nat) : AllMethod P B w fuel (BusAll.scanDrop (ε := ε) w fuel n) (BusOf.scanDrop w fuel n)
  | syncReadBytes (ids : List Byte) (address count : U16) :
      AllMethod P B w fuel (BusAll.syncReadBytes ids address count) (BusOf.syncReadBytes ids address count)
  | syncRead {α : Type} (d : DataTy α) (ids : List Byte) (address : U16) :
      AllMethod P B w fuel (BusAll.syncRead d ids address) (BusOf.syncRead d ids address)
  | bulkReadBytes (reads : List BulkReadData) : AllMethod P B w fuel (BusAll.bulkReadBytes reads) (BusOf.bulkReadBytes reads)
  | syncWriteBytes (address count : U16) (data : List (SyncWriteData (List Byte))) :
      AllMethod P B w fuel (BusAll.syncWriteBytes address count data) (BusOf.syncWriteBytes address count data)
  | syncWrite {α : Type} (d : DataTy α) (address : U16) (data : List (SyncWriteData α)) :
      AllMethod P B w fuel (BusAll.syncWrite d address data) (BusOf.syncWrite d address data)
  | bulkWrite (writes : List BulkWriteData) : AllMethod P B w fuel (BusAll.bulkWrite writes) (BusOf.bulkWrite writes)
  | deviceRead (t : Nat) : AllMethod P B w fuel (BusAll.deviceRead w t fuel) (BusOf.deviceRead w t fuel)
  | deviceReadOwned (t : Nat) : AllMethod P B w fuel (BusAll.deviceReadOwned w t fuel) (BusOf.deviceReadOwned w t fuel)
  | writeStatus (id error : Byte) (n : Nat) (enc : Encoder) :
      AllMethod P B w fuel (BusAll.writeStatus id error n enc) (BusOf.writeStatus id error n enc)
  | writeStatusError (id error : Byte) : AllMethod P B w fuel (BusAll.writeStatusError id error) (BusOf.writeStatusError id error)
  | writeStatusOk (id : Byte) : AllMethod P B w fuel (BusAll.writeStatusOk id) (BusOf.writeStatusOk id)

/-- **C106** With any serial port and a buffer type that lends the same bytes each time, with the changes made to them, every method of
client and device does exactly what it does with that port and a `Vec` of the same contents. -/
theorem c106_same_method (hB : B.Lawful view) {w fuel : Nat} {ε α : Type} {m : SO (BusAll P B) ε α} {n : SO (BusOf P) ε α}
    (h : AllMethod P B w fuel m n) (b : BusAll P B) : seeAll view (m b).1 = (n (seeAll view b)).1 ∧ (m b).2 = (n (seeAll view b)).2 := by
  suffices h : SameThrough (seeAll view) m n from h b
  cases h with
  | setBaudRate rate =>
    intro b
    unfold BusAll.setBaudRate BusAll.onRest BusOf.setBaudRate SO.zoom
    dsimp only
    rw [SO.bind_def, SO.bind_def]
    unfold BusOf.onPort SO.zoom
    dsimp only [seeAll]
    rcases P.setBaudRate rate b.rest.port with ⟨p, _ | e | _ | _⟩ <;> exact ⟨rfl, rfl⟩
  | action id => exact all_instruct hB _ _ _ _ _ _
  | broadcastAction => exact all_write hB _ _ _ _
  | reboot id => exact all_instruct hB _ _ _ _ _ _
  | broadcastReboot => exact all_write hB _ _ _ _
  | clearRevolutionCounter id => exact all_instruct hB _ _ _ _ _ _
  | broadcastClearRevolutionCounter => exact all_write hB _ _ _ _
  | clearError id => exact all_instruct hB _ _ _ _ _ _
  | broadcastClearError => exact all_write hB _ _ _ _
  | factoryReset id kind => exact all_instruct hB _ _ _ _ _ _
  | broadcastFactoryReset kind => exact all_write hB _ _ _ _
  | readBytes id address count => exact .bind (all_readRaw hB _ _ _ _ _) fun _ => .lift _
  | read d id address => exact .bind (all_readRaw hB _ _ _ _ _) fun _ => .lift _
  | write d id address data => exact all_instruct hB _ _ _ _ _ _
  | writeBytes id address data => exact all_instruct hB _ _ _ _ _ _
  | regWriteBytes id address data => exact all_instruct hB _ _ _ _ _ _
  | regWrite d id address data => exact all_instruct hB _ _ _ _ _ _
  | ping id => exact .bind (all_call hB _ _ _ _ _ _ _) fun _ => .lift _
  | scan => exact all_write hB _ _ _ _
  | scanNext => exact all_scanNext hB _ _
  | scanDrop n => exact all_scanDrop hB _ _ _
  | syncReadBytes ids address count => exact all_write hB _ _ _ _
  | syncRead d ids address => exact all_write hB _ _ _ _
  | bulkReadBytes reads =>
    unfold BusAll.bulkReadBytes BusOf.bulkReadBytes
    by_cases h : Client.hasDuplicateId reads
    · rw [if_pos h, if_pos h]; exact .panic
    · rw [if_neg h, if_neg h]; exact all_write hB _ _ _ _
  | syncWriteBytes address count data => exact all_write hB _ _ _ _
  | syncWrite d address data => exact all_write hB _ _ _ _
  | bulkWrite writes => exact .bind (.lift _) fun _ => all_write hB _ _ _ _
  | deviceRead t => exact .bind (all_raw hB _ _ _) fun _ => .lift _
  | deviceReadOwned t => exact .bind (all_raw hB _ _ _) fun _ => .lift _
  | writeStatus id error n enc => exact all_status hB _ _ _ _
  | writeStatusError id error => exact all_status hB _ _ _ _
  | writeStatusOk id => exact all_status hB _ _ _ _

/-- A sync read seen with lists for buffers. -/
def seeSyncAll (view : B.Buf → List Byte) (s : SyncIterAll P B) : SyncIterOf P := ⟨seeAll view s.client, s.count, s.motorIds, s.index⟩

/-- A bulk read seen with lists for buffers. -/
def seeBulkAll (view : B.Buf → List Byte) (s : BulkIterAll P B) : BulkIterOf P := ⟨seeAll view s.client, s.reads, s.index⟩

theorem all_syncClient {ε α : Type} {m : SO (BusAll P B) ε α} {n : SO (BusOf P) ε α} (h : SameThrough (seeAll view) m n) :
    SameThrough (seeSyncAll view) (SyncIterAll.onClient m) (SyncIterOf.onClient n) := by
  intro s
  obtain ⟨h1, h2⟩ := h s.client
  refine ⟨?_, h2⟩
  unfold SyncIterAll.onClient SyncIterOf.onClient SO.zoom seeSyncAll
  dsimp only
  rw [h1]

theorem all_bulkClient {ε α : Type} {m : SO (BusAll P B) ε α} {n : SO (BusOf P) ε α} (h : SameThrough (seeAll view) m n) :
    SameThrough (seeBulkAll view) (BulkIterAll.onClient m) (BulkIterOf.onClient n) := by
  intro s
  obtain ⟨h1, h2⟩ := h s.client
  refine ⟨?_, h2⟩
  unfold BulkIterAll.onClient BulkIterOf.onClient SO.zoom seeBulkAll
  dsimp only
  rw [h1]

theorem all_popMotor {ε : Type} : SameThrough (ε := ε) (seeSyncAll view) (SyncIterAll.popMotorId : SO (SyncIterAll P B) ε _) SyncIterOf.popMotorId := by
  intro s
  unfold SyncIterAll.popMotorId SyncIterOf.popMotorId seeSyncAll
  dsimp only
  cases s.motorIds[s.index]? <;> exact ⟨rfl, rfl⟩

theorem all_popData {ε : Type} : SameThrough (ε := ε) (seeBulkAll view) (BulkIterAll.pop : SO (BulkIterAll P B) ε _) BulkIterOf.pop := by
  intro s
  unfold BulkIterAll.pop BulkIterOf.pop seeBulkAll
  dsimp only
  cases s.reads[s.index]? <;> exact ⟨rfl, rfl⟩

theorem all_nextBytes {ε : Type} (hB : B.Lawful view) (w fuel : Nat) :
    SameThrough (ε := ε) (seeSyncAll view) (SyncIterAll.nextBytes w fuel : SO (SyncIterAll P B) ε _) (SyncIterOf.nextBytes w fuel) := by
  refine .bind all_popMotor fun o => ?_
  cases o with
  | none => exact .pure _
  | some id =>
    exact .bind (SameThrough.attempt (.get fun s => .bind (all_syncClient (all_response hB _ _ _)) fun _ => .bind (.lift _) fun _ => .lift _))
      fun _ => .pure _

theorem all_next {α ε : Type} (hB : B.Lawful view) (w : Nat) (d : DataTy α) (fuel : Nat) :
    SameThrough (ε := ε) (seeSyncAll view) (SyncIterAll.next w d fuel : SO (SyncIterAll P B) ε _) (SyncIterOf.next w d fuel) := by
  refine .bind all_popMotor fun o => ?_
  cases o with
  | none => exact .pure _
  | some id =>
    exact .bind (SameThrough.attempt (.bind (all_syncClient (all_response hB _ _ _)) fun _ => .bind (.lift _) fun _ => .lift _)) fun _ => .pure _

theorem all_nextBulk {ε : Type} (hB : B.Lawful view) (w fuel : Nat) :
    SameThrough (ε := ε) (seeBulkAll view) (BulkIterAll.next w fuel : SO (BulkIterAll P B) ε _) (BulkIterOf.next w fuel) := by
  refine .bind all_popData fun o => ?_
  cases o with
  | none => exact .pure _
  | some r =>
    exact .bind (SameThrough.attempt (.bind (all_bulkClient (all_response hB _ _ _)) fun _ => .bind (.lift _) fun _ => .lift _)) fun _ => .pure _

theorem all_dropBytes {ε : Type} (hB : B.Lawful view) (w fuel : Nat) : ∀ n,
    SameThrough (ε := ε) (seeSyncAll view) (SyncIterAll.dropBytes w fuel n : SO (SyncIterAll P B) ε _) (SyncIterOf.dropBytes w fuel n) := by
  intro n
  induction n with
  | zero => exact .hang
  | succ n ih =>
    refine .bind all_popMotor fun o => ?_
    cases o with
    | none => exact .pure _
    | some id => exact .get fun s => .bind (SameThrough.attempt (all_syncClient (all_response hB _ _ _))) fun _ => ih

theorem all_drop {α ε : Type} (hB : B.Lawful view) (w : Nat) (d : DataTy α) (fuel : Nat) : ∀ n,
    SameThrough (ε := ε) (seeSyncAll view) (SyncIterAll.drop w d fuel n : SO (SyncIterAll P B) ε _) (SyncIterOf.drop w d fuel n) := by
  intro n
  induction n with
  | zero => exact .hang
  | succ n ih =>
    refine .bind (all_next hB w d fuel) fun o => ?_
    cases o with
    | none => exact .pure _
    | some id => exact ih

theorem all_dropBulk {ε : Type} (hB : B.Lawful view) (w fuel : Nat) : SameThrough (ε := ε) (seeBulkAll view) (BulkIterAll.drop w fuel : SO (BulkIterAll P B) ε _) (BulkIterOf.drop w fuel) := by
  have loop : ∀ l, SameThrough (ε := ε) (seeBulkAll view) (BulkIterAll.dropLoop w fuel l : SO (BulkIterAll P B) ε _) (BulkIterOf.dropLoop w fuel l) := by
    intro l
    induction l with
    | nil => exact .pure _
    | cons r l ih => exact .bind (SameThrough.attempt (all_bulkClient (all_response hB _ _ _))) fun _ => ih
  refine .get fun s => ?_
  show SameThrough _ (if s.index ≤ s.reads.length then _ else _) (if s.index ≤ s.reads.length then _ else _)
  by_cases h : s.index ≤ s.reads.length
  · rw [if_pos h, if_pos h]; exact loop _
  · rw [if_neg h, if_neg h]; exact .panic

/-- **C106** The same for any code that uses the iterator of a sync or bulk read or a scan, with its destructor and the panics of both. -/
theorem c106_same_scope (hB : B.Lawful view) {α ω : Type} (d : DataTy α) (w fuel n : Nat) :
    (∀ (code : LoopCode (Except (ReadErrorOf P.Error) (Response (List Byte))) ω) (s : SyncIterAll P B),
      seeSyncAll view (scopeOf (SyncIterAll.nextBytes w fuel) (SyncIterAll.dropBytes w fuel n) code s).1 =
          (scopeOf (SyncIterOf.nextBytes w fuel) (SyncIterOf.dropBytes w fuel n) code (seeSyncAll view s)).1 ∧
        (scopeOf (SyncIterAll.nextBytes w fuel) (SyncIterAll.dropBytes w fuel n) code s).2 =
          (scopeOf (SyncIterOf.nextBytes w fuel) (SyncIterOf.dropBytes w fuel n) code (seeSyncAll view s)).2) ∧
    (∀ (code : LoopCode (Except (ReadErrorOf P.Error) (Response α)) ω) (s : SyncIterAll P B),
      seeSyncAll view (scopeOf (SyncIterAll.next w d fuel) (SyncIterAll.drop w d fuel n) code s).1 =
          (scopeOf (SyncIterOf.next w d fuel) (SyncIterOf.drop w d fuel n) code (seeSyncAll view s)).1 ∧
        (scopeOf (SyncIterAll.next w d fuel) (SyncIterAll.drop w d fuel n) code s).2 =
          (scopeOf (SyncIterOf.next w d fuel) (SyncIterOf.drop w d fuel n) code (seeSyncAll view s)).2) ∧
    (∀ (code : LoopCode (Except (ReadErrorOf P.Error) (Response (List Byte))) ω) (s : BulkIterAll P B),
      seeBulkAll view (scopeOf (BulkIterAll.next w fuel) (BulkIterAll.drop w fuel) code s).1 =
          (scopeOf (BulkIterOf.next w fuel) (BulkIterOf.drop w fuel) code (seeBulkAll view s)).1 ∧
        (scopeOf (BulkIterAll.next w fuel) (BulkIterAll.drop w fuel) code s).2 =
          (scopeOf (BulkIterOf.next w fuel) (BulkIterOf.drop w fuel) code (seeBulkAll view s)).2) ∧
    (∀ (code : LoopCode (Except (ReadErrorOf P.Error) (Response Client.Ping)) ω) (b : BusAll P B),
      seeAll view (scopeOf (BusAll.scanNext w fuel) (BusAll.scanDrop w fuel n) code b).1 =
          (scopeOf (BusOf.scanNext w fuel) (BusOf.scanDrop w fuel n) code (seeAll view b)).1 ∧
        (scopeOf (BusAll.scanNext w fuel) (BusAll.scanDrop w fuel n) code b).2 =
          (scopeOf (BusOf.scanNext w fuel) (BusOf.scanDrop w fuel n) code (seeAll view b)).2) :=
  ⟨fun code s => same_scope (all_nextBytes hB _ _) (all_dropBytes hB _ _ n) code s,
    fun code s => same_scope (all_next hB _ d _) (all_drop hB _ d _ n) code s,
    fun code s => same_scope (all_nextBulk hB _ _) (all_dropBulk hB _ _) code s,
    fun code b => same_scope (all_scanNext hB _ _) (all_scanDrop hB _ _ n) code b⟩

/-- **C106** The same for making a bus with `with_buffers`, which asks the port for the baud rate: an error or panic of the port is one of
the call, and a write buffer of less than ten bytes makes it panic. -/
theorem c106_same_construct (hB : B.MutLawful view) (debug : Bool) (unused : Port) (r v : B.Buf) (p : P.Port) :
    (BusAll.withBuffers (P := P) debug unused r v p).1 = (BusOf.withBuffers debug unused (view r) (view v) p).1 ∧
    match (BusAll.withBuffers (P := P) debug unused r v p).2 with
    | .ok b => (BusOf.withBuffers debug unused (view r) (view v) p).2 = .ok (seeAll view b)
    | .err e => (BusOf.withBuffers debug unused (view r) (view v) p).2 = .err e
    | .panic => (BusOf.withBuffers debug unused (view r) (view v) p).2 = .panic
    | .hang => (BusOf.withBuffers debug unused (view r) (view v) p).2 = .hang := by
  have hl : BusAll.withBuffers (P := P) debug unused r v p = match P.baudRate p with
      | (q, .ok rate) => (q, BusAll.withBuffersAndBaudRate debug unused q r v rate)
      | (q, .err e) => (q, .err e)
      | (q, .panic) => (q, .panic)
      | (q, .hang) => (q, .hang) := by
    unfold BusAll.withBuffers
    show SO.bind P.baudRate _ p = _
    unfold SO.bind
    rcases P.baudRate p with ⟨q, rate | e | _ | _⟩ <;> rfl
  have hr : BusOf.withBuffers (P := P) debug unused (view r) (view v) p = match P.baudRate p with
      | (q, .ok rate) => (match Bus.withBuffersAndBaudRate (ε := P.Error) debug unused (view r) (view v) rate with
        | .ok rest => (q, .ok ⟨q, rest⟩)
        | .err e => (q, .err e)
        | .panic => (q, .panic)
        | .hang => (q, .hang))
      | (q, .err e) => (q, .err e)
      | (q, .panic) => (q, .panic)
      | (q, .hang) => (q, .hang) := by
    unfold BusOf.withBuffers
    rw [SO.bind_def]
    rcases P.baudRate p with ⟨q, rate | e | _ | _⟩ <;> try rfl
    show SO.bind (SO.lift _) _ q = _
    unfold SO.bind SO.lift
    dsimp only
    rcases Bus.withBuffersAndBaudRate (ε := P.Error) debug unused (view r) (view v) rate <;> rfl
  rw [hl, hr]
  rcases P.baudRate p with ⟨q, rate | e | _ | _⟩
  · dsimp only
    have h1 := hB.asMut v
    have h2 := hB.release v (view v) rfl
    unfold BusAll.withBuffersAndBaudRate Bus.withBuffersAndBaudRate
    rcases hx : B.asMut v with ⟨w1, o⟩
    rw [hx] at h1 h2
    simp only at h1 h2
    subst h1
    by_cases h : 10 ≤ (view v).length
    · have h3 := hB.asMut (B.release (view v) w1)
      have h4 := hB.release (B.release (view v) w1) (headerPrefix ++ (view v).drop 4) (by
        rw [h2]; simp [headerPrefix]; omega)
      dsimp only
      rw [if_pos (by unfold headerSize; omega), if_pos (by unfold headerSize; omega)]
      rcases hy : B.asMut (B.release (view v) w1) with ⟨w2, o⟩
      rw [hy] at h3 h4
      simp only [h2] at h3 h4
      subst h3
      dsimp only
      rw [if_pos (by omega)]
      refine ⟨rfl, ?_⟩
      unfold seeAll
      simp only [h4]
    · dsimp only
      rw [if_neg (by unfold headerSize; omega), if_neg (by unfold headerSize; omega)]
      exact ⟨rfl, rfl⟩
  all_goals exact ⟨rfl, rfl⟩

/-! ## Any port, and buffers that need not keep what is written to them -/

/-- **C106** Whatever the port and the buffer do: a packet is sent by asking the port to discard its input and to write one slice, which
starts with the first four bytes that `as_mut` lends for this packet, and the result is what comes of that; or the port is not used. -/
theorem c106_first_four (id instr : Byte) (n : Nat) (enc : Encoder) (b : BusAll P B) :
    ((BusAll.writePacket id instr n enc b).1.rest.port = b.rest.port ∧
      ((∃ e, (BusAll.writePacket id instr n enc b).2 = .err (.bufferTooSmall e)) ∨ (BusAll.writePacket id instr n enc b).2 = .panic ∨
        (BusAll.writePacket id instr n enc b).2 = .hang)) ∨
    ∃ s f, (B.asMut b.writeBuffer).2 = some s ∧ f.take 4 = s.take 4 ∧
      ((BusAll.writePacket id instr n enc b).1.rest.port, (BusAll.writePacket id instr n enc b).2) = sendingTo P f b.rest.port := by
  unfold BusAll.writePacket BusAll.borrowWrite
  rcases B.asMut b.writeBuffer with ⟨v, o⟩
  cases o with
  | none => exact .inl ⟨rfl, .inr (.inl rfl)⟩
  | some s =>
    dsimp only
    obtain ⟨-, h⟩ := c83_write_same id instr n enc (otherWrite b.rest s)
    obtain ⟨new, h1, h2⟩ := write_first id instr n enc ((otherWrite b.rest s).rest.onto easyPort)
    rcases hx : Bus.writePacket id instr n enc ((otherWrite b.rest s).rest.onto easyPort) with ⟨c, _ | (e | e | e) | _ | _⟩
    · rw [hx] at h h1
      obtain ⟨f, hf, hs, -⟩ := h
      refine .inr ⟨s, f, rfl, ?_, hs⟩
      have hn : new = [.discard true, .write f true] := List.append_cancel_left (h1.symm.trans hf)
      exact h2 f true (by rw [hn]; simp)
    · rw [hx] at h
      exact .inl ⟨h.1, .inl ⟨e, h.2⟩⟩
    · rw [hx] at h; exact h.elim
    · rw [hx] at h; exact h.elim
    · rw [hx] at h
      exact .inl ⟨h.1, .inr (.inl h.2)⟩
    · rw [hx] at h
      exact .inl ⟨h.1, .inr (.inr h.2)⟩

/-- **C106** If these four bytes are the header prefix and ten bytes are lent, what is written is one well-formed packet. -/
theorem c106_framed (id instr : Byte) (n : Nat) (enc : Encoder) {b b' : BusAll P B} {s : List Byte}
    (hs : (B.asMut b.writeBuffer).2 = some s) (hh : s.take 4 = header) (h10 : 10 ≤ s.length)
    (h : BusAll.writePacket id instr n enc b = (b', .ok ())) :
    ∃ params wire, Encodes enc n params ∧ StuffedForm (instr :: params) wire ∧
      (b'.rest.port, .ok ()) = sendingTo P (frame id wire) b.rest.port := by
  unfold BusAll.writePacket BusAll.borrowWrite at h
  rcases hx : B.asMut b.writeBuffer with ⟨v, o⟩
  rw [hx] at h hs
  simp only at hs
  subst hs
  dsimp only at h
  have hw : (otherWrite b.rest s).rest.WInv := ⟨h10, hh⟩
  have hc := c83_write id instr n enc hw (b' := (BusOf.writePacket id instr n enc (otherWrite b.rest s)).1)
    (o := (BusOf.writePacket id instr n enc (otherWrite b.rest s)).2) rfl
  obtain ⟨rfl, ho⟩ := Prod.mk.inj h
  change (BusOf.writePacket id instr n enc (otherWrite b.rest s)).2 = .ok () at ho
  obtain ⟨-, -, -, -, -, hc | ⟨params, wire, h1, h2, h3, -⟩⟩ := hc
  · rw [ho] at hc
    obtain ⟨-, ⟨e, he⟩ | he | he⟩ := hc <;> exact absurd he (by simp)
  · rw [ho] at h3
    exact ⟨params, wire, h1, h2, h3⟩

/-- A bus with a port that drips and buffers that count how often they are lent. -/
def dripCounting (stream : List Byte) : BusAll (dripping stream) countingBuffer :=
  ⟨(0, (quietBus true 40).readBuffer), (0, (quietBus true 40).writeBuffer), busOf (dripping stream) (0 : Nat)⟩

example := c106_same_method countingBuffer_lawful (.ping (w := 64) (fuel := 40) 7#8) (dripCounting (frame 7#8 [0x55#8, 0#8, 1#8, 2#8, 3#8]))
/-- A motor answers a ping over a port of the caller into a buffer of the caller. -/
example : (match (BusAll.ping 64 7#8 40 (dripCounting (frame 7#8 [0x55#8, 0#8, 1#8, 2#8, 3#8]))).2 with
    | .ok r => some (r.motorId, r.alert, r.data.model, r.data.firmware)
    | _ => none) = some (7#8, false, 0x201#16, 3#8) := by decide +kernel
example := c106_same_method countingBuffer_lawful (.deviceRead (w := 64) (fuel := 40) 9) (dripCounting (frame 7#8 [1#8]))
example (d : DataTy U16) := (c106_same_scope (P := dripping (frame 7#8 [0x55#8, 0#8, 3#8])) countingBuffer_lawful d (ω := Nat) 64 40 3).1
  (.asks fun _ => .panics) ⟨dripCounting _, 1#16, [7#8, 8#8], 0⟩
example := c106_same_construct (P := dripping []) countingBuffer_lawful.toMutLawful true easyPort (0, []) (0, List.replicate 10 7#8) (0 : Nat)
example := c106_first_four 7#8 1#8 0 Encoder.nothing (dripCounting [])
/-- What is written to any port is no packet if the buffer does not keep the header prefix. -/
example := c106_first_four 7#8 1#8 0 Encoder.nothing (⟨(), (), busOf (dripping []) (0 : Nat)⟩ : BusAll (dripping []) zeroBuffer)
example := c106_framed 7#8 1#8 0 Encoder.nothing (b := dripCounting []) rfl (by decide) (by decide) (Prod.ext rfl rfl)

end Dxl.Props
