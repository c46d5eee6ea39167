import Verif.Model.AnyBuffer
import Verif.Lemmas.AnyPort
import Verif.Lemmas.Room

/-! # Any buffer type: comparing with lists -/

namespace Dxl

/-- `as_mut` lends the same bytes each time, with the changes that were made to them. `view` says which. -/
structure BufferImpl.MutLawful (B : BufferImpl) (view : B.Buf → List Byte) : Prop where
  asMut : ∀ b, (B.asMut b).2 = some (view b)
  release : ∀ b s, s.length = (view b).length → view (B.release s (B.asMut b).1) = s

/-- The buffer lends the same bytes each time, with the changes that were made to them. -/
structure BufferImpl.Lawful (B : BufferImpl) (view : B.Buf → List Byte) : Prop extends B.MutLawful view where
  asRef : ∀ b, (B.asRef b).2 = some (view b)
  asRef_keeps : ∀ b, view (B.asRef b).1 = view b

/-- The same bus with lists for buffers. -/
def BusIn.see {B : BufferImpl} (view : B.Buf → List Byte) (b : BusIn B) : Bus :=
  { b.rest with readBuffer := view b.readBuffer, writeBuffer := view b.writeBuffer }

/-- The code uses no write buffer and keeps the length of the read buffer. -/
structure Bus.OnlyRead {ε α : Type} (m : SO Bus ε α) : Prop where
  free : ∀ b w, m { b with writeBuffer := w } = ({ (m b).1 with writeBuffer := w }, (m b).2)
  keeps : ∀ b, (m b).1.readBuffer.length = b.readBuffer.length

/-- The code uses no read buffer and keeps the length and the first four bytes of the write buffer. -/
structure Bus.OnlyWrite {ε α : Type} (m : SO Bus ε α) : Prop where
  free : ∀ b r, m { b with readBuffer := r } = ({ (m b).1 with readBuffer := r }, (m b).2)
  keeps : ∀ b, (m b).1.writeBuffer.length = b.writeBuffer.length
  first : ∀ b, (m b).1.writeBuffer.take 4 = b.writeBuffer.take 4

namespace Bus

theorem OnlyRead.bind {ε α β : Type} {m : SO Bus ε α} {f : α → SO Bus ε β} (hm : OnlyRead m) (hf : ∀ a, OnlyRead (f a)) :
    OnlyRead (m >>= f) := by
  constructor
  · intro b w
    rw [SO.bind_def, SO.bind_def, hm.free b w]
    rcases m b with ⟨b', o⟩
    cases o with
    | ok a => exact (hf a).free b' w
    | _ => rfl
  · intro b
    have h := hm.keeps b
    rw [SO.bind_def]
    rcases hmb : m b with ⟨b', o⟩
    rw [hmb] at h
    cases o with
    | ok a => exact ((hf a).keeps b').trans h
    | _ => exact h

theorem OnlyWrite.bind {ε α β : Type} {m : SO Bus ε α} {f : α → SO Bus ε β} (hm : OnlyWrite m) (hf : ∀ a, OnlyWrite (f a)) :
    OnlyWrite (m >>= f) := by
  refine ⟨fun b w => ?_, fun b => ?_, fun b => ?_⟩
  · rw [SO.bind_def, SO.bind_def, hm.free b w]
    rcases m b with ⟨b', o⟩
    cases o with
    | ok a => exact (hf a).free b' w
    | _ => rfl
  · have h := hm.keeps b
    rw [SO.bind_def]
    rcases hmb : m b with ⟨b', o⟩
    rw [hmb] at h
    cases o with
    | ok a => exact ((hf a).keeps b').trans h
    | _ => exact h
  · have h := hm.first b
    rw [SO.bind_def]
    rcases hmb : m b with ⟨b', o⟩
    rw [hmb] at h
    cases o with
    | ok a => exact ((hf a).first b').trans h
    | _ => exact h

theorem onlyRead_lift {ε α : Type} (o : Outcome ε α) : OnlyRead (SO.lift o : SO Bus ε α) := ⟨fun _ _ => rfl, fun _ => rfl⟩

theorem onlyRead_pure {ε α : Type} (a : α) : OnlyRead (pure a : SO Bus ε α) := ⟨fun _ _ => rfl, fun _ => rfl⟩

theorem onlyRead_panic {ε α : Type} : OnlyRead (SO.panic : SO Bus ε α) := ⟨fun _ _ => rfl, fun _ => rfl⟩

theorem onlyRead_onPort {ε α : Type} (m : SO Port ε α) : OnlyRead (Bus.onPort m) := ⟨fun _ _ => rfl, fun _ => rfl⟩

theorem onlyWrite_lift {ε α : Type} (o : Outcome ε α) : OnlyWrite (SO.lift o : SO Bus ε α) :=
  ⟨fun _ _ => rfl, fun _ => rfl, fun _ => rfl⟩

theorem onlyWrite_onPort {ε α : Type} (m : SO Port ε α) : OnlyWrite (Bus.onPort m) :=
  ⟨fun _ _ => rfl, fun _ => rfl, fun _ => rfl⟩

theorem onlyRead_get {ε β : Type} {f : Bus → SO Bus ε β} (hf : ∀ b w, f { b with writeBuffer := w } = f b)
    (hp : ∀ b, OnlyRead (f b)) : OnlyRead (SO.get >>= f) := by
  constructor
  · intro b w
    rw [SO.get_bind, SO.get_bind, hf, (hp b).free]
  · intro b
    exact (hp b).keeps b

theorem onlyWrite_get {ε β : Type} {f : Bus → SO Bus ε β} (hf : ∀ b r, f { b with readBuffer := r } = f b)
    (hp : ∀ b, OnlyWrite (f b)) : OnlyWrite (SO.get >>= f) := by
  refine ⟨fun b w => ?_, fun b => ?_, fun b => ?_⟩
  · rw [SO.get_bind, SO.get_bind, hf, (hp b).free]
  · exact (hp b).keeps b
  · exact (hp b).first b

theorem onlyRead_debugAssert {ε : Type} (c : Bool) : OnlyRead (Bus.debugAssert c : SO Bus ε Unit) := by
  unfold Bus.debugAssert
  refine onlyRead_get (fun _ _ => rfl) fun b => ?_
  unfold SO.assert
  split
  · exact onlyRead_pure _
  · exact onlyRead_panic

theorem onlyRead_findGarbage {ε : Type} : OnlyRead (Bus.findGarbage : SO Bus ε Nat) := by
  unfold Bus.findGarbage
  exact onlyRead_get (fun _ _ => rfl) fun b => (onlyRead_lift _).bind fun _ => (onlyRead_lift _).bind fun _ => onlyRead_pure _

theorem onlyRead_bodyLen {ε : Type} : OnlyRead (Bus.bodyLen : SO Bus ε Nat) := by
  unfold Bus.bodyLen
  exact onlyRead_get (fun _ _ => rfl) fun b => (onlyRead_lift _).bind fun _ => (onlyRead_lift _).bind fun _ =>
    (onlyRead_lift _).bind fun _ => onlyRead_pure _

theorem onlyRead_readRoom {ε : Type} : OnlyRead (Bus.readRoom : SO Bus ε Nat) := by
  unfold Bus.readRoom
  exact onlyRead_get (fun _ _ => rfl) fun b => onlyRead_pure _

theorem onlyRead_consumeReadBytes {ε : Type} (len : Nat) : OnlyRead (Bus.consumeReadBytes len : SO Bus ε Unit) := by
  refine ⟨fun b w => ?_, fun b => (consumeReadBytes_room len b).1⟩
  unfold Bus.consumeReadBytes
  rw [SO.get_bind, SO.get_bind, SO.bind_def, SO.bind_def, (onlyRead_debugAssert _).free b w]
  rcases Bus.debugAssert (ε := ε) (decide (len ≤ b.readLen)) b with ⟨b', o⟩
  cases o with
  | ok a =>
    simp only
    split <;> rfl
  | _ => rfl

theorem onlyRead_readMore (deadline : Nat) : OnlyRead (Bus.readMore deadline) := by
  refine ⟨fun b w => ?_, fun b => (readMore_room deadline b).1⟩
  unfold Bus.readMore
  rw [SO.get_bind, SO.get_bind]
  dsimp only
  by_cases h : b.readLen ≤ b.readBuffer.length
  · rw [if_pos h, SO.bind_def, SO.bind_def, (onlyRead_onPort _).free b w]
    rcases Bus.onPort ((Port.read (b.readBuffer.length - b.readLen) deadline).mapErr ReadError.io) b with ⟨b', o⟩
    cases o <;> rfl
  · rw [if_neg h]
    rfl

theorem onlyRead_checkPacket {ε : Type} (n : Nat) : OnlyRead (Bus.checkPacket (ε := ε) n) := by
  unfold Bus.checkPacket
  refine onlyRead_get (fun _ _ => rfl) fun b => (onlyRead_lift _).bind fun _ => (onlyRead_lift _).bind fun _ =>
    (onlyRead_lift _).bind fun _ => (onlyRead_lift _).bind fun _ => ?_
  split
  · exact onlyRead_pure _
  · refine OnlyRead.bind ⟨fun _ _ => rfl, fun _ => rfl⟩ fun _ => OnlyRead.bind ⟨fun _ _ => rfl, fun b => ?_⟩ fun _ => onlyRead_pure _
    exact KeepsLength.onSlice _ _ unstuffInplace_length b.readBuffer

/-- The code keeps the length and the first four bytes. -/
def Past4 {ε α : Type} (m : SO (List Byte) ε α) : Prop := ∀ l, (m l).1.length = l.length ∧ (m l).1.take 4 = l.take 4

theorem past4_setIdx {ε : Type} {i : Nat} (v : Byte) (h : 4 ≤ i) : Past4 (setIdx (ε := ε) i v) := by
  intro l
  refine ⟨KeepsLength.setIdx i v l, ?_⟩
  unfold setIdx
  split
  · exact List.take_set_of_le h
  · rfl

theorem past4_onSlice {ε α : Type} {a c : Nat} {m : SO (List Byte) ε α} (hm : KeepsLength m) (h : 4 ≤ a) : Past4 (onSlice a c m) := by
  intro l
  refine ⟨KeepsLength.onSlice a c hm l, ?_⟩
  unfold onSlice
  split
  · rename_i hc
    rw [List.append_assoc, List.take_append_of_le_length (by rw [List.length_take]; omega), List.take_take]
    congr 1
    omega
  · rfl

theorem past4_onSliceFrom {ε α : Type} {a : Nat} {m : SO (List Byte) ε α} (hm : KeepsLength m) (h : 4 ≤ a) :
    Past4 (onSliceFrom a m) := fun l => past4_onSlice hm h l

theorem onlyWrite_onWriteBuffer {ε α : Type} {m : SO (List Byte) ε α} (h : Past4 m) : OnlyWrite (Bus.onWriteBuffer m) :=
  ⟨fun _ _ => rfl, fun b => (h b.writeBuffer).1, fun b => (h b.writeBuffer).2⟩

theorem stuffLoop_length {ε : Type} (len required : Nat) : ∀ fuel read applied, KeepsLength (stuffLoop (ε := ε) len required fuel read applied) := by
  intro fuel
  induction fuel with
  | zero =>
    intro read applied
    unfold stuffLoop
    split
    · exact fun _ => rfl
    · exact .pure _
  | succ fuel ih =>
    intro read applied
    unfold stuffLoop
    split
    · refine KeepsLength.bind .get fun _ => KeepsLength.bind (.lift _) fun here => ?_
      split
      · split
        · exact KeepsLength.bind (.onSlice _ _ (.copyFromSlice _)) fun _ => ih _ _
        · exact .panic
      · exact KeepsLength.bind (.lift _) fun _ => KeepsLength.bind (.setIdx _ _) fun _ => ih _ _
    · exact .pure _

theorem stuffInplace_length (debug : Bool) (len : Nat) : KeepsLength (stuffInplace debug len) := by
  unfold stuffInplace
  refine KeepsLength.bind .get fun _ => KeepsLength.bind (.lift _) fun _ => KeepsLength.bind (.lift _) fun _ => ?_
  split
  · exact .pure _
  · exact KeepsLength.bind (.lift _) fun _ => KeepsLength.bind (stuffLoop_length _ _ _ _ _) fun _ =>
      KeepsLength.bind (.assert _) fun _ => .pure _

theorem onlyWrite_preparePacket (id instr : Byte) (n : Nat) (enc : Encoder) : OnlyWrite (BusOf.preparePacket id instr n enc) := by
  unfold BusOf.preparePacket
  refine onlyWrite_get (fun _ _ => rfl) fun b => (onlyWrite_lift _).bind fun _ => ?_
  refine (onlyWrite_onWriteBuffer (past4_setIdx _ (by omega))).bind fun _ => ?_
  refine (onlyWrite_onWriteBuffer (past4_setIdx _ (by omega))).bind fun _ => ?_
  refine (onlyWrite_onWriteBuffer (past4_setIdx _ (by omega))).bind fun _ => ?_
  refine (onlyWrite_onWriteBuffer (past4_setIdx _ (by omega))).bind fun _ => ?_
  refine (onlyWrite_onWriteBuffer (past4_onSlice enc.length_eq (by omega))).bind fun _ => ?_
  refine (onlyWrite_onWriteBuffer (past4_onSliceFrom (stuffInplace_length _ _) (by unfold headerSize; omega))).bind fun k => ?_
  refine (onlyWrite_lift _).bind fun _ => ?_
  refine (onlyWrite_onWriteBuffer (past4_onSliceFrom (.writeU16Le _) (by omega))).bind fun _ => ?_
  refine onlyWrite_get (fun _ _ => rfl) fun b => (onlyWrite_lift _).bind fun _ => (onlyWrite_lift _).bind fun _ => ?_
  refine (onlyWrite_onWriteBuffer (past4_onSliceFrom (.writeU16Le _) (by unfold headerSize; omega))).bind fun _ => ?_
  exact ⟨fun _ _ => rfl, fun _ => rfl, fun _ => rfl⟩

theorem onlyWrite_writePacket (id instr : Byte) (n : Nat) (enc : Encoder) : OnlyWrite (Bus.writePacket id instr n enc) := by
  rw [BusOf.writePacket_split]
  have h := onlyWrite_preparePacket id instr n enc
  refine OnlyWrite.bind ⟨fun b r => ?_, h.keeps, h.first⟩ fun _ => (onlyWrite_onPort _).bind fun _ =>
    onlyWrite_get (fun _ _ => rfl) fun b => (onlyWrite_lift _).bind fun _ => onlyWrite_onPort _
  simp only [SO.mapErr_apply, h.free b r]

end Bus

namespace BusIn

variable {B : BufferImpl} {view : B.Buf → List Byte}

/-- The code on any buffer does what the code on lists does. -/
def Sim (view : B.Buf → List Byte) {ε α : Type} (m : SO (BusIn B) ε α) (n : SO Bus ε α) : Prop :=
  ∀ b, (m b).1.see view = (n (b.see view)).1 ∧ (m b).2 = (n (b.see view)).2

namespace Sim
variable {ε ε' α β : Type}

theorem bind {m : SO (BusIn B) ε α} {n : SO Bus ε α} {f : α → SO (BusIn B) ε β} {g : α → SO Bus ε β} (hm : Sim view m n)
    (hf : ∀ a, Sim view (f a) (g a)) : Sim view (m >>= f) (n >>= g) := by
  intro b
  obtain ⟨h1, h2⟩ := hm b
  rw [SO.bind_def, SO.bind_def]
  rcases hmb : m b with ⟨b', o⟩
  rcases hnb : n (b.see view) with ⟨c', o'⟩
  rw [hmb, hnb] at h1 h2
  simp only at h1 h2
  subst h1 h2
  cases o with
  | ok a => exact hf a b'
  | _ => exact ⟨rfl, rfl⟩

theorem bind_at {m : SO (BusIn B) ε α} {n : SO Bus ε α} {f : α → SO (BusIn B) ε β} {g : α → SO Bus ε β} {b : BusIn B}
    (hm : (m b).1.see view = (n (b.see view)).1 ∧ (m b).2 = (n (b.see view)).2)
    (hf : ∀ a, Sim view (f a) (g a)) :
    ((m >>= f) b).1.see view = ((n >>= g) (b.see view)).1 ∧ ((m >>= f) b).2 = ((n >>= g) (b.see view)).2 := by
  obtain ⟨h1, h2⟩ := hm
  rw [SO.bind_def, SO.bind_def]
  rcases hmb : m b with ⟨b', o⟩
  rcases hnb : n (b.see view) with ⟨c', o'⟩
  rw [hmb, hnb] at h1 h2
  simp only at h1 h2
  subst h1 h2
  cases o with
  | ok a => exact hf a b'
  | _ => exact ⟨rfl, rfl⟩

theorem lift (o : Outcome ε α) : Sim view (SO.lift o) (SO.lift o) := fun _ => ⟨rfl, rfl⟩
theorem pure (a : α) : Sim view (Pure.pure a : SO (BusIn B) ε α) (Pure.pure a) := fun _ => ⟨rfl, rfl⟩
theorem throw (e : ε) : Sim view (SO.throw e : SO (BusIn B) ε α) (SO.throw e) := fun _ => ⟨rfl, rfl⟩
theorem hang : Sim view (SO.hang : SO (BusIn B) ε α) SO.hang := fun _ => ⟨rfl, rfl⟩

theorem mapErr {m : SO (BusIn B) ε α} {n : SO Bus ε α} (hm : Sim view m n) (f : ε → ε') : Sim view (m.mapErr f) (n.mapErr f) := by
  intro b
  obtain ⟨h1, h2⟩ := hm b
  exact ⟨h1, by rw [SO.mapErr_apply, SO.mapErr_apply, h2]⟩

theorem get {f : BusIn B → SO (BusIn B) ε β} {g : Bus → SO Bus ε β} (h : ∀ b, Sim view (f b) (g (b.see view))) :
    Sim view (SO.get >>= f) (SO.get >>= g) := fun b => h b b

end Sim

theorem debugAssert_apply {ε : Type} (c : Bool) (b : Bus) :
    Bus.debugAssert (ε := ε) c b = (b, if (!b.debug || c) = true then .ok () else .panic) := by
  unfold Bus.debugAssert SO.assert
  rw [SO.get_bind]
  split <;> rfl

theorem sim_debugAssert {ε : Type} (c : Bool) : Sim view (onRest (Bus.debugAssert c) : SO (BusIn B) ε Unit) (Bus.debugAssert c) := by
  intro b
  show see view { b with rest := (Bus.debugAssert (ε := ε) c b.rest).1 } = _ ∧ (Bus.debugAssert (ε := ε) c b.rest).2 = _
  rw [debugAssert_apply, debugAssert_apply]
  exact ⟨rfl, rfl⟩

theorem sim_borrowRead {ε α : Type} (hB : B.MutLawful view) {m : SO Bus ε α} (hm : Bus.OnlyRead m) :
    Sim view (borrowRead m : SO (BusIn B) ε α) m := by
  intro b
  have h1 := hB.asMut b.readBuffer
  have hf := hm.free { b.rest with readBuffer := view b.readBuffer } (view b.writeBuffer)
  have hk := hm.keeps { b.rest with readBuffer := view b.readBuffer }
  have hr := hB.release b.readBuffer _ hk
  unfold borrowRead
  rcases hx : B.asMut b.readBuffer with ⟨r, o⟩
  rw [hx] at h1 hr
  simp only at h1 hr
  subst h1
  show see view _ = (m { b.rest with readBuffer := view b.readBuffer, writeBuffer := view b.writeBuffer }).1 ∧ _ =
    (m { b.rest with readBuffer := view b.readBuffer, writeBuffer := view b.writeBuffer }).2
  have hf' : m { b.rest with readBuffer := view b.readBuffer, writeBuffer := view b.writeBuffer } = _ := hf
  rw [hf']
  refine ⟨?_, rfl⟩
  unfold see
  simp only [hr]

theorem sim_borrowWrite {ε α : Type} (hB : B.MutLawful view) {m : SO Bus ε α} (hm : Bus.OnlyWrite m) :
    Sim view (borrowWrite m : SO (BusIn B) ε α) m := by
  intro b
  have h1 := hB.asMut b.writeBuffer
  have hf := hm.free { b.rest with writeBuffer := view b.writeBuffer } (view b.readBuffer)
  have hk := hm.keeps { b.rest with writeBuffer := view b.writeBuffer }
  have hr := hB.release b.writeBuffer _ hk
  unfold borrowWrite
  rcases hx : B.asMut b.writeBuffer with ⟨r, o⟩
  rw [hx] at h1 hr
  simp only at h1 hr
  subst h1
  show see view _ = (m { b.rest with readBuffer := view b.readBuffer, writeBuffer := view b.writeBuffer }).1 ∧ _ =
    (m { b.rest with readBuffer := view b.readBuffer, writeBuffer := view b.writeBuffer }).2
  have hf' : m { b.rest with readBuffer := view b.readBuffer, writeBuffer := view b.writeBuffer } = _ := hf
  rw [hf']
  refine ⟨?_, rfl⟩
  unfold see
  simp only [hr]

/-- What `as_ref` lends is what the list is. -/
theorem sim_readRef {ε : Type} (hB : B.Lawful view) :
    Sim view (readRef : SO (BusIn B) ε (List Byte)) (SO.get >>= fun b => pure b.readBuffer) := by
  intro b
  have h1 := hB.asRef b.readBuffer
  have h2 := hB.asRef_keeps b.readBuffer
  unfold readRef
  rcases hx : B.asRef b.readBuffer with ⟨r, o⟩
  rw [hx] at h1 h2
  simp only at h1 h2
  subst h1
  refine ⟨?_, rfl⟩
  show see view { b with readBuffer := r } = see view b
  unfold see
  simp only [h2]

theorem sim_writeRef {ε : Type} (hB : B.Lawful view) :
    Sim view (writeRef : SO (BusIn B) ε (List Byte)) (SO.get >>= fun b => pure b.writeBuffer) := by
  intro b
  have h1 := hB.asRef b.writeBuffer
  have h2 := hB.asRef_keeps b.writeBuffer
  unfold writeRef
  rcases hx : B.asRef b.writeBuffer with ⟨r, o⟩
  rw [hx] at h1 h2
  simp only at h1 h2
  subst h1
  refine ⟨?_, rfl⟩
  show see view { b with writeBuffer := r } = see view b
  unfold see
  simp only [h2]

theorem consumeReadBytes_steps {ε : Type} (len : Nat) : (Bus.consumeReadBytes len : SO Bus ε Unit) = SO.get >>= fun b =>
    Bus.debugAssert (decide (len ≤ b.readLen)) >>= fun _ => Bus.consumeReadBytes len := by
  funext b
  rw [SO.get_bind]
  by_cases hc : len ≤ b.readLen
  · rw [show decide (len ≤ b.readLen) = true by simpa using hc, SO.bind_ok (Bus.debugAssert_true b)]
  · unfold Bus.consumeReadBytes
    rw [SO.get_bind]
    by_cases hd : b.debug = true
    · have : Bus.debugAssert (ε := ε) (decide (len ≤ b.readLen)) b = (b, .panic) := by
        unfold Bus.debugAssert
        rw [SO.get_bind, hd, show decide (len ≤ b.readLen) = false by simpa using hc]
        rfl
      rw [SO.bind_panic this, SO.bind_panic this]
    · have : Bus.debugAssert (ε := ε) (decide (len ≤ b.readLen)) b = (b, .ok ()) := by
        unfold Bus.debugAssert
        rw [SO.get_bind, show b.debug = false by simpa using hd]
        rfl
      rw [SO.bind_ok this, SO.bind_ok this, SO.get_bind, SO.bind_ok this]

theorem sim_consumeReadBytes {ε : Type} (hB : B.MutLawful view) (len : Nat) :
    Sim view (consumeReadBytes len : SO (BusIn B) ε Unit) (Bus.consumeReadBytes len) := by
  rw [consumeReadBytes_steps]
  exact .get fun b => .bind (sim_debugAssert _) fun _ => sim_borrowRead hB (Bus.onlyRead_consumeReadBytes len)

theorem removeGarbage_steps {ε : Type} : (Bus.removeGarbage : SO Bus ε Unit) = SO.get >>= fun b => Bus.findGarbage >>= fun g =>
    Bus.consumeReadBytes (b.usedBytes + g) >>= fun _ => SO.get >>= fun b => Bus.debugAssert (decide (b.usedBytes = 0)) := by
  funext b
  unfold Bus.removeGarbage Bus.findGarbage
  simp only [SO.bind_def, SO.lift_apply, SO.pure_apply, SO.get_apply]
  rcases slice (ε := ε) b.readBuffer 0 b.readLen with v | _ | _ | _ <;> try rfl
  dsimp only
  rcases sliceFrom (ε := ε) v b.usedBytes with v | _ | _ | _ <;> rfl

theorem sim_removeGarbage {ε : Type} (hB : B.MutLawful view) : Sim view (removeGarbage : SO (BusIn B) ε Unit) Bus.removeGarbage := by
  rw [removeGarbage_steps]
  exact .get fun b => .bind (sim_borrowRead hB Bus.onlyRead_findGarbage) fun g => .bind (sim_consumeReadBytes hB _) fun _ =>
    .get fun b => sim_debugAssert _

theorem messageReady_steps : Bus.messageReady = SO.get >>= fun b => if b.readLen > headerSize then
    Bus.bodyLen >>= fun bodyLen => Bus.readRoom >>= fun room =>
      match BufferTooSmall.check (headerSize + bodyLen) room with
      | .err e => Bus.consumeReadBytes headerSize >>= fun _ => SO.throw (.bufferFull e)
      | _ => if b.readLen ≥ headerSize + bodyLen then pure (some (headerSize + bodyLen)) else pure none
    else pure none := by
  funext b
  unfold Bus.messageReady Bus.bodyLen Bus.readRoom
  rw [SO.get_bind, SO.get_bind]
  by_cases hl : b.readLen > headerSize
  · rw [if_pos hl, if_pos hl]
    simp only [SO.bind_def, SO.lift_apply, SO.pure_apply, SO.get_apply]
    rcases slice (ε := ReadError) b.readBuffer 0 b.readLen with v | _ | _ | _ <;> try rfl
    dsimp only
    rcases sliceFrom (ε := ReadError) v 5 with v | _ | _ | _ <;> try rfl
    dsimp only
    rcases readU16Le (ε := ReadError) v with v | _ | _ | _ <;> rfl
  · rw [if_neg hl, if_neg hl]

theorem sim_messageReady (hB : B.MutLawful view) : Sim view (messageReady : SO (BusIn B) ReadError (Option Nat)) Bus.messageReady := by
  rw [messageReady_steps]
  refine .get fun b => ?_
  show Sim view (if b.rest.readLen > headerSize then _ else _) (if b.rest.readLen > headerSize then _ else _)
  by_cases hl : b.rest.readLen > headerSize
  · rw [if_pos hl, if_pos hl]
    refine .bind (sim_borrowRead hB Bus.onlyRead_bodyLen) fun bodyLen => .bind (sim_borrowRead hB Bus.onlyRead_readRoom) fun room => ?_
    unfold BufferTooSmall.check
    by_cases hc : headerSize + bodyLen ≤ room
    · rw [if_pos hc]
      show Sim view (if b.rest.readLen ≥ headerSize + bodyLen then _ else _) (if b.rest.readLen ≥ headerSize + bodyLen then _ else _)
      by_cases hr : b.rest.readLen ≥ headerSize + bodyLen
      · rw [if_pos hr, if_pos hr]; exact .pure _
      · rw [if_neg hr, if_neg hr]; exact .pure _
    · rw [if_neg hc]
      exact .bind (sim_consumeReadBytes hB _) fun _ => .throw _
  · rw [if_neg hl, if_neg hl]
    exact .pure _

theorem sim_readLoop (hB : B.MutLawful view) (deadline fuel : Nat) :
    Sim view (readLoop deadline fuel : SO (BusIn B) ReadError Nat) (Bus.readLoop deadline fuel) := by
  induction fuel with
  | zero => exact .hang
  | succ fuel ih =>
    unfold readLoop Bus.readLoop
    refine .bind (sim_removeGarbage hB) fun _ => .bind (sim_messageReady hB) fun o => ?_
    cases o with
    | some n => exact .pure _
    | none => exact .bind (sim_borrowRead hB (Bus.onlyRead_readMore deadline)) fun _ => ih

/-- The same steps for lists. -/
theorem finishPacket_steps (n : Nat) : Bus.finishPacket n = Bus.checkPacket n >>= fun r => match r with
    | .error (m, c) => Bus.consumeReadBytes n >>= fun _ => SO.throw (.invalidMessage (.checksum m c))
    | .ok k => (SO.get >>= fun b => pure b.readBuffer) >>= fun lent => SO.lift (slice lent 0 (headerSize + k)) >>= fun data =>
      SO.lift (Packet.instructionId ⟨data⟩) >>= fun instruction =>
        if instruction = InstructionId.status ∧ k < 1 then SO.throw (.invalidMessage (.parameterCount 0 (.min 1)))
        else pure ⟨data⟩ := by
  funext b
  unfold Bus.finishPacket Bus.checkPacket
  rw [SO.get_bind, BusOf.so_seq_assoc, SO.get_bind]
  simp only [BusOf.so_seq_assoc]
  simp only [SO.bind_def, SO.lift_apply]
  rcases sliceFrom (ε := ReadError) b.readBuffer (n - 2) with v | _ | _ | _ <;> try rfl
  dsimp only
  rcases readU16Le (ε := ReadError) v with v | _ | _ | _ <;> try rfl
  dsimp only
  rcases slice (ε := ReadError) b.readBuffer 0 (n - 2) with u | _ | _ | _ <;> try rfl
  dsimp only
  rcases calculateChecksum (ε := ReadError) 0#16 u with u | _ | _ | _ <;> try rfl
  dsimp only
  by_cases hc : v = u
  · rw [if_neg (by simpa using hc), if_neg (by simpa using hc)]
    simp only [SO.bind_def, SO.modify_apply, SO.pure_apply]
    rcases Bus.onReadBuffer (onSlice headerSize (n - 2) (unstuffInplace (ε := ReadError))) { b with usedBytes := b.usedBytes + n } with ⟨c, o⟩
    cases o <;> rfl
  · rw [if_pos hc, if_pos hc]
    rfl

theorem sim_finishPacket (hB : B.Lawful view) (n : Nat) :
    Sim view (finishPacket n : SO (BusIn B) ReadError Packet) (Bus.finishPacket n) := by
  rw [finishPacket_steps]
  refine .bind (sim_borrowRead hB.toMutLawful (Bus.onlyRead_checkPacket n)) fun r => ?_
  cases r with
  | error p => exact .bind (sim_consumeReadBytes hB.toMutLawful _) fun _ => .throw _
  | ok k =>
    refine .bind (sim_readRef hB) fun lent => .bind (.lift _) fun data => .bind (.lift _) fun instruction => ?_
    split
    · exact .throw _
    · exact .pure _

theorem sim_writePacket (hB : B.MutLawful view) (id instr : Byte) (n : Nat) (enc : Encoder) :
    Sim view (writePacket id instr n enc : SO (BusIn B) WriteError Unit) (Bus.writePacket id instr n enc) :=
  sim_borrowWrite hB (Bus.onlyWrite_writePacket id instr n enc)

theorem sim_writeStatus (hB : B.Lawful view) (id error : Byte) (n : Nat) (enc : Encoder) :
    Sim view (writeStatus id error n enc : SO (BusIn B) WriteError Unit) (Bus.writeStatus id error n enc) := by
  have h : Bus.writeStatus id error n enc = (SO.get >>= fun b => pure b.writeBuffer) >>= fun w =>
      SO.lift ((BufferTooSmall.check (StatusPacket.messageLen n) w.length).mapErr .bufferTooSmall) >>= fun _ =>
      Bus.writePacket id InstructionId.status (n + 1) (Bus.statusEncoder error enc) := rfl
  rw [h]
  exact .bind (sim_writeRef hB) fun w => .bind (.lift _) fun _ => sim_writePacket hB.toMutLawful _ _ _ _

theorem sim_readPacket (hB : B.Lawful view) (deadline : Nat) (b : BusIn B) :
    ((readPacketDeadline deadline (b.rest.serialPort.measure + 1) b).1.see view = (Bus.readPacketDeadline deadline (b.see view)).1) ∧
      (readPacketDeadline deadline (b.rest.serialPort.measure + 1) b).2 = (Bus.readPacketDeadline deadline (b.see view)).2 := by
  have h : Sim view (readPacketDeadline deadline (b.rest.serialPort.measure + 1) : SO (BusIn B) ReadError Packet)
      (Bus.readRoom >>= fun room => SO.lift ((BufferTooSmall.check (headerSize + 3) room).mapErr .bufferFull) >>= fun _ =>
        Bus.readLoop deadline (b.rest.serialPort.measure + 1) >>= fun n => Bus.finishPacket n) :=
    .bind (sim_borrowRead hB.toMutLawful Bus.onlyRead_readRoom) fun room => .bind (.lift _) fun _ => .bind (sim_readLoop hB.toMutLawful _ _) fun n =>
      sim_finishPacket hB n
  exact h b

end BusIn
end Dxl
