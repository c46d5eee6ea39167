import Verif.Lemmas.Room
import Verif.Model.Device

/-! # What every operation on a bus preserves -/

namespace Dxl

/-- The baud rate after a sequence of serial port calls: that of the last successful `set_baud_rate`. -/
def lastRate (initial : Nat) : List Call → Nat
  | [] => initial
  | .setBaud r true :: rest => lastRate r rest
  | _ :: rest => lastRate initial rest

theorem lastRate_append (r : Nat) (a b : List Call) : lastRate r (a ++ b) = lastRate (lastRate r a) b := by
  induction a generalizing r with
  | nil => rfl
  | cons c a ih =>
    cases c with
    | setBaud q ok => cases ok <;> simp [lastRate, ih]
    | _ => simp [lastRate, ih]

theorem lastRate_none {calls : List Call} (h : ∀ c ∈ calls, ∀ r, c ≠ .setBaud r true) (r : Nat) :
    lastRate r calls = r := by
  induction calls with
  | nil => rfl
  | cons c rest ih =>
    have hc := h c (by simp)
    have := ih fun c hc => h c (by simp [hc])
    cases c with
    | setBaud q ok =>
      cases ok
      · simpa [lastRate] using this
      · exact absurd rfl (hc q)
    | _ => simpa [lastRate] using this

/-- The state of the buffers is consistent. -/
structure Bus.Inv (b : Bus) : Prop where
  rInv : b.RInv
  wInv : b.WInv

/-- What is the same after any operation, and how the baud rate follows the calls. -/
structure Step (b b' : Bus) : Prop where
  inv : b'.Inv
  readSize : b'.readBuffer.length = b.readBuffer.length
  writeSize : b'.writeBuffer.length = b.writeBuffer.length
  debug : b'.debug = b.debug
  calls : ∃ calls, b'.serialPort.log = b.serialPort.log ++ calls ∧ b'.baudRate = lastRate b.baudRate calls ∧
    b'.serialPort.rate = lastRate b.serialPort.rate calls
  room : Roomy b b'

namespace Step

theorem refl {b : Bus} (h : b.Inv) : Step b b := ⟨h, rfl, rfl, rfl, ⟨[], by simp, rfl, rfl⟩, .refl b⟩

theorem trans {a b c : Bus} (h : Step a b) (h' : Step b c) : Step a c := by
  obtain ⟨x, x1, x2, x3⟩ := h.calls
  obtain ⟨y, y1, y2, y3⟩ := h'.calls
  exact ⟨h'.inv, h'.readSize.trans h.readSize, h'.writeSize.trans h.writeSize, h'.debug.trans h.debug, ⟨x ++ y,
    by rw [y1, x1, List.append_assoc], by rw [y2, x2, lastRate_append], by rw [y3, x3, lastRate_append]⟩, h.room.trans h'.room⟩

end Step

/-- `m` takes a consistent bus (part `g` of its state) to a consistent one, whatever the outcome. -/
def SoundOn {σ ε α : Type} (g : σ → Bus) (m : SO σ ε α) : Prop := ∀ s, (g s).Inv → Step (g s) (g (m s).1)

/-- `SoundOn` for code that works on the bus itself. -/
abbrev Sound {ε α : Type} (m : SO Bus ε α) : Prop := SoundOn (fun b => b) m

namespace SoundOn
variable {σ ε ε' α β : Type} {g : σ → Bus}

theorem bind {m : SO σ ε α} {f : α → SO σ ε β} (hm : SoundOn g m) (hf : ∀ a, SoundOn g (f a)) : SoundOn g (m >>= f) := by
  intro s hs
  have h := hm s hs
  rw [SO.bind_def]
  rcases hm' : m s with ⟨s', o⟩
  rw [hm'] at h
  cases o with
  | ok a => exact h.trans (hf a s' h.inv)
  | err e => exact h
  | panic => exact h
  | hang => exact h

theorem same {m : SO σ ε α} (h : ∀ s, g (m s).1 = g s) : SoundOn g m := by
  intro s hs
  rw [h]
  exact .refl hs

theorem pure (a : α) : SoundOn g (Pure.pure a : SO σ ε α) := same fun _ => rfl
theorem lift (o : Outcome ε α) : SoundOn g (SO.lift o : SO σ ε α) := same fun _ => rfl
theorem get : SoundOn g (SO.get : SO σ ε σ) := same fun _ => rfl
theorem panic : SoundOn g (SO.panic : SO σ ε α) := same fun _ => rfl
theorem hang : SoundOn g (SO.hang : SO σ ε α) := same fun _ => rfl

theorem mapErr {m : SO σ ε α} (f : ε → ε') (h : SoundOn g m) : SoundOn g (m.mapErr f) := fun s hs => h s hs

theorem attempt {m : SO σ ε α} (h : SoundOn g m) : SoundOn g (m.attempt : SO σ ε' (Except ε α)) := by
  intro s hs
  have := h s hs
  unfold SO.attempt
  rcases hm : m s with ⟨s', o⟩
  rw [hm] at this
  cases o <;> exact this

end SoundOn

open SoundOn

theorem Bus.writePacket_sound (id instr : Byte) (n : Nat) (enc : Encoder) : Sound (Bus.writePacket id instr n enc) := by
  intro b hb
  dsimp only at hb ⊢
  have hk := Bus.writePacket_kept id instr n enc hb.wInv
  have hrinv : ((Bus.writePacket id instr n enc b).1).RInv := by
    rcases hk.received with ⟨_, h1, h2⟩ | ⟨h1, h2⟩
    · constructor
      · rw [h1, h2]; exact hb.rInv.used_le
      · rw [h1, hk.readBuffer]; exact hb.rInv.len_le
    · constructor <;> simp [h1, h2]
  refine ⟨⟨hrinv, hk.wInv hb.wInv⟩, by rw [hk.readBuffer], hk.writeLength, hk.debug, ?_, Bus.writePacket_room _ _ _ _ hb.wInv⟩
  rw [hk.baudRate]
  rcases Bus.writePacket_split id instr n enc hb.wInv with ⟨w, o, h, _⟩ | ⟨params, _, _, h⟩
  · rw [h]; exact ⟨[], by simp, rfl, rfl⟩
  · rw [h]
    rcases Bus.sendFrame_cases (Spec.frame id (codeStuff (instr :: params))) { b with
              writeBuffer := Spec.frame id (codeStuff (instr :: params)) ++
                b.writeBuffer.drop (Spec.frame id (codeStuff (instr :: params))).length
              readLen := 0
              usedBytes := 0 } with ⟨e, h, _⟩ | ⟨dt, e, h, _⟩ | ⟨dt, h, _⟩ <;> rw [h]
    · exact ⟨[.discard false], rfl, rfl, rfl⟩
    · exact ⟨[.discard true, .write (Spec.frame id (codeStuff (instr :: params))) false], by simp [Port.wrote, Port.discarded], rfl, rfl⟩
    · exact ⟨[.discard true, .write (Spec.frame id (codeStuff (instr :: params))) true], by simp [Port.wrote, Port.discarded], rfl, rfl⟩

theorem Bus.writeStatus_sound (id error : Byte) (n : Nat) (enc : Encoder) : Sound (Bus.writeStatus id error n enc) :=
  bind get fun _ => bind (lift _) fun _ => Bus.writePacket_sound _ _ _ _

theorem Bus.readPacketDeadline_sound (D : Nat) : Sound (Bus.readPacketDeadline D) := by
  intro b hb
  by_cases hN : 10 ≤ b.readBuffer.length
  · obtain ⟨c, o, h, hl, hr, ho, _⟩ := Bus.readPacketDeadline_stream D hb.rInv hN
    rw [h]
    obtain ⟨calls, h1, h2, _⟩ := ho.log
    have hnone : ∀ c ∈ calls, ∀ r, c ≠ Call.setBaud r true := by
      intro c hc r
      obtain ⟨cap, _, rfl⟩ := h2 c hc
      simp
    refine ⟨⟨hr, ⟨by rw [hl.writeBuffer]; exact hb.wInv.size, by rw [hl.writeBuffer]; exact hb.wInv.prefix_eq⟩⟩, hl.readSize,
      by rw [hl.writeBuffer], hl.debug, ⟨calls, h1, ?_, ?_⟩, ?_⟩
    · rw [lastRate_none hnone]; exact hl.baudRate
    · rw [lastRate_none hnone]; exact ho.rate
    · have := Bus.readPacketDeadline_room D b
      rwa [h] at this
  · rw [Bus.readPacketDeadline_small D (by omega)]
    exact .refl hb

theorem Bus.setBaudRate_cases (rate : Nat) (b : Bus) :
    (∃ p, Bus.setBaudRate rate b = ({ b with serialPort := p, baudRate := rate }, .ok ()) ∧
      p.log = b.serialPort.log ++ [.setBaud rate true] ∧ p.rate = rate ∧ p.rx = b.serialPort.rx) ∨
    (∃ p e, Bus.setBaudRate rate b = ({ b with serialPort := p }, .err e) ∧
      p.log = b.serialPort.log ++ [.setBaud rate false] ∧ p.rate = b.serialPort.rate ∧ p.rx = b.serialPort.rx) := by
  unfold Bus.setBaudRate
  rw [SO.bind_def, Bus.onPort_apply]
  cases h : b.serialPort.baudRes with
  | nil =>
    refine .inl ⟨{ b.serialPort with rate := rate, log := b.serialPort.log ++ [.setBaud rate true] }, ?_, rfl, rfl, rfl⟩
    simp only [Port.setBaudRate, h]
    simp [h]
  | cons x rest =>
    cases x with
    | none =>
      refine .inl ⟨{ b.serialPort with
        baudRes := rest, rate := rate, log := b.serialPort.log ++ [.setBaud rate true] }, ?_, rfl, rfl, rfl⟩
      simp only [Port.setBaudRate, h]
      simp
    | some e =>
      refine .inr ⟨{ b.serialPort with
        baudRes := rest, log := b.serialPort.log ++ [.setBaud rate false] }, e, ?_, rfl, rfl, rfl⟩
      simp only [Port.setBaudRate, h]

theorem Bus.setBaudRate_sound (rate : Nat) : Sound (Bus.setBaudRate rate) := by
  intro b hb
  dsimp only at hb ⊢
  have hinv : ∀ (p : Port) (r : Nat), ({ b with serialPort := p, baudRate := r } : Bus).Inv :=
    fun p r => ⟨⟨hb.rInv.used_le, hb.rInv.len_le⟩, ⟨hb.wInv.size, hb.wInv.prefix_eq⟩⟩
  have hroom := Bus.setBaudRate_room rate b
  rcases Bus.setBaudRate_cases rate b with ⟨p, h, h1, h2, _⟩ | ⟨p, e, h, h1, h2, _⟩ <;> rw [h] at hroom ⊢
  · exact ⟨hinv _ _, rfl, rfl, rfl, ⟨_, h1, rfl, h2⟩, hroom⟩
  · exact ⟨hinv _ _, rfl, rfl, rfl, ⟨_, h1, rfl, h2⟩, hroom⟩

namespace Client

theorem readStatusResponseTimeout_sound (t : Nat) : Sound (readStatusResponseTimeout t) :=
  bind get fun _ => bind (Bus.readPacketDeadline_sound _) fun _ => lift _

theorem readStatusResponse_sound (n : U16) : Sound (readStatusResponse n) :=
  bind get fun _ => bind (lift _) fun _ => readStatusResponseTimeout_sound _

theorem transferSingle_sound (id instr : Byte) (n : Nat) (k : U16) (enc : Encoder) :
    Sound (transferSingle id instr n k enc) :=
  bind (mapErr _ (Bus.writePacket_sound _ _ _ _)) fun _ => bind (mapErr _ (readStatusResponse_sound _)) fun _ =>
    bind (lift _) fun _ => bind (lift _) fun _ => pure _

theorem readResponseIfNotBroadcast_sound (id : Byte) : Sound (readResponseIfNotBroadcast id) := by
  unfold readResponseIfNotBroadcast
  split
  · exact pure _
  · exact bind (readStatusResponse_sound _) fun _ => lift _

theorem instruct_sound (id instr : Byte) (n : Nat) (enc : Encoder) : Sound (instruct id instr n enc) :=
  bind (mapErr _ (Bus.writePacket_sound _ _ _ _)) fun _ => mapErr _ (readResponseIfNotBroadcast_sound _)

theorem readRaw_sound (id : Byte) (a n : U16) : Sound (readRaw id a n) :=
  bind (transferSingle_sound _ _ _ _ _) fun _ => bind (lift _) fun _ => bind (lift _) fun _ => pure _

theorem readBytes_sound (id : Byte) (a n : U16) : Sound (readBytes id a n) :=
  bind (readRaw_sound _ _ _) fun _ => lift _

theorem read_sound {α : Type} (d : DataTy α) (id : Byte) (a : U16) : Sound (read d id a) :=
  bind (readRaw_sound _ _ _) fun _ => lift _

theorem ping_sound (id : Byte) : Sound (ping id) := bind (transferSingle_sound _ _ _ _ _) fun _ => lift _

theorem scanNextResponse_sound : Sound scanNextResponse :=
  bind get fun _ => bind (lift _) fun _ => bind (readStatusResponseTimeout_sound _) fun _ => lift _

theorem scanNext_sound {ε : Type} : Sound (scanNext (ε := ε)) := by
  refine bind (attempt scanNextResponse_sound) fun r => ?_
  match r with
  | .ok _ => exact pure _
  | .error (.io e) => dsimp only; split <;> exact pure _
  | .error (.bufferFull e) => exact pure _
  | .error (.invalidMessage e) => exact pure _
  | .error (.motorError e) => exact pure _

theorem scanDrop_sound {ε : Type} (fuel : Nat) : Sound (scanDrop (ε := ε) fuel) := by
  induction fuel with
  | zero => exact hang
  | succ n ih =>
    refine bind scanNext_sound fun r => ?_
    cases r with
    | none => exact pure _
    | some x => exact ih

theorem bulkReadBytes_sound (reads : List BulkReadData) : Sound (bulkReadBytes reads) := by
  unfold bulkReadBytes
  split
  · exact panic
  · exact Bus.writePacket_sound _ _ _ _

theorem bulkWrite_sound (writes : List BulkWriteData) : Sound (bulkWrite writes) :=
  bind (lift _) fun _ => Bus.writePacket_sound _ _ _ _

end Client

namespace SyncIter

theorem onClient_sound {ε α : Type} {m : SO Bus ε α} (h : Sound m) : SoundOn SyncIter.client (onClient m) :=
  fun s hs => h s.client hs

theorem popMotorId_client {ε : Type} : SoundOn SyncIter.client (popMotorId (ε := ε)) := by
  refine same fun s => ?_
  unfold popMotorId
  split <;> rfl

theorem nextBytes_sound {ε : Type} : SoundOn SyncIter.client (nextBytes (ε := ε)) := by
  refine bind popMotorId_client fun r => ?_
  cases r with
  | none => exact pure _
  | some id =>
    exact bind (attempt (bind get fun s => bind (onClient_sound (Client.readStatusResponse_sound _)) fun _ =>
      bind (lift _) fun _ => lift _)) fun _ => pure _

theorem next_sound {α : Type} (d : DataTy α) {ε : Type} : SoundOn SyncIter.client (next d (ε := ε)) := by
  refine bind popMotorId_client fun r => ?_
  cases r with
  | none => exact pure _
  | some id =>
    exact bind (attempt (bind (onClient_sound (Client.readStatusResponse_sound _)) fun _ =>
      bind (lift _) fun _ => lift _)) fun _ => pure _

theorem dropBytes_sound {ε : Type} (fuel : Nat) : SoundOn SyncIter.client (dropBytes (ε := ε) fuel) := by
  induction fuel with
  | zero => exact hang
  | succ n ih =>
    refine bind popMotorId_client fun r => ?_
    cases r with
    | none => exact pure _
    | some id =>
      exact bind get fun s => bind (attempt (onClient_sound (Client.readStatusResponse_sound _))) fun _ => ih

theorem drop_sound {α : Type} (d : DataTy α) {ε : Type} (fuel : Nat) : SoundOn SyncIter.client (drop d (ε := ε) fuel) := by
  induction fuel with
  | zero => exact hang
  | succ n ih =>
    refine bind (next_sound d) fun r => ?_
    cases r with
    | none => exact pure _
    | some x => exact ih

end SyncIter

namespace BulkIter

theorem onClient_sound {ε α : Type} {m : SO Bus ε α} (h : Sound m) : SoundOn BulkIter.client (onClient m) :=
  fun s hs => h s.client hs

theorem pop_client {ε : Type} : SoundOn BulkIter.client (pop (ε := ε)) := by
  refine same fun s => ?_
  unfold pop
  split <;> rfl

theorem next_sound {ε : Type} : SoundOn BulkIter.client (next (ε := ε)) := by
  refine bind pop_client fun r => ?_
  cases r with
  | none => exact pure _
  | some id =>
    exact bind (attempt (bind (onClient_sound (Client.readStatusResponse_sound _)) fun _ =>
      bind (lift _) fun _ => lift _)) fun _ => pure _

theorem dropLoop_sound {ε : Type} (reads : List BulkReadData) : SoundOn BulkIter.client (dropLoop (ε := ε) reads) := by
  induction reads with
  | nil => exact pure _
  | cons r rest ih =>
    exact bind (attempt (onClient_sound (Client.readStatusResponse_sound _))) fun _ => ih

theorem drop_sound {ε : Type} : SoundOn BulkIter.client (drop (ε := ε)) := by
  refine bind get fun s => ?_
  split
  · exact dropLoop_sound _
  · exact panic

end BulkIter

namespace Device

theorem readRawLoop_sound (D fuel : Nat) : Sound (readRawLoop D fuel) := by
  induction fuel with
  | zero => exact hang
  | succ n ih =>
    refine bind (Bus.readPacketDeadline_sound _) fun p => bind (lift _) fun r => ?_
    cases r with
    | none => exact ih
    | some x => exact pure _

theorem readRawInstructionTimeout_sound (t : Nat) : Sound (readRawInstructionTimeout t) :=
  bind get fun _ => readRawLoop_sound _ _

theorem read_sound (t : Nat) : Sound (read t) := bind (readRawInstructionTimeout_sound _) fun _ => lift _

theorem readOwned_sound (t : Nat) : Sound (readOwned t) := bind (readRawInstructionTimeout_sound _) fun _ => lift _

end Device
end Dxl
