import Verif.Model.Log
import Verif.Lemmas.Read
import Verif.Lemmas.Text
import Verif.Props.Calls
import Verif.Props.Receive

/-! # C68: the log shows what was on the line -/

namespace Dxl.Props
open Dxl Spec

/-! ## Logging changes nothing -/

/-- `m'` does the same as `m`, besides logging. -/
def Erases {ε α : Type} (m' : SO Logged ε α) (m : SO Bus ε α) : Prop := ∀ l, ((m' l).1.bus, (m' l).2) = m l.bus

namespace Erases
variable {ε ε' α β : Type}

theorem onBus (m : SO Bus ε α) : Erases (Logged.onBus m) m := fun _ => rfl

theorem lift (o : Outcome ε α) : Erases (SO.lift o) (SO.lift o) := fun _ => rfl

theorem pure (a : α) : Erases (Pure.pure a : SO Logged ε α) (Pure.pure a) := fun _ => rfl

theorem hang : Erases (SO.hang : SO Logged ε α) SO.hang := fun _ => rfl

theorem bind {m' : SO Logged ε α} {m : SO Bus ε α} {f' : α → SO Logged ε β} {f : α → SO Bus ε β} (h : Erases m' m)
    (hf : ∀ a, Erases (f' a) (f a)) : Erases (m' >>= f') (m >>= f) := by
  intro l
  have h1 := h l
  simp only [SO.bind_def]
  rcases hm : m' l with ⟨l1, o⟩
  rw [hm] at h1
  rw [← h1]
  cases o with
  | ok a => exact hf a l1
  | err e => rfl
  | panic => rfl
  | hang => rfl

/-- Code that looks at the bus. -/
theorem get {f' : Logged → SO Logged ε β} {f : Bus → SO Bus ε β} (hf : ∀ l, Erases (f' l) (f l.bus)) :
    Erases (SO.get >>= f') (SO.get >>= f) := fun l => hf l l

/-- A log statement may be added. -/
theorem emit {f' : SO Logged ε β} {f : SO Bus ε β} {line : LogLine} (hf : Erases f' f) :
    Erases (Logged.emit line >>= fun _ => f') f := fun l => hf { l with log := l.log ++ [line] }

theorem attempt {m' : SO Logged ε α} {m : SO Bus ε α} (h : Erases m' m) :
    Erases (SO.attempt (ε' := ε') m') (SO.attempt m) := by
  intro l
  have h1 := h l
  simp only [SO.attempt]
  rcases hm : m' l with ⟨l1, o⟩
  rw [hm] at h1
  rw [← h1]
  cases o <;> rfl

end Erases

theorem writePacket_assemble (id instr : Byte) (n : Nat) (enc : Encoder) : Bus.writePacket id instr n enc =
    Logged.assemble id instr n enc >>= fun m => Bus.onPort ((Port.writeAll m).mapErr .write) := by
  unfold Bus.writePacket Logged.assemble
  simp only [SO.bind_assoc']

/-- Sending a packet is the same with logging, for all states. -/
theorem c68_same_write (id instr : Byte) (n : Nat) (enc : Encoder) :
    Erases (Logged.writePacket id instr n enc) (Bus.writePacket id instr n enc) := by
  rw [writePacket_assemble]
  exact .bind (.onBus _) fun m => .emit (.onBus _)

theorem findHeader_le (s : List Byte) : Bus.findHeader s ≤ s.length := by
  induction s with
  | nil => simp [Bus.findHeader]
  | cons a l ih => simp only [Bus.findHeader]; split <;> simp; omega

theorem erases_removeGarbage {ε : Type} : Erases (ε := ε) Logged.removeGarbage Bus.removeGarbage := by
  unfold Logged.removeGarbage Bus.removeGarbage
  refine .get fun l => ?_
  intro l'
  simp only [slice]
  split
  · rename_i h1
    rw [SO.lift_ok_bind, SO.lift_ok_bind]
    simp only [sliceFrom, slice]
    split
    · rename_i h2
      rw [SO.lift_ok_bind, SO.lift_ok_bind]
      have hle := findHeader_le ((((l.bus.readBuffer.take l.bus.readLen).drop 0).take
        ((l.bus.readBuffer.take l.bus.readLen).drop 0).length).drop l.bus.usedBytes)
      have hle2 : Bus.findHeader ((((l.bus.readBuffer.take l.bus.readLen).drop 0).take
        ((l.bus.readBuffer.take l.bus.readLen).drop 0).length).drop l.bus.usedBytes) ≤ l.bus.readBuffer.length := by
        refine Nat.le_trans hle ?_
        simp; omega
      generalize Bus.findHeader ((((l.bus.readBuffer.take l.bus.readLen).drop 0).take
        ((l.bus.readBuffer.take l.bus.readLen).drop 0).length).drop l.bus.usedBytes) = g at hle2
      split
      · simp only [hle2, Nat.zero_le, and_self, if_true]
        exact Erases.emit (.bind (.lift (.ok _)) fun _ => .emit (.bind (.onBus _) fun _ => .onBus _)) l'
      · exact Erases.bind (.onBus _) (fun _ => .onBus _) l'
    · rfl
  · rfl

theorem erases_readLoop (D fuel : Nat) : Erases (Logged.readLoop D fuel) (Bus.readLoop D fuel) := by
  induction fuel with
  | zero => exact .hang
  | succ fuel ih =>
    unfold Logged.readLoop Bus.readLoop
    refine .bind erases_removeGarbage fun _ => .bind (.onBus _) fun r => ?_
    cases r with
    | some n => exact .pure _
    | none => exact .bind (.onBus _) fun _ => ih

/-- Receiving a packet is the same with logging, for all states: the log statements do not panic where the rest of the code does not. -/
theorem c68_same_read (D : Nat) : Erases (Logged.readPacketDeadline D) (Bus.readPacketDeadline D) := by
  unfold Logged.readPacketDeadline Bus.readPacketDeadline
  refine .get fun l => .bind (.lift _) fun _ => .bind (erases_readLoop _ _) fun n => ?_
  intro l'
  rw [SO.get_bind]
  simp only [slice]
  split
  · exact Erases.bind (.lift (.ok _)) (fun _ => .emit (.onBus _)) l' (m := SO.lift (.ok ((l'.bus.readBuffer.take (n - 2)).drop 0)))
  · rename_i h
    rw [SO.lift_panic_bind]
    unfold Bus.finishPacket
    rw [SO.get_bind]
    have : ¬ (n - 2 ≤ l'.bus.readBuffer.length) := by omega
    simp only [sliceFrom, slice]
    rw [if_neg (by omega)]
    rfl

/-- Waiting for a status packet is the same with logging. -/
theorem c68_same_status (timeout : Nat) :
    Erases (Logged.readStatusResponseTimeout timeout) (Client.readStatusResponseTimeout timeout) :=
  .get fun _ => .bind (c68_same_read _) fun _ => .lift _

/-- A scan is the same with logging. -/
theorem c68_same_scan {ε : Type} : Erases (ε := ε) Logged.scanNext Client.scanNext := by
  unfold Logged.scanNext Client.scanNext
  refine .bind (.attempt (.get fun _ => .bind (.lift _) fun _ => .bind (c68_same_status _) fun _ => .lift _)) fun r => ?_
  cases r with
  | ok x => exact .pure _
  | error e =>
    cases e with
    | io e =>
      simp only
      split
      · exact .emit (.pure _)
      · exact .pure _
    | bufferFull e => exact .pure _
    | invalidMessage e => exact .pure _
    | motorError e => exact .pure _

/-! ## What is sent -/

/-- The packets handed to a serial port. -/
def packetsWritten (calls : List Call) : List (List Byte) :=
  calls.filterMap fun
    | .write bytes _ => some bytes
    | _ => none

/-- The packets that the log claims were sent. -/
def claimedSent (lines : List LogLine) : List (List Byte) :=
  lines.filterMap fun
    | .sending packet => some packet
    | _ => none

/-- Code that does not write to the serial port. -/
def NoWrites {ε α : Type} (m : SO Bus ε α) : Prop :=
  ∀ b, ∃ calls, (m b).1.serialPort.log = b.serialPort.log ++ calls ∧ packetsWritten calls = []

namespace NoWrites
variable {ε ε' α β : Type}

theorem of_same {m : SO Bus ε α} (h : ∀ b, (m b).1.serialPort.log = b.serialPort.log) : NoWrites m :=
  fun b => ⟨[], by rw [h, List.append_nil], rfl⟩

theorem lift (o : Outcome ε α) : NoWrites (SO.lift o) := of_same fun _ => rfl

theorem pure (a : α) : NoWrites (Pure.pure a : SO Bus ε α) := of_same fun _ => rfl

theorem throw (e : ε) : NoWrites (SO.throw e : SO Bus ε α) := of_same fun _ => rfl

theorem bind {m : SO Bus ε α} {f : α → SO Bus ε β} (h : NoWrites m) (hf : ∀ a, NoWrites (f a)) : NoWrites (m >>= f) := by
  intro b
  obtain ⟨c1, h1, w1⟩ := h b
  rw [SO.bind_def]
  rcases hm : m b with ⟨b1, o⟩
  rw [hm] at h1
  cases o with
  | ok a =>
    obtain ⟨c2, h2, w2⟩ := hf a b1
    refine ⟨c1 ++ c2, ?_, ?_⟩
    · simp only
      rw [h2, h1, List.append_assoc]
    · rw [packetsWritten, List.filterMap_append]
      simp only [packetsWritten] at w1 w2
      rw [w1, w2]
      rfl
  | err e => exact ⟨c1, h1, w1⟩
  | panic => exact ⟨c1, h1, w1⟩
  | hang => exact ⟨c1, h1, w1⟩

theorem get {f : Bus → SO Bus ε β} (hf : ∀ b, NoWrites (f b)) : NoWrites (SO.get >>= f) := fun b => hf b b

theorem onWriteBuffer (m : SO (List Byte) ε α) : NoWrites (Bus.onWriteBuffer m) := of_same fun _ => rfl

theorem onReadBuffer (m : SO (List Byte) ε α) : NoWrites (Bus.onReadBuffer m) := of_same fun _ => rfl

theorem debugAssert (c : Bool) : NoWrites (ε := ε) (Bus.debugAssert c) := of_same fun b => by
  unfold Bus.debugAssert
  rw [SO.get_bind]
  cases b.debug <;> cases c <;> rfl

theorem consumeReadBytes (n : Nat) : NoWrites (ε := ε) (Bus.consumeReadBytes n) := by
  refine .get fun b => .bind (debugAssert _) fun _ => ?_
  split
  · exact of_same fun _ => rfl
  · exact of_same fun _ => rfl

theorem messageReady : NoWrites Bus.messageReady := by
  refine .get fun b => ?_
  split
  · refine .bind (.lift _) fun _ => .bind (.lift _) fun _ => .bind (.lift _) fun _ => ?_
    split
    · exact .bind (consumeReadBytes _) fun _ => .throw _
    · split <;> exact .pure _
  · exact .pure _

theorem readMore (D : Nat) : NoWrites (Bus.readMore D) := by
  refine .get fun b₀ => ?_
  split
  · refine .bind (fun b => ⟨[.read (b₀.readBuffer.length - b₀.readLen) D], ?_, rfl⟩) fun _ => of_same fun _ => rfl
    exact (Port.read_frame (o := (Port.read _ D b.serialPort).2) rfl).2.2.1
  · exact of_same fun _ => rfl

theorem finishPacket (n : Nat) : NoWrites (Bus.finishPacket n) := by
  refine .get fun b => .bind (.lift _) fun _ => .bind (.lift _) fun _ => .bind (.lift _) fun _ => .bind (.lift _) fun _ => ?_
  split
  · exact .bind (consumeReadBytes _) fun _ => .throw _
  · refine .bind (of_same fun _ => rfl) fun _ => .bind (.onReadBuffer _) fun _ => .get fun _ => .bind (.lift _) fun _ =>
      .bind (.lift _) fun _ => ?_
    split
    · exact .throw _
    · exact .pure _

theorem discard : NoWrites (Bus.onPort (Port.discardInputBuffer.mapErr WriteError.discardBuffer)) := by
  intro b
  rw [Bus.onPort_apply, SO.mapErr_apply]
  unfold Port.discardInputBuffer
  split <;> exact ⟨[_], rfl, rfl⟩

theorem assemble (id instr : Byte) (n : Nat) (enc : Encoder) : NoWrites (Logged.assemble id instr n enc) := by
  refine .get fun b => .bind (.lift _) fun _ => .bind (.onWriteBuffer _) fun _ => .bind (.onWriteBuffer _) fun _ =>
    .bind (.onWriteBuffer _) fun _ => .bind (.onWriteBuffer _) fun _ => .bind (.onWriteBuffer _) fun _ =>
    .bind (.onWriteBuffer _) fun _ => .bind (.lift _) fun _ => .bind (.onWriteBuffer _) fun _ => .get fun _ =>
    .bind (.lift _) fun _ => .bind (.lift _) fun _ => .bind (.onWriteBuffer _) fun _ => .bind (of_same fun _ => rfl) fun _ =>
    .bind discard fun _ => .get fun _ => .lift _

end NoWrites

/-- What the log says was sent during this code is what was handed to the serial port, in the same order. -/
def SentAsLogged {ε α : Type} (m : SO Logged ε α) : Prop :=
  ∀ l, ∃ calls lines, (m l).1.bus.serialPort.log = l.bus.serialPort.log ++ calls ∧ (m l).1.log = l.log ++ lines ∧
    claimedSent lines = packetsWritten calls

namespace SentAsLogged
variable {ε ε' α β : Type}

theorem onBus {m : SO Bus ε α} (h : NoWrites m) : SentAsLogged (Logged.onBus m) := by
  intro l
  obtain ⟨calls, h1, h2⟩ := h l.bus
  exact ⟨calls, [], h1, (List.append_nil _).symm, h2.symm⟩

theorem lift (o : Outcome ε α) : SentAsLogged (SO.lift o) :=
  fun _ => ⟨[], [], (List.append_nil _).symm, (List.append_nil _).symm, rfl⟩

theorem pure (a : α) : SentAsLogged (Pure.pure a : SO Logged ε α) :=
  fun _ => ⟨[], [], (List.append_nil _).symm, (List.append_nil _).symm, rfl⟩

theorem hang : SentAsLogged (SO.hang : SO Logged ε α) :=
  fun _ => ⟨[], [], (List.append_nil _).symm, (List.append_nil _).symm, rfl⟩

theorem emit {line : LogLine} (h : claimedSent [line] = []) : SentAsLogged (Logged.emit (ε := ε) line) :=
  fun _ => ⟨[], [line], (List.append_nil _).symm, rfl, h⟩

theorem bind {m : SO Logged ε α} {f : α → SO Logged ε β} (h : SentAsLogged m) (hf : ∀ a, SentAsLogged (f a)) :
    SentAsLogged (m >>= f) := by
  intro l
  obtain ⟨c1, l1, h1, h2, h3⟩ := h l
  rw [SO.bind_def]
  rcases hm : m l with ⟨l', o⟩
  rw [hm] at h1 h2
  cases o with
  | ok a =>
    obtain ⟨c2, l2, k1, k2, k3⟩ := hf a l'
    refine ⟨c1 ++ c2, l1 ++ l2, ?_, ?_, ?_⟩
    · simp only
      rw [k1, h1, List.append_assoc]
    · simp only
      rw [k2, h2, List.append_assoc]
    · rw [packetsWritten, List.filterMap_append, claimedSent, List.filterMap_append]
      simp only [packetsWritten, claimedSent] at h3 k3
      rw [h3, k3]
  | err e => exact ⟨c1, l1, h1, h2, h3⟩
  | panic => exact ⟨c1, l1, h1, h2, h3⟩
  | hang => exact ⟨c1, l1, h1, h2, h3⟩

theorem get {f : Logged → SO Logged ε β} (hf : ∀ l, SentAsLogged (f l)) : SentAsLogged (SO.get >>= f) := fun l => hf l l

theorem attempt {m : SO Logged ε α} (h : SentAsLogged m) : SentAsLogged (SO.attempt (ε' := ε') m) := by
  intro l
  obtain ⟨calls, lines, h1, h2, h3⟩ := h l
  refine ⟨calls, lines, ?_, ?_, h3⟩
  · rw [← h1]
    simp only [SO.attempt]
    rcases m l with ⟨l1, o⟩
    cases o <;> rfl
  · rw [← h2]
    simp only [SO.attempt]
    rcases m l with ⟨l1, o⟩
    cases o <;> rfl

end SentAsLogged

/-- Every packet handed to the serial port is logged, completely, also if the port then fails; and nothing else is logged as
sent, for example if the packet does not fit or the input can not be discarded. For all states. -/
theorem c68_sent_write (id instr : Byte) (n : Nat) (enc : Encoder) : SentAsLogged (Logged.writePacket id instr n enc) := by
  refine .bind (.onBus (.assemble _ _ _ _)) fun m => ?_
  intro l
  rcases h : Port.writeAll m l.bus.serialPort with ⟨p, o⟩
  have hp : ∃ ok, p.log = l.bus.serialPort.log ++ [.write m ok] := by
    unfold Port.writeAll at h
    split at h <;> (injection h with h1 h2; subst h1; exact ⟨_, rfl⟩)
  obtain ⟨ok, hp⟩ := hp
  refine ⟨[.write m ok], [.sending m], ?_, ?_, rfl⟩
  · rw [← hp]
    show (Port.writeAll m l.bus.serialPort).1.log = _
    rw [h]
  · rfl

/-- `write_packet` logs the packets it hands to the port, and nothing else. -/
theorem c68_write_lines (id instr : Byte) (n : Nat) (enc : Encoder) (l : Logged) :
    ∃ calls, (Logged.writePacket id instr n enc l).1.bus.serialPort.log = l.bus.serialPort.log ++ calls ∧
      (Logged.writePacket id instr n enc l).1.log = l.log ++ (packetsWritten calls).map .sending := by
  obtain ⟨c1, h1, h2⟩ := NoWrites.assemble id instr n enc l.bus
  unfold Logged.writePacket
  rw [SO.bind_def]
  rcases hm : Logged.onBus (Logged.assemble id instr n enc) l with ⟨l1, o⟩
  have hb : (Logged.assemble id instr n enc l.bus).1 = l1.bus := congrArg (fun r => r.1.bus) hm
  have hl : l.log = l1.log := congrArg (fun r => r.1.log) hm
  rw [hb] at h1
  cases o with
  | ok m =>
    have hp : ∃ ok, (Port.writeAll m l1.bus.serialPort).1.log = l1.bus.serialPort.log ++ [.write m ok] := by
      unfold Port.writeAll
      split <;> exact ⟨_, rfl⟩
    obtain ⟨ok, hp⟩ := hp
    refine ⟨c1 ++ [.write m ok], ?_, ?_⟩
    · show (Port.writeAll m l1.bus.serialPort).1.log = _
      rw [hp, h1, List.append_assoc]
    · show l1.log ++ [.sending m] = _
      rw [packetsWritten] at h2
      rw [hl, packetsWritten, List.filterMap_append, h2]
      rfl
  | err e => exact ⟨c1, h1, by rw [h2, hl]; simp⟩
  | panic => exact ⟨c1, h1, by rw [h2, hl]; simp⟩
  | hang => exact ⟨c1, h1, by rw [h2, hl]; simp⟩

theorem sentAsLogged_removeGarbage {ε : Type} : SentAsLogged (ε := ε) Logged.removeGarbage := by
  refine .get fun l => .bind (.lift _) fun _ => .bind (.lift _) fun _ => ?_
  have h : SentAsLogged (ε := ε) (Logged.onBus (do
      let b ← SO.get
      Bus.debugAssert (decide (b.usedBytes = 0)))) := .onBus (.get fun _ => .debugAssert _)
  simp only
  split
  · exact .bind (.emit rfl) fun _ => .bind (.lift _) fun _ => .bind (.emit rfl) fun _ =>
      .bind (.onBus (.consumeReadBytes _)) fun _ => h
  · exact .bind (.onBus (.consumeReadBytes _)) fun _ => h

theorem sentAsLogged_readLoop (D fuel : Nat) : SentAsLogged (Logged.readLoop D fuel) := by
  induction fuel with
  | zero => exact .hang
  | succ fuel ih =>
    unfold Logged.readLoop
    refine .bind sentAsLogged_removeGarbage fun _ => .bind (.onBus .messageReady) fun r => ?_
    cases r with
    | some n => exact .pure _
    | none => exact .bind (.onBus (.readMore _)) fun _ => ih

/-- Receiving writes nothing to the port and logs nothing as sent. -/
theorem c68_sent_read (D : Nat) : SentAsLogged (Logged.readPacketDeadline D) :=
  .get fun _ => .bind (.lift _) fun _ => .bind (sentAsLogged_readLoop _ _) fun _ => .get fun _ => .bind (.lift _) fun _ =>
    .bind (.emit rfl) fun _ => .onBus (.finishPacket _)

theorem c68_sent_status (timeout : Nat) : SentAsLogged (Logged.readStatusResponseTimeout timeout) :=
  .get fun _ => .bind (c68_sent_read _) fun _ => .lift _

theorem c68_sent_scan {ε : Type} : SentAsLogged (ε := ε) Logged.scanNext := by
  refine .bind (.attempt (.get fun _ => .bind (.lift _) fun _ => .bind (c68_sent_status _) fun _ => .lift _)) fun r => ?_
  cases r with
  | ok x => exact .pure _
  | error e =>
    cases e with
    | io e =>
      simp only
      split
      · exact .bind (.emit rfl) fun _ => .pure _
      · exact .pure _
    | bufferFull e => exact .pure _
    | invalidMessage e => exact .pure _
    | motorError e => exact .pure _

/-! ## What is received -/

/-- The bytes before the first place where a packet may start. -/
def garbage (s : List Byte) : List Byte := s.take (s.length - (skip s).length)

theorem garbage_append_skip (s : List Byte) : garbage s ++ skip s = s := by
  obtain ⟨g, hg⟩ := skip_suffix s
  have : garbage s = g := by
    unfold garbage
    have : s.length - (skip s).length = g.length := by
      have := congrArg List.length hg
      simp at this
      omega
    rw [this]
    conv => lhs; rw [← hg]
    exact List.take_left
  rw [this, hg]

theorem garbage_of_append {s g : List Byte} (h : g ++ skip s = s) : garbage s = g :=
  List.append_cancel_right ((garbage_append_skip s).trans h.symm)

theorem findHeader_eq (s : List Byte) : Bus.findHeader s = (garbage s).length := by
  have h1 := skip_eq_drop_findHeader s
  have h2 := congrArg List.length (garbage_append_skip s)
  have h3 := findHeader_le s
  have h4 := congrArg List.length h1
  simp at h2 h4
  omega

/-- The lines for a piece of garbage. -/
def garbageLines (g : List Byte) : List LogLine := [.skipping g.length, .skipped g]

/-- The line for a received packet: all of it but the checksum. -/
def packetLines : Parsed → List LogLine
  | .packet f _ => [.read (f.take (f.length - 2))]
  | _ => []

/-- The lines for the bytes skipped by `remove_garbage`, given the read buffer. -/
def firstLines (buffer g : List Byte) : List LogLine :=
  if g = [] then [] else [.skipping g.length, .skipped (buffer.take g.length)]

theorem logged_removeGarbage_eq {ε : Type} {l : Logged} (h : l.bus.RInv) :
    Logged.removeGarbage (ε := ε) l =
      (⟨l.bus.withPending (skip l.bus.pending), l.log ++ firstLines l.bus.readBuffer (garbage l.bus.pending)⟩, .ok ()) := by
  have he := erases_removeGarbage (ε := ε) l
  rw [Bus.removeGarbage_eq h] at he
  have hlen := h.len_le
  have hused := h.used_le
  have hlog : (Logged.removeGarbage (ε := ε) l).1.log = l.log ++ firstLines l.bus.readBuffer (garbage l.bus.pending) := by
    unfold Logged.removeGarbage
    rw [SO.get_bind, slice_ok (by omega) h.len_le, SO.lift_ok_bind]
    simp only [List.drop_zero]
    rw [sliceFrom_ok (by simp; omega), SO.lift_ok_bind]
    rw [show (l.bus.readBuffer.take l.bus.readLen).drop l.bus.usedBytes = l.bus.pending from rfl]
    have hle := Nat.le_trans (findHeader_le l.bus.pending) (Bus.pending_length_le h)
    rw [findHeader_eq] at hle ⊢
    have hb : ∀ k l', ((Logged.onBus (Bus.consumeReadBytes (ε := ε) k) >>= fun _ => Logged.onBus (do
      let b ← SO.get
      Bus.debugAssert (decide (b.usedBytes = 0)))) l').1.log = l'.log := by
      intro k l'
      rw [SO.bind_def]
      rcases hm : Logged.onBus (Bus.consumeReadBytes (ε := ε) k) l' with ⟨l1, o⟩
      have : l1.log = l'.log := by
        have := congrArg (fun r => r.1.log) hm
        exact this.symm
      cases o <;> exact this
    unfold firstLines
    by_cases hg : garbage l.bus.pending = []
    · rw [if_pos hg, hg, List.append_nil]
      exact hb _ _
    · rw [if_neg hg]
      have hpos : (garbage l.bus.pending).length > 0 := by
        have := List.length_pos_iff.2 hg
        omega
      simp only [hpos, if_true]
      rw [slice_ok (by omega) hle, List.drop_zero]
      refine (hb _ _).trans ?_
      simp
  rcases hr : Logged.removeGarbage (ε := ε) l with ⟨l1, o⟩
  rw [hr] at he hlog
  obtain ⟨b1, lg⟩ := l1
  injection he with he1 he2
  simp only at he1 he2 hlog
  rw [he1, he2, hlog]

/-- Bytes of the read buffer shown for garbage are the garbage if no packet is in front of it. -/
theorem firstLines_eq {b : Bus} (hu : b.usedBytes = 0) : firstLines b.readBuffer (garbage b.pending) =
    if garbage b.pending = [] then [] else garbageLines (garbage b.pending) := by
  unfold firstLines garbageLines
  split
  · rfl
  · have hp : garbage b.pending <+: b.readBuffer := by
      refine List.IsPrefix.trans ⟨_, garbage_append_skip b.pending⟩ ?_
      unfold Bus.pending
      rw [hu, List.drop_zero]
      exact List.take_prefix _ _
    rw [← List.prefix_iff_eq_take.1 hp]

theorem garbage_append (s u : List Byte) : garbage s ++ garbage (skip s ++ u) = garbage (s ++ u) := by
  refine (garbage_of_append ?_).symm
  rw [skip_append, List.append_assoc, garbage_append_skip, ← List.append_assoc, garbage_append_skip]

theorem garbage_append_long {s : List Byte} (u : List Byte) (h : 4 ≤ (skip s).length) : garbage (s ++ u) = garbage s := by
  refine garbage_of_append ?_
  rw [skip_append_long h, ← List.append_assoc, garbage_append_skip]

/-- What the loop logs, for the stream `s`: pieces of garbage, of which the first is shown from the start of the read buffer. -/
structure LoopLog (l l' : Logged) (s : List Byte) : Prop where
  lines : ∃ gs : List (List Byte), (∀ g ∈ gs, g ≠ []) ∧ garbage l.bus.pending ++ gs.flatten = garbage s ∧
    l'.log = l.log ++ firstLines l.bus.readBuffer (garbage l.bus.pending) ++ gs.flatMap garbageLines

theorem logged_readLoop (D fuel : Nat) : ∀ l : Logged, l.bus.RInv → 10 ≤ l.bus.readBuffer.length →
    l.bus.serialPort.measure < fuel →
    LoopLog l (Logged.readLoop D fuel l).1 (l.bus.pending ++ readable D l.bus.serialPort) := by
  induction fuel with
  | zero => intro l _ _ h; omega
  | succ fuel ih =>
    intro l hr hN hm
    have hlen : (skip l.bus.pending).length ≤ l.bus.readBuffer.length :=
      Nat.le_trans (skip_suffix _).length_le (Bus.pending_length_le hr)
    have hmr := Bus.messageReady_eq l.bus (skip l.bus.pending) hlen (skip_skip _)
    rw [parse_skip] at hmr
    unfold Logged.readLoop
    rw [SO.bind_ok (logged_removeGarbage_eq hr)]
    have hon : ∀ (b : Bus) (lg : List LogLine) (x : Bus × Outcome ReadError (Option Nat)), Bus.messageReady b = x →
        Logged.onBus Bus.messageReady ⟨b, lg⟩ = (⟨x.1, lg⟩, x.2) := by
      intro b lg x hx
      subst hx
      rfl
    cases hp : parse l.bus.readBuffer.length l.bus.pending with
    | packet f rest =>
      rw [hp] at hmr
      rw [SO.bind_ok (hon _ _ _ hmr)]
      refine ⟨[], by simp, ?_, by simp⟩
      have h7 := (parse_packet hp).2.2.1
      have : 4 ≤ (skip l.bus.pending).length := by
        rw [(parse_packet hp).1]
        simp
        omega
      rw [garbage_append_long _ this]
      simp
    | tooBig req rest =>
      rw [hp] at hmr
      rw [SO.bind_err (hon _ _ _ hmr)]
      refine ⟨[], by simp, ?_, by simp⟩
      have : 4 ≤ (skip l.bus.pending).length := by
        unfold parse at hp
        split at hp
        · simp at hp
        · omega
      rw [garbage_append_long _ this]
      simp
    | more =>
      rw [hp] at hmr
      rw [SO.bind_ok (hon _ _ _ hmr)]
      have hroom := parse_more_room hN hp
      simp only
      have hrm := Bus.readMore_eq l.bus (skip l.bus.pending) D hlen
      rcases Port.read_cases (l.bus.readBuffer.length - (skip l.bus.pending).length) D l.bus.serialPort with
        ⟨p1, bs, hread⟩ | ⟨p1, e, hread⟩
      · rw [hread] at hrm
        have hon2 : Logged.onBus (Bus.readMore D) ⟨l.bus.withPending (skip l.bus.pending),
            l.log ++ firstLines l.bus.readBuffer (garbage l.bus.pending)⟩ =
            (⟨(l.bus.onto p1).withPending (skip l.bus.pending ++ bs),
              l.log ++ firstLines l.bus.readBuffer (garbage l.bus.pending)⟩, .ok ()) := by
          show (Logged.mk (Bus.readMore D _).1 _, (Bus.readMore D _).2) = _
          rw [hrm]
        rw [SO.bind_ok hon2]
        have hbs := Port.read_length hread
        have hh := Bus.holds_withPending l.bus p1 (t := skip l.bus.pending ++ bs) (by simp; omega)
        obtain ⟨gs, hg1, hg2, hg3⟩ := ih ⟨(l.bus.onto p1).withPending (skip l.bus.pending ++ bs),
              l.log ++ firstLines l.bus.readBuffer (garbage l.bus.pending)⟩ hh.rInv
          (by simp only; rw [hh.like.readSize]; exact hN)
          (by
            simp only
            rw [hh.port]
            have := Port.read_measure (by omega) hread
            omega)
        simp only at hg1 hg2 hg3
        rw [firstLines_eq hh.used] at hg3
        rw [hh.pending, hh.port, List.append_assoc, ← (Port.read_readable hread).1] at hg2
        rw [hh.pending] at hg3
        refine ⟨if garbage (skip l.bus.pending ++ bs) = [] then gs else garbage (skip l.bus.pending ++ bs) :: gs, ?_, ?_, ?_⟩
        · split
          · exact hg1
          · rename_i hne
            intro g hg
            rcases List.mem_cons.1 hg with rfl | hg
            · exact hne
            · exact hg1 g hg
        · rw [← garbage_append l.bus.pending (readable D l.bus.serialPort), ← hg2]
          split
          · rename_i he
            rw [he, List.nil_append]
          · rfl
        · rw [hg3]
          split <;> simp
      · rw [hread] at hrm
        have hon2 : Logged.onBus (Bus.readMore D) ⟨l.bus.withPending (skip l.bus.pending),
            l.log ++ firstLines l.bus.readBuffer (garbage l.bus.pending)⟩ =
            (⟨(l.bus.onto p1).withPending (skip l.bus.pending),
              l.log ++ firstLines l.bus.readBuffer (garbage l.bus.pending)⟩, .err (.io e)) := by
          show (Logged.mk (Bus.readMore D _).1 _, (Bus.readMore D _).2) = _
          rw [hrm]
        rw [SO.bind_err hon2]
        refine ⟨[], by simp, ?_, by simp⟩
        rw [(Port.read_err_readable hread).1]
        simp

/-- What is logged by a call of `read_packet_deadline`. -/
theorem logged_read (D : Nat) {l : Logged} (hr : l.bus.RInv) (hN : 10 ≤ l.bus.readBuffer.length) :
    ∃ gs : List (List Byte), (∀ g ∈ gs, g ≠ []) ∧
      garbage l.bus.pending ++ gs.flatten = garbage (l.bus.pending ++ readable D l.bus.serialPort) ∧
      (Logged.readPacketDeadline D l).1.log = l.log ++ firstLines l.bus.readBuffer (garbage l.bus.pending) ++
        gs.flatMap garbageLines ++
        packetLines (parse l.bus.readBuffer.length (l.bus.pending ++ readable D l.bus.serialPort)) := by
  unfold Logged.readPacketDeadline
  rw [SO.get_bind]
  have hc : BufferTooSmall.check (headerSize + 3) l.bus.readBuffer.length = .ok () := if_pos hN
  rw [hc, Outcome.mapErr_ok, SO.lift_ok_bind]
  obtain ⟨gs, h1, h2, h3⟩ := logged_readLoop D (l.bus.serialPort.measure + 1) l hr hN (by omega)
  refine ⟨gs, h1, h2, ?_⟩
  have hres := Bus.readLoop_result D (l.bus.serialPort.measure + 1) l.bus hr hN (by omega)
  have he := erases_readLoop D (l.bus.serialPort.measure + 1) l
  rw [SO.bind_def]
  rcases hl : Logged.readLoop D (l.bus.serialPort.measure + 1) l with ⟨l1, o⟩
  rw [hl] at he h3
  rw [← he] at hres
  generalize hx : (l1.bus, o) = x at hres
  cases hres with
  | packet k1 k2 k3 =>
    rename_i bs f rest p c
    injection hx with hx1 hx2
    subst hx1 hx2
    have hf := parse_packet k2
    simp only
    rw [SO.get_bind]
    obtain ⟨X, hX⟩ := k3.data
    have h7 : 7 ≤ f.length := by omega
    rw [slice_ok (by omega) (by rw [← hX]; simp; omega), SO.lift_ok_bind]
    have hsl : (l1.bus.readBuffer.take (f.length - 2)).drop 0 = f.take (f.length - 2) := by
      rw [← hX, List.append_assoc, List.take_append_of_le_length (by omega), List.drop_zero]
    rw [hsl, (k1.readable).1, ← List.append_assoc, parse_packet_append k2]
    show l1.log ++ _ = _
    rw [h3]
    rfl
  | tooBig k1 k2 k3 =>
    injection hx with hx1 hx2
    subst hx1 hx2
    rw [(k1.readable).1, ← List.append_assoc, parse_tooBig_append k2]
    simp only
    rw [h3]
    simp [packetLines]
  | ended k1 k2 k3 k4 k5 =>
    injection hx with hx1 hx2
    subst hx1 hx2
    rw [(k1.readable).1, (Port.read_err_readable k4).1, List.append_nil, k2]
    simp only
    rw [h3]
    simp [packetLines]

/-- **C68** What receiving logs: all garbage, in pieces, each with its length and its bytes, and then the packet that was received, without its
checksum, whether or not the checksum is right. -/
def C68_statement : Prop := ∀ (D : Nat) (l : Logged), l.bus.RInv → 10 ≤ l.bus.readBuffer.length →
  ∃ gs : List (List Byte), (∀ g ∈ gs, g ≠ []) ∧ gs.flatten = garbage (l.bus.pending ++ readable D l.bus.serialPort) ∧
    (Logged.readPacketDeadline D l).1.log = l.log ++ gs.flatMap garbageLines ++
      packetLines (parse l.bus.readBuffer.length (l.bus.pending ++ readable D l.bus.serialPort))

/-- Missing: calls with a packet of an earlier call in front of the buffer. -/
theorem c68_read_partial (D : Nat) (l : Logged) (hr : l.bus.RInv) (hN : 10 ≤ l.bus.readBuffer.length) (hu : l.bus.usedBytes = 0) :
    ∃ gs : List (List Byte), (∀ g ∈ gs, g ≠ []) ∧ gs.flatten = garbage (l.bus.pending ++ readable D l.bus.serialPort) ∧
      (Logged.readPacketDeadline D l).1.log = l.log ++ gs.flatMap garbageLines ++
        packetLines (parse l.bus.readBuffer.length (l.bus.pending ++ readable D l.bus.serialPort)) := by
  obtain ⟨gs, h1, h2, h3⟩ := logged_read D hr hN
  rw [firstLines_eq hu] at h3
  refine ⟨if garbage l.bus.pending = [] then gs else garbage l.bus.pending :: gs, ?_, ?_, ?_⟩
  · split
    · exact h1
    · rename_i hne
      intro g hg
      rcases List.mem_cons.1 hg with rfl | hg
      · exact hne
      · exact h1 g hg
  · rw [← h2]
    split
    · rename_i he
      rw [he, List.nil_append]
    · rfl
  · rw [h3]
    split <;> simp

/-- A line without the bytes of garbage. -/
def countLines (lines : List LogLine) : List LogLine :=
  lines.filter fun
    | .skipped _ => false
    | _ => true

/-- Missing: the bytes of the garbage. In every call, the number of skipped bytes is right, and so is the packet. -/
theorem c68_counts_partial (D : Nat) (l : Logged) (hr : l.bus.RInv) (hN : 10 ≤ l.bus.readBuffer.length) :
    ∃ gs : List (List Byte), (∀ g ∈ gs, g ≠ []) ∧ gs.flatten = garbage (l.bus.pending ++ readable D l.bus.serialPort) ∧
      ∃ lines, (Logged.readPacketDeadline D l).1.log = l.log ++ lines ∧
        countLines lines = gs.map (fun g => .skipping g.length) ++
          packetLines (parse l.bus.readBuffer.length (l.bus.pending ++ readable D l.bus.serialPort)) := by
  obtain ⟨gs, h1, h2, h3⟩ := logged_read D hr hN
  have hgs : ∀ gs : List (List Byte), countLines (gs.flatMap garbageLines) = gs.map fun g => .skipping g.length := by
    intro gs
    induction gs with
    | nil => rfl
    | cons g gs ih =>
      rw [List.flatMap_cons, countLines, List.filter_append]
      rw [countLines] at ih
      rw [ih]
      rfl
  have hp : ∀ p, countLines (packetLines p) = packetLines p := by
    intro p
    cases p <;> rfl
  refine ⟨if garbage l.bus.pending = [] then gs else garbage l.bus.pending :: gs, ?_, ?_, _,
    by rw [h3, List.append_assoc, List.append_assoc], ?_⟩
  · split
    · exact h1
    · rename_i hne
      intro g hg
      rcases List.mem_cons.1 hg with rfl | hg
      · exact hne
      · exact h1 g hg
  · rw [← h2]
    split
    · rename_i he
      rw [he, List.nil_append]
    · rfl
  · have hgs' := hgs gs
    have hp' := hp (parse l.bus.readBuffer.length (l.bus.pending ++ readable D l.bus.serialPort))
    rw [countLines] at hgs' hp' ⊢
    rw [List.filter_append, List.filter_append, hgs', hp']
    unfold firstLines
    split
    · simp
    · simp [List.filter]

/-- Nothing is logged if the read buffer is too small for any packet. -/
theorem c68_small (D : Nat) (l : Logged) (hN : l.bus.readBuffer.length < 10) :
    (Logged.readPacketDeadline D l).1.log = l.log := by
  unfold Logged.readPacketDeadline
  rw [SO.get_bind]
  have hc : BufferTooSmall.check (headerSize + 3) l.bus.readBuffer.length = .err ⟨10, l.bus.readBuffer.length⟩ := by
    have : ¬ (10 ≤ l.bus.readBuffer.length) := by omega
    simp [BufferTooSmall.check, headerSize, this]
  rw [hc]
  rfl

/-- An instruction and the next packet received: the log has the packet that was sent, then the garbage before the answer, then the
answer. -/
theorem c68_exchange (id instr : Byte) (n : Nat) (enc : Encoder) (D : Nat) (l l₁ : Logged) (hw : l.bus.WInv)
    (hN : 10 ≤ l.bus.readBuffer.length) (h : Logged.writePacket id instr n enc l = (l₁, .ok ())) :
    ∃ (params : List Byte) (gs : List (List Byte)), enc.run (l.bus.paramSlice n) = (params, .ok ()) ∧ (∀ g ∈ gs, g ≠ []) ∧
      gs.flatten = garbage (readable D l₁.bus.serialPort) ∧
      (Logged.readPacketDeadline D l₁).1.log = l.log ++ [.sending (frame id (codeStuff (instr :: params)))] ++
        gs.flatMap garbageLines ++ packetLines (parse l.bus.readBuffer.length (readable D l₁.bus.serialPort)) := by
  have he := c68_same_write id instr n enc l
  rw [h] at he
  obtain ⟨params, h1, h2, h3, h4, h5⟩ := Bus.writeInstruction_ok hw he.symm
  simp only at h5
  have hpend : l₁.bus.pending = [] := by rw [h5]; rfl
  obtain ⟨gs, g1, g2, g3⟩ := c68_read_partial D l₁ (by rw [h5]; exact ⟨Nat.le_refl 0, Nat.zero_le _⟩) (by rw [h5]; exact hN) (by rw [h5])
  rw [hpend, List.nil_append] at g2 g3
  refine ⟨params, gs, h1, g1, g2, ?_⟩
  rw [g3]
  have hl : l₁.log = l.log ++ [.sending (frame id (codeStuff (instr :: params)))] := by
    obtain ⟨calls, c1, c2⟩ := c68_write_lines id instr n enc l
    rw [h] at c1 c2
    rw [h5] at c1
    have : calls = [.discard true, .write (frame id (codeStuff (instr :: params))) true] := by
      apply List.append_cancel_left (as := l.bus.serialPort.log)
      rw [← c1]
      simp [Port.wrote, Port.discarded]
    rw [c2, this]
    rfl
  have hb : l₁.bus.readBuffer = l.bus.readBuffer := by rw [h5]
  rw [hl, hb]

/-- One step of a scan logs what is received, and its end, and only its end, as a time-out. -/
theorem c68_scan_end {ε : Type} (l : Logged) {t : Nat} (ht : messageTransferTime (ε := ReadError) 14 l.bus.baudRate = .ok t) :
    ∃ last, (Logged.scanNext (ε := ε) l).1.log =
      (Logged.readPacketDeadline (l.bus.serialPort.now + (t * 253 + 34000000)) l).1.log ++ last ∧
      ((Logged.scanNext (ε := ε) l).2 = .ok none ∧ last = [.pingTimedOut] ∨ (Logged.scanNext (ε := ε) l).2 ≠ .ok none ∧ last = []) := by
  have hs : (Logged.scanNextResponse l).1 =
      (Logged.readPacketDeadline (l.bus.serialPort.now + (t * 253 + 34000000)) l).1 := by
    unfold Logged.scanNextResponse
    rw [SO.get_bind, ht, SO.lift_ok_bind]
    unfold Logged.readStatusResponseTimeout
    rw [SO.bind_def, SO.get_bind, SO.bind_def]
    rw [show l.bus.serialPort.makeDeadline (t * 253 + Client.flatTimeout) = l.bus.serialPort.now + (t * 253 + 34000000) from rfl]
    rcases Logged.readPacketDeadline (l.bus.serialPort.now + (t * 253 + 34000000)) l with ⟨l1, o⟩
    cases o with
    | ok p =>
      simp only [SO.lift_apply]
      cases Client.checkStatus p <;> rfl
    | err e => rfl
    | panic => rfl
    | hang => rfl
  rw [← hs]
  unfold Logged.scanNext
  rw [SO.bind_def]
  simp only [SO.attempt]
  rcases Logged.scanNextResponse l with ⟨l1, o⟩
  cases o with
  | ok x => exact ⟨[], (List.append_nil _).symm, .inr ⟨by intro h; injection h with h; injection h, rfl⟩⟩
  | panic => exact ⟨[], (List.append_nil _).symm, .inr ⟨by intro h; injection h, rfl⟩⟩
  | hang => exact ⟨[], (List.append_nil _).symm, .inr ⟨by intro h; injection h, rfl⟩⟩
  | err e =>
    cases e with
    | io e =>
      simp only
      by_cases h : e.isTimeout
      · rw [if_pos h]
        exact ⟨[.pingTimedOut], rfl, .inl ⟨rfl, rfl⟩⟩
      · rw [if_neg h]
        exact ⟨[], (List.append_nil _).symm, .inr ⟨by intro h; injection h with h; injection h, rfl⟩⟩
    | bufferFull e => exact ⟨[], (List.append_nil _).symm, .inr ⟨by intro h; injection h with h; injection h, rfl⟩⟩
    | invalidMessage e => exact ⟨[], (List.append_nil _).symm, .inr ⟨by intro h; injection h with h; injection h, rfl⟩⟩
    | motorError e => exact ⟨[], (List.append_nil _).symm, .inr ⟨by intro h; injection h with h; injection h, rfl⟩⟩

/-! ## Whole sessions -/

/-- What an application does with a bus. -/
inductive LogOp where
  | write (id instr : Byte) (n : Nat) (enc : Encoder)
  | read (deadline : Nat)
  | scanNext

def LogOp.run (l : Logged) : LogOp → Logged
  | .write id instr n enc => (Logged.writePacket id instr n enc l).1
  | .read deadline => (Logged.readPacketDeadline deadline l).1
  | .scanNext => (Logged.scanNext (ε := ReadError) l).1

/-- Over any session, whatever fails, the packets in the log are those that went to the port, in that order. -/
theorem c68_session (ops : List LogOp) (l : Logged) : ∃ calls lines,
    (ops.foldl LogOp.run l).bus.serialPort.log = l.bus.serialPort.log ++ calls ∧
    (ops.foldl LogOp.run l).log = l.log ++ lines ∧ claimedSent lines = packetsWritten calls := by
  induction ops generalizing l with
  | nil => exact ⟨[], [], (List.append_nil _).symm, (List.append_nil _).symm, rfl⟩
  | cons op ops ih =>
    have hop : ∃ calls lines, (LogOp.run l op).bus.serialPort.log = l.bus.serialPort.log ++ calls ∧
        (LogOp.run l op).log = l.log ++ lines ∧ claimedSent lines = packetsWritten calls := by
      cases op with
      | write id instr n enc => exact c68_sent_write id instr n enc l
      | read D => exact c68_sent_read D l
      | scanNext => exact c68_sent_scan l
    obtain ⟨c1, l1, h1, h2, h3⟩ := hop
    obtain ⟨c2, l2, k1, k2, k3⟩ := ih (LogOp.run l op)
    refine ⟨c1 ++ c2, l1 ++ l2, ?_, ?_, ?_⟩
    · rw [List.foldl_cons, k1, h1, List.append_assoc]
    · rw [List.foldl_cons, k2, h2, List.append_assoc]
    · rw [packetsWritten, List.filterMap_append, claimedSent, List.filterMap_append]
      simp only [packetsWritten, claimedSent] at h3 k3
      rw [h3, k3]

/-! ## The texts -/

/-- Bytes after the first, as two digits each. -/
inductive MoreHex : List Char → List Byte → Prop
  | nil : MoreHex [] []
  | cons {s t b bs} (h : Written 16 2 s b.toNat) (ht : MoreHex t bs) : MoreHex (", ".toList ++ s ++ t) (b :: bs)

/-- A list of bytes in hexadecimal: `[FF, 0A]`. -/
inductive HexText : List Char → List Byte → Prop
  | nil : HexText "[]".toList []
  | cons {s t b bs} (h : Written 16 2 s b.toNat) (ht : MoreHex t bs) : HexText ("[".toList ++ s ++ t ++ "]".toList) (b :: bs)

/-- What a line of the log looks like. -/
inductive LineText : List Char → LogLine → Prop
  | sending {t packet} (h : HexText t packet) : LineText ("sending packet: ".toList ++ t) (.sending packet)
  | read {t packet} (h : HexText t packet) : LineText ("read packet: ".toList ++ t) (.read packet)
  | skipping {t n} (h : Written 10 1 t n) : LineText ("skipping ".toList ++ t ++ " bytes of leading garbage.".toList) (.skipping n)
  | skipped {t g} (h : HexText t g) : LineText ("skipped garbage: ".toList ++ t) (.skipped g)
  | timedOut : LineText "Ping response timed out.".toList .pingTimedOut

theorem hexText_of (bs : List Byte) : HexText (Fmt.hexList bs) bs := by
  have hm : ∀ bs : List Byte, MoreHex (Fmt.debugItems (bs.map fun b => Fmt.upperHex 2 b.toNat)) bs := by
    intro bs
    induction bs with
    | nil => exact .nil
    | cons b bs ih => exact .cons (upperHex_written 2 _) ih
  cases bs with
  | nil => exact .nil
  | cons b bs => exact .cons (upperHex_written 2 _) (hm bs)

/-- Every line has the text that shows its bytes in hexadecimal, or its number. -/
theorem c68_text (line : LogLine) : LineText line.text line := by
  cases line with
  | sending p => exact .sending (hexText_of p)
  | read p => exact .read (hexText_of p)
  | skipping n => exact .skipping (decimal_written n)
  | skipped g => exact .skipped (hexText_of g)
  | pingTimedOut => exact .timedOut

theorem moreHex_unique {t t' : List Char} {bs bs' : List Byte} (h : MoreHex t bs) (h' : MoreHex t' bs')
    (e : t ++ "]".toList = t' ++ "]".toList) : bs = bs' := by
  induction h generalizing t' bs' with
  | nil =>
    cases h' with
    | nil => rfl
    | cons h2 ht2 =>
      have := congrArg List.head? e
      simp at this
  | cons h1 ht1 ih =>
    rename_i s t b bs
    cases h' with
    | nil =>
      have := congrArg List.head? e
      simp at this
    | cons h2 ht2 =>
      have hst : ∀ {t : List Char} {bs : List Byte}, MoreHex t bs → Stops (t ++ "]".toList) := by
        intro t bs h
        cases h with
        | nil => exact stops_cons (by decide)
        | cons _ _ => exact stops_cons (c := ',') (by decide)
      simp only [List.append_assoc] at e
      obtain ⟨hb, e2⟩ := written_cancel (by decide) h1 h2 (hst ht1) (hst ht2) (List.append_cancel_left e)
      rw [BitVec.eq_of_toNat_eq hb, ih ht2 e2]

theorem hexText_unique {t : List Char} {bs bs' : List Byte} (h : HexText t bs) (h' : HexText t bs') : bs = bs' := by
  have hst : ∀ {t : List Char} {bs : List Byte}, MoreHex t bs → Stops (t ++ "]".toList) := by
    intro t bs h
    cases h with
    | nil => exact stops_cons (by decide)
    | cons _ _ => exact stops_cons (c := ',') (by decide)
  have hne : ∀ {s t : List Char} {n : Nat}, Written 16 2 s n → Stops t → "[".toList ++ s ++ t ≠ "[]".toList := by
    intro s t n h _ he
    have h1 := congrArg List.length he
    have h2 := h.wide
    simp at h1
    omega
  generalize ht : t = t' at h'
  cases h with
  | nil =>
    cases h' with
    | nil => rfl
    | cons h2 ht2 => exact absurd (by rw [ht, List.append_assoc _ _ "]".toList]) (hne h2 (hst ht2))
  | cons h1 ht1 =>
    cases h' with
    | nil => exact absurd (by rw [← ht, List.append_assoc _ _ "]".toList]) (hne h1 (hst ht1))
    | cons h2 ht2 =>
      simp only [List.append_assoc] at ht
      obtain ⟨hb, e2⟩ := written_cancel (by decide) h1 h2 (hst ht1) (hst ht2) (List.append_cancel_left ht)
      rw [BitVec.eq_of_toNat_eq hb, moreHex_unique ht1 ht2 e2]

/-- Two lines with the same text are the same: the packets can be read off the log. -/
theorem c68_text_unique {t : List Char} {line line' : LogLine} (h : LineText t line) (h' : LineText t line') : line = line' := by
  generalize ht : t = t' at h'
  cases h <;> cases h'
  case sending.sending h1 _ _ h2 =>
    rw [List.append_cancel_left ht] at h1
    rw [hexText_unique h1 h2]
  case read.read h1 _ _ h2 =>
    rw [List.append_cancel_left ht] at h1
    rw [hexText_unique h1 h2]
  case skipped.skipped h1 _ _ h2 =>
    rw [List.append_cancel_left ht] at h1
    rw [hexText_unique h1 h2]
  case skipping.skipping h1 _ _ h2 =>
    rw [List.append_assoc, List.append_assoc] at ht
    rw [(written_cancel (by decide) h1 h2 (stops_cons (c := ' ') (by decide)) (stops_cons (c := ' ') (by decide))
      (List.append_cancel_left ht)).1]
  case timedOut.timedOut => rfl
  all_goals
    have := congrArg (List.take 6) ht
    simp at this

/-! ## The error -/

/-- A bus on which a packet, some garbage and another packet arrive at once. -/
def secondBus : Bus := { busWith (sampleFrame ++ [1#8, 2#8, 3#8] ++ sampleFrame) with readBuffer := List.replicate 40 0#8 }

/-- After the first packet. -/
def afterFirst : Logged := (Logged.readPacketDeadline 50 ⟨secondBus, []⟩).1

/-- For the garbage between two packets the log shows bytes of the first packet. -/
theorem c68_garbage_example : (Logged.readPacketDeadline 50 ⟨secondBus, []⟩).2 = .ok (samplePacket sampleFrame) ∧
    (Logged.readPacketDeadline 50 afterFirst).1.log = [.read (sampleFrame.take (sampleFrame.length - 2)), .skipping 3,
      .skipped [0xFF#8, 0xFF#8, 0xFD#8], .read (sampleFrame.take (sampleFrame.length - 2))] := by
  refine ⟨?_, ?_⟩ <;> decide +kernel

/-- **C68** is false as stated: garbage after a packet that was received in an earlier call is shown wrong. -/
theorem c68_refuted_garbage : ¬ C68_statement := by
  intro h
  have hr : afterFirst.bus.RInv := by
    constructor <;> decide +kernel
  obtain ⟨gs, -, h2, h3⟩ := h 50 afterFirst hr (by decide +kernel)
  rw [c68_garbage_example.2] at h3
  have hlog : afterFirst.log = [.read (sampleFrame.take (sampleFrame.length - 2))] := by decide +kernel
  have hg : garbage (afterFirst.bus.pending ++ readable 50 afterFirst.bus.serialPort) = [1#8, 2#8, 3#8] := by decide +kernel
  have hp : parse afterFirst.bus.readBuffer.length (afterFirst.bus.pending ++ readable 50 afterFirst.bus.serialPort) =
    .packet sampleFrame [] := by decide +kernel
  rw [hlog, hp] at h3
  rw [hg] at h2
  cases gs with
  | nil => simp at h2
  | cons g gs =>
    simp [garbageLines, packetLines] at h3
    obtain ⟨-, h4, -⟩ := h3
    rw [← h4] at h2
    simp at h2

/-! ## Examples -/

/-- The log of an instruction and its answer, with garbage in two pieces before it. -/
example : ((do
      Logged.writePacket 1#8 1#8 0 .nothing |>.mapErr TransferError.writeError
      Logged.readPacketDeadline 60 |>.mapErr TransferError.readError : SO Logged TransferError Packet)
    ⟨busWithChunks [(5, [7#8, 8#8, 0xFF#8]), (9, [0xFF#8, 1#8] ++ sampleFrame)], []⟩).1.log =
    [.sending (frame 1#8 [1#8]), .skipping 2, .skipped [7#8, 8#8], .skipping 3, .skipped [0xFF#8, 0xFF#8, 1#8],
      .read (sampleFrame.take (sampleFrame.length - 2))] := by
  decide +kernel

/-- A packet that is not sent, because the port can not discard its input, is not in the log; one for which writing fails is. -/
example : (Logged.writePacket 1#8 1#8 0 .nothing ⟨{ quietBus true 40 with serialPort := { quietPort with discardRes := [some .timedOut] } }, []⟩).1.log
      = [] ∧
    (Logged.writePacket 1#8 1#8 0 .nothing ⟨{ quietBus true 40 with serialPort := { quietPort with writeRes := [(1, some .timedOut)] } }, []⟩).1.log
      = [.sending (frame 1#8 [1#8])] := by
  refine ⟨?_, ?_⟩ <;> decide +kernel

/-- The end of a scan. -/
example : (Logged.scanNext (ε := ReadError) ⟨quietBus true 40, []⟩).1.log = [.pingTimedOut] := by decide +kernel

example : (LogLine.sending [0xFF#8, 0x0A#8]).text = "sending packet: [FF, 0A]".toList ∧
    (LogLine.skipping 12).text = "skipping 12 bytes of leading garbage.".toList := by
  refine ⟨?_, ?_⟩ <;> decide +kernel

/-! ## The theorems on these cases -/

/-- Garbage in two pieces, then a packet. -/
def loggedBus : Logged := ⟨busWithChunks [(5, [7#8, 8#8, 0xFF#8]), (9, [0xFF#8, 1#8] ++ sampleFrame)], []⟩

example := c68_read_partial 60 loggedBus (busWithChunks_rInv _) (by decide) rfl
example := c68_counts_partial 60 afterFirst ⟨by decide +kernel, by decide +kernel⟩ (by decide +kernel)
example := c68_small 60 ⟨{ busWith sampleFrame with readBuffer := List.replicate 9 0#8 }, []⟩ (by decide)
example := c68_exchange 1#8 1#8 0 .nothing 60 loggedBus _ ⟨by decide, by decide⟩ (by decide) (pair_eq (by decide +kernel))
example := c68_scan_end (ε := ReadError) ⟨quietBus true 40, []⟩ (t := 2430556) (by decide +kernel)
example := c68_text_unique (.skipping (decimal_written 12)) (.skipping (decimal_written 12))

end Dxl.Props
