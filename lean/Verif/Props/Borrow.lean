import Verif.Props.Iterators
import Verif.Lemmas.Exchange
import Verif.Props.Receive
import Verif.Lemmas.Stuff
import Verif.Model.Device

/-! # C80: results that point into the read buffer -/

namespace Dxl.Props
open Spec

/-- The bytes lie in the read buffer at this offset, with the checksum after them in the part of the buffer that has been used:
nothing of a later packet is among them. -/
structure LiesAt (b : Bus) (offset : Nat) (data : List Byte) : Prop where
  bytes : ∃ before after, b.readBuffer = before ++ data ++ after ∧ before.length = offset
  used : offset + data.length + 2 ≤ b.usedBytes

theorem LiesAt.drop {b : Bus} {offset : Nat} {data : List Byte} (h : LiesAt b offset data) (k : Nat) (hk : k ≤ data.length) :
    LiesAt b (offset + k) (data.drop k) := by
  obtain ⟨⟨before, after, h1, h2⟩, h3⟩ := h
  refine ⟨⟨before ++ data.take k, after, ?_, ?_⟩, ?_⟩
  · rw [h1, List.append_assoc (before) (data.take k), List.take_append_drop]
  · simp; omega
  · simp; omega

theorem sliceFrom_inv {ε : Type} {l r : List Byte} {k : Nat} (h : sliceFrom (ε := ε) l k = .ok r) :
    k ≤ l.length ∧ r = l.drop k := by
  unfold sliceFrom slice at h
  split at h
  · next hk => injection h with h; exact ⟨hk.1, by rw [← h, List.take_length]⟩
  · cases h

theorem slice_inv {ε : Type} {l r : List Byte} {i j : Nat} (h : slice (ε := ε) l i j = .ok r) :
    i ≤ j ∧ j ≤ l.length ∧ r = (l.take j).drop i := by
  unfold slice at h
  split at h
  · next hk => injection h with h; exact ⟨hk.1, hk.2, h.symm⟩
  · cases h

theorem pure_inv {σ ε α : Type} {a x : α} {s s' : σ} (h : (pure a : SO σ ε α) s = (s', .ok x)) : s' = s ∧ a = x := by
  obtain ⟨h1, h2⟩ := Prod.mk.inj h
  injection h2 with h2
  exact ⟨h1.symm, h2⟩

theorem lift_bind_inv {σ ε α β : Type} {o : Outcome ε α} {f : α → SO σ ε β} {s s' : σ} {x : β}
    (h : (SO.lift o >>= f) s = (s', .ok x)) : ∃ a, o = .ok a ∧ f a s = (s', .ok x) := by
  obtain ⟨s1, a, h1, h2⟩ := SO.bind_eq_ok.1 h
  obtain ⟨h3, h4⟩ := SO.lift_eq_ok.1 h1
  exact ⟨a, h4, h3 ▸ h2⟩

theorem finishPacket_lies {n : Nat} {b b' : Bus} {p : Packet} (h : Bus.finishPacket n b = (b', .ok p)) : LiesAt b' 0 p.data := by
  unfold Bus.finishPacket at h
  rw [SO.get_bind] at h
  dsimp only at h
  obtain ⟨_, _, h⟩ := lift_bind_inv h
  obtain ⟨_, _, h⟩ := lift_bind_inv h
  obtain ⟨_, _, h⟩ := lift_bind_inv h
  obtain ⟨_, _, h⟩ := lift_bind_inv h
  split at h
  · obtain ⟨b1, _, h1, h⟩ := SO.bind_eq_ok.1 h
    cases h
  · rw [SO.modify_bind] at h
    obtain ⟨b1, count, h1, h⟩ := SO.bind_eq_ok.1 h
    rw [SO.get_bind] at h
    obtain ⟨data, h2, h⟩ := lift_bind_inv h
    obtain ⟨_, h3, rfl⟩ := slice_inv h2
    obtain ⟨i, _, h⟩ := lift_bind_inv h
    split at h
    · cases h
    · obtain ⟨rfl, rfl⟩ := pure_inv h
      dsimp only
      -- the count is that of the unstuffed bytes
      unfold Bus.onReadBuffer at h1
      rw [SO.zoom_apply] at h1
      obtain ⟨h5, h6⟩ := Prod.mk.inj h1
      unfold onSlice at h5 h6
      split at h6
      · next hc =>
        obtain ⟨junk, h7, h8⟩ := unstuffInplace_eq (ε := ReadError) ((b.readBuffer.take (n - 2)).drop headerSize)
        dsimp only at h6
        rw [h7] at h6
        injection h6 with h6
        dsimp only at hc
        have hused : b'.usedBytes = b.usedBytes + n := by rw [← h5]
        refine ⟨⟨[], b'.readBuffer.drop (headerSize + count), ?_, rfl⟩, ?_⟩
        · simp
        · rw [hused]
          have : (List.drop headerSize (List.take (n - 2) b.readBuffer)).length = n - 2 - headerSize := by
            rw [List.length_drop, List.length_take]
            omega
          have hh : headerSize = 7 := rfl
          rw [List.drop_zero, List.length_take]
          omega
      · cases h6

/-- **C80** A packet that was read lies at the start of the read buffer. -/
theorem c80_packet {deadline : Nat} {b b' : Bus} {p : Packet} (h : Bus.readPacketDeadline deadline b = (b', .ok p)) :
    LiesAt b' 0 p.data := by
  unfold Bus.readPacketDeadline at h
  rw [SO.get_bind] at h
  obtain ⟨b1, _, h1, h⟩ := SO.bind_eq_ok.1 h
  obtain ⟨b2, n, h2, h⟩ := SO.bind_eq_ok.1 h
  exact finishPacket_lies h

theorem checkStatus_inv {p : Packet} {s : StatusPacket} (h : Client.checkStatus p = .ok s) : s.packet = p := by
  unfold Client.checkStatus at h
  obtain ⟨o, h1, h⟩ := Outcome.bind_eq_ok.1 h
  unfold Packet.asStatus at h1
  obtain ⟨i, _, h1⟩ := Outcome.bind_eq_ok.1 h1
  split at h1
  · injection h1 with h1
    subst h1
    dsimp only at h
    obtain ⟨e, _, h⟩ := Outcome.bind_eq_ok.1 h
    obtain ⟨_, _, h⟩ := Outcome.bind_eq_ok.1 h
    injection h with h
    rw [← h]
  · injection h1 with h1
    subst h1
    dsimp only at h
    obtain ⟨e, _, h⟩ := Outcome.bind_eq_ok.1 h
    cases h

/-- **C80** A status packet read with a timeout lies at the start of the read buffer. -/
theorem c80_status_timeout {timeout : Nat} {b b' : Bus} {s : StatusPacket}
    (h : Client.readStatusResponseTimeout timeout b = (b', .ok s)) : LiesAt b' 0 s.packet.data := by
  unfold Client.readStatusResponseTimeout at h
  rw [SO.get_bind] at h
  obtain ⟨b1, p, h1, h⟩ := SO.bind_eq_ok.1 h
  obtain ⟨rfl, hc⟩ := SO.lift_eq_ok.1 h
  rw [checkStatus_inv hc]
  exact c80_packet h1

/-- **C80** The same without a timeout. -/
theorem c80_status {count : U16} {b b' : Bus} {s : StatusPacket} (h : Client.readStatusResponse count b = (b', .ok s)) :
    LiesAt b' 0 s.packet.data := by
  unfold Client.readStatusResponse at h
  rw [SO.get_bind] at h
  obtain ⟨b1, p, h1, h⟩ := SO.bind_eq_ok.1 h
  exact c80_status_timeout h

/-- **C80** The response that `transfer_single` returns lies at the start of the read buffer. -/
theorem c80_transfer {id instruction : Byte} {count : Nat} {expected : U16} {encode : Encoder} {b b' : Bus} {s : StatusPacket}
    (h : Client.transferSingle id instruction count expected encode b = (b', .ok s)) : LiesAt b' 0 s.packet.data := by
  unfold Client.transferSingle at h
  obtain ⟨b1, _, h1, h⟩ := SO.bind_eq_ok.1 h
  obtain ⟨b2, r, h2, h⟩ := SO.bind_eq_ok.1 h
  obtain ⟨_, _, h⟩ := lift_bind_inv h
  obtain ⟨_, _, h⟩ := lift_bind_inv h
  obtain ⟨rfl, rfl⟩ := pure_inv h
  rw [SO.mapErr_apply] at h2
  obtain ⟨h4, h5⟩ := Prod.mk.inj h2
  rw [Outcome.mapErr_eq_ok] at h5
  exact c80_status (Prod.ext h4 h5)

theorem decode_lies {s : StatusPacket} {b : Bus} {r : Response (List Byte)} (hs : LiesAt b 0 s.packet.data)
    (h : decodeStatusPacketBytes s = .ok r) : LiesAt b 9 r.data := by
  unfold decodeStatusPacketBytes at h
  obtain ⟨_, _, h⟩ := Outcome.bind_eq_ok.1 h
  obtain ⟨_, _, h⟩ := Outcome.bind_eq_ok.1 h
  obtain ⟨_, _, h⟩ := Outcome.bind_eq_ok.1 h
  obtain ⟨_, _, h⟩ := Outcome.bind_eq_ok.1 h
  obtain ⟨parameters, h1, h⟩ := Outcome.bind_eq_ok.1 h
  injection h with h
  subst h
  obtain ⟨h2, rfl⟩ := sliceFrom_inv h1
  have := hs.drop _ h2
  simpa [headerSize] using this

/-- **C80** Bytes read from a motor (`read_bytes` with a slice) lie in the read buffer, after the header, instruction and error
of the response. -/
theorem c80_read_bytes {id : Byte} {address count : U16} {b b' : Bus} {r : Response (List Byte)}
    (h : Client.readBytes id address count b = (b', .ok r)) : LiesAt b' 9 r.data := by
  unfold Client.readBytes Client.readRaw at h
  obtain ⟨b1, s, h1, h⟩ := SO.bind_eq_ok.1 h
  obtain ⟨b2, s', h2, h1⟩ := SO.bind_eq_ok.1 h1
  obtain ⟨_, _, h1⟩ := lift_bind_inv h1
  obtain ⟨_, _, h1⟩ := lift_bind_inv h1
  obtain ⟨rfl, rfl⟩ := pure_inv h1
  obtain ⟨rfl, hd⟩ := SO.lift_eq_ok.1 h
  exact decode_lies (c80_transfer h2) (Outcome.mapErr_eq_ok.1 hd)

theorem attempt_inv_ok {σ ε ε' α : Type} {m : SO σ ε α} {s s' : σ} {a : α}
    (h : SO.attempt (ε' := ε') m s = (s', .ok (.ok a))) : m s = (s', .ok a) := by
  unfold SO.attempt at h
  rcases hm : m s with ⟨s1, o⟩
  rw [hm] at h
  cases o <;> simp_all

/-- **C80** Bytes from a sync read (`read_next_borrow`) lie in the read buffer. -/
theorem c80_sync {ε : Type} {s s' : SyncIter} {r : Response (List Byte)}
    (h : SyncIter.nextBytes (ε := ε) s = (s', .ok (some (.ok r)))) : LiesAt s'.client 9 r.data := by
  unfold SyncIter.nextBytes at h
  obtain ⟨s1, o, h1, h⟩ := SO.bind_eq_ok.1 h
  cases o with
  | none => cases h
  | some id =>
    dsimp only at h
    obtain ⟨s2, e, h2, h⟩ := SO.bind_eq_ok.1 h
    obtain ⟨rfl, he⟩ := pure_inv h
    injection he with he
    subst he
    have h3 := attempt_inv_ok h2
    unfold SyncIter.nextResponseBytes at h3
    rw [SO.get_bind] at h3
    obtain ⟨s3, p, h4, h3⟩ := SO.bind_eq_ok.1 h3
    obtain ⟨_, _, h3⟩ := lift_bind_inv h3
    obtain ⟨rfl, hd⟩ := SO.lift_eq_ok.1 h3
    unfold SyncIter.onClient at h4
    rw [SO.zoom_apply] at h4
    obtain ⟨h6, h7⟩ := Prod.mk.inj h4
    have := c80_status (Prod.ext (Eq.refl (Client.readStatusResponse s1.count s1.client).1) h7)
    rw [← h6]
    exact decode_lies this (Outcome.mapErr_eq_ok.1 hd)

/-- **C80** Bytes from a bulk read (`read_next_borrow`) lie in the read buffer. -/
theorem c80_bulk {ε : Type} {s s' : BulkIter} {r : Response (List Byte)}
    (h : BulkIter.next (ε := ε) s = (s', .ok (some (.ok r)))) : LiesAt s'.client 9 r.data := by
  unfold BulkIter.next at h
  obtain ⟨s1, o, h1, h⟩ := SO.bind_eq_ok.1 h
  cases o with
  | none => cases h
  | some read =>
    dsimp only at h
    obtain ⟨s2, e, h2, h⟩ := SO.bind_eq_ok.1 h
    obtain ⟨rfl, he⟩ := pure_inv h
    injection he with he
    subst he
    have h3 := attempt_inv_ok h2
    unfold BulkIter.nextResponse at h3
    obtain ⟨s3, p, h4, h3⟩ := SO.bind_eq_ok.1 h3
    obtain ⟨_, _, h3⟩ := lift_bind_inv h3
    obtain ⟨rfl, hd⟩ := SO.lift_eq_ok.1 h3
    unfold BulkIter.onClient at h4
    rw [SO.zoom_apply] at h4
    obtain ⟨h6, h7⟩ := Prod.mk.inj h4
    have := c80_status (Prod.ext (Eq.refl (Client.readStatusResponse read.count s1.client).1) h7)
    rw [← h6]
    exact decode_lies this (Outcome.mapErr_eq_ok.1 hd)

theorem asInstruction_inv {ε : Type} {p : Packet} {i : InstructionPacket} (h : p.asInstruction (ε := ε) = .ok (some i)) :
    i.packet = p := by
  unfold Packet.asInstruction at h
  obtain ⟨_, _, h⟩ := Outcome.bind_eq_ok.1 h
  split at h
  · injection h with h; injection h with h; rw [← h]
  · cases h

theorem readRawLoop_lies {deadline : Nat} (fuel : Nat) : ∀ {b b' : Bus} {p : InstructionPacket},
    Device.readRawLoop deadline fuel b = (b', .ok p) → LiesAt b' 0 p.packet.data := by
  induction fuel with
  | zero => intro b b' p h; cases h
  | succ fuel ih =>
    intro b b' p h
    unfold Device.readRawLoop at h
    obtain ⟨b1, packet, h1, h⟩ := SO.bind_eq_ok.1 h
    obtain ⟨o, h2, h⟩ := lift_bind_inv h
    cases o with
    | none => exact ih h
    | some i =>
      obtain ⟨rfl, rfl⟩ := pure_inv h
      rw [asInstruction_inv h2]
      exact c80_packet h1

/-- **C80** An instruction packet that a device has read lies at the start of the read buffer, however many other packets were
skipped before it. -/
theorem c80_device_raw {timeout : Nat} {b b' : Bus} {p : InstructionPacket}
    (h : Device.readRawInstructionTimeout timeout b = (b', .ok p)) : LiesAt b' 0 p.packet.data := by
  unfold Device.readRawInstructionTimeout at h
  rw [SO.get_bind] at h
  exact readRawLoop_lies _ h

/-- Where the bytes of an instruction start in its packet, and which they are: after the header and instruction, and after
the address and length where there are any. -/
inductive Borrows : Instructions → Nat → List Byte → Prop
  | write (address parameters) : Borrows (.write address parameters) 10 parameters
  | regWrite (address parameters) : Borrows (.regWrite address parameters) 10 parameters
  | syncRead (address length ids) : Borrows (.syncRead address length ids) 12 ids
  | syncWrite (address length parameters) : Borrows (.syncWrite address length parameters) 12 parameters
  | bulkRead (parameters) : Borrows (.bulkRead parameters) 8 parameters
  | bulkWrite (parameters) : Borrows (.bulkWrite parameters) 8 parameters
  | unknown (instruction parameters) : Borrows (.unknown instruction parameters) 8 parameters

theorem parse_lies {instruction : Byte} {parameters data : List Byte} {i : Instructions} {b : Bus} {offset : Nat}
    (hp : LiesAt b 8 parameters) (h : Device.parseInstruction instruction parameters = .ok i) (hb : Borrows i offset data) :
    LiesAt b offset data := by
  have two : ∀ {r : List Byte}, sliceFrom (ε := InvalidMessage) parameters 2 = .ok r → LiesAt b 10 r := by
    intro r h
    obtain ⟨h1, rfl⟩ := sliceFrom_inv h
    exact hp.drop 2 h1
  have four : ∀ {r : List Byte}, sliceFrom (ε := InvalidMessage) parameters 4 = .ok r → LiesAt b 12 r := by
    intro r h
    obtain ⟨h1, rfl⟩ := sliceFrom_inv h
    exact hp.drop 4 h1
  rw [Device.parseInstruction] at h
  by_cases c : instruction = InstructionId.ping
  · rw [if_pos c] at h
    cases h; cases hb
  rw [if_neg c] at h
  clear c
  by_cases c : instruction = InstructionId.read
  · rw [if_pos c] at h
    obtain ⟨_, _, h⟩ := Outcome.bind_eq_ok.1 h
    obtain ⟨_, _, h⟩ := Outcome.bind_eq_ok.1 h
    obtain ⟨_, _, h⟩ := Outcome.bind_eq_ok.1 h
    cases h; cases hb
  rw [if_neg c] at h
  clear c
  by_cases c : instruction = InstructionId.write
  · rw [if_pos c] at h
    obtain ⟨_, _, h⟩ := Outcome.bind_eq_ok.1 h
    obtain ⟨_, _, h⟩ := Outcome.bind_eq_ok.1 h
    obtain ⟨_, h1, h⟩ := Outcome.bind_eq_ok.1 h
    cases h; cases hb
    exact two h1
  rw [if_neg c] at h
  clear c
  by_cases c : instruction = InstructionId.regWrite
  · rw [if_pos c] at h
    obtain ⟨_, _, h⟩ := Outcome.bind_eq_ok.1 h
    obtain ⟨_, _, h⟩ := Outcome.bind_eq_ok.1 h
    obtain ⟨_, h1, h⟩ := Outcome.bind_eq_ok.1 h
    cases h; cases hb
    exact two h1
  rw [if_neg c] at h
  clear c
  by_cases c : instruction = InstructionId.action
  · rw [if_pos c] at h
    cases h; cases hb
  rw [if_neg c] at h
  clear c
  by_cases c : instruction = InstructionId.factoryReset
  · rw [if_pos c] at h
    obtain ⟨_, _, h⟩ := Outcome.bind_eq_ok.1 h
    obtain ⟨_, _, h⟩ := Outcome.bind_eq_ok.1 h
    cases h; cases hb
  rw [if_neg c] at h
  clear c
  by_cases c : instruction = InstructionId.reboot
  · rw [if_pos c] at h
    cases h; cases hb
  rw [if_neg c] at h
  clear c
  by_cases c : instruction = InstructionId.clear
  · rw [if_pos c] at h
    obtain ⟨_, _, h⟩ := Outcome.bind_eq_ok.1 h
    obtain ⟨_, _, h⟩ := Outcome.bind_eq_ok.1 h
    cases h; cases hb
  rw [if_neg c] at h
  clear c
  by_cases c : instruction = InstructionId.syncRead
  · rw [if_pos c] at h
    obtain ⟨_, _, h⟩ := Outcome.bind_eq_ok.1 h
    obtain ⟨_, _, h⟩ := Outcome.bind_eq_ok.1 h
    obtain ⟨_, _, h⟩ := Outcome.bind_eq_ok.1 h
    obtain ⟨_, h1, h⟩ := Outcome.bind_eq_ok.1 h
    cases h; cases hb
    exact four h1
  rw [if_neg c] at h
  clear c
  by_cases c : instruction = InstructionId.syncWrite
  · rw [if_pos c] at h
    obtain ⟨_, _, h⟩ := Outcome.bind_eq_ok.1 h
    obtain ⟨_, _, h⟩ := Outcome.bind_eq_ok.1 h
    obtain ⟨_, _, h⟩ := Outcome.bind_eq_ok.1 h
    obtain ⟨_, h1, h⟩ := Outcome.bind_eq_ok.1 h
    cases h; cases hb
    exact four h1
  rw [if_neg c] at h
  clear c
  by_cases c : instruction = InstructionId.bulkRead
  · rw [if_pos c] at h
    cases h; cases hb; exact hp
  rw [if_neg c] at h
  clear c
  by_cases c : instruction = InstructionId.bulkWrite
  · rw [if_pos c] at h
    cases h; cases hb; exact hp
  · rw [if_neg c] at h
    cases h; cases hb; exact hp

/-- **C80** The bytes of an instruction that a device has read (`Device::read`) lie in the read buffer. -/
theorem c80_device {timeout : Nat} {b b' : Bus} {i : Instruction} {offset : Nat} {data : List Byte}
    (h : Device.read timeout b = (b', .ok i)) (hb : Borrows i.instruction offset data) : LiesAt b' offset data := by
  unfold Device.read at h
  obtain ⟨b1, p, h1, h⟩ := SO.bind_eq_ok.1 h
  obtain ⟨rfl, hi⟩ := SO.lift_eq_ok.1 h
  clear h
  have h := Outcome.mapErr_eq_ok.1 hi
  have h1 := c80_device_raw h1
  unfold Device.toInstruction at h
  obtain ⟨_, _, h⟩ := Outcome.bind_eq_ok.1 h
  obtain ⟨parameters, h2, h⟩ := Outcome.bind_eq_ok.1 h
  obtain ⟨_, _, h⟩ := Outcome.bind_eq_ok.1 h
  obtain ⟨j, h3, h⟩ := Outcome.bind_eq_ok.1 h
  cases h
  obtain ⟨h4, rfl⟩ := sliceFrom_inv h2
  refine parse_lies ?_ h3 hb
  have := h1.drop _ h4
  simpa [headerSize] using this

/-- A device gets a write instruction with a byte that was stuffed, after a status packet of another motor and before the start of
the next packet: its bytes lie at offset 10, and behind them the old place of the last byte, the CRC and the next packet. -/
example : let b := busWith (frame 9#8 [0x55#8, 0#8] ++ frame 1#8 [0x03#8, 0x74#8, 0#8, 0xFF#8, 0xFF#8, 0xFD#8, 0xFD#8] ++ [0xFF#8, 0xFF#8])
    let r := Device.read 50 b
    r.2 = .ok ⟨1#8, .write 0x74#16 [0xFF#8, 0xFF#8, 0xFD#8]⟩ ∧
      (r.1.readBuffer.drop 10).take 3 = [0xFF#8, 0xFF#8, 0xFD#8] ∧ r.1.usedBytes = 16 ∧ r.1.readLen = 18 := by
  decide +kernel

/-! Each theorem on a concrete case. -/

/-- The sample packet after garbage. -/
def lentBus : Bus := busWith (sampleGarbage ++ sampleFrame)

example := c80_packet (deadline := 50) (b := lentBus) (p := samplePacket sampleFrame) (pair_eq (by decide +kernel))

example := c80_status_timeout (timeout := 50) (b := lentBus) (s := ⟨samplePacket sampleFrame⟩) (pair_eq (by decide +kernel))

example := c80_status (count := 4#16) (b := lentBus) (s := ⟨samplePacket sampleFrame⟩) (pair_eq (by decide +kernel))

/-- The sample packet comes after the instruction is sent. -/
def lentLater : Bus := busWithChunks [(5, sampleGarbage ++ sampleFrame)]

example := c80_transfer (id := 1#8) (instruction := 0x01#8) (count := 2) (expected := 4#16) (encode := bytesEncoder [1#8, 2#8]) (b := lentLater)
  (s := ⟨samplePacket sampleFrame⟩) (pair_eq (by decide +kernel))

example := c80_read_bytes (id := 1#8) (address := 132#16) (count := 4#16) (b := lentLater) (r := ⟨1#8, false, [0xA6#8, 0#8, 0#8, 0#8]⟩)
  (pair_eq (by decide +kernel))

example := c80_sync (ε := Empty) (s := ⟨lentBus, 4#16, [9#8, 1#8], 1⟩) (r := ⟨1#8, false, [0xA6#8, 0#8, 0#8, 0#8]⟩)
  (pair_eq (by decide +kernel))

example := c80_bulk (ε := Empty) (s := ⟨lentBus, [⟨1#8, 36#16, 4#16⟩], 0⟩) (r := ⟨1#8, false, [0xA6#8, 0#8, 0#8, 0#8]⟩)
  (pair_eq (by decide +kernel))

example := c80_device_raw (timeout := 50) (b := busWith (frame 9#8 [0x55#8, 0#8] ++ frame 1#8 [0x03#8, 0x74#8, 0#8, 7#8]))
  (p := ⟨samplePacket (frame 1#8 [0x03#8, 0x74#8, 0#8, 7#8])⟩) (pair_eq (by decide +kernel))

end Dxl.Props
