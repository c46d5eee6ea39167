import Verif.Lemmas.Callers
import Verif.Props.Layout

/-! # C81, C82: sizes as machine words, and the iterators of a caller

`w` is the width of `usize`. A slice of bytes has fewer than `2 ^ (w - 1)` elements: Rust allows no larger one. -/

namespace Dxl.Props
open Spec

/-- The call did nothing but prepare the write buffer: the serial port was not used, and it ended in a panic or in the report
that the buffer is too small. -/
def NothingSent (b : Bus) (r : Bus × Outcome WriteError Unit) : Prop :=
  (∃ buf, r.1 = { b with writeBuffer := buf }) ∧ (r.2 = .panic ∨ ∃ e, r.2 = .err (.bufferTooSmall e))

/-! ## C81: sizes as machine words -/

/-- **C81** Sending with machine words is sending with numbers, as long as the size of the packet is a machine word. -/
theorem c81_write_same {w : Nat} (hw : 16 ≤ w) (id instr : Byte) {n : Nat} (enc : Encoder) {b : Bus}
    (hl : b.writeBuffer.length < 2 ^ (w - 1)) (hn : n + 10 < 2 ^ w) :
    Bus.writePacketW w id instr n enc b = Bus.writePacket id instr n enc b := writePacketW_eq hw id instr enc hl hn

example (w : Nat) (hw : 16 ≤ w) : Bus.writePacketW w 7#8 0x03#8 4 (bytesEncoder [0x74#8, 0#8, 0xFF#8, 0xFF#8]) (quietBus true 40) =
    Bus.writePacket 7#8 0x03#8 4 (bytesEncoder [0x74#8, 0#8, 0xFF#8, 0xFF#8]) (quietBus true 40) :=
  have h := two_pow_16 hw
  have h2 := two_pow_half hw
  c81_write_same hw 7#8 0x03#8 _ (by simp [quietBus, headerPrefix]; omega) (by omega)

/-- **C81** If it is not, the call panics before the serial port is used, in both builds. (With numbers, the call would report that
the buffer is too small.) -/
theorem c81_write_overflow {w : Nat} (hw : 16 ≤ w) (id instr : Byte) {n : Nat} (enc : Encoder) {b : Bus} (hb : b.WInv)
    (hl : b.writeBuffer.length < 2 ^ (w - 1)) (hn : n < 2 ^ w) (h : 2 ^ w ≤ n + 10) :
    (∃ buf, Bus.writePacketW w id instr n enc b = ({ b with writeBuffer := buf }, .panic)) ∧
    Bus.writePacket id instr n enc b = (b, .err (.bufferTooSmall ⟨n + 10, b.writeBuffer.length⟩)) := by
  obtain ⟨buf, h1, _⟩ := writePacketW_over hw id instr enc hb hl hn h
  have := two_pow_half hw
  exact ⟨⟨buf, h1⟩, Bus.writePacket_too_small _ _ _ _ _ (by omega)⟩

/-- A release build on a machine with words of 16 bits: the size check is passed with a wrapped sum. -/
example := c81_write_overflow (w := 16) (by decide) 7#8 0x03#8 (n := 65530) (bytesEncoder []) (quietBus_wInv false 40 (by decide))
  (by simp [quietBus, headerPrefix]) (by decide) (by decide)

example : (InstructionPacket.messageLenW (ε := WriteError) 16 false 65530) = .ok 4 := by decide

/-- **C81** The same for status packets. -/
theorem c81_status_same {w : Nat} (hw : 16 ≤ w) (id error : Byte) {n : Nat} (enc : Encoder) {b : Bus}
    (hl : b.writeBuffer.length < 2 ^ (w - 1)) (hn : n + 11 < 2 ^ w) :
    Bus.writeStatusW w id error n enc b = Bus.writeStatus id error n enc b := writeStatusW_eq hw id error enc hl hn

example := c81_status_same (w := 32) (by decide) 7#8 0x80#8 (n := 2) (bytesEncoder [1#8, 2#8]) (b := quietBus true 40)
  (by simp [quietBus, headerPrefix]) (by decide)

theorem c81_status_overflow {w : Nat} (hw : 16 ≤ w) (id error : Byte) {n : Nat} (enc : Encoder) {b : Bus} (hb : b.WInv)
    (hl : b.writeBuffer.length < 2 ^ (w - 1)) (hn : n < 2 ^ w) (h : 2 ^ w ≤ n + 11) :
    ∃ buf, Bus.writeStatusW w id error n enc b = ({ b with writeBuffer := buf }, .panic) :=
  writeStatusW_over hw id error enc hb hl hn h

example := c81_status_overflow (w := 32) (by decide) 7#8 0x80#8 (n := 2 ^ 32 - 11) (bytesEncoder [])
  (quietBus_wInv false 40 (by decide)) (by simp [quietBus, headerPrefix]) (by decide) (by decide)

/-- **C81** The parameter counts that are computed from slices do not overflow: those of `write_bytes` and `reg_write_bytes`, of a sync
read, and of a bulk read. The six bytes of a `BulkReadData` are counted: a slice of them is not larger than `isize::MAX` bytes
either. -/
theorem c81_slices {ε : Type} {w : Nat} (hw : 16 ≤ w) (debug : Bool) (n : Nat) :
    (n < 2 ^ (w - 1) → usizeAdd (ε := ε) w debug 2 n = .ok (2 + n) ∧ usizeAdd (ε := ε) w debug 4 n = .ok (4 + n)) ∧
    (6 * n < 2 ^ (w - 1) → usizeMul (ε := ε) w debug 5 n = .ok (5 * n)) := by
  have h16 := two_pow_16 hw
  have hhalf := two_pow_half hw
  exact ⟨fun h => ⟨usizeAdd_ok (by omega), usizeAdd_ok (by omega)⟩, fun h => usizeMul_ok (by omega)⟩

example := (c81_slices (ε := WriteError) (w := 16) (by decide) true 5461).2 (by decide)

/-- **C81** Receiving never overflows on machines with words of more than 16 bits, whatever arrives. -/
theorem c81_read_same {w : Nat} (hw : 17 ≤ w) (deadline : Nat) {b : Bus} (hr : b.RInv) :
    Bus.readPacketDeadlineW w deadline b = Bus.readPacketDeadline deadline b := readPacketDeadlineW_eq hw deadline hr

example := c81_read_same (w := 32) (by decide) 5 (busWith_rInv (frame 1#8 [0x55#8, 0#8]))

/-- **C81** On a machine with words of 16 bits it does, if a header announces a length of 65529 or more (with numbers, the call reports
that the read buffer is too small for it). In all other cases nothing changes. -/
theorem c81_read_16_same (deadline : Nat) {b : Bus} (hr : b.RInv) (hcap : b.readBuffer.length < 2 ^ 15)
    (h : ∀ n, 65529 ≤ n → (Bus.readPacketDeadline deadline b).2 ≠ .err (.bufferFull ⟨7 + n, b.readBuffer.length⟩)) :
    Bus.readPacketDeadlineW 16 deadline b = Bus.readPacketDeadline deadline b := by
  by_cases hN : 10 ≤ b.readBuffer.length
  · rcases readPacketDeadlineW_16 deadline hr hN hcap with ⟨h1, _⟩ | ⟨L, h1, h2, _⟩
    · exact h1
    · exact absurd h2 (h L h1)
  · unfold Bus.readPacketDeadlineW Bus.readPacketDeadline
    rw [SO.get_bind, SO.get_bind, BufferTooSmall.check, if_neg (by simp [headerSize]; omega)]
    rfl

example : Bus.readPacketDeadlineW 16 5 (busWith (frame 1#8 [0x55#8, 0#8])) =
    Bus.readPacketDeadline 5 (busWith (frame 1#8 [0x55#8, 0#8])) :=
  c81_read_16_same 5 (busWith_rInv _) (by decide) fun n _ h => by
    have h1 : (Bus.readPacketDeadline 5 (busWith (frame 1#8 [0x55#8, 0#8]))).2 = .ok ⟨[0xFF#8, 0xFF#8, 0xFD#8, 0#8, 1#8, 4#8, 0#8, 0x55#8, 0#8]⟩ := by
      decide +kernel
    rw [h1] at h
    cases h

/-- **C81** If a header announces such a length, a debug build panics, a release build panics if the length is 65529 or 65530, and
otherwise reports a wrong checksum. -/
theorem c81_read_16_over (deadline : Nat) {b : Bus} (hr : b.RInv) (hcap : b.readBuffer.length < 2 ^ 15) {n : Nat} (hn : 65529 ≤ n)
    (h : (Bus.readPacketDeadline deadline b).2 = .err (.bufferFull ⟨7 + n, b.readBuffer.length⟩)) :
    (b.debug = true ∨ n ≤ 65530 → (Bus.readPacketDeadlineW 16 deadline b).2 = .panic) ∧
    (b.debug = false → 65531 ≤ n → ∃ m c, m ≠ c ∧
      (Bus.readPacketDeadlineW 16 deadline b).2 = .err (.invalidMessage (.checksum m c))) := by
  by_cases hN : 10 ≤ b.readBuffer.length
  · rcases readPacketDeadlineW_16 deadline hr hN hcap with ⟨_, h1⟩ | ⟨L, h1, h2, h3⟩
    · have : 7 + n < 65536 := h1 _ h
      omega
    · rw [h2] at h
      simp only [Outcome.err.injEq, ReadError.bufferFull.injEq, BufferTooSmall.mk.injEq] at h
      have : L = n := by omega
      exact this ▸ h3
  · exfalso
    unfold Bus.readPacketDeadline at h
    rw [SO.get_bind, BufferTooSmall.check, if_neg (by simp [headerSize]; omega)] at h
    have h1 : 10 = 7 + n := congrArg (fun o : Outcome ReadError Packet => match o with
      | .err (.bufferFull e) => e.requiredSize | _ => 0) h
    omega

/-- Bytes with a header that announces 65535 bytes, on a release build. -/
def longLength (debug : Bool) (n : Byte) : Bus :=
  { busWith (header ++ [7#8, n, 0xFF#8, 0x55#8, 0#8]) with debug := debug }

example := c81_read_16_over 5 (b := longLength true 0xFC#8) (busWith_rInv _) (by decide) (n := 65532) (by decide) (by decide +kernel)

example : (Bus.readPacketDeadlineW 16 5 (longLength true 0xFC#8)).2 = .panic ∧
    (Bus.readPacketDeadlineW 16 5 (longLength false 0xFA#8)).2 = .panic ∧
    (Bus.readPacketDeadlineW 16 5 (longLength false 0xFF#8)).2 = .err (.invalidMessage (.checksum 0xFF07#16 0x0E28#16)) := by
  decide +kernel

/-- **C81** The size of the expected response, for its timeout: 11 bytes more than the parameters. -/
theorem c81_response_size {ε : Type} {w : Nat} (hw : 17 ≤ w) (debug : Bool) (expected : U16) :
    responseSizeW (ε := ε) w debug expected = .ok (StatusPacket.messageLen expected.toNat) := by
  have h17 := two_pow_17 hw
  have hlt := expected.isLt
  unfold responseSizeW
  rw [statusLenW_ok (by omega), Outcome.ok_bind, Nat.mod_eq_of_lt (by omega), Outcome.pure_eq]
  congr 1
  unfold StatusPacket.messageLen headerSize
  omega

example : responseSizeW (ε := ReadError) 32 true 65535#16 = .ok 65546 := c81_response_size (by decide) true 65535#16

/-- **C81** On a machine with words of 16 bits, a release build waits for less than the packet if 65525 or more parameters are
expected; a debug build panics. -/
theorem c81_response_size_16 {ε : Type} (debug : Bool) {expected : U16} (h : 65525 ≤ expected.toNat) :
    responseSizeW (ε := ε) 16 debug expected = if debug then .panic else .ok (expected.toNat - 65525) := by
  have hlt := expected.isLt
  unfold responseSizeW
  rw [statusLenW_over (by decide) (by omega) (by omega)]
  cases debug
  · rw [if_neg (by simp), Outcome.ok_bind, Outcome.pure_eq, if_neg (by simp),
      show expected.toNat + 11 - 2 ^ 16 = expected.toNat - 65525 by omega, Nat.mod_eq_of_lt (by omega)]
  · rfl

example : responseSizeW (ε := ReadError) 16 false 65530#16 = .ok 5 := c81_response_size_16 false (by decide)

theorem packetW_encoder_panics {w : Nat} (hw : 16 ≤ w) (id instr : Byte) {n : Nat} {enc : Encoder} {b : Bus} (hb : b.WInv)
    (hl : b.writeBuffer.length < 2 ^ (w - 1)) (hn : n < 2 ^ w)
    (he : n + 10 ≤ b.writeBuffer.length → (enc.run (b.paramSlice n)).2 = .panic) :
    NothingSent b (Bus.writePacketW w id instr n enc b) := by
  by_cases h : n + 10 < 2 ^ w
  · rw [writePacketW_eq hw id instr enc hl h]
    by_cases hfit : n + 10 ≤ b.writeBuffer.length
    · rw [Bus.writePacket_encode id instr n enc b hb hfit]
      have he := he hfit
      rcases hx : enc.run (b.paramSlice n) with ⟨p, o⟩
      rw [hx] at he
      simp only at he
      subst he
      exact ⟨⟨_, rfl⟩, .inl rfl⟩
    · rw [Bus.writePacket_too_small _ _ _ _ _ (by omega)]
      exact ⟨⟨b.writeBuffer, rfl⟩, .inr ⟨_, rfl⟩⟩
  · obtain ⟨buf, h1, _⟩ := writePacketW_over hw id instr enc hb hl hn (by omega)
    rw [h1]
    exact ⟨⟨buf, rfl⟩, .inl rfl⟩

/-- A successful call that goes through `write_packet`. -/
theorem packetW_ok {w : Nat} (hw : 16 ≤ w) {id instr : Byte} {n : Nat} {enc : Encoder} {b b' : Bus} (hb : b.WInv)
    (hl : b.writeBuffer.length < 2 ^ (w - 1)) (hn : n < 2 ^ w) (h : Bus.writePacketW w id instr n enc b = (b', .ok ())) :
    ∃ params wire, enc.run (b.paramSlice n) = (params, .ok ()) ∧ n + 10 ≤ b.writeBuffer.length ∧
      StuffedForm (instr :: params) wire ∧ Sent b b' (frame id wire) := by
  by_cases ho : n + 10 < 2 ^ w
  · rw [writePacketW_eq hw id instr enc hl ho] at h
    obtain ⟨params, dt, h1, h2, h3, _, _, _, rfl⟩ := Bus.writePacket_ok hb h
    exact ⟨params, _, h1, h3, stuffedForm_codeStuff _, by simp [Sent, Port.wrote, Port.discarded]⟩
  · obtain ⟨buf, h1, _⟩ := writePacketW_over hw id instr enc hb hl hn (by omega)
    rw [h1] at h
    simp at h

/-- The parameter count of `sync_write_bytes` and `sync_write`, or a panic. -/
theorem syncCountW_cases {ε : Type} (w : Nat) (debug : Bool) (motors stride : Nat) :
    (do let body ← usizeMul w debug motors stride; usizeAdd w debug 4 body : Outcome ε Nat) = .panic ∨
    (do let body ← usizeMul w debug motors stride; usizeAdd w debug 4 body : Outcome ε Nat) = .ok ((4 + motors * stride) % 2 ^ w) := by
  rcases usizeMul_cases (ε := ε) w debug motors stride with h | ⟨h, _, _⟩
  · rw [h, Outcome.ok_bind]
    rcases usizeAdd_cases (ε := ε) w debug 4 (motors * stride % 2 ^ w) with h | ⟨h, _, _⟩
    · rw [h, Nat.add_mod_mod]; exact .inr rfl
    · exact .inl h
  · rw [h]; exact .inl rfl

theorem syncWriteBytesW_cases {w : Nat} (address count : U16) (it : CallerIter CallerCommand) (b : Bus)
    (hs : 1 + count.toNat < 2 ^ w) :
    Client.syncWriteBytesW w address count it b = (b, .panic) ∨
    Client.syncWriteBytesW w address count it b =
      Bus.writePacketW w broadcast InstructionId.syncWrite ((4 + it.len * (1 + count.toNat)) % 2 ^ w)
        (Client.syncWriteBytesEncoderW w b.debug address count (1 + count.toNat) it.items) b := by
  unfold Client.syncWriteBytesW
  rw [SO.get_bind, usizeAdd_ok hs, SO.lift_ok_bind]
  rcases syncCountW_cases (ε := WriteError) w b.debug it.len (1 + count.toNat) with h | h
  · left
    rw [SO.bind_def]
    rcases hm : usizeMul (ε := WriteError) w b.debug it.len (1 + count.toNat) with body | e | _ | _
    · rw [hm, Outcome.ok_bind] at h
      simp only [SO.lift_apply]
      rw [h, SO.lift_panic_bind]
    · rw [hm] at h; simp at h
    · rfl
    · rw [hm] at h; simp at h
  · right
    rw [Outcome.bind_eq_ok] at h
    obtain ⟨body, h1, h2⟩ := h
    rw [h1, SO.lift_ok_bind, h2, SO.lift_ok_bind]
    rfl

theorem syncWriteW_cases {α : Type} {w : Nat} (hw : 16 ≤ w) (d : DataTy α) (address : U16) (it : CallerIter (SyncWriteData α)) (b : Bus) :
    Client.syncWriteW w d address it b = (b, .panic) ∨
    Client.syncWriteW w d address it b =
      Bus.writePacketW w broadcast InstructionId.syncWrite ((4 + it.len * 2) % 2 ^ w)
        (Client.syncWriteEncoderW w b.debug d address 1 2 it.items) b := by
  have h16 := two_pow_16 hw
  unfold Client.syncWriteW
  rw [SO.get_bind, usizeAdd_ok (by omega), SO.lift_ok_bind]
  rcases syncCountW_cases (ε := WriteError) w b.debug it.len 2 with h | h
  · left
    rw [SO.bind_def]
    rcases hm : usizeMul (ε := WriteError) w b.debug it.len 2 with body | e | _ | _
    · rw [hm, Outcome.ok_bind] at h
      simp only [SO.lift_apply]
      rw [h, SO.lift_panic_bind]
    · rw [hm] at h; simp at h
    · rfl
    · rw [hm] at h; simp at h
  · right
    rw [Outcome.bind_eq_ok] at h
    obtain ⟨body, h1, h2⟩ := h
    rw [h1, SO.lift_ok_bind, h2, SO.lift_ok_bind]
    rfl

/-- **C81** `sync_write_bytes` with the items of an honest caller: as with numbers, if the size of the packet is a machine word. -/
theorem c81_sync_write_bytes_same {w : Nat} (hw : 16 ≤ w) (address count : U16) (data : List (SyncWriteData (List Byte))) {b : Bus}
    (hl : b.writeBuffer.length < 2 ^ (w - 1)) (hs : 1 + count.toNat < 2 ^ w)
    (hn : 14 + data.length * (1 + count.toNat) < 2 ^ w) :
    Client.syncWriteBytesW w address count ⟨data.length, data.map CallerCommand.ofData⟩ b =
      Client.syncWriteBytes address count data b := by
  unfold Client.syncWriteBytesW Client.syncWriteBytes Client.writeInstructionW
  rw [SO.get_bind, usizeAdd_ok hs, SO.lift_ok_bind, usizeMul_ok (by dsimp only; omega), SO.lift_ok_bind,
    usizeAdd_ok (by dsimp only; omega), SO.lift_ok_bind, writePacketW_eq hw _ _ _ hl (by dsimp only; omega)]
  have he : Client.syncWriteBytesEncoderW w b.debug address count (1 + count.toNat) (data.map CallerCommand.ofData) =
      Client.syncWriteBytesEncoder address count data := by
    unfold Client.syncWriteBytesEncoderW Client.syncWriteBytesEncoder
    congr 1
    funext s
    refine SO.bind_agree rfl fun _ s _ => ?_
    refine SO.bind_agree rfl fun _ s _ => ?_
    exact Client.syncWriteBytesLoopW_eq data 0 s (by rw [Nat.zero_add]; omega)
  rw [he]
  rfl

example := c81_sync_write_bytes_same (w := 32) (by decide) 116#16 2#16 [⟨1#8, [5#8, 6#8]⟩, ⟨2#8, [7#8, 8#8]⟩] (b := quietBus true 40)
  (by simp [quietBus, headerPrefix]) (by decide) (by decide)

/-- **C81** The same for `sync_write`. -/
theorem c81_sync_write_same {α : Type} {w : Nat} (hw : 16 ≤ w) (d : DataTy α) (address : U16) (data : List (SyncWriteData α)) {b : Bus}
    (hl : b.writeBuffer.length < 2 ^ (w - 1)) (hn : 14 + data.length * 2 < 2 ^ w) :
    Client.syncWriteW w d address ⟨data.length, data⟩ b = Client.syncWrite d address data b := by
  have h16 := two_pow_16 hw
  unfold Client.syncWriteW Client.syncWrite Client.writeInstructionW
  rw [SO.get_bind]
  simp only
  rw [usizeAdd_ok (by omega), SO.lift_ok_bind, usizeMul_ok (by omega), SO.lift_ok_bind,
    usizeAdd_ok (by omega), SO.lift_ok_bind, writePacketW_eq hw _ _ _ hl (by omega)]
  have he : Client.syncWriteEncoderW w b.debug d address 1 (1 + 1) data = Client.syncWriteEncoder d address 1 data := by
    unfold Client.syncWriteEncoderW Client.syncWriteEncoder
    congr 1
    funext s
    refine SO.bind_agree rfl fun _ s _ => ?_
    refine SO.bind_agree rfl fun _ s _ => ?_
    exact Client.syncWriteLoopW_eq data 0 s (by rw [Nat.zero_add]; omega)
  rw [he]
  rfl

example := c81_sync_write_same (w := 32) (by decide) (DataTy.unsigned 1) 64#16 [⟨1#8, 1#8⟩, ⟨2#8, 0#8⟩] (b := quietBus true 40)
  (by simp [quietBus, headerPrefix]) (by decide)

/-- **C81** The same for `bulk_write`. -/
theorem c81_bulk_write_same {w : Nat} (hw : 16 ≤ w) (writes : List BulkWriteData) {b : Bus}
    (hl : b.writeBuffer.length < 2 ^ (w - 1)) (hn : 10 + (writes.map (5 + ·.data.length)).sum < 2 ^ w) :
    Client.bulkWriteW w ⟨writes.map (·.data.length), writes⟩ b = Client.bulkWrite writes b := by
  have hsz : Client.bulkWriteSize writes = (writes.map (5 + ·.data.length)).sum := rfl
  unfold Client.bulkWriteW Client.bulkWrite
  rw [SO.get_bind, Client.bulkWriteCountW_eq writes 0 (by omega)]
  by_cases hc : ∀ c ∈ writes, c.data.length ≤ 65535
  · rw [Client.bulkWriteCount_ok writes 0 hc, SO.lift_ok_bind, SO.lift_ok_bind, Nat.zero_add]
    unfold Client.writeInstructionW
    rw [writePacketW_eq hw _ _ _ hl (by omega)]
    have he : (⟨Client.bulkWriteLoopW w b.debug 0 writes, Client.bulkWriteLoopW_length w b.debug writes 0⟩ : Encoder) =
        ⟨Client.bulkWriteLoop 0 writes, Client.bulkWriteLoop_length writes 0⟩ := by
      congr 1
      funext s
      exact Client.bulkWriteLoopW_eq writes 0 s (by omega)
    rw [he]
    rfl
  · have : ∃ c ∈ writes, 65535 < c.data.length := by
      simp only [Classical.not_forall, Nat.not_le] at hc
      obtain ⟨c, h1, h2⟩ := hc
      exact ⟨c, h1, h2⟩
    rw [Client.bulkWriteCount_panic writes 0 this]
    rfl

example := c81_bulk_write_same (w := 32) (by decide) [⟨1#8, 116#16, [5#8, 6#8]⟩, ⟨2#8, 64#16, [1#8]⟩] (b := quietBus true 40)
  (by simp [quietBus, headerPrefix]) (by decide)

/-! ## C82: the iterators of a caller -/

/-- **C82** If an item of `sync_write_bytes` has another length than announced, one of the times it is looked at, or if there are more
items than the parameter count has room for, nothing is sent. -/
theorem c82_sync_write_bytes_refused {w : Nat} (hw : 16 ≤ w) (address count : U16) (it : CallerIter CallerCommand) {b : Bus}
    (hb : b.WInv) (hl : b.writeBuffer.length < 2 ^ (w - 1)) (hs : 1 + count.toNat < 2 ^ w)
    (h : ¬ ((∀ c ∈ it.items, c.checked.length = count.toNat ∧ c.copied.length = count.toNat) ∧
      4 + it.items.length * (1 + count.toNat) ≤ (4 + it.len * (1 + count.toNat)) % 2 ^ w)) :
    NothingSent b (Client.syncWriteBytesW w address count it b) := by
  have h16 := two_pow_16 hw
  have hhalf := two_pow_half hw
  rcases syncWriteBytesW_cases address count it b hs with h1 | h1
  · rw [h1]; exact ⟨⟨b.writeBuffer, rfl⟩, .inl rfl⟩
  · rw [h1]
    refine packetW_encoder_panics hw _ _ hb hl (Nat.mod_lt _ (by omega)) fun hfit => ?_
    have hlen := Bus.paramSlice_length hfit
    exact Client.syncWriteBytesEncoderW_bad (by rw [hlen]; exact h) (by rw [hlen]; omega)

/-- An item whose data changes its length between the check and the copy. -/
example := c82_sync_write_bytes_refused (w := 32) (by decide) 116#16 2#16 ⟨1, [⟨1#8, [5#8, 6#8], [5#8]⟩]⟩
  (quietBus_wInv true 40 (by decide)) (by simp [quietBus, headerPrefix]) (by decide) (by decide)

/-- **C82** More items than `len()` said: nothing is sent. -/
theorem c82_sync_write_bytes_too_many {w : Nat} (hw : 16 ≤ w) (address count : U16) (it : CallerIter CallerCommand) {b : Bus}
    (hb : b.WInv) (hl : b.writeBuffer.length < 2 ^ (w - 1)) (hs : 1 + count.toNat < 2 ^ w) (h : it.len < it.items.length) :
    NothingSent b (Client.syncWriteBytesW w address count it b) := by
  refine c82_sync_write_bytes_refused hw address count it hb hl hs fun ⟨_, h2⟩ => ?_
  have h3 := Nat.mod_le (4 + it.len * (1 + count.toNat)) (2 ^ w)
  have h4 := Nat.mul_lt_mul_of_pos_right h (show 0 < 1 + count.toNat by omega)
  omega

example := c82_sync_write_bytes_too_many (w := 32) (by decide) 116#16 2#16
  ⟨1, [⟨1#8, [5#8, 6#8], [5#8, 6#8]⟩, ⟨2#8, [7#8, 8#8], [7#8, 8#8]⟩]⟩
  (quietBus_wInv false 40 (by decide)) (by simp [quietBus, headerPrefix]) (by decide) (by decide)

/-- **C81** Items of an honest caller whose packet size is no machine word: nothing is sent, in both builds. -/
theorem c81_sync_write_bytes_overflow {w : Nat} (hw : 16 ≤ w) (address count : U16) (data : List (SyncWriteData (List Byte))) {b : Bus}
    (hb : b.WInv) (hl : b.writeBuffer.length < 2 ^ (w - 1)) (hs : 1 + count.toNat < 2 ^ w)
    (hn : 2 ^ w ≤ 14 + data.length * (1 + count.toNat)) :
    NothingSent b (Client.syncWriteBytesW w address count ⟨data.length, data.map CallerCommand.ofData⟩ b) := by
  have h16 := two_pow_16 hw
  have hhalf := two_pow_half hw
  by_cases h4 : 2 ^ w ≤ 4 + data.length * (1 + count.toNat)
  · refine c82_sync_write_bytes_refused hw address count _ hb hl hs fun ⟨_, h2⟩ => ?_
    have h3 := Nat.mod_lt (4 + data.length * (1 + count.toNat)) (show 0 < 2 ^ w by omega)
    simp only [List.length_map] at h2
    omega
  · rcases syncWriteBytesW_cases address count ⟨data.length, data.map CallerCommand.ofData⟩ b hs with h1 | h1
    · rw [h1]; exact ⟨⟨b.writeBuffer, rfl⟩, .inl rfl⟩
    · rw [h1]
      refine packetW_encoder_panics hw _ _ hb hl (Nat.mod_lt _ (by omega)) fun hfit => ?_
      rw [Nat.mod_eq_of_lt (by dsimp only; omega)] at hfit
      dsimp only at hfit
      omega

/-- On a machine with words of 16 bits, 21845 motors with two bytes of data each: the sum is 65539. -/
example := c81_sync_write_bytes_overflow (w := 16) (by decide) 116#16 2#16 (List.replicate 21845 ⟨1#8, [5#8, 6#8]⟩)
  (quietBus_wInv false 40 (by decide)) (by simp [quietBus, headerPrefix]) (by decide) (by rw [List.length_replicate]; decide)

/-- **C81** On a machine with words of 16 bits the size of one item overflows if the count is 65535: nothing is sent either, except by a
release build if there are no items. -/
theorem c81_sync_write_bytes_16 (address : U16) (it : CallerIter CallerCommand) {b : Bus} (hb : b.WInv)
    (hl : b.writeBuffer.length < 2 ^ 15) (h : b.debug = true ∨ it.items ≠ []) :
    NothingSent b (Client.syncWriteBytesW 16 address 65535#16 it b) := by
  unfold Client.syncWriteBytesW
  rw [SO.get_bind]
  cases hd : b.debug
  · rw [hd] at h
    have hi : it.items ≠ [] := by simpa using h
    rw [show usizeAdd 16 false 1 (65535#16).toNat = .ok 0 by decide, SO.lift_ok_bind,
      usizeMul_ok (by simp), SO.lift_ok_bind, usizeAdd_ok (by simp), SO.lift_ok_bind]
    refine packetW_encoder_panics (w := 16) (by decide) _ _ hb hl (by simp) fun hfit => ?_
    have hlen := Bus.paramSlice_length hfit
    rw [Nat.mul_zero, Nat.add_zero] at hlen ⊢
    generalize b.paramSlice 4 = s at hlen
    unfold Client.syncWriteBytesEncoderW
    dsimp only
    match s, hlen with
    | [a0, a1, a2, a3], _ =>
      rw [SO.bind_ok (writeU16Le_at address (by simp)), SO.bind_ok (writeU16Le_at 65535#16 (by simp [le16]))]
      rcases hx : it.items with _ | ⟨c, rest⟩
      · exact absurd hx hi
      · unfold Client.syncWriteBytesLoopW
        by_cases hc : c.checked.length = (65535#16).toNat
        · rw [decide_eq_true hc]
          rfl
        · rw [decide_eq_false hc]
          rfl
  · rw [show usizeAdd 16 true 1 (65535#16).toNat = .panic by decide, SO.lift_panic_bind]
    exact ⟨⟨b.writeBuffer, rfl⟩, .inl rfl⟩

/-- A packet without items, whose count says 65535. -/
example : let r := Client.syncWriteBytesW 16 116#16 65535#16 ⟨2, []⟩ (quietBus false 40)
    r.2 = .ok () ∧ Sent (quietBus false 40) r.1 (frame 0xFE#8 [0x83#8, 0x74#8, 0#8, 0xFF#8, 0xFF#8]) := by
  unfold Sent; decide +kernel

example := c81_sync_write_bytes_16 116#16 ⟨1, [⟨1#8, [], List.replicate 65535 0#8⟩]⟩ (quietBus_wInv false 40 (by decide))
  (by simp [quietBus, headerPrefix]) (.inr (List.cons_ne_nil _ _))

/-- **C82** What a successful `sync_write_bytes` sends, whatever the iterator says and gives: a well-formed packet with the address, the
count and all items in their order, and behind them what was in the write buffer before, up to the announced number of
parameters. -/
theorem c82_sync_write_bytes_sent {w : Nat} (hw : 16 ≤ w) {address count : U16} {it : CallerIter CallerCommand} {b b' : Bus}
    (hb : b.WInv) (hl : b.writeBuffer.length < 2 ^ (w - 1)) (hs : 1 + count.toNat < 2 ^ w)
    (h : Client.syncWriteBytesW w address count it b = (b', .ok ())) :
    ∃ old wire, StuffedForm (0x83#8 :: (le16 address ++ le16 count ++ it.items.flatMap (fun c => c.motorId :: c.copied) ++ old)) wire ∧
      Sent b b' (frame 0xFE#8 wire) ∧ (∀ c ∈ it.items, c.checked.length = count.toNat ∧ c.copied.length = count.toNat) ∧
      4 + it.items.length * (1 + count.toNat) + old.length = (4 + it.len * (1 + count.toNat)) % 2 ^ w ∧
      old <+: b.writeBuffer.drop (12 + it.items.length * (1 + count.toNat)) := by
  have h16 := two_pow_16 hw
  have hhalf := two_pow_half hw
  by_cases hg : (∀ c ∈ it.items, c.Good count.toNat) ∧
      4 + it.items.length * (1 + count.toNat) ≤ (4 + it.len * (1 + count.toNat)) % 2 ^ w
  · rcases syncWriteBytesW_cases address count it b hs with h1 | h1
    · rw [h1] at h; simp at h
    · rw [h1] at h
      obtain ⟨params, wire, h2, hfit, h3, h4⟩ := packetW_ok hw hb hl (Nat.mod_lt _ (by omega)) h
      have hlen := Bus.paramSlice_length hfit
      rw [Client.syncWriteBytesEncoderW_good hg.1 (by rw [hlen]; exact hg.2) (by rw [hlen]; omega)] at h2
      simp only [Prod.mk.injEq, and_true] at h2
      subst h2
      refine ⟨_, wire, h3, h4, hg.1, ?_, ?_⟩
      · rw [List.length_drop, hlen]; omega
      · unfold Bus.paramSlice
        rw [List.drop_drop, List.drop_take, show 8 + (4 + it.items.length * (1 + count.toNat)) =
          12 + it.items.length * (1 + count.toNat) by omega]
        exact List.take_prefix _ _
  · obtain ⟨_, h2 | ⟨e, h2⟩⟩ := c82_sync_write_bytes_refused hw address count it hb hl hs hg
    · rw [h] at h2; simp at h2
    · rw [h] at h2; simp at h2

/-- A bus that has sent something before. -/
def usedBus : Bus :=
  { quietBus true 40 with writeBuffer := headerPrefix ++ (List.range 40).map (BitVec.ofNat 8) }

theorem usedBus_wInv : usedBus.WInv := ⟨by decide, by decide⟩

/-- An iterator that announces two items and gives one: the packet is valid, and three bytes of it were never given. -/
example : let r := Client.syncWriteBytesW 32 116#16 2#16 ⟨2, [⟨1#8, [5#8, 6#8], [5#8, 6#8]⟩]⟩ usedBus
    r.2 = .ok () ∧ Sent usedBus r.1 (frame 0xFE#8 [0x83#8, 0x74#8, 0#8, 2#8, 0#8, 1#8, 5#8, 6#8, 11#8, 12#8, 13#8]) := by
  unfold Sent; decide +kernel

example := c82_sync_write_bytes_sent (w := 32) (by decide) (address := 116#16) (count := 2#16)
  (it := ⟨2, [⟨1#8, [5#8, 6#8], [5#8, 6#8]⟩]⟩) usedBus_wInv (by decide) (by decide) (Prod.ext rfl (by decide +kernel))

/-- **C82** If `len()` is the number of items and the size is a machine word, the packet holds the items and nothing else. -/
theorem c82_sync_write_bytes_honest {w : Nat} (hw : 16 ≤ w) {address count : U16} {it : CallerIter CallerCommand} {b b' : Bus}
    (hb : b.WInv) (hl : b.writeBuffer.length < 2 ^ (w - 1)) (hs : 1 + count.toNat < 2 ^ w) (hi : it.len = it.items.length)
    (h : Client.syncWriteBytesW w address count it b = (b', .ok ())) :
    ∃ wire, StuffedForm (0x83#8 :: (le16 address ++ le16 count ++ it.items.flatMap (fun c => c.motorId :: c.copied))) wire ∧
      Sent b b' (frame 0xFE#8 wire) := by
  obtain ⟨old, wire, h1, h2, _, h4, _⟩ := c82_sync_write_bytes_sent hw hb hl hs h
  have h3 := Nat.mod_le (4 + it.len * (1 + count.toNat)) (2 ^ w)
  rw [← h4, hi] at h3
  have : old = [] := List.eq_nil_of_length_eq_zero (by omega)
  subst this
  rw [List.append_nil] at h1
  exact ⟨wire, h1, h2⟩

example := c82_sync_write_bytes_honest (w := 32) (by decide) (address := 116#16) (count := 2#16)
  (it := ⟨1, [⟨1#8, [5#8, 6#8], [7#8, 8#8]⟩]⟩) usedBus_wInv (by decide) (by decide) rfl (Prod.ext rfl (by decide +kernel))

/-- **C82** `sync_write`: more items than there is room for, nothing is sent and the call does not succeed. -/
theorem c82_sync_write_refused {α : Type} {w : Nat} (hw : 16 ≤ w) (d : DataTy α) (address : U16) (it : CallerIter (SyncWriteData α))
    {b : Bus} (hb : b.WInv) (hl : b.writeBuffer.length < 2 ^ (w - 1))
    (h : (4 + it.len * 2) % 2 ^ w < 4 + it.items.length * 2) :
    (∃ buf, (Client.syncWriteW w d address it b).1 = { b with writeBuffer := buf }) ∧
      (Client.syncWriteW w d address it b).2 ≠ .ok () := by
  have h16 := two_pow_16 hw
  have hhalf := two_pow_half hw
  rcases syncWriteW_cases hw d address it b with h1 | h1
  · rw [h1]; exact ⟨⟨b.writeBuffer, rfl⟩, by simp⟩
  · rw [h1]
    have hm := Nat.mod_lt (4 + it.len * 2) (show 0 < 2 ^ w by omega)
    by_cases ho : (4 + it.len * 2) % 2 ^ w + 10 < 2 ^ w
    · rw [writePacketW_eq hw _ _ _ hl ho]
      by_cases hfit : (4 + it.len * 2) % 2 ^ w + 10 ≤ b.writeBuffer.length
      · have hlen := Bus.paramSlice_length hfit
        rcases Bus.writePacket_split broadcast InstructionId.syncWrite ((4 + it.len * 2) % 2 ^ w)
          (Client.syncWriteEncoderW w b.debug d address 1 2 it.items) hb with ⟨buf, o, h2, h3⟩ | ⟨params, h2, h3, _⟩
        · rw [h2]
          refine ⟨⟨buf, rfl⟩, ?_⟩
          rcases h3 with ⟨e, rfl⟩ | rfl | rfl <;> simp
        · have := Client.syncWriteEncoderW_fits (s := b.paramSlice ((4 + it.len * 2) % 2 ^ w)) (by rw [hlen]; omega)
            (congrArg Prod.snd h2)
          rw [hlen] at this
          omega
      · rw [Bus.writePacket_too_small _ _ _ _ _ (by omega)]
        exact ⟨⟨b.writeBuffer, rfl⟩, by simp⟩
    · obtain ⟨buf, h2, _⟩ := writePacketW_over hw broadcast InstructionId.syncWrite
        (Client.syncWriteEncoderW w b.debug d address 1 2 it.items) hb hl hm (by omega)
      rw [h2]
      exact ⟨⟨buf, rfl⟩, by simp⟩

example := c82_sync_write_refused (w := 16) (by decide) (DataTy.unsigned 1) 64#16 ⟨32768, [⟨1#8, 1#8⟩]⟩
  (quietBus_wInv false 40 (by decide)) (by simp [quietBus, headerPrefix]) (by decide)

/-- **C82** More items than `len()` said. -/
theorem c82_sync_write_too_many {α : Type} {w : Nat} (hw : 16 ≤ w) (d : DataTy α) (address : U16) (it : CallerIter (SyncWriteData α))
    {b : Bus} (hb : b.WInv) (hl : b.writeBuffer.length < 2 ^ (w - 1)) (h : it.len < it.items.length) :
    (∃ buf, (Client.syncWriteW w d address it b).1 = { b with writeBuffer := buf }) ∧
      (Client.syncWriteW w d address it b).2 ≠ .ok () :=
  c82_sync_write_refused hw d address it hb hl (by have := Nat.mod_le (4 + it.len * 2) (2 ^ w); omega)

example := c82_sync_write_too_many (w := 32) (by decide) (DataTy.unsigned 1) 64#16 ⟨0, [⟨1#8, 1#8⟩]⟩
  (quietBus_wInv false 40 (by decide)) (by simp [quietBus, headerPrefix]) (by decide)

/-- **C81** Items of an honest caller whose packet size is no machine word. -/
theorem c81_sync_write_overflow {α : Type} {w : Nat} (hw : 16 ≤ w) (d : DataTy α) (address : U16) (data : List (SyncWriteData α))
    {b : Bus} (hb : b.WInv) (hl : b.writeBuffer.length < 2 ^ (w - 1)) (hn : 2 ^ w ≤ 14 + data.length * 2) :
    (∃ buf, (Client.syncWriteW w d address ⟨data.length, data⟩ b).1 = { b with writeBuffer := buf }) ∧
      (Client.syncWriteW w d address ⟨data.length, data⟩ b).2 ≠ .ok () := by
  have h16 := two_pow_16 hw
  have hhalf := two_pow_half hw
  by_cases h4 : 2 ^ w ≤ 4 + data.length * 2
  · have h3 := Nat.mod_lt (4 + data.length * 2) (show 0 < 2 ^ w by omega)
    exact c82_sync_write_refused hw d address _ hb hl (by dsimp only; omega)
  · rcases syncWriteW_cases hw d address ⟨data.length, data⟩ b with h1 | h1
    · rw [h1]; exact ⟨⟨b.writeBuffer, rfl⟩, by simp⟩
    · rw [h1]
      dsimp only
      rw [Nat.mod_eq_of_lt (by omega)]
      obtain ⟨buf, h2, _⟩ := writePacketW_over hw broadcast InstructionId.syncWrite (n := 4 + data.length * 2)
        (Client.syncWriteEncoderW w b.debug d address 1 2 data) hb hl (by omega) (by omega)
      rw [h2]
      exact ⟨⟨buf, rfl⟩, by simp⟩

example := c81_sync_write_overflow (w := 16) (by decide) (DataTy.unsigned 1) 64#16 (List.replicate 32761 ⟨1#8, 1#8⟩)
  (quietBus_wInv false 40 (by decide)) (by simp [quietBus, headerPrefix]) (by rw [List.length_replicate]; decide)

/-- **C82** `bulk_write`: if the items that are written need more room than those that were counted, or an item that was counted is too
large, nothing is sent. -/
theorem c82_bulk_write_refused {w : Nat} (hw : 16 ≤ w) (it : CallerWrites) {b : Bus} (hb : b.WInv)
    (hl : b.writeBuffer.length < 2 ^ (w - 1)) (hc : ∀ n ∈ it.counted, n < 2 ^ (w - 1))
    (hd : ∀ c ∈ it.written, c.data.length < 2 ^ (w - 1))
    (h : ¬ ((∀ n ∈ it.counted, n ≤ 65535) ∧
      (it.written.map (5 + ·.data.length)).sum ≤ (it.counted.map (5 + ·)).sum % 2 ^ w)) :
    NothingSent b (Client.bulkWriteW w it b) := by
  have h16 := two_pow_16 hw
  have hhalf := two_pow_half hw
  unfold Client.bulkWriteW
  rw [SO.get_bind]
  rcases Client.bulkWriteCountW_cases (ε := WriteError) hw b.debug it.counted 0 hc (by omega) with h1 | ⟨h0, h1⟩
  · rw [h1, SO.lift_panic_bind]; exact ⟨⟨b.writeBuffer, rfl⟩, .inl rfl⟩
  · rw [h1, SO.lift_ok_bind]
    refine packetW_encoder_panics hw _ _ hb hl (Nat.mod_lt _ (by omega)) fun hfit => ?_
    have hlen := Bus.paramSlice_length hfit
    refine Client.bulkWriteLoopW_bad hw it.written 0 _ hd ?_ (by omega) (by rw [hlen]; omega)
    rw [hlen, Nat.zero_add, Nat.zero_add]
    apply Nat.lt_of_not_le
    exact fun h2 => h ⟨h0, h2⟩

example := c82_bulk_write_refused (w := 32) (by decide) ⟨[2], [⟨1#8, 116#16, [5#8, 6#8, 7#8]⟩]⟩
  (quietBus_wInv true 40 (by decide)) (by simp [quietBus, headerPrefix]) (by decide) (by decide) (by decide)

/-- **C82** What a successful `bulk_write` sends, whatever the two passes over the iterator give: the items of the second pass, and
behind them what was in the write buffer before, up to the size counted in the first pass. -/
theorem c82_bulk_write_sent {w : Nat} (hw : 16 ≤ w) {it : CallerWrites} {b b' : Bus} (hb : b.WInv)
    (hl : b.writeBuffer.length < 2 ^ (w - 1)) (hc : ∀ n ∈ it.counted, n < 2 ^ (w - 1))
    (hd : ∀ c ∈ it.written, c.data.length < 2 ^ (w - 1)) (h : Client.bulkWriteW w it b = (b', .ok ())) :
    ∃ old wire, StuffedForm (0x93#8 :: (it.written.flatMap (fun c =>
        c.motorId :: (le16 c.address ++ le16 (BitVec.ofNat 16 c.data.length) ++ c.data)) ++ old)) wire ∧
      Sent b b' (frame 0xFE#8 wire) ∧ (∀ n ∈ it.counted, n ≤ 65535) ∧
      (it.written.map (5 + ·.data.length)).sum + old.length = (it.counted.map (5 + ·)).sum % 2 ^ w ∧
      old <+: b.writeBuffer.drop (8 + (it.written.map (5 + ·.data.length)).sum) := by
  have h16 := two_pow_16 hw
  have hhalf := two_pow_half hw
  by_cases hg : (∀ n ∈ it.counted, n ≤ 65535) ∧
      (it.written.map (5 + ·.data.length)).sum ≤ (it.counted.map (5 + ·)).sum % 2 ^ w
  · unfold Client.bulkWriteW at h
    rw [SO.get_bind] at h
    rcases Client.bulkWriteCountW_cases (ε := WriteError) hw b.debug it.counted 0 hc (by omega) with h1 | ⟨h0, h1⟩
    · rw [h1, SO.lift_panic_bind] at h; simp at h
    · rw [h1, SO.lift_ok_bind] at h
      obtain ⟨params, wire, h2, hfit, h3, h4⟩ := packetW_ok hw hb hl (Nat.mod_lt _ (by omega)) h
      have hlen := Bus.paramSlice_length hfit
      have hcs : Client.countedSize it.counted = (it.counted.map (5 + ·)).sum := rfl
      have hbs : Client.bulkWriteSize it.written = (it.written.map (5 + ·.data.length)).sum := rfl
      dsimp only at h2
      rw [Nat.zero_add] at h2 hfit hlen
      rw [hcs] at h2 hfit hlen
      rw [Client.bulkWriteLoopW_good it.written 0 _ (by rw [hlen]; omega) (by rw [hlen]; omega)] at h2
      simp only [Prod.mk.injEq, and_true, List.take_zero, List.nil_append, Nat.zero_add] at h2
      subst h2
      refine ⟨_, wire, h3, h4, hg.1, ?_, ?_⟩
      · rw [List.length_drop, hlen]; omega
      · unfold Bus.paramSlice
        rw [List.drop_drop, List.drop_take]
        exact List.take_prefix _ _
  · obtain ⟨_, h2 | ⟨e, h2⟩⟩ := c82_bulk_write_refused hw it hb hl hc hd hg
    · rw [h] at h2; simp at h2
    · rw [h] at h2; simp at h2

/-- The clone gives one item more than the iterator. -/
example : let r := Client.bulkWriteW 32 ⟨[1, 1], [⟨1#8, 64#16, [1#8]⟩]⟩ usedBus
    r.2 = .ok () ∧ Sent usedBus r.1 (frame 0xFE#8 [0x93#8, 1#8, 64#8, 0#8, 1#8, 0#8, 1#8, 10#8, 11#8, 12#8, 13#8, 14#8, 15#8]) := by
  unfold Sent; decide +kernel

example := c82_bulk_write_sent (w := 32) (by decide) (it := ⟨[1, 1], [⟨1#8, 64#16, [1#8]⟩]⟩) usedBus_wInv (by decide) (by decide)
  (by decide) (Prod.ext rfl (by decide +kernel))

/-- **C81** `bulk_write` of an honest caller whose packet size is no machine word. -/
theorem c81_bulk_write_overflow {w : Nat} (hw : 16 ≤ w) (writes : List BulkWriteData) {b : Bus} (hb : b.WInv)
    (hl : b.writeBuffer.length < 2 ^ (w - 1)) (hd : ∀ c ∈ writes, c.data.length < 2 ^ (w - 1))
    (hn : 2 ^ w ≤ 10 + (writes.map (5 + ·.data.length)).sum) :
    NothingSent b (Client.bulkWriteW w ⟨writes.map (·.data.length), writes⟩ b) := by
  have h16 := two_pow_16 hw
  have hhalf := two_pow_half hw
  have hc : ∀ n ∈ writes.map (·.data.length), n < 2 ^ (w - 1) := by
    intro n hn
    obtain ⟨c, h1, rfl⟩ := List.mem_map.mp hn
    exact hd c h1
  have hcs : ((writes.map (·.data.length)).map (5 + ·)).sum = (writes.map (5 + ·.data.length)).sum := by
    rw [List.map_map]; rfl
  by_cases h4 : 2 ^ w ≤ (writes.map (5 + ·.data.length)).sum
  · refine c82_bulk_write_refused hw _ hb hl hc hd fun ⟨_, h2⟩ => ?_
    have h3 := Nat.mod_lt (writes.map (5 + ·.data.length)).sum (show 0 < 2 ^ w by omega)
    dsimp only at h2
    rw [hcs] at h2
    omega
  · unfold Client.bulkWriteW
    rw [SO.get_bind]
    rcases Client.bulkWriteCountW_cases (ε := WriteError) hw b.debug (writes.map (·.data.length)) 0 hc (by omega) with h1 | ⟨h0, h1⟩
    · rw [h1, SO.lift_panic_bind]; exact ⟨⟨b.writeBuffer, rfl⟩, .inl rfl⟩
    · rw [h1, SO.lift_ok_bind]
      refine packetW_encoder_panics hw _ _ hb hl (Nat.mod_lt _ (by omega)) fun hfit => ?_
      have : Client.countedSize (writes.map (·.data.length)) = (writes.map (5 + ·.data.length)).sum := hcs
      rw [Nat.zero_add, this, Nat.mod_eq_of_lt (by omega)] at hfit
      omega

example := c81_bulk_write_overflow (w := 16) (by decide) (List.replicate 3 ⟨1#8, 0#16, List.replicate 21845 7#8⟩)
  (quietBus_wInv false 40 (by decide)) (by simp [quietBus, headerPrefix])
  (by intro c hc; rw [List.eq_of_mem_replicate hc, List.length_replicate]; decide)
  (by rw [List.map_replicate, List.length_replicate]; decide)

/-- **C82** What a successful `sync_write` sends, whatever the iterator says and gives: a well-formed packet with the address, the
count 1, all items in their order, each with the byte its encoder wrote, and behind them what was in the write buffer before. -/
theorem c82_sync_write_sent {α : Type} {w : Nat} (hw : 16 ≤ w) {d : DataTy α} {address : U16} {it : CallerIter (SyncWriteData α)}
    {b b' : Bus} (hb : b.WInv) (hl : b.writeBuffer.length < 2 ^ (w - 1)) (h : Client.syncWriteW w d address it b = (b', .ok ())) :
    ∃ (entries : List (SyncWriteData α × Byte)) (old wire : List Byte), entries.map (·.1) = it.items ∧
      (∀ e ∈ entries, ∃ o, d.encode e.1.data [o] = ([e.2], .ok ())) ∧
      StuffedForm (0x83#8 :: (le16 address ++ [1#8, 0#8] ++ entries.flatMap (fun e => [e.1.motorId, e.2]) ++ old)) wire ∧
      Sent b b' (frame 0xFE#8 wire) ∧ 4 + it.items.length * 2 + old.length = (4 + it.len * 2) % 2 ^ w ∧
      old <+: b.writeBuffer.drop (12 + it.items.length * 2) := by
  have h16 := two_pow_16 hw
  have hhalf := two_pow_half hw
  rcases syncWriteW_cases hw d address it b with h1 | h1
  · rw [h1] at h; simp at h
  · rw [h1] at h
    obtain ⟨params, wire, h2, hfit, h3, h4⟩ := packetW_ok hw hb hl (Nat.mod_lt _ (by omega)) h
    have hlen := Bus.paramSlice_length hfit
    have hf := Client.syncWriteEncoderW_fits (s := b.paramSlice ((4 + it.len * 2) % 2 ^ w)) (by rw [hlen]; omega) (congrArg Prod.snd h2)
    obtain ⟨es, e1, e2, e3⟩ := Client.syncWriteEncoderW_codes (s := b.paramSlice ((4 + it.len * 2) % 2 ^ w)) (by rw [hlen]; omega)
      (congrArg Prod.snd h2)
    rw [e3] at h2
    simp only [Prod.mk.injEq, and_true] at h2
    subst h2
    refine ⟨es, _, wire, e1, e2, h3, h4, ?_, ?_⟩
    · rw [List.length_drop, hlen]; omega
    · unfold Bus.paramSlice
      rw [List.drop_drop, List.drop_take, show 8 + (4 + it.items.length * 2) = 12 + it.items.length * 2 by omega]
      exact List.take_prefix _ _

example := c82_sync_write_sent (w := 32) (by decide) (d := DataTy.unsigned 1) (address := 64#16)
  (it := ⟨2, [⟨1#8, 7#8⟩]⟩) usedBus_wInv (by decide) (Prod.ext rfl (by decide +kernel))

/-- **C82** With the types of one byte that the crate implements, the byte is the one of the value. -/
theorem c82_sync_write_byte {α : Type} {d : DataTy α} {valid : α → Prop} {f : α → List Byte} (hd : ImplData d valid f)
    (h1 : d.size = 1#16) {v : α} (hv : valid v) {o x : Byte} (h : d.encode v [o] = ([x], .ok ())) : f v = [x] := by
  have hc := c28_round_trip_partial d valid f hd
  have h2 : d.size.toNat = 1 := by rw [h1]; rfl
  have h3 := hc.encode v hv [o] (by rw [h2]; simp)
  rw [h, h2] at h3
  simpa using (congrArg Prod.fst h3).symm

example : toLeBytes 1 7 = [7#8] := c82_sync_write_byte (d := DataTy.unsigned 1) (f := fun v => toLeBytes 1 v.toNat)
  (.unsigned (by decide) _ fun _ => littleEndian_iff.mpr rfl) rfl (v := 7#8) trivial (o := 9#8) (by decide +kernel)

/-- **C82** The same for `bulk_write`, if both passes see the same lengths. -/
theorem c82_bulk_write_honest {w : Nat} (hw : 16 ≤ w) {it : CallerWrites} {b b' : Bus} (hb : b.WInv)
    (hl : b.writeBuffer.length < 2 ^ (w - 1)) (hd : ∀ c ∈ it.written, c.data.length < 2 ^ (w - 1))
    (hi : it.counted = it.written.map (·.data.length)) (h : Client.bulkWriteW w it b = (b', .ok ())) :
    ∃ wire, StuffedForm (0x93#8 :: it.written.flatMap (fun c =>
        c.motorId :: (le16 c.address ++ le16 (BitVec.ofNat 16 c.data.length) ++ c.data))) wire ∧
      Sent b b' (frame 0xFE#8 wire) ∧ ∀ c ∈ it.written, c.data.length ≤ 65535 := by
  have hc : ∀ n ∈ it.counted, n < 2 ^ (w - 1) := by
    intro n hn
    rw [hi] at hn
    obtain ⟨c, h1, rfl⟩ := List.mem_map.mp hn
    exact hd c h1
  obtain ⟨old, wire, h1, h2, h3, h4, _⟩ := c82_bulk_write_sent hw hb hl hc hd h
  have h5 := Nat.mod_le (it.counted.map (5 + ·)).sum (2 ^ w)
  have h6 : (it.counted.map (5 + ·)).sum = (it.written.map (5 + ·.data.length)).sum := by rw [hi, List.map_map]; rfl
  have : old = [] := List.eq_nil_of_length_eq_zero (by omega)
  subst this
  rw [List.append_nil] at h1
  exact ⟨wire, h1, h2, fun c hc => h3 _ (hi ▸ List.mem_map_of_mem hc)⟩

example := c82_bulk_write_honest (w := 32) (by decide) (it := ⟨[1, 2], [⟨1#8, 64#16, [1#8]⟩, ⟨2#8, 116#16, [7#8, 8#8]⟩]⟩) usedBus_wInv
  (by decide) (by decide) rfl (Prod.ext rfl (by decide +kernel))

/-- **C82** And for `sync_write`. -/
theorem c82_sync_write_honest {α : Type} {w : Nat} (hw : 16 ≤ w) {d : DataTy α} {address : U16} {it : CallerIter (SyncWriteData α)}
    {b b' : Bus} (hb : b.WInv) (hl : b.writeBuffer.length < 2 ^ (w - 1)) (hi : it.len = it.items.length)
    (h : Client.syncWriteW w d address it b = (b', .ok ())) :
    ∃ (entries : List (SyncWriteData α × Byte)) (wire : List Byte), entries.map (·.1) = it.items ∧
      (∀ e ∈ entries, ∃ o, d.encode e.1.data [o] = ([e.2], .ok ())) ∧
      StuffedForm (0x83#8 :: (le16 address ++ [1#8, 0#8] ++ entries.flatMap (fun e => [e.1.motorId, e.2]))) wire ∧
      Sent b b' (frame 0xFE#8 wire) := by
  obtain ⟨es, old, wire, h1, h2, h3, h4, h5, _⟩ := c82_sync_write_sent hw hb hl h
  have h6 := Nat.mod_le (4 + it.len * 2) (2 ^ w)
  rw [← h5, hi] at h6
  have : old = [] := List.eq_nil_of_length_eq_zero (by omega)
  subst this
  rw [List.append_nil] at h3
  exact ⟨es, wire, h1, h2, h3, h4⟩

example := c82_sync_write_honest (w := 32) (by decide) (d := DataTy.unsigned 1) (address := 64#16)
  (it := ⟨2, [⟨1#8, 7#8⟩, ⟨2#8, 8#8⟩]⟩) usedBus_wInv (by decide) rfl (Prod.ext rfl (by decide +kernel))

end Dxl.Props
