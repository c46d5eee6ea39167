import Verif.Lemmas.Forms
import Verif.Lemmas.Frames
import Verif.Model.Encoder

/-! # C03, C05, C08 - C11: sending a packet

`Bus.WInv` (the write buffer has at least 10 bytes and starts with the header prefix) holds in every reachable state:
theorems `c22_*` in `Props/History.lean`. -/

namespace Dxl.Props
open Spec

/-- The encoder, given a slice of `n` bytes, succeeds and leaves `params` in it. -/
def Encodes (enc : Encoder) (n : Nat) (params : List Byte) : Prop :=
  ∃ old : List Byte, old.length = n ∧ enc.run old = (params, .ok ())

/-- Between the states `b` and `b'` the serial port was asked to discard its input and to write the bytes `f`, once each,
in this order, both with success, and nothing else. -/
def Sent (b b' : Bus) (f : List Byte) : Prop :=
  b'.serialPort.log = b.serialPort.log ++ [.discard true, .write f true]

/-- **C08** A successful `write_instruction` hands exactly one buffer to the serial port: header prefix, packet ID, count
of the bytes that follow, stuffed body, CRC of everything before it (`Spec.frame`). -/
theorem c08_instruction_layout {b b' : Bus} {id instr : Byte} {n : Nat} {enc : Encoder} (hb : b.WInv)
    (h : Bus.writeInstruction id instr n enc b = (b', .ok ())) :
    ∃ params wire, Encodes enc n params ∧ StuffedForm (instr :: params) wire ∧ Sent b b' (frame id wire) := by
  obtain ⟨params, dt, h1, h2, h3, _, _, _, rfl⟩ := Bus.writePacket_ok hb h
  refine ⟨params, _, ⟨_, Bus.paramSlice_length h3, h1⟩, stuffedForm_codeStuff _, ?_⟩
  simp [Sent, Port.wrote, Port.discarded]

theorem statusEncoder_run {error : Byte} {enc : Encoder} {old params : List Byte}
    (h : (Bus.statusEncoder error enc).run old = (params, .ok ())) :
    ∃ a t ps, old = a :: t ∧ enc.run t = (ps, .ok ()) ∧ params = error :: ps := by
  change Bus.statusRun error enc old = (params, .ok ()) at h
  match old with
  | [] => simp [Bus.statusRun, setIdx, SO.bind_def] at h
  | a :: t =>
    unfold Bus.statusRun at h
    rw [SO.bind_ok (setIdx_ok _ (by simp)), onSliceFrom_ok _ (by simp)] at h
    simp at h
    exact ⟨a, t, (enc.run t).1, rfl, by rw [← h.2], h.1.symm⟩

/-- **C08** The same for `write_status`: the body is the status instruction, the error byte and the parameters. -/
theorem c08_status_layout {b b' : Bus} {id error : Byte} {n : Nat} {enc : Encoder} (hb : b.WInv)
    (h : Bus.writeStatus id error n enc b = (b', .ok ())) :
    ∃ params wire, Encodes enc n params ∧ StuffedForm (0x55#8 :: error :: params) wire ∧ Sent b b' (frame id wire) := by
  unfold Bus.writeStatus at h
  rw [SO.get_bind] at h
  unfold BufferTooSmall.check at h
  split at h
  · rw [Outcome.mapErr_ok, SO.lift_ok_bind] at h
    obtain ⟨params, dt, h1, h2, h3, _, _, _, rfl⟩ := Bus.writePacket_ok hb h
    obtain ⟨a, t, ps, ho, he, rfl⟩ := statusEncoder_run h1
    refine ⟨ps, _, ⟨t, ?_, he⟩, stuffedForm_codeStuff _, ?_⟩
    · have := congrArg List.length ho
      rw [Bus.paramSlice_length h3] at this
      simpa using this.symm
    · simp [Sent, Port.wrote, Port.discarded, InstructionId.status]
  · simp at h

theorem stuffedForm_stuff {body wire : List Byte} (h : StuffedForm body wire) : wire = stuff body ↔ RunsOk body := by
  rw [stuffedForm_iff.mp h, codeStuff_eq_stuff]

/-- **C03** (partial: the English claim is the equation, without the condition) The bytes of a sent packet between length
field and CRC are the body with `FD` inserted after every `FF FF FD`, exactly for bodies in which every `FF FF FD` ends a
run of 2, 5, 8, ... `FF`s. -/
theorem c03_wire_body_partial {b b' : Bus} {id instr : Byte} {n : Nat} {enc : Encoder} (hb : b.WInv)
    (h : Bus.writeInstruction id instr n enc b = (b', .ok ())) :
    ∃ params wire, Encodes enc n params ∧ Sent b b' (frame id wire) ∧
      (wire = stuff (instr :: params) ↔ RunsOk (instr :: params)) := by
  obtain ⟨params, wire, he, hw, hs⟩ := c08_instruction_layout hb h
  exact ⟨params, wire, he, hs, stuffedForm_stuff hw⟩

/-- **C03** In particular for bodies without `FF FF FF FD`: a sent packet is exactly the protocol's. -/
theorem c03_sent_packet_partial {b b' : Bus} {id instr : Byte} {n : Nat} {enc : Encoder} (hb : b.WInv)
    (h : Bus.writeInstruction id instr n enc b = (b', .ok ()))
    (hruns : ∀ params, Encodes enc n params → ¬ [0xFF#8, 0xFF#8, 0xFF#8, 0xFD#8] <:+: instr :: params) :
    ∃ params, Encodes enc n params ∧ Sent b b' (frame id (stuff (instr :: params))) := by
  obtain ⟨params, wire, he, hw, hs⟩ := c08_instruction_layout hb h
  refine ⟨params, he, ?_⟩
  rw [(stuffedForm_stuff hw).mpr (runsOk_of_no_infix (hruns _ he))] at hs
  exact hs

/-- **C05** (partial: no condition in the English claim) The body of a sent packet does not contain the header prefix if
every `FF FF FD` in the unstuffed body ends a run of 2, 5, 8, ... `FF`s. -/
theorem c05_no_header_in_body_partial {b b' : Bus} {id instr : Byte} {n : Nat} {enc : Encoder} (hb : b.WInv)
    (h : Bus.writeInstruction id instr n enc b = (b', .ok ()))
    (hruns : ∀ params, Encodes enc n params → RunsOk (instr :: params)) :
    ∃ wire, Sent b b' (frame id wire) ∧ ¬ header <:+: wire := by
  obtain ⟨params, wire, he, hw, hs⟩ := c08_instruction_layout hb h
  refine ⟨wire, hs, ?_⟩
  rw [(stuffedForm_stuff hw).mpr (hruns _ he)]
  exact stuff_no_header _

/-- An encoder that copies given bytes. -/
def bytesEncoder (bytes : List Byte) : Encoder := ⟨copyFromSlice bytes, KeepsLength.copyFromSlice bytes⟩

/-- A port with nothing to receive on which all calls succeed. -/
def quietPort : Port :=
  { now := 0, rx := [], tail := .silent, discardRes := [], discardIsNoop := false, writeRes := [], baudRes := [],
    rate := 57600, rateErr := none, log := [] }

/-- A fresh bus on `quietPort` with write buffer of `size + 4` bytes. -/
def quietBus (debug : Bool) (size : Nat) : Bus :=
  { serialPort := quietPort, baudRate := 57600, readBuffer := List.replicate 20 0#8, readLen := 0, usedBytes := 0,
    writeBuffer := headerPrefix ++ List.replicate size 0#8, debug := debug }

theorem quietBus_wInv (debug : Bool) (size : Nat) (h : 6 ≤ size) : (quietBus debug size).WInv := by
  constructor
  · simp [quietBus, headerPrefix]; omega
  · simp [quietBus, headerPrefix]

/-- The full claim C05. -/
def C05_statement : Prop :=
  ∀ (b b' : Bus) (id instr : Byte) (n : Nat) (enc : Encoder) (wire : List Byte), b.WInv →
    Bus.writeInstruction id instr n enc b = (b', .ok ()) → Sent b b' (frame id wire) → ¬ header <:+: wire

/-- **C05** is false as stated: a write of `FF FF FF FD 00` puts the header prefix into the body. -/
theorem c05_refuted : ¬ C05_statement := by
  intro h
  refine h (quietBus true 40) _ 1#8 0x03#8 7 (bytesEncoder [0x74#8, 0#8, 0xFF#8, 0xFF#8, 0xFF#8, 0xFD#8, 0x00#8])
    [0x03#8, 0x74#8, 0#8, 0xFF#8, 0xFF#8, 0xFF#8, 0xFD#8, 0x00#8] (quietBus_wInv _ _ (by decide))
    (Prod.ext rfl (by decide +kernel)) (by unfold Sent; decide +kernel) (by decide)

/-- The full claim C03. -/
def C03_statement : Prop :=
  ∀ (b b' : Bus) (id instr : Byte) (n : Nat) (enc : Encoder) (params : List Byte), b.WInv →
    (∀ s, s.length = n → enc.run s = (params, .ok ())) →
    Bus.writeInstruction id instr n enc b = (b', .ok ()) → Sent b b' (frame id (stuff (instr :: params)))

/-- **C03** is false as stated, by the same packet. -/
theorem c03_refuted : ¬ C03_statement := by
  intro h
  have := h (quietBus true 40) _ 1#8 0x03#8 7 (bytesEncoder [0x74#8, 0#8, 0xFF#8, 0xFF#8, 0xFF#8, 0xFD#8, 0x00#8])
    [0x74#8, 0#8, 0xFF#8, 0xFF#8, 0xFF#8, 0xFD#8, 0x00#8] (quietBus_wInv _ _ (by decide))
    (fun s hs => by simp [bytesEncoder, copyFromSlice, hs])
    (Prod.ext rfl (by decide +kernel))
  revert this
  unfold Sent
  decide +kernel

/-! ## C09 -/

/-- The full claim C09: if the packet with its stuffing and CRC does not fit the write buffer, that is reported. -/
def C09_statement : Prop :=
  ∀ (b : Bus) (id instr : Byte) (n : Nat) (enc : Encoder) (params wire : List Byte), b.WInv →
    (∀ s, s.length = n → enc.run s = (params, .ok ())) → StuffedForm (instr :: params) wire →
    b.writeBuffer.length < (frame id wire).length →
    ∃ b' e, Bus.writeInstruction id instr n enc b = (b', .err (.bufferTooSmall e))

/-- The cases that go wrong: everything but the CRC fits after stuffing, and the whole packet would fit without
stuffing. -/
def CrcGap (size : Nat) (n : Nat) (wire : List Byte) : Prop :=
  n + 10 ≤ size ∧ 7 + wire.length ≤ size ∧ size < 9 + wire.length

/-- What is reported if a packet with `n` parameters does not fit: the sizes of the packet and of the buffer if it does not
even fit without stuffing, otherwise those of its stuffed body and of the buffer without the packet header. -/
def reported (size n : Nat) (wire : List Byte) : BufferTooSmall :=
  if size < n + 10 then ⟨n + 10, size⟩ else ⟨wire.length, size - 7⟩

/-- **C09** (partial: the English claim is without the hypothesis `¬ CrcGap`) -/
theorem c09_reported_partial {b : Bus} {id instr : Byte} {n : Nat} {enc : Encoder} {params wire : List Byte}
    (hb : b.WInv) (he : ∀ s, s.length = n → enc.run s = (params, .ok ())) (hw : StuffedForm (instr :: params) wire)
    (hfit : b.writeBuffer.length < (frame id wire).length) (hgap : ¬ CrcGap b.writeBuffer.length n wire) :
    ∃ b', Bus.writeInstruction id instr n enc b = (b', .err (.bufferTooSmall (reported b.writeBuffer.length n wire))) := by
  rw [Bus.frame_length] at hfit
  rw [stuffedForm_iff] at hw
  subst hw
  unfold CrcGap at hgap
  unfold Bus.writeInstruction
  by_cases hn : n + 10 ≤ b.writeBuffer.length
  · have hr := he _ (Bus.paramSlice_length hn)
    have hlen := enc.length_eq (b.paramSlice n)
    rw [Bus.paramSlice_length hn, hr] at hlen
    change params.length = n at hlen
    rw [Bus.writePacket_encode _ _ _ _ _ hb hn, hr]
    simp only
    rw [Bus.writeStuffed_too_small hlen]
    · refine ⟨b.encoded id instr n params, ?_⟩
      unfold reported
      rw [if_neg (by omega), codeStuff_length]
      simp only [List.length_cons, List.length_drop, hlen]
      congr 4 <;> omega
    · rw [codeStuff_length] at hgap hfit
      simp [hlen] at hgap hfit ⊢
      omega
  · refine ⟨b, (Bus.writePacket_too_small _ _ _ _ _ (by omega)).trans ?_⟩
    unfold reported
    rw [if_pos (by omega)]

/-- **C09** In the missing cases the code panics, in both build profiles (except that, in release builds and for a
stuffed body of 65534 bytes or more, this is where C10 fails too). -/
theorem c09_gap_panics {b : Bus} {id instr : Byte} {n : Nat} {enc : Encoder} {params wire : List Byte}
    (hb : b.WInv) (he : ∀ s, s.length = n → enc.run s = (params, .ok ())) (hw : StuffedForm (instr :: params) wire)
    (hgap : CrcGap b.writeBuffer.length n wire) : (Bus.writeInstruction id instr n enc b).2 = .panic := by
  rw [stuffedForm_iff] at hw
  subst hw
  obtain ⟨hn, h1, h2⟩ := hgap
  have hr := he _ (Bus.paramSlice_length hn)
  have hlen := enc.length_eq (b.paramSlice n)
  rw [Bus.paramSlice_length hn, hr] at hlen
  change params.length = n at hlen
  unfold Bus.writeInstruction
  rw [Bus.writePacket_encode _ _ _ _ _ hb hn, hr]
  simp only
  rw [codeStuff_length] at h1 h2
  by_cases ho : b.debug = true ∧ 2 ^ 16 ≤ (codeStuff (instr :: params)).length % 2 ^ 16 + 2
  · obtain ⟨w, h, _⟩ := Bus.writeStuffed_overflow (id := id) hlen (by simp [hlen] at h1 ⊢; omega) ho
    rw [h]
  · obtain ⟨w, h, _⟩ := Bus.writeStuffed_crc_panic (id := id) hlen (by simp [hlen] at h1 ⊢; omega)
      (by simp [hlen] at h2 ⊢; omega) ho
    rw [h]

/-- **C09** Conversely a packet that fits the write buffer (and the length field) is never a panic and never reported as
too large: the outcome is that of the serial port. -/
theorem c09_fits {b : Bus} {id instr : Byte} {n : Nat} {enc : Encoder} {params wire : List Byte}
    (hb : b.WInv) (he : ∀ s, s.length = n → enc.run s = (params, .ok ())) (hw : StuffedForm (instr :: params) wire)
    (hn : params.length = n) (hfit : (frame id wire).length ≤ b.writeBuffer.length) (hlen : wire.length + 2 < 2 ^ 16) :
    (∃ b', Bus.writeInstruction id instr n enc b = (b', .ok ())) ∨
    (∃ b' e, Bus.writeInstruction id instr n enc b = (b', .err (.discardBuffer e))) ∨
    (∃ b' e, Bus.writeInstruction id instr n enc b = (b', .err (.write e))) := by
  rw [stuffedForm_iff] at hw
  subst hw
  have hl := codeStuff_length (instr :: params)
  rw [Bus.frame_length] at hfit
  have hn' : n + 10 ≤ b.writeBuffer.length := by simp [hn] at hl; omega
  unfold Bus.writeInstruction
  rw [Bus.writePacket_send hb (he _ (Bus.paramSlice_length hn')) hn' hfit (by omega)]
  rcases Bus.sendFrame_cases (frame id (codeStuff (instr :: params))) { b with
      writeBuffer := frame id (codeStuff (instr :: params)) ++
        b.writeBuffer.drop (frame id (codeStuff (instr :: params))).length
      readLen := 0
      usedBytes := 0 } with ⟨e, h, _⟩ | ⟨dt, e, h, _⟩ | ⟨dt, h, _⟩
  · exact .inr (.inl ⟨_, e, h⟩)
  · exact .inr (.inr ⟨_, e, h⟩)
  · exact .inl ⟨_, h⟩

/-- Sending a status packet is sending a packet with instruction 0x55 and the error as an additional first parameter. -/
theorem writeStatus_eq (id error : Byte) (n : Nat) (enc : Encoder) (b : Bus) :
    Bus.writeStatus id error n enc b = Bus.writeInstruction id 0x55#8 (n + 1) (Bus.statusEncoder error enc) b := by
  unfold Bus.writeStatus
  rw [SO.get_bind]
  by_cases h : n + 11 ≤ b.writeBuffer.length
  · have : BufferTooSmall.check (StatusPacket.messageLen n) b.writeBuffer.length = .ok () := by
      unfold BufferTooSmall.check StatusPacket.messageLen headerSize
      rw [if_pos (by omega)]
    rw [this, Outcome.mapErr_ok, SO.lift_ok_bind]
    rfl
  · have : BufferTooSmall.check (StatusPacket.messageLen n) b.writeBuffer.length = .err ⟨n + 1 + 10, b.writeBuffer.length⟩ := by
      unfold BufferTooSmall.check StatusPacket.messageLen headerSize
      rw [if_neg (by omega)]
      congr 2
      omega
    rw [this]
    unfold Bus.writeInstruction
    rw [Bus.writePacket_too_small _ _ _ _ _ (by omega)]
    rfl

theorem statusEncoder_fills {error : Byte} {n : Nat} {enc : Encoder} {params : List Byte}
    (he : ∀ s, s.length = n → enc.run s = (params, .ok ())) :
    ∀ s, s.length = n + 1 → (Bus.statusEncoder error enc).run s = (error :: params, .ok ()) := by
  intro s hs
  match s, hs with
  | a :: t, hs =>
    change Bus.statusRun error enc (a :: t) = _
    unfold Bus.statusRun
    rw [SO.bind_ok (setIdx_ok _ (by simp)), onSliceFrom_ok _ (by simp)]
    simp only [List.length_cons, Nat.add_right_cancel_iff] at hs
    have := he t hs
    simp [this]

/-- **C09** (partial: as above) The same for status packets. -/
theorem c09_status_partial {b : Bus} {id error : Byte} {n : Nat} {enc : Encoder} {params wire : List Byte}
    (hb : b.WInv) (he : ∀ s, s.length = n → enc.run s = (params, .ok ())) (hw : StuffedForm (0x55#8 :: error :: params) wire)
    (hfit : b.writeBuffer.length < (frame id wire).length) :
    (CrcGap b.writeBuffer.length (n + 1) wire → (Bus.writeStatus id error n enc b).2 = .panic) ∧
    (¬ CrcGap b.writeBuffer.length (n + 1) wire →
      ∃ b', Bus.writeStatus id error n enc b = (b', .err (.bufferTooSmall (reported b.writeBuffer.length (n + 1) wire)))) := by
  rw [writeStatus_eq]
  exact ⟨c09_gap_panics hb (statusEncoder_fills he) hw, c09_reported_partial hb (statusEncoder_fills he) hw hfit⟩

/-- **C09** is false as stated: writing `FF FF FD` (instruction 3, 5 parameter bytes) with a write buffer of 15 bytes
panics, because the stuffed packet needs 16. -/
theorem c09_refuted : ¬ C09_statement := by
  intro h
  obtain ⟨b', e, h⟩ := h (quietBus false 11) 1#8 0x03#8 5 (bytesEncoder [0x74#8, 0#8, 0xFF#8, 0xFF#8, 0xFD#8])
    [0x74#8, 0#8, 0xFF#8, 0xFF#8, 0xFD#8] [0x03#8, 0x74#8, 0#8, 0xFF#8, 0xFF#8, 0xFD#8, 0xFD#8]
    (quietBus_wInv _ _ (by decide)) (fun s hs => by simp [bytesEncoder, copyFromSlice, hs])
    (stuffedForm_iff.mpr (by decide)) (by decide)
  have h2 := congrArg Prod.snd h
  have h3 : (Bus.writeInstruction 1#8 0x03#8 5 (bytesEncoder [0x74#8, 0#8, 0xFF#8, 0xFF#8, 0xFD#8])
    (quietBus false 11)).2 = .panic := by decide +kernel
  rw [h3] at h2
  simp at h2

/-! ## C10 -/

/-- The full claim C10: the length field of a sent packet is the number of bytes after it. -/
def C10_statement : Prop :=
  ∀ (b b' : Bus) (id instr : Byte) (n : Nat) (enc : Encoder) (f : List Byte), b.WInv →
    Bus.writeInstruction id instr n enc b = (b', .ok ()) → Sent b b' f → Spec.lengthField f = f.length - 7

/-- **C10** (partial: the English claim has no bound on the write buffer) With a write buffer of at most 65542 bytes,
the length field of every packet that is sent is right, in both build profiles. -/
theorem c10_length_field_partial {b b' : Bus} {id instr : Byte} {n : Nat} {enc : Encoder} {f : List Byte} (hb : b.WInv)
    (hsize : b.writeBuffer.length ≤ 65542) (h : Bus.writeInstruction id instr n enc b = (b', .ok ()))
    (hf : Sent b b' f) : Spec.lengthField f = f.length - 7 := by
  obtain ⟨params, dt, h1, h2, h3, h4, _, _, rfl⟩ := Bus.writePacket_ok hb h
  have : f = frame id (codeStuff (instr :: params)) := by
    simpa [Sent, Port.wrote, Port.discarded] using hf.symm
  subst this
  rw [Bus.frame_length] at h4
  rw [lengthField_frame, Bus.frame_length]
  omega

theorem ncount_replicate_zero (n : Nat) : ncount (List.replicate n 0#8) = 0 := by
  induction n with
  | zero => rfl
  | succ n ih => simp [List.replicate_succ, ncount, ih]

/-- What a release build does with a body of `n + 1` zeros. -/
theorem send_zeros (n size : Nat) (h : n + 6 ≤ size) (hs : 6 ≤ size) :
    ∃ b', Bus.writeInstruction 1#8 0#8 n Encoder.nothing (quietBus false size) = (b', .ok ()) ∧
      Sent (quietBus false size) b' (frame 1#8 (List.replicate (n + 1) 0#8)) := by
  have hb := quietBus_wInv false size hs
  have hn : n + 10 ≤ (quietBus false size).writeBuffer.length := by simp [quietBus, headerPrefix]; omega
  have hp : (quietBus false size).paramSlice n = List.replicate n 0#8 := by
    simp only [Bus.paramSlice, quietBus, headerPrefix, List.cons_append, List.nil_append]
    rw [show 8 + n = (n + 4) + 4 by omega]
    simp only [List.take_succ_cons, List.drop_succ_cons]
    simp
    omega
  have hc : codeStuff (0#8 :: List.replicate n 0#8) = List.replicate (n + 1) 0#8 := by
    rw [← List.replicate_succ, codeStuff_of_ncount_zero]
    rw [List.reverse_replicate, ncount_replicate_zero]
  have hr : Encoder.nothing.run ((quietBus false size).paramSlice n) = (List.replicate n 0#8, .ok ()) := by
    rw [hp]; rfl
  have := Bus.writePacket_send (id := 1#8) (instr := 0#8) hb hr hn (by rw [hc]; simp [quietBus, headerPrefix]; omega)
    (by simp [quietBus])
  unfold Bus.writeInstruction
  rw [this, hc]
  rcases Bus.sendFrame_cases (frame 1#8 (List.replicate (n + 1) 0#8)) { quietBus false size with
      writeBuffer := frame 1#8 (List.replicate (n + 1) 0#8) ++
        (quietBus false size).writeBuffer.drop (frame 1#8 (List.replicate (n + 1) 0#8)).length
      readLen := 0
      usedBytes := 0 } with ⟨e, h, h'⟩ | ⟨dt, e, h, _, h'⟩ | ⟨dt, h, _⟩
  · simp [quietBus, quietPort] at h'
  · simp [quietBus, quietPort] at h'
  · exact ⟨_, h, by simp [Sent, Port.wrote, Port.discarded]⟩

/-- **C10** is false as stated: a release build with a write buffer of 70004 bytes sends a body of 65600 bytes with the
length field 66. -/
theorem c10_refuted : ¬ C10_statement := by
  intro h
  have key : ∀ n size, n = 65599 → size = 70000 → False := by
    intro n size hn hs
    obtain ⟨b', h1, h2⟩ := send_zeros n size (by omega) (by omega)
    have := h _ _ _ _ _ _ _ (quietBus_wInv false size (by omega)) h1 h2
    rw [lengthField_frame, Bus.frame_length, List.length_replicate] at this
    omega
  exact key _ _ rfl rfl

/-- **C10** (partial: packets too long for the field are not refused) Exactly what happens to a packet that fits the write
buffer: a debug build panics, before any call to the port, if its stuffed body is one or two bytes below a multiple of 65536,
and otherwise every build hands it to the port; its length field is then right exactly if the stuffed body is at
most 65533 bytes. -/
theorem c10_exact_partial {b : Bus} {id instr : Byte} {n : Nat} {enc : Encoder} {params wire : List Byte}
    (hb : b.WInv) (he : ∀ s, s.length = n → enc.run s = (params, .ok ()))
    (hw : StuffedForm (instr :: params) wire) (hn : params.length = n)
    (hfit : (frame id wire).length ≤ b.writeBuffer.length) :
    if b.debug = true ∧ 65534 ≤ wire.length % 65536 then
      ∃ b', Bus.writeInstruction id instr n enc b = (b', .panic) ∧ b'.serialPort = b.serialPort
    else
      ((∃ b', Bus.writeInstruction id instr n enc b = (b', .ok ()) ∧ Sent b b' (frame id wire)) ∨
       (∃ b' e, Bus.writeInstruction id instr n enc b = (b', .err (.discardBuffer e))) ∨
       (∃ b' e, Bus.writeInstruction id instr n enc b = (b', .err (.write e)))) ∧
      (Spec.lengthField (frame id wire) = (frame id wire).length - 7 ↔ wire.length ≤ 65533) := by
  rw [stuffedForm_iff] at hw
  subst hw
  have hl := codeStuff_length (instr :: params)
  rw [Bus.frame_length] at hfit
  have hn' : n + 10 ≤ b.writeBuffer.length := by simp [hn] at hl; omega
  unfold Bus.writeInstruction
  split
  · rename_i ho
    rw [Bus.writePacket_encode _ _ _ _ _ hb hn', he _ (Bus.paramSlice_length hn')]
    simp only
    obtain ⟨w, h, _⟩ := Bus.writeStuffed_overflow (b := b) (id := id) (instr := instr) hn
      (by simp [hn] at hl ⊢; omega) ⟨ho.1, by omega⟩
    rw [h]
    exact ⟨_, rfl, rfl⟩
  · rename_i ho
    refine ⟨?_, by rw [lengthField_frame, Bus.frame_length]; omega⟩
    rw [Bus.writePacket_send hb (he _ (Bus.paramSlice_length hn')) hn' hfit (fun h => ho ⟨h.1, by omega⟩)]
    rcases Bus.sendFrame_cases (frame id (codeStuff (instr :: params))) { b with
        writeBuffer := frame id (codeStuff (instr :: params)) ++
          b.writeBuffer.drop (frame id (codeStuff (instr :: params))).length
        readLen := 0
        usedBytes := 0 } with ⟨e, h, _⟩ | ⟨dt, e, h, _⟩ | ⟨dt, h, _⟩
    · exact .inr (.inl ⟨_, _, h⟩)
    · exact .inr (.inr ⟨_, _, h⟩)
    · exact .inl ⟨_, h, by simp [Sent, Port.wrote, Port.discarded]⟩

/-- **C10** (partial: as above) The same for status packets. -/
theorem c10_status_exact_partial {b : Bus} {id error : Byte} {n : Nat} {enc : Encoder} {params wire : List Byte}
    (hb : b.WInv) (he : ∀ s, s.length = n → enc.run s = (params, .ok ()))
    (hw : StuffedForm (0x55#8 :: error :: params) wire) (hn : params.length = n)
    (hfit : (frame id wire).length ≤ b.writeBuffer.length) :
    if b.debug = true ∧ 65534 ≤ wire.length % 65536 then
      ∃ b', Bus.writeStatus id error n enc b = (b', .panic) ∧ b'.serialPort = b.serialPort
    else
      ((∃ b', Bus.writeStatus id error n enc b = (b', .ok ()) ∧ Sent b b' (frame id wire)) ∨
       (∃ b' e, Bus.writeStatus id error n enc b = (b', .err (.discardBuffer e))) ∨
       (∃ b' e, Bus.writeStatus id error n enc b = (b', .err (.write e)))) ∧
      (Spec.lengthField (frame id wire) = (frame id wire).length - 7 ↔ wire.length ≤ 65533) := by
  rw [writeStatus_eq]
  exact c10_exact_partial hb (statusEncoder_fills he) hw (by simp [hn]) hfit

/-- Both cases exist: a debug build panics on a body of 65534 zeros, which a release build sends with the length field 0. -/
example : (∃ b', Bus.writeInstruction 1#8 0#8 65533 (bytesEncoder (List.replicate 65533 0#8)) (quietBus true 70000) = (b', .panic)) ∧
    (∃ b', Bus.writeInstruction 1#8 0#8 65533 Encoder.nothing (quietBus false 70000) = (b', .ok ()) ∧
      Sent (quietBus false 70000) b' (frame 1#8 (List.replicate 65534 0#8))) ∧
    Spec.lengthField (frame 1#8 (List.replicate 65534 0#8)) = 0 := by
  have key : ∀ n size, n = 65533 → size = 70000 →
      (∃ b', Bus.writeInstruction 1#8 0#8 n (bytesEncoder (List.replicate n 0#8)) (quietBus true size) = (b', .panic)) ∧
      (∃ b', Bus.writeInstruction 1#8 0#8 n Encoder.nothing (quietBus false size) = (b', .ok ()) ∧
        Sent (quietBus false size) b' (frame 1#8 (List.replicate (n + 1) 0#8))) ∧
      Spec.lengthField (frame 1#8 (List.replicate (n + 1) 0#8)) = 0 := by
    intro n size hn hs
    have hc : codeStuff (0#8 :: List.replicate n 0#8) = List.replicate (n + 1) 0#8 := by
      rw [← List.replicate_succ, codeStuff_of_ncount_zero]
      rw [List.reverse_replicate, ncount_replicate_zero]
    have h := c10_exact_partial (id := 1#8) (enc := bytesEncoder (List.replicate n 0#8)) (quietBus_wInv true size (by omega))
      (fun s hs => by simp [bytesEncoder, copyFromSlice, hs]) (stuffedForm_iff.mpr hc.symm) (List.length_replicate ..)
      (by rw [Bus.frame_length]; simp [quietBus, headerPrefix]; omega)
    rw [if_pos ⟨rfl, by rw [List.length_replicate]; omega⟩] at h
    obtain ⟨b', h, -⟩ := h
    refine ⟨⟨b', h⟩, send_zeros n size (by omega) (by omega), ?_⟩
    rw [lengthField_frame, List.length_replicate]
    omega
  exact key _ _ rfl rfl

/-! ## C11 -/

/-- **C11** If sending fails because of the buffer or the encoder (or panics), no call is made to the serial port, and
everything received so far is kept. -/
theorem c11_failed_encode_sends_nothing {b b' : Bus} {id instr : Byte} {n : Nat} {enc : Encoder}
    {o : Outcome WriteError Unit} (hb : b.WInv) (h : Bus.writeInstruction id instr n enc b = (b', o))
    (ho : (∃ e, o = .err (.bufferTooSmall e)) ∨ o = .panic ∨ o = .hang) :
    b'.serialPort = b.serialPort ∧ b'.readBuffer = b.readBuffer ∧ b'.readLen = b.readLen ∧
      b'.usedBytes = b.usedBytes := by
  unfold Bus.writeInstruction at h
  rcases Bus.writePacket_split id instr n enc hb with ⟨w, o', h1, _⟩ | ⟨params, _, _, h1⟩
  · rw [h1] at h
    simp only [Prod.mk.injEq] at h
    rw [← h.1]
    exact ⟨rfl, rfl, rfl, rfl⟩
  · rw [h1] at h
    rcases Bus.sendFrame_cases (frame id (codeStuff (instr :: params))) { b with
        writeBuffer := frame id (codeStuff (instr :: params)) ++
          b.writeBuffer.drop (frame id (codeStuff (instr :: params))).length
        readLen := 0
        usedBytes := 0 } with ⟨e, h2, _⟩ | ⟨dt, e, h2, _⟩ | ⟨dt, h2, _⟩ <;>
    · rw [h2] at h
      simp only [Prod.mk.injEq] at h
      rw [← h.2] at ho
      simp at ho

/-- **C11** If discarding the input buffer fails, nothing is written: the only call made is the failed discard. -/
theorem c11_failed_discard_sends_nothing {b b' : Bus} {id instr : Byte} {n : Nat} {enc : Encoder} {e : IoErr}
    (hb : b.WInv) (h : Bus.writeInstruction id instr n enc b = (b', .err (.discardBuffer e))) :
    b'.serialPort.log = b.serialPort.log ++ [.discard false] := by
  unfold Bus.writeInstruction at h
  rcases Bus.writePacket_split id instr n enc hb with ⟨w, o', h1, h3⟩ | ⟨params, _, _, h1⟩
  · rw [h1] at h
    simp only [Prod.mk.injEq] at h
    rw [h.2] at h3
    simp at h3
  · rw [h1] at h
    rcases Bus.sendFrame_cases (frame id (codeStuff (instr :: params))) { b with
        writeBuffer := frame id (codeStuff (instr :: params)) ++
          b.writeBuffer.drop (frame id (codeStuff (instr :: params))).length
        readLen := 0
        usedBytes := 0 } with ⟨e, h2, _⟩ | ⟨dt, e, h2, _⟩ | ⟨dt, h2, _⟩
    · rw [h2] at h
      simp only [Prod.mk.injEq] at h
      rw [← h.1]
    · rw [h2] at h; simp at h
    · rw [h2] at h; simp at h

/-- **C11** Whenever a packet is handed to the serial port, that is right after a successful discard, once per call, and
the result of the call says how the write ended. -/
theorem c11_write_only_after_discard {b b' : Bus} {id instr : Byte} {n : Nat} {enc : Encoder}
    {o : Outcome WriteError Unit} (hb : b.WInv) (h : Bus.writeInstruction id instr n enc b = (b', o)) (f : List Byte)
    (ok : Bool) (hw : Call.write f ok ∈ b'.serialPort.log) (hnew : Call.write f ok ∉ b.serialPort.log) :
    b'.serialPort.log = b.serialPort.log ++ [.discard true, .write f ok] ∧
      (o = .ok () ∧ ok = true ∨ ∃ e, o = .err (.write e) ∧ ok = false) := by
  unfold Bus.writeInstruction at h
  rcases Bus.writePacket_split id instr n enc hb with ⟨w, o', h1, h3⟩ | ⟨params, _, _, h1⟩
  · rw [h1] at h
    simp only [Prod.mk.injEq] at h
    rw [← h.1] at hw
    exact absurd hw hnew
  · rw [h1] at h
    rcases Bus.sendFrame_cases (frame id (codeStuff (instr :: params))) { b with
        writeBuffer := frame id (codeStuff (instr :: params)) ++
          b.writeBuffer.drop (frame id (codeStuff (instr :: params))).length
        readLen := 0
        usedBytes := 0 } with ⟨e, h2, _⟩ | ⟨dt, e, h2, _⟩ | ⟨dt, h2, _⟩ <;>
    · rw [h2] at h
      simp only [Prod.mk.injEq] at h
      obtain ⟨rfl, rfl⟩ := h
      simp [Port.wrote, Port.discarded, hnew] at hw ⊢
      try simp [hw]

/-- `write_status` either fails its own size check or is `write_packet`, to which the theorems on `write_instruction`
apply literally. -/
theorem writeStatus_cases (id error : Byte) (n : Nat) (enc : Encoder) (b : Bus) :
    Bus.writeStatus id error n enc b = (b, .err (.bufferTooSmall ⟨n + 11, b.writeBuffer.length⟩)) ∨
    Bus.writeStatus id error n enc b = Bus.writeInstruction id 0x55#8 (n + 1) (Bus.statusEncoder error enc) b := by
  unfold Bus.writeStatus
  rw [SO.get_bind]
  unfold BufferTooSmall.check
  split
  · right; rfl
  · left
    rw [Outcome.mapErr_err, SO.lift_err_bind]
    congr 4
    simp [StatusPacket.messageLen, headerSize]
    omega

/-- **C11** for status packets. -/
theorem c11_status_sends_nothing {b b' : Bus} {id error : Byte} {n : Nat} {enc : Encoder}
    {o : Outcome WriteError Unit} (hb : b.WInv) (h : Bus.writeStatus id error n enc b = (b', o)) :
    ((∃ e, o = .err (.bufferTooSmall e)) ∨ o = .panic ∨ o = .hang →
      b'.serialPort = b.serialPort ∧ b'.readBuffer = b.readBuffer ∧ b'.readLen = b.readLen ∧
        b'.usedBytes = b.usedBytes) ∧
    (∀ e, o = .err (.discardBuffer e) → b'.serialPort.log = b.serialPort.log ++ [.discard false]) := by
  rcases writeStatus_cases id error n enc b with h1 | h1
  · rw [h1] at h
    simp only [Prod.mk.injEq] at h
    obtain ⟨rfl, rfl⟩ := h
    exact ⟨fun _ => ⟨rfl, rfl, rfl, rfl⟩, fun e he => by simp at he⟩
  · rw [h1] at h
    exact ⟨fun ho => c11_failed_encode_sends_nothing hb h ho, fun e he => by
      subst he; exact c11_failed_discard_sends_nothing hb h⟩

/-! ## Concrete cases -/

/-- The ping packet of the protocol's documentation, sent from a fresh bus. -/
example : ∃ b', Bus.writeInstruction 1#8 1#8 0 Encoder.nothing (quietBus true 6) = (b', .ok ()) ∧
    Sent (quietBus true 6) b' [0xFF#8, 0xFF#8, 0xFD#8, 0x00#8, 0x01#8, 0x03#8, 0x00#8, 0x01#8, 0x19#8, 0x4E#8] :=
  ⟨_, Prod.ext rfl (by decide +kernel), by unfold Sent; decide +kernel⟩

/-- A status packet with stuffing, sent from a fresh bus. -/
example : ∃ b', Bus.writeStatus 1#8 0#8 3 (bytesEncoder [0xFF#8, 0xFF#8, 0xFD#8]) (quietBus true 20) = (b', .ok ()) ∧
    Sent (quietBus true 20) b' (frame 1#8 [0x55#8, 0#8, 0xFF#8, 0xFF#8, 0xFD#8, 0xFD#8]) :=
  ⟨_, Prod.ext rfl (by decide +kernel), by unfold Sent; decide +kernel⟩

/-- `c05_no_header_in_body_partial` and `c03_sent_packet_partial` apply to a body that needs stuffing. -/
example : ∀ params, Encodes (bytesEncoder [0xFF#8, 0xFF#8, 0xFD#8, 0x00#8]) 4 params →
    ¬ [0xFF#8, 0xFF#8, 0xFF#8, 0xFD#8] <:+: 0x03#8 :: params := by
  rintro params ⟨old, h1, h2⟩
  simp [bytesEncoder, copyFromSlice, h1] at h2
  rw [← h2]
  decide

/-- A case of `c09_gap_panics`: 15 bytes of write buffer, 16 bytes of packet. -/
example : CrcGap 15 5 [0x03#8, 0x74#8, 0#8, 0xFF#8, 0xFF#8, 0xFD#8, 0xFD#8] := by unfold CrcGap; decide

/-- A failing discard. -/
example : (Bus.writeInstruction 1#8 1#8 0 Encoder.nothing
    { quietBus true 6 with serialPort := { quietPort with discardRes := [some (.other 5)] } }).2
      = .err (.discardBuffer (.other 5)) := by decide +kernel

/-- A packet that does not fit. -/
example : (Bus.writeInstruction 1#8 1#8 1 Encoder.nothing (quietBus true 6)).2
    = .err (.bufferTooSmall ⟨11, 10⟩) := by decide +kernel

/-! ## Each theorem with hypotheses on a concrete case -/

theorem pair_eq {α β : Type} {x : α × β} {y : β} (h : x.2 = y) : x = (x.1, y) := Prod.ext rfl h

theorem bytesEncoder_fills (bytes : List Byte) : ∀ s : List Byte, s.length = bytes.length → (bytesEncoder bytes).run s = (bytes, .ok ()) :=
  fun s hs => by simp [bytesEncoder, copyFromSlice, hs]

theorem bytesEncoder_only {bytes params : List Byte} (h : Encodes (bytesEncoder bytes) bytes.length params) : params = bytes := by
  obtain ⟨old, h1, h2⟩ := h
  rw [bytesEncoder_fills _ _ h1] at h2
  exact (Prod.mk.inj h2).1.symm

example := c08_instruction_layout (id := 1#8) (instr := 0x03#8) (enc := bytesEncoder [0xFF#8, 0xFF#8, 0xFD#8, 0x00#8])
  (quietBus_wInv true 20 (by decide)) (n := 4) (pair_eq (by decide +kernel))

example := c08_status_layout (id := 1#8) (error := 0x80#8) (enc := bytesEncoder [0xFF#8, 0xFF#8, 0xFD#8, 0x00#8])
  (quietBus_wInv true 20 (by decide)) (n := 4) (pair_eq (by decide +kernel))

example := c03_wire_body_partial (id := 1#8) (instr := 0x03#8) (enc := bytesEncoder [0xFF#8, 0xFF#8, 0xFD#8, 0x00#8])
  (quietBus_wInv true 20 (by decide)) (n := 4) (pair_eq (by decide +kernel))

example := c03_sent_packet_partial (id := 1#8) (instr := 0x03#8) (enc := bytesEncoder [0xFF#8, 0xFF#8, 0xFD#8, 0x00#8])
  (quietBus_wInv true 20 (by decide)) (n := 4) (pair_eq (by decide +kernel)) fun _ h => by rw [bytesEncoder_only h]; decide

example := c05_no_header_in_body_partial (id := 1#8) (instr := 0x03#8) (enc := bytesEncoder [0xFF#8, 0xFF#8, 0xFD#8, 0x00#8])
  (quietBus_wInv true 20 (by decide)) (n := 4) (pair_eq (by decide +kernel))
  fun _ h => by rw [bytesEncoder_only h]; exact runsOk_of_no_infix (by decide)

/-- How the crate sends some parameters. -/
theorem sampleForm : StuffedForm (0x03#8 :: [0x74#8, 0xFF#8, 0xFF#8, 0xFD#8]) [0x03#8, 0x74#8, 0xFF#8, 0xFF#8, 0xFD#8, 0xFD#8] :=
  ⟨[], [0x03#8, 0x74#8, 0xFF#8, 0xFF#8, 0xFD#8], rfl, by decide, by decide, by decide⟩

/-- 12 bytes are too few for a packet with four parameters. -/
example := c09_reported_partial (id := 1#8) (quietBus_wInv true 8 (by decide)) (bytesEncoder_fills _) sampleForm (by decide +kernel)
  (by unfold CrcGap; decide)

/-- 14 bytes are enough for the packet without the last byte of the CRC. -/
example := c09_gap_panics (id := 1#8) (quietBus_wInv true 10 (by decide)) (bytesEncoder_fills _) sampleForm (by unfold CrcGap; decide)

example := c09_fits (id := 1#8) (quietBus_wInv true 11 (by decide)) (bytesEncoder_fills _) sampleForm rfl (by decide +kernel) (by decide)

example := c09_status_partial (id := 1#8) (error := 0#8) (wire := [0x55#8, 0#8, 0xFF#8, 0xFF#8, 0xFD#8, 0xFD#8])
  (quietBus_wInv true 10 (by decide)) (bytesEncoder_fills [0xFF#8, 0xFF#8, 0xFD#8])
  ⟨[], [0x55#8, 0#8, 0xFF#8, 0xFF#8, 0xFD#8], rfl, by decide, by decide, by decide⟩ (by decide +kernel)

example := c10_length_field_partial (id := 1#8) (instr := 0x03#8) (enc := bytesEncoder [0xFF#8, 0xFF#8, 0xFD#8, 0x00#8])
  (f := frame 1#8 [0x03#8, 0xFF#8, 0xFF#8, 0xFD#8, 0xFD#8, 0x00#8])
  (quietBus_wInv true 20 (by decide)) (by decide) (n := 4) (pair_eq (by decide +kernel)) (by unfold Sent; decide +kernel)

example := c11_failed_encode_sends_nothing (id := 1#8) (instr := 0x03#8) (enc := bytesEncoder [1#8, 2#8])
  (quietBus_wInv true 6 (by decide)) (n := 2) (pair_eq rfl) (.inl ⟨⟨12, 10⟩, by decide +kernel⟩)

example := c11_failed_discard_sends_nothing (id := 1#8) (instr := 0x03#8) (enc := bytesEncoder [1#8, 2#8]) (e := .other 5)
  (b := { quietBus true 8 with serialPort := { quietPort with discardRes := [some (.other 5)] } })
  ⟨by decide, by decide⟩ (n := 2) (pair_eq (by decide +kernel))

/-- Writing fails after the buffer was discarded. -/
example := c11_write_only_after_discard (id := 1#8) (instr := 0x03#8) (enc := bytesEncoder [1#8, 2#8])
  (b := { quietBus true 8 with serialPort := { quietPort with writeRes := [(3, some (.other 5))] } })
  ⟨by decide, by decide⟩ (n := 2) (pair_eq rfl) (frame 1#8 [0x03#8, 1#8, 2#8]) false (by decide +kernel) (by decide)

end Dxl.Props
