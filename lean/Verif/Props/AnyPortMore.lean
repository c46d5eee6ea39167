import Verif.Props.AnyPort

/-! # C83, continued: the other functions of the bus, the device and the client with any implementation of `SerialPort` -/

namespace Dxl.Props
open Dxl Spec

variable {P : PortImpl}

/-- `write_status` with any port is `write_packet` with the error as an additional first parameter. -/
theorem writeStatus_any (id error : Byte) (n : Nat) (enc : Encoder) (b : BusOf P) :
    BusOf.writeStatus id error n enc b = BusOf.writePacket id 0x55#8 (n + 1) (Bus.statusEncoder error enc) b := by
  unfold BusOf.writeStatus
  rw [SO.get_bind]
  by_cases h : n + 11 ≤ b.rest.writeBuffer.length
  · have : BufferTooSmall.check (StatusPacket.messageLen n) b.rest.writeBuffer.length = .ok () := by
      unfold BufferTooSmall.check StatusPacket.messageLen headerSize
      rw [if_pos (by omega)]
    rw [this, Outcome.mapErr_ok, SO.lift_ok_bind]
    rfl
  · have h1 : BufferTooSmall.check (StatusPacket.messageLen n) b.rest.writeBuffer.length =
        .err ⟨n + 11, b.rest.writeBuffer.length⟩ := by
      unfold BufferTooSmall.check StatusPacket.messageLen headerSize
      rw [if_neg (by omega)]
      congr 2
      omega
    have h2 : BusOf.preparePacket id 0x55#8 (n + 1) (Bus.statusEncoder error enc) b.rest =
        (b.rest, .err ⟨n + 11, b.rest.writeBuffer.length⟩) := by
      unfold BusOf.preparePacket
      rw [SO.get_bind]
      have : BufferTooSmall.check (InstructionPacket.messageLen (n + 1)) b.rest.writeBuffer.length =
          .err ⟨n + 11, b.rest.writeBuffer.length⟩ := by
        unfold BufferTooSmall.check InstructionPacket.messageLen headerSize
        rw [if_neg (by omega)]
        congr 2
        omega
      rw [this]
      rfl
    rw [h1]
    unfold BusOf.writePacket
    rw [SO.bind_def, SO.bind_def, SO.mapErr_apply, BusOf.onRest_apply, h2]
    rfl

/-- **C83** Sending a status packet with any port: as in `c83_write`; the body of the frame is the status instruction, the error and
the parameters. -/
theorem c83_write_status (id error : Byte) (n : Nat) (enc : Encoder) {b b' : BusOf P} {o : Outcome (WriteErrorOf P.Error) Unit}
    (hb : b.rest.WInv) (h : BusOf.writeStatus id error n enc b = (b', o)) :
    b'.rest.WInv ∧ b'.rest.writeBuffer.length = b.rest.writeBuffer.length ∧ b'.rest.readBuffer = b.rest.readBuffer ∧
    b'.rest.baudRate = b.rest.baudRate ∧ b'.rest.debug = b.rest.debug ∧
    ((b'.port = b.port ∧ ((∃ e, o = .err (.bufferTooSmall e)) ∨ o = .panic ∨ o = .hang)) ∨
     ∃ params wire, Encodes enc n params ∧ StuffedForm (0x55#8 :: error :: params) wire ∧
       (b'.port, o) = sendingTo P (frame id wire) b.port ∧ b'.rest.readLen = 0 ∧ b'.rest.usedBytes = 0) := by
  rw [writeStatus_any] at h
  obtain ⟨h1, h2, h3, h4, h5, h6⟩ := c83_write id 0x55#8 (n + 1) _ hb h
  refine ⟨h1, h2, h3, h4, h5, ?_⟩
  rcases h6 with h6 | ⟨params, wire, ⟨old, e1, e2⟩, e3⟩
  · exact .inl h6
  · obtain ⟨a, t, ps, rfl, he, rfl⟩ := statusEncoder_run e2
    exact .inr ⟨ps, wire, ⟨t, by simpa using e1, he⟩, e3⟩

/-- **C83** A status packet that does not fit is reported with the size that it needs, and the port is not used. -/
theorem c83_write_status_small (id error : Byte) (n : Nat) (enc : Encoder) {b : BusOf P}
    (h : b.rest.writeBuffer.length < n + 11) :
    BusOf.writeStatus id error n enc b = (b, .err (.bufferTooSmall ⟨n + 11, b.rest.writeBuffer.length⟩)) := by
  unfold BusOf.writeStatus
  rw [SO.get_bind]
  have : BufferTooSmall.check (StatusPacket.messageLen n) b.rest.writeBuffer.length =
      .err ⟨n + 11, b.rest.writeBuffer.length⟩ := by
    unfold BufferTooSmall.check StatusPacket.messageLen headerSize
    rw [if_neg (by omega)]
    congr 2
    omega
  rw [this]
  rfl

/-- **C83** Changing the baud rate with any port: the port is asked to, and the rate from which timeouts are computed changes exactly
if the port says that it succeeded. Nothing else of the bus changes. -/
theorem c83_set_baud_rate (rate : Nat) (b : BusOf P) :
    ((BusOf.setBaudRate rate b).1.port, (BusOf.setBaudRate rate b).2) = P.setBaudRate rate b.port ∧
    ((BusOf.setBaudRate rate b).2 = .ok () → (BusOf.setBaudRate rate b).1.rest = { b.rest with baudRate := rate }) ∧
    ((BusOf.setBaudRate rate b).2 ≠ .ok () → (BusOf.setBaudRate rate b).1.rest = b.rest) := by
  unfold BusOf.setBaudRate
  rw [SO.bind_def, BusOf.onPort_apply]
  rcases h : P.setBaudRate rate b.port with ⟨p, o⟩
  cases o <;> simp [BusOf.onRest_apply, SO.modify]

/-- **C83** Making a bus with any port: the port is asked for its baud rate, once, and whatever goes wrong then is the result. If
that succeeds, a write buffer of less than 10 bytes is a panic; otherwise there is a bus with that rate, these buffers, the header in
the write buffer, and nothing received. -/
theorem c83_open (debug : Bool) (unused : Port) (rb wb : List Byte) (p : P.Port) :
    match P.baudRate p with
    | (p', .ok rate) =>
      (BusOf.withBuffers debug unused rb wb p).1 = p' ∧
      (wb.length < 10 → (BusOf.withBuffers debug unused rb wb p).2 = .panic) ∧
      (10 ≤ wb.length → ∃ b : BusOf P, (BusOf.withBuffers debug unused rb wb p).2 = .ok b ∧ b.port = p' ∧ b.rest.WInv ∧ b.rest.RInv ∧
        b.rest.pending = [] ∧ b.rest.readBuffer = rb ∧ b.rest.writeBuffer.length = wb.length ∧ b.rest.baudRate = rate ∧
        b.rest.debug = debug)
    | (p', .err e) => BusOf.withBuffers debug unused rb wb p = (p', .err e)
    | (p', .panic) => BusOf.withBuffers debug unused rb wb p = (p', .panic)
    | (p', .hang) => BusOf.withBuffers debug unused rb wb p = (p', .hang) := by
  rcases h : P.baudRate p with ⟨p', o⟩
  cases o with
  | ok rate =>
    simp only
    unfold BusOf.withBuffers
    rw [SO.bind_ok h]
    by_cases hl : 10 ≤ wb.length
    · have hw : Bus.withBuffersAndBaudRate (ε := P.Error) debug unused rb wb rate =
          .ok { serialPort := unused, baudRate := rate, readBuffer := rb, readLen := 0, usedBytes := 0,
                writeBuffer := headerPrefix ++ wb.drop 4, debug := debug } := by
        unfold Bus.withBuffersAndBaudRate
        rw [if_pos (by simpa [headerSize] using hl)]
      rw [hw]
      have hlen : (headerPrefix ++ wb.drop 4).length = wb.length := by
        have : headerPrefix.length = 4 := rfl
        rw [List.length_append, List.length_drop, this]
        omega
      refine ⟨rfl, fun hh => absurd hh (by omega), fun _ => ⟨_, rfl, rfl, ⟨?_, ?_⟩, ⟨by simp, by simp⟩, ?_, rfl, hlen, rfl, rfl⟩⟩
      · simp only [hlen]; exact hl
      · simp only
        rw [List.take_append_of_le_length (by decide)]
        rfl
      · simp [Bus.pending]
    · have hw : Bus.withBuffersAndBaudRate (ε := P.Error) debug unused rb wb rate = .panic := by
        unfold Bus.withBuffersAndBaudRate
        rw [if_neg (by simpa [headerSize] using hl)]
      rw [hw]
      exact ⟨rfl, fun _ => rfl, fun hh => absurd hh (by omega)⟩
  | err e =>
    simp only
    unfold BusOf.withBuffers
    rw [SO.bind_def, h]
  | panic =>
    simp only
    unfold BusOf.withBuffers
    rw [SO.bind_def, h]
  | hang =>
    simp only
    unfold BusOf.withBuffers
    rw [SO.bind_def, h]

/-! ## The device -/

/-- A number of reads with this deadline, into slices that are not empty, in which the port keeps its promise; together they bring
these bytes. -/
inductive Brings (P : PortImpl) (D : P.Instant) : P.Port → List Byte → P.Port → Prop
  | none (p : P.Port) : Brings P D p [] p
  | read {p p' p'' : P.Port} {old new bs : List Byte} {n : Nat} :
      0 < old.length → P.read D old p = (p', new, .ok n) → n ≤ old.length → Brings P D p' bs p'' →
      Brings P D p (new.take n ++ bs) p''

theorem Brings.trans {D : P.Instant} {p p' p'' : P.Port} {bs bs' : List Byte} (h : Brings P D p bs p')
    (h' : Brings P D p' bs' p'') : Brings P D p (bs ++ bs') p'' := by
  induction h with
  | none => exact h'
  | read h1 h2 h3 _ ih => rw [List.append_assoc]; exact .read h1 h2 h3 (ih h')

theorem Brings.of_waits {cap k : Nat} {pending bs : List Byte} {D : P.Instant} {p p' : P.Port}
    (h : P.Waits cap pending D p k bs p') : Brings P D p bs p' := by
  induction h with
  | start => exact .none _
  | @read k n bs old new q q' _ _ h0 hr hn ih =>
    have := ih.trans (Brings.read h0 hr hn (.none _))
    rwa [List.append_nil] at this

/-- Complete status packets, each with something before it that is not the start of a packet. -/
inductive StatusFrames : List Byte → Prop
  | nil : StatusFrames []
  | cons {g wire params l : List Byte} {id : Byte} : ¬ header <:+: g → Unstuffs wire (0x55#8 :: params) → StatusFrames l →
      StatusFrames (g ++ frame id wire ++ l)

/-- One packet that was received, whatever the port. -/
theorem packet_received {w : Nat} {D : P.Instant} {fuel : Nat} {b c : BusOf P} {pkt : Packet} (hr : b.rest.RInv)
    (hN : 10 ≤ b.rest.readBuffer.length) (hw : b.rest.readBuffer.length < 2 ^ w)
    (hnw : b.rest.debug = true ∨ ∀ old p p' new n, P.read D old p = (p', new, .ok n) → old.length < n →
      b.rest.readBuffer.length + n < 2 ^ w)
    (h : BusOf.readPacketDeadline w D fuel b = (c, .ok pkt)) :
    ∃ bs g id wire instr params, Brings P D b.port bs c.port ∧
      b.rest.pending ++ bs = g ++ frame id wire ++ c.rest.pending ∧ ¬ header <:+: g ∧ Unstuffs wire (instr :: params) ∧
      Carries pkt id instr params ∧ c.rest.RInv ∧ Bus.Like b.rest c.rest := by
  have hread := c83_read w D fuel hr hN hw hnw
  rw [h] at hread
  simp only at hread
  generalize ho : (Outcome.ok pkt : Outcome (ReadErrorOf P.Error) Packet) = o at hread
  cases hread with
  | @valid k bs g wire ps rest id instr pkt' p c' a1 a2 a3 a4 a5 a6 a7 a8 a9 a10 a11 =>
    simp only [Outcome.ok.injEq] at ho
    subst ho
    exact ⟨bs, g, id, wire, instr, ps, .of_waits a2, by rw [a3, a10], a4, a7, a8, a9, a11⟩
  | tooMany _ _ _ _ _ _ _ _ h8 => rcases h8 with h8 | ⟨_, h8⟩ <;> simp [h8] at ho
  | corrupt => simp at ho
  | noInstruction => simp at ho
  | tooBig => simp at ho
  | failed => simp at ho
  | crashed => simp at ho
  | stuck => simp at ho
  | waiting => simp at ho

theorem device_received {w : Nat} {D : P.Instant} {fuel : Nat} (n : Nat) : ∀ {b b' : BusOf P} {i : InstructionPacket},
    b.rest.RInv → 10 ≤ b.rest.readBuffer.length → b.rest.readBuffer.length < 2 ^ w →
    (b.rest.debug = true ∨ ∀ old p p' new n, P.read D old p = (p', new, .ok n) → old.length < n →
      b.rest.readBuffer.length + n < 2 ^ w) → BusOf.readRawLoop w D fuel n b = (b', .ok i) →
    ∃ bs x g id wire instr params, Brings P D b.port bs b'.port ∧
      b.rest.pending ++ bs = x ++ g ++ frame id wire ++ b'.rest.pending ∧ StatusFrames x ∧ ¬ header <:+: g ∧
      Unstuffs wire (instr :: params) ∧ instr ≠ 0x55#8 ∧ Carries i.packet id instr params ∧ b'.rest.RInv ∧
      Bus.Like b.rest b'.rest := by
  induction n with
  | zero => intro b b' i _ _ _ _ h; simp [BusOf.readRawLoop, SO.hang] at h
  | succ n ih =>
    intro b b' i hr hN hw hnw h
    unfold BusOf.readRawLoop at h
    obtain ⟨c, pkt, h1, h⟩ := SO.bind_eq_ok.1 h
    obtain ⟨bs, g, id, wire, instr, params, e1, e2, e3, e4, e5, e6, e7⟩ := packet_received hr hN hw hnw h1
    rw [asInstruction_carries e5, SO.lift_ok_bind] at h
    by_cases hi : instr = 0x55#8
    · rw [if_pos hi] at h
      simp only at h
      subst hi
      obtain ⟨bs', x, g', id', wire', instr', params', f1, f2, f3, f4, f5, f6, f7, f8, f9⟩ :=
        ih e6 (by rw [e7.readSize]; exact hN) (by rw [e7.readSize]; exact hw) (by rw [e7.readSize, e7.debug]; exact hnw) h
      refine ⟨bs ++ bs', g ++ frame id wire ++ x, g', id', wire', instr', params', e1.trans f1, ?_, .cons e3 e4 f3, f4, f5, f6, f7,
        f8, e7.trans f9⟩
      rw [← List.append_assoc, e2, List.append_assoc, f2]
      simp only [List.append_assoc]
    · rw [if_neg hi] at h
      simp only [SO.pure_apply, Prod.mk.injEq, Outcome.ok.injEq] at h
      obtain ⟨rfl, rfl⟩ := h
      exact ⟨bs, [], g, id, wire, instr, params, e1, by simpa using e2, .nil, e3, e4, hi, e5, e6, e7⟩

/-- **C83** An instruction that a device gets from any port: the deadline was made first; the instruction is in a valid frame; what
was received before it is complete status packets, which are ignored, and bytes that are not the start of a packet; what follows is
kept. -/
theorem c83_instruction {w timeout fuel : Nat} {b b' : BusOf P} {i : InstructionPacket} (hr : b.rest.RInv)
    (hN : 10 ≤ b.rest.readBuffer.length) (hw : b.rest.readBuffer.length < 2 ^ w)
    (hnw : b.rest.debug = true ∨ ∀ D old p p' new n, P.read D old p = (p', new, .ok n) → old.length < n →
      b.rest.readBuffer.length + n < 2 ^ w)
    (h : BusOf.readRawInstructionTimeout w timeout fuel b = (b', .ok i)) :
    ∃ D p bs x g id wire instr params, P.makeDeadline timeout b.port = (p, .ok D) ∧ Brings P D p bs b'.port ∧
      b.rest.pending ++ bs = x ++ g ++ frame id wire ++ b'.rest.pending ∧ StatusFrames x ∧ ¬ header <:+: g ∧
      Unstuffs wire (instr :: params) ∧ instr ≠ 0x55#8 ∧ Carries i.packet id instr params ∧ b'.rest.RInv ∧
      Bus.Like b.rest b'.rest := by
  unfold BusOf.readRawInstructionTimeout at h
  obtain ⟨b1, D, h1, h⟩ := SO.bind_eq_ok.1 h
  unfold BusOf.makeDeadline at h1
  rw [BusOf.onPort_apply, SO.mapErr_apply] at h1
  rcases hmd : P.makeDeadline timeout b.port with ⟨p, o⟩
  rw [hmd] at h1
  cases o with
  | err e => exact e.elim
  | panic => simp at h1
  | hang => simp at h1
  | ok D' =>
    simp only [Outcome.mapErr_ok, Prod.mk.injEq, Outcome.ok.injEq] at h1
    obtain ⟨rfl, rfl⟩ := h1
    have hnw' : b.rest.debug = true ∨ ∀ old p p' new n, P.read D' old p = (p', new, .ok n) → old.length < n →
        b.rest.readBuffer.length + n < 2 ^ w := by
      rcases hnw with hnw | hnw
      · exact .inl hnw
      · exact .inr (hnw D')
    obtain ⟨bs, x, g, id, wire, instr, params, e⟩ := device_received (b := ⟨p, b.rest⟩) fuel hr hN hw hnw' h
    exact ⟨D', p, bs, x, g, id, wire, instr, params, rfl, e⟩

/-! ## The client -/

/-- A port that keeps to deadlines: there is a clock; reads with a deadline fail when the clock is past it, and take some time
otherwise; a deadline is no further away than the timeout; and everything returns. -/
structure KeepsTime (P : PortImpl) (clock : P.Port → Nat) (due : P.Instant → Nat) : Prop where
  punctual : ∀ D, Punctual P D clock (due D)
  deadline : ∀ timeout p p' D, P.makeDeadline timeout p = (p', .ok D) → due D ≤ clock p' + timeout
  makes : ∀ timeout p, (P.makeDeadline timeout p).2 ≠ .hang
  discards : ∀ p, (P.discardInputBuffer p).2 ≠ .hang
  writes : ∀ f p, (P.writeAll f p).2 ≠ .hang

theorem sendingTo_returns {clock : P.Port → Nat} {due : P.Instant → Nat} (hP : KeepsTime P clock due) (f : List Byte) (p : P.Port) :
    (sendingTo P f p).2 ≠ .hang := by
  unfold sendingTo
  have h1 := hP.discards p
  rcases hd : P.discardInputBuffer p with ⟨p1, o1⟩
  rw [hd] at h1
  cases o1 with
  | ok _ =>
    have h2 := hP.writes f p1
    rcases hw : P.writeAll f p1 with ⟨p2, o2⟩
    rw [hw] at h2
    cases o2 <;> simp_all
  | err e => simp
  | panic => simp
  | hang => simp at h1

/-- Preparing a packet returns if the encoder does. -/
theorem writePacket_no_hang {b : Bus} (id instr : Byte) (n : Nat) {enc : Encoder} (hb : b.WInv)
    (henc : ∀ s, (enc.run s).2 ≠ .hang) : (Bus.writePacket id instr n enc b).2 ≠ .hang := by
  by_cases hn : n + 10 ≤ b.writeBuffer.length
  · rw [Bus.writePacket_encode id instr n enc b hb hn]
    have hlen := enc.length_eq (b.paramSlice n)
    rw [Bus.paramSlice_length hn] at hlen
    have he := henc (b.paramSlice n)
    rcases hr : enc.run (b.paramSlice n) with ⟨params, o⟩
    rw [hr] at hlen he
    change params.length = n at hlen
    cases o with
    | ok u =>
      simp only
      by_cases h1 : ncount (instr :: params).reverse ≤ (b.writeBuffer.drop (8 + n)).length
      · by_cases ho : b.debug = true ∧ 2 ^ 16 ≤ (codeStuff (instr :: params)).length % 2 ^ 16 + 2
        · obtain ⟨w, hw, h2, h3⟩ := Bus.writeStuffed_overflow (id := id) hlen h1 ho
          rw [hw]; simp
        · by_cases h' : (b.writeBuffer.drop (8 + n)).length < ncount (instr :: params).reverse + 2
          · obtain ⟨w, hw, h2, h3⟩ := Bus.writeStuffed_crc_panic (id := id) hlen h1 h' ho
            rw [hw]; simp
          · rw [Bus.writeStuffed_send hlen (by omega) ho]
            rcases Bus.sendFrame_cases (frame id (codeStuff (instr :: params))) { b with
              writeBuffer := frame id (codeStuff (instr :: params)) ++
                b.writeBuffer.drop (frame id (codeStuff (instr :: params))).length
              readLen := 0
              usedBytes := 0 } with ⟨e, h2, _⟩ | ⟨dt, e, h2, _⟩ | ⟨dt, h2, _⟩ <;> rw [h2] <;> simp
      · rw [Bus.writeStuffed_too_small hlen (by omega)]
        simp
    | err e => simp
    | panic => simp
    | hang => simp at he
  · rw [Bus.writePacket_too_small _ _ _ _ _ (by omega)]
    simp

/-- **C83** Sending ends, if the port returns from discarding and writing, and the encoder of the parameters returns. -/
theorem c83_write_ends {clock : P.Port → Nat} {due : P.Instant → Nat} (hP : KeepsTime P clock due) (id instr : Byte) (n : Nat)
    {enc : Encoder} {b : BusOf P} (hb : b.rest.WInv) (henc : ∀ s, (enc.run s).2 ≠ .hang) :
    (BusOf.writePacket id instr n enc b).2 ≠ .hang := by
  have h2 := (c83_write_same id instr n enc b).2
  have hq : (b.rest.onto easyPort).WInv := ⟨hb.1, hb.2⟩
  have hnh := writePacket_no_hang id instr n hq henc
  rcases hs : Bus.writePacket id instr n enc (b.rest.onto easyPort) with ⟨s, os⟩
  rw [hs] at h2 hnh
  match os with
  | .ok () =>
    obtain ⟨f, -, hp, -⟩ := h2
    have := sendingTo_returns hP f b.port
    rw [← hp] at this
    exact this
  | .err (.bufferTooSmall e) => rw [h2.2]; simp
  | .err (.discardBuffer e) => exact absurd h2 (by simp)
  | .err (.write e) => exact absurd h2 (by simp)
  | .panic => rw [h2.2]; simp
  | .hang => simp at hnh

theorem checkU64_cases (n : Nat) : (∀ ε : Type, checkU64 (ε := ε) n = .ok n) ∨ ∀ ε : Type, checkU64 (ε := ε) n = .panic := by
  by_cases h : n < 2 ^ 64
  · exact .inl fun _ => if_pos h
  · exact .inr fun _ => if_neg h

theorem transferTime_cases (size rate : Nat) :
    (∃ time, ∀ ε : Type, messageTransferTime (ε := ε) size rate = .ok time) ∨
      ∀ ε : Type, messageTransferTime (ε := ε) size rate = .panic := by
  unfold messageTransferTime
  rcases checkU64_cases (size * 10) with h | h
  · simp only [h]
    change (∃ time, ∀ ε : Type, (if rate = 0 then _ else _) = _) ∨ ∀ ε : Type, (if rate = 0 then _ else _) = _
    by_cases hr : rate = 0
    · exact .inr fun ε => if_pos hr
    · simp only [if_neg hr]
      rcases checkU64_cases (size * 10 % rate * 1000000000) with h' | h'
      · simp only [h']
        exact .inl ⟨_, fun _ => rfl⟩
      · simp only [h']
        exact .inr fun _ => rfl
  · simp only [h]
    exact .inr fun _ => rfl

theorem transferTime_no_hang {ε : Type} (size rate : Nat) : messageTransferTime (ε := ε) size rate ≠ .hang := by
  rcases transferTime_cases size rate with ⟨_, h⟩ | h <;> simp [h ε]

theorem transferTime_error {ε ε' : Type} {size rate time : Nat} (h : messageTransferTime (ε := ε) size rate = .ok time) :
    messageTransferTime (ε := ε') size rate = .ok time := by
  rcases transferTime_cases size rate with ⟨_, h'⟩ | h'
  · rw [h' ε] at h
    rw [h' ε']
    simpa using h
  · rw [h' ε] at h
    simp at h

/-- **C83** An exchange with a port that keeps to deadlines ends, as long as encoding the parameters does: after the number of reads
that fit in the timeout. -/
theorem c83_transfer_ends {w : Nat} {id instr : Byte} {n : Nat} {expected : U16} {enc : Encoder} {fuel : Nat} {b : BusOf P}
    {clock : P.Port → Nat} {due : P.Instant → Nat} (hP : KeepsTime P clock due) (hb : b.rest.WInv)
    (hN : 10 ≤ b.rest.readBuffer.length) (hw : b.rest.readBuffer.length < 2 ^ w)
    (hnw : b.rest.debug = true ∨ ∀ D old p p' new n, P.read D old p = (p', new, .ok n) → old.length < n →
      b.rest.readBuffer.length + n < 2 ^ w)
    (henc : ∀ s, (enc.run s).2 ≠ .hang)
    (hf : ∀ time, messageTransferTime (ε := Empty) ((11 + expected.toNat) % 2 ^ 32) b.rest.baudRate = .ok time →
      time + 34000002 ≤ fuel) :
    (BusOf.transferSingle w id instr n expected enc fuel b).2 ≠ .hang := by
  have hwe := c83_write_ends hP id instr n hb henc
  unfold BusOf.transferSingle
  rw [SO.bind_def, SO.mapErr_apply]
  rcases h1 : BusOf.writePacket id instr n enc b with ⟨b1, o1⟩
  rw [h1] at hwe
  cases o1 with
  | err e => simp
  | panic => simp
  | hang => simp at hwe
  | ok _ =>
    simp only [Outcome.mapErr_ok]
    obtain ⟨hw1, -, hrb, hbd, hdb, hh | ⟨params, wire, e1, e2, e3, e4, e5⟩⟩ := c83_write id instr n enc hb h1
    · simp at hh
    have hr1 : b1.rest.RInv := ⟨by omega, by omega⟩
    have hread : (BusOf.readStatusResponse w expected fuel b1).2 ≠ .hang := by
      unfold BusOf.readStatusResponse
      rw [SO.get_bind, SO.bind_def, SO.lift_apply]
      have hml : StatusPacket.messageLen expected.toNat = 11 + expected.toNat := by
        unfold StatusPacket.messageLen headerSize; omega
      rw [hml, hbd]
      have ht := transferTime_no_hang (ε := ReadErrorOf P.Error) ((11 + expected.toNat) % 2 ^ 32) b.rest.baudRate
      rcases htime : messageTransferTime (ε := ReadErrorOf P.Error) ((11 + expected.toNat) % 2 ^ 32) b.rest.baudRate with
        time | e | _ | _
      · simp only
        have hmk := hP.makes (time + Client.flatTimeout) b1.port
        rcases hmd : P.makeDeadline (time + Client.flatTimeout) b1.port with ⟨p2, o2⟩
        rw [hmd] at hmk
        cases o2 with
        | err e => exact e.elim
        | panic =>
          unfold BusOf.readStatusResponseTimeout BusOf.makeDeadline
          rw [SO.bind_def, BusOf.onPort_apply, SO.mapErr_apply, hmd]
          simp
        | hang => simp at hmk
        | ok D =>
          have hdue := hP.deadline _ _ _ _ hmd
          have hfl := hf time (transferTime_error htime)
          have hft : Client.flatTimeout = 34000000 := rfl
          refine c83_status_ends hmd (hP.punctual D) hr1 (by rw [hrb]; exact hN) (by rw [hrb]; exact hw) ?_ ?_ (by omega)
          · rw [hrb, hdb]
            rcases hnw with hnw | hnw
            · exact .inl hnw
            · exact .inr (hnw D)
          · rw [hft] at hdue; omega
      · simp
      · simp
      · exact absurd htime ht
    rw [SO.bind_def, SO.mapErr_apply]
    rcases h2 : BusOf.readStatusResponse w expected fuel b1 with ⟨b2, o2⟩
    rw [h2] at hread
    cases o2 with
    | err e => simp
    | panic => simp
    | hang => simp at hread
    | ok s =>
      simp only [Outcome.mapErr_ok]
      rw [SO.bind_def, SO.lift_apply]
      have : StatusPacket.packetId (ε := TransferErrorOf P.Error) s ≠ .hang := by
        unfold StatusPacket.packetId Packet.packetId idx
        split <;> simp
      rcases h3 : StatusPacket.packetId (ε := TransferErrorOf P.Error) s with actual | e | _ | _
      · simp only
        rw [SO.bind_def, SO.lift_apply]
        by_cases hid : actual = id <;> simp [checkPacketId, hid, SO.pure_apply]
      · simp
      · simp
      · exact absurd h3 this

/-! ## Concrete ports -/

example {b' o} (h : BusOf.writeStatus 1#8 0x80#8 0 Encoder.nothing (busOf endOfFile (0 : Nat)) = (b', o)) :
    b'.rest.writeBuffer.length = 44 :=
  (c83_write_status (P := endOfFile) 1#8 0x80#8 0 Encoder.nothing (busOf_ready endOfFile (0 : Nat)).2.2.2.2 h).2.1

/-- A device that sends its status. -/
example : ∃ b', BusOf.writeStatus 1#8 0x80#8 0 Encoder.nothing (busOf endOfFile (0 : Nat)) = (b', .ok ()) ∧
    b'.rest.writeBuffer.take 11 = frame 1#8 [0x55#8, 0x80#8] := ⟨_, rfl, by decide +kernel⟩

example : (BusOf.writeStatus 1#8 0x80#8 40 Encoder.nothing (busOf endOfFile (0 : Nat))).2 = .err (.bufferTooSmall ⟨51, 44⟩) := by
  rw [c83_write_status_small (P := endOfFile) 1#8 0x80#8 40 Encoder.nothing (b := busOf endOfFile (0 : Nat))
    (by simp [busOf, quietBus, headerPrefix])]
  rfl

/-- A port that refuses high baud rates. -/
def refusing : PortImpl :=
  { endOfFile with setBaudRate := fun rate p => if rate < 1000000 then (p, .ok ()) else (p, .err "too fast") }

example : (BusOf.setBaudRate 115200 (busOf refusing (0 : Nat))).1.rest.baudRate = 115200 ∧
    (BusOf.setBaudRate 4000000 (busOf refusing (0 : Nat))).1.rest.baudRate = 57600 := by decide +kernel

example : (BusOf.setBaudRate 4000000 (busOf refusing (0 : Nat))).1.rest = quietBus true 40 :=
  (c83_set_baud_rate 4000000 (busOf refusing (0 : Nat))).2.2 (by
    rw [show (BusOf.setBaudRate 4000000 (busOf refusing (0 : Nat))).2 = .err "too fast" from rfl]; simp)

/-- Making a bus with buffers that are just large enough. -/
example : ∃ b : BusOf endOfFile,
    (BusOf.withBuffers true quietPort (List.replicate 20 0#8) (List.replicate 10 7#8) (0 : Nat)).2 = .ok b ∧
    b.rest.baudRate = 57600 := by
  obtain ⟨b, h, -, -, -, -, -, -, h', -⟩ :=
    (c83_open (P := endOfFile) true quietPort (List.replicate 20 0#8) (List.replicate 10 7#8) (0 : Nat)).2.2 (by simp)
  exact ⟨b, h, h'⟩

/-- The port of a device: the status of another device, noise, an instruction, and the start of another. -/
def overheard : PortImpl :=
  dripping ([3#8] ++ frame 2#8 [0x55#8, 0#8] ++ [0xFF#8, 4#8] ++ frame 7#8 [0x01#8] ++ [0xFF#8])

def deviceReads : BusOf overheard × Outcome (ReadErrorOf String) InstructionPacket :=
  BusOf.readRawInstructionTimeout 64 1000 40 (busOf _ (0 : Nat))

example : ∃ b' i, deviceReads = (b', .ok i) ∧ Carries i.packet 7#8 0x01#8 [] := by
  have hok : (match deviceReads.2 with | .ok i => decide (i.packet.data = header ++ [7#8, 3#8, 0#8, 0x01#8]) | _ => false)
      = true := by decide +kernel
  rcases he : deviceReads with ⟨b', o⟩
  rw [he] at hok
  cases o with
  | ok i =>
    refine ⟨b', i, rfl, 3#8, 0#8, ?_⟩
    simp only [decide_eq_true_eq] at hok
    rw [hok]
    rfl
  | _ => simp at hok

example {b' i} (he : deviceReads = (b', .ok i)) : ∃ (D p : Nat) (bs x g wire : List Byte) (id : Byte),
    Brings overheard D p bs b'.port ∧ bs = x ++ g ++ frame id wire ++ b'.rest.pending ∧ StatusFrames x := by
  have h := busOf_ready overheard (0 : Nat)
  obtain ⟨D, p, bs, x, g, id, wire, _, _, -, h1, h2, h3, -⟩ :=
    c83_instruction (P := overheard) h.1 h.2.1 h.2.2.1 (.inl h.2.2.2.1) he
  have hp : (busOf overheard (0 : Nat)).rest.pending = [] := by decide
  rw [hp, List.nil_append] at h2
  exact ⟨D, p, bs, x, g, wire, id, h1, h2, h3⟩

theorem endOfFileInTime_keepsTime : KeepsTime endOfFileInTime (fun p => p) (fun D => D) where
  punctual := endOfFileInTime_punctual
  deadline := fun timeout p p' D h => by
    obtain ⟨h1, h2⟩ := Prod.mk.inj h
    have h2 := Outcome.ok.inj h2
    rw [← h1, ← h2]
    exact Nat.le_refl _
  makes := fun timeout p h => nomatch h
  discards := fun p h => nomatch h
  writes := fun f p h => nomatch h

example : (BusOf.writePacket 1#8 1#8 0 Encoder.nothing (busOf endOfFileInTime (0 : Nat))).2 ≠ .hang :=
  c83_write_ends endOfFileInTime_keepsTime 1#8 1#8 0 (busOf_ready endOfFileInTime (0 : Nat)).2.2.2.2
    (fun s => by simp [Encoder.nothing, SO.pure_apply])

/-- A motor that never answers: a ping ends. -/
example : (BusOf.transferSingle 64 1#8 1#8 0 3#16 Encoder.nothing 40000000 (busOf endOfFileInTime (0 : Nat))).2 ≠ .hang :=
  have h := busOf_ready endOfFileInTime (0 : Nat)
  c83_transfer_ends endOfFileInTime_keepsTime h.2.2.2.2 h.2.1 h.2.2.1 (.inl h.2.2.2.1)
    (fun s => by simp [Encoder.nothing, SO.pure_apply]) (fun time ht => by
      have : messageTransferTime (ε := Empty) 14 (busOf endOfFileInTime (0 : Nat)).rest.baudRate = .ok 2430556 := by decide +kernel
      have hm : (11 + (3#16).toNat) % 2 ^ 32 = 14 := by decide
      rw [hm, this] at ht
      simp only [Outcome.ok.injEq] at ht
      omega)

end Dxl.Props
