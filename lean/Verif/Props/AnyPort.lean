import Verif.Lemmas.AnyPort
import Verif.Lemmas.ScriptPort
import Verif.Props.Receive
import Verif.Props.Send
import Verif.Props.Device

/-! # C83: any implementation of the trait `SerialPort`

The theorems about reading and writing with the script port assume that the port behaves: it gives no more bytes than fit, it fails
when the deadline is past, and it has only finitely many answers. Here the port is any code at all. -/

namespace Dxl.Props
open Dxl Spec

variable {P : PortImpl}

/-- What sending `f` should do to a port: discard the input, then write `f`, and pass on what goes wrong. -/
def sendingTo (P : PortImpl) (f : List Byte) (p : P.Port) : P.Port × Outcome (WriteErrorOf P.Error) Unit :=
  match P.discardInputBuffer p with
  | (p, .ok ()) => match P.writeAll f p with
    | (p, .ok ()) => (p, .ok ())
    | (p, .err e) => (p, .err (.write e))
    | (p, .panic) => (p, .panic)
    | (p, .hang) => (p, .hang)
  | (p, .err e) => (p, .err (.discardBuffer e))
  | (p, .panic) => (p, .panic)
  | (p, .hang) => (p, .hang)

/-- A script port on which everything succeeds and that never receives anything. -/
def easyPort : Port :=
  { now := 0, rx := [], tail := .silent, discardRes := [], discardIsNoop := true, writeRes := [], baudRes := [], rate := 0,
    rateErr := none, log := [] }

/-- What is left to do when the packet is in the buffer. -/
theorem writePacket_prepared {id instr : Byte} {n m : Nat} {enc : Encoder} {r r' : Bus} (p : P.Port)
    (hp : BusOf.preparePacket id instr n enc r = (r', .ok m)) :
    BusOf.writePacket id instr n enc (⟨p, r⟩ : BusOf P) =
      (⟨(sendingTo P (r'.writeBuffer.take m) p).1, r'⟩, (sendingTo P (r'.writeBuffer.take m) p).2) := by
  have hsl : slice (ε := WriteErrorOf P.Error) r'.writeBuffer 0 m = .ok (r'.writeBuffer.take m) := by
    simp [slice, (BusOf.preparePacket_room hp).1]
  unfold BusOf.writePacket
  rw [SO.bind_def, SO.mapErr_apply, BusOf.onRest_apply, hp]
  simp only [Outcome.mapErr_ok]
  rw [SO.bind_def, BusOf.onPort_apply, SO.mapErr_apply]
  unfold sendingTo
  rcases P.discardInputBuffer p with ⟨p1, o1⟩
  cases o1 with
  | ok _ =>
    simp only [Outcome.mapErr_ok]
    rw [SO.get_bind]
    simp only
    rw [hsl, SO.lift_ok_bind, BusOf.onPort_apply, SO.mapErr_apply]
    rcases P.writeAll (r'.writeBuffer.take m) p1 with ⟨p2, o2⟩
    cases o2 <;> rfl
  | err e => rfl
  | panic => rfl
  | hang => rfl

/-- The same for the script port. -/
theorem script_prepared {id instr : Byte} {n m : Nat} {enc : Encoder} {r r' : Bus} (p : Port)
    (hp : BusOf.preparePacket id instr n enc r = (r', .ok m)) :
    Bus.writePacket id instr n enc (r.onto p) =
      match Port.discardInputBuffer p with
      | (p, .ok ()) => (r'.onto (Port.writeAll (r'.writeBuffer.take m) p).1,
          (Port.writeAll (r'.writeBuffer.take m) p).2.mapErr WriteError.write)
      | (p, .err e) => (r'.onto p, .err (.discardBuffer e))
      | (p, .panic) => (r'.onto p, .panic)
      | (p, .hang) => (r'.onto p, .hang) := by
  have hsl : slice (ε := WriteError) r'.writeBuffer 0 m = .ok (r'.writeBuffer.take m) := by
    simp [slice, (BusOf.preparePacket_room hp).1]
  rw [BusOf.writePacket_split, SO.bind_def, SO.mapErr_apply, BusOf.portFree_preparePacket id instr n enc r p, hp]
  simp only [Outcome.mapErr_ok]
  rw [SO.bind_def, Bus.onPort_apply, SO.mapErr_apply, show (r'.onto p).serialPort = p from rfl]
  rcases Port.discardInputBuffer p with ⟨p1, o1⟩
  cases o1 with
  | ok _ =>
    simp only [Outcome.mapErr_ok]
    rw [SO.get_bind]
    change (SO.lift (slice r'.writeBuffer 0 m) >>= _) (r'.onto p1) = _
    rw [hsl, SO.lift_ok_bind, Bus.onPort_apply, SO.mapErr_apply]
    rfl
  | err e => rfl
  | panic => rfl
  | hang => rfl

/-- **C83** Sending with any port, compared with a script port on which nothing fails: what happens before the port is used is
the same, without touching the port; and if the script port gets `f`, then the port is asked to discard its input and to write the
same `f`, and whatever it does then is the result. All other fields of the bus are the same in both cases. -/
theorem c83_write_same (id instr : Byte) (n : Nat) (enc : Encoder) (b : BusOf P) :
    (BusOf.writePacket id instr n enc b).1.rest.onto easyPort =
      (Bus.writePacket id instr n enc (b.rest.onto easyPort)).1.onto easyPort ∧
    (match (Bus.writePacket id instr n enc (b.rest.onto easyPort)).2 with
    | .ok () => ∃ f, Sent (b.rest.onto easyPort) (Bus.writePacket id instr n enc (b.rest.onto easyPort)).1 f ∧
        ((BusOf.writePacket id instr n enc b).1.port, (BusOf.writePacket id instr n enc b).2) = sendingTo P f b.port ∧
        (BusOf.writePacket id instr n enc b).1.rest.readLen = 0 ∧ (BusOf.writePacket id instr n enc b).1.rest.usedBytes = 0
    | .err (.bufferTooSmall e) => (BusOf.writePacket id instr n enc b).1.port = b.port ∧
        (BusOf.writePacket id instr n enc b).2 = .err (.bufferTooSmall e)
    | .err _ => False
    | .panic => (BusOf.writePacket id instr n enc b).1.port = b.port ∧ (BusOf.writePacket id instr n enc b).2 = .panic
    | .hang => (BusOf.writePacket id instr n enc b).1.port = b.port ∧ (BusOf.writePacket id instr n enc b).2 = .hang) := by
  obtain ⟨p, r⟩ := b
  rcases hp : BusOf.preparePacket id instr n enc r with ⟨r', o⟩
  cases o with
  | ok m =>
    obtain ⟨-, h0, h1⟩ := BusOf.preparePacket_room hp
    rw [writePacket_prepared p hp, script_prepared easyPort hp]
    exact ⟨rfl, _, rfl, rfl, h0, h1⟩
  | _ =>
    simp only
    rw [BusOf.writePacket_split]
    unfold BusOf.writePacket
    rw [SO.bind_def, SO.bind_def, SO.mapErr_apply, SO.mapErr_apply, BusOf.onRest_apply,
      BusOf.portFree_preparePacket id instr n enc r easyPort, hp]
    exact ⟨rfl, rfl, rfl⟩

/-- **C83** Sending an instruction with any port: either the port is not touched, or it is asked to discard its input and then to
write exactly one frame with the packet in it, the result is what came of that, and nothing is left of what was read before. The
write buffer keeps its header and its size, and the read buffer and the baud rate are as they were. -/
theorem c83_write (id instr : Byte) (n : Nat) (enc : Encoder) {b b' : BusOf P} {o : Outcome (WriteErrorOf P.Error) Unit}
    (hb : b.rest.WInv) (h : BusOf.writePacket id instr n enc b = (b', o)) :
    b'.rest.WInv ∧ b'.rest.writeBuffer.length = b.rest.writeBuffer.length ∧ b'.rest.readBuffer = b.rest.readBuffer ∧
    b'.rest.baudRate = b.rest.baudRate ∧ b'.rest.debug = b.rest.debug ∧
    ((b'.port = b.port ∧ ((∃ e, o = .err (.bufferTooSmall e)) ∨ o = .panic ∨ o = .hang)) ∨
     ∃ params wire, Encodes enc n params ∧ StuffedForm (instr :: params) wire ∧ (b'.port, o) = sendingTo P (frame id wire) b.port ∧
       b'.rest.readLen = 0 ∧ b'.rest.usedBytes = 0) := by
  obtain ⟨h1, h2⟩ := c83_write_same id instr n enc b
  have hq : (b.rest.onto easyPort).WInv := ⟨hb.1, hb.2⟩
  have hk := Bus.writePacket_kept id instr n enc hq
  rw [h] at h1 h2
  simp only at h1 h2
  have h3 : b'.rest.writeBuffer = (Bus.writePacket id instr n enc (b.rest.onto easyPort)).1.writeBuffer := by
    have := congrArg Bus.writeBuffer h1
    exact this
  have h4 : b'.rest.readBuffer = (Bus.writePacket id instr n enc (b.rest.onto easyPort)).1.readBuffer := by
    have := congrArg Bus.readBuffer h1
    exact this
  have h5 : b'.rest.baudRate = (Bus.writePacket id instr n enc (b.rest.onto easyPort)).1.baudRate := by
    have := congrArg Bus.baudRate h1
    exact this
  have h6 : b'.rest.debug = (Bus.writePacket id instr n enc (b.rest.onto easyPort)).1.debug := by
    have := congrArg Bus.debug h1
    exact this
  refine ⟨?_, ?_, ?_, h5.trans hk.baudRate, h6.trans hk.debug, ?_⟩
  · exact ⟨by rw [h3, hk.writeLength]; exact hb.1, by rw [h3]; exact hk.writePrefix⟩
  · rw [h3]; exact hk.writeLength
  · rw [h4]; exact hk.readBuffer
  · rcases hs : Bus.writePacket id instr n enc (b.rest.onto easyPort) with ⟨s, os⟩
    rw [hs] at h2
    match os with
    | .ok () =>
      obtain ⟨f, hf, hp, h5, h6⟩ := h2
      obtain ⟨params, wire, e1, e2, e3⟩ := c08_instruction_layout hq hs
      unfold Sent at hf e3
      rw [hf] at e3
      simp at e3
      subst e3
      exact .inr ⟨params, wire, e1, e2, hp, h5, h6⟩
    | .err (.bufferTooSmall e) => exact .inl ⟨h2.1, .inl ⟨e, h2.2⟩⟩
    | .err (.discardBuffer e) => exact absurd h2 (by simp)
    | .err (.write e) => exact absurd h2 (by simp)
    | .panic => exact .inl ⟨h2.1, .inr (.inl h2.2)⟩
    | .hang => exact .inl ⟨h2.1, .inr (.inr h2.2)⟩

/-! ## Reading -/

/-- What reading a packet with any port comes to, for a reader in the state `b` that gives up after `fuel` iterations. In every case
the port was read a number of times, `P.Waits`, only as long as the bytes so far contained no packet, with room for at least one byte
in the slice, and always with the deadline `D`. -/
inductive ReadsAny (b : BusOf P) (w : Nat) (D : P.Instant) (fuel : Nat) :
    BusOf P → Outcome (ReadErrorOf P.Error) Packet → Prop
  /-- The first frame among the bytes received is valid: it is the result, and what follows is kept. -/
  | valid {k : Nat} {bs g wire params rest : List Byte} {id instr : Byte} {pkt : Packet} {p : P.Port} {c : Bus} :
      k < fuel → P.Waits b.rest.readBuffer.length b.rest.pending D b.port k bs p →
      b.rest.pending ++ bs = g ++ frame id wire ++ rest → ¬ header <:+: g → wire.length + 2 < 2 ^ 16 →
      (frame id wire).length ≤ b.rest.readBuffer.length →
      Unstuffs wire (instr :: params) → Carries pkt id instr params → c.RInv → c.pending = rest → Bus.Like b.rest c →
      ReadsAny b w D fuel ⟨p, c⟩ (.ok pkt)
  /-- The first frame has a wrong checksum. -/
  | corrupt {k : Nat} {bs g m rest : List Byte} {v : U16} {p : P.Port} {c : Bus} :
      k < fuel → P.Waits b.rest.readBuffer.length b.rest.pending D b.port k bs p →
      b.rest.pending ++ bs = g ++ (m ++ le16 v) ++ rest → ¬ header <:+: g → header <+: m →
      (m ++ le16 v).length = 7 + Spec.lengthField (m ++ le16 v) → v ≠ crc 0#16 m →
      c.RInv → c.pending = rest → Bus.Like b.rest c →
      ReadsAny b w D fuel ⟨p, c⟩ (.err (.invalidMessage (.checksum v (crc 0#16 m))))
  /-- The first frame has a right checksum but no instruction (the defect of C18). -/
  | noInstruction {k : Nat} {bs g rest : List Byte} {id : Byte} {p : P.Port} {c : Bus} :
      k < fuel → P.Waits b.rest.readBuffer.length b.rest.pending D b.port k bs p →
      b.rest.pending ++ bs = g ++ frame id [] ++ rest → ¬ header <:+: g →
      c.RInv → c.pending = rest → Bus.Like b.rest c → ReadsAny b w D fuel ⟨p, c⟩ .panic
  /-- The first frame does not fit in the buffer: its header is skipped. -/
  | tooBig {k : Nat} {bs g t : List Byte} {p : P.Port} {c : Bus} :
      k < fuel → P.Waits b.rest.readBuffer.length b.rest.pending D b.port k bs p →
      b.rest.pending ++ bs = g ++ t → ¬ header <:+: g → header <+: t → 7 < t.length →
      b.rest.readBuffer.length < 7 + Spec.lengthField t → c.RInv → c.pending = t.drop 7 → Bus.Like b.rest c →
      ReadsAny b w D fuel ⟨p, c⟩ (.err (.bufferFull ⟨7 + Spec.lengthField t, b.rest.readBuffer.length⟩))
  /-- The port fails. -/
  | failed {k : Nat} {bs old new : List Byte} {p p' : P.Port} {e : P.Error} {c : Bus} :
      k < fuel → P.Waits b.rest.readBuffer.length b.rest.pending D b.port k bs p →
      parse b.rest.readBuffer.length (b.rest.pending ++ bs) = .more → 0 < old.length →
      P.read D old p = (p', new, .err e) → c.RInv → c.pending = skip (b.rest.pending ++ bs) → Bus.Like b.rest c →
      ReadsAny b w D fuel ⟨p', c⟩ (.err (.io e))
  /-- The port panics. -/
  | crashed {k : Nat} {bs old new : List Byte} {p p' : P.Port} {c : Bus} :
      k < fuel → P.Waits b.rest.readBuffer.length b.rest.pending D b.port k bs p →
      parse b.rest.readBuffer.length (b.rest.pending ++ bs) = .more → 0 < old.length →
      P.read D old p = (p', new, .panic) → c.RInv → c.pending = skip (b.rest.pending ++ bs) → Bus.Like b.rest c →
      ReadsAny b w D fuel ⟨p', c⟩ .panic
  /-- The port does not return. -/
  | stuck {k : Nat} {bs old new : List Byte} {p p' : P.Port} {c : Bus} :
      k < fuel → P.Waits b.rest.readBuffer.length b.rest.pending D b.port k bs p →
      parse b.rest.readBuffer.length (b.rest.pending ++ bs) = .more → 0 < old.length →
      P.read D old p = (p', new, .hang) → ReadsAny b w D fuel ⟨p', c⟩ .hang
  /-- The port claims that it has put more bytes in the slice than fit: a panic, in the addition if it overflows, otherwise in the
  next iteration (if the reader does not give up before). -/
  | tooMany {k n : Nat} {bs old new : List Byte} {p p' : P.Port} {c : Bus} {o : Outcome (ReadErrorOf P.Error) Packet} :
      k < fuel → P.Waits b.rest.readBuffer.length b.rest.pending D b.port k bs p →
      parse b.rest.readBuffer.length (b.rest.pending ++ bs) = .more → 0 < old.length →
      P.read D old p = (p', new, .ok n) → old.length < n →
      (b.rest.readBuffer.length + n < 2 ^ w → c.readBuffer.length < c.readLen) →
      c.readBuffer.length = b.rest.readBuffer.length → (o = .panic ∨ k + 1 = fuel ∧ o = .hang) →
      ReadsAny b w D fuel ⟨p', c⟩ o
  /-- There was no packet after so many reads, and no error. -/
  | waiting {bs : List Byte} {p : P.Port} {c : Bus} :
      P.Waits b.rest.readBuffer.length b.rest.pending D b.port fuel bs p → ReadsAny b w D fuel ⟨p, c⟩ .hang

/-- **C83** Reading a packet with any port is one of the cases of `ReadsAny`. In particular: a packet that is returned was received in a
valid frame, whatever the port does; every read of the port is made with the deadline given, into a slice that is not empty; and
the reader does not stop on its own account: it ends only with what it has received, or when the port fails.

`c83_wrap` is about the case that is excluded: no checks for overflow, and a port that claims to have read almost `usize::MAX`
bytes. -/
theorem c83_read (w : Nat) (D : P.Instant) (fuel : Nat) {b : BusOf P} (hr : b.rest.RInv)
    (hN : 10 ≤ b.rest.readBuffer.length) (hw : b.rest.readBuffer.length < 2 ^ w)
    (hnw : b.rest.debug = true ∨ ∀ old p p' new n, P.read D old p = (p', new, .ok n) → old.length < n →
      b.rest.readBuffer.length + n < 2 ^ w) :
    ReadsAny b w D fuel (BusOf.readPacketDeadline w D fuel b).1 (BusOf.readPacketDeadline w D fuel b).2 := by
  have h := BusOf.readPacketDeadline_result w D fuel hr hN hw hnw
  generalize BusOf.readPacketDeadline w D fuel b = r at h
  cases h with
  | packet h0 h1 h2 h3 =>
    obtain ⟨hsk, hh, hl, hle, _⟩ := parse_packet h2
    obtain ⟨g, hg, hgh⟩ := skip_split (b.rest.pending ++ _)
    rw [hsk, ← List.append_assoc] at hg
    rcases frameOutcome_cases hh hl with ⟨m, v, rfl, hv, h⟩ | ⟨id, rfl, h⟩ | ⟨id, wire, instr, params, pkt, rfl, hwl, hu, hcar, h⟩
    · simp only [h]
      refine .corrupt h0 h1 hg hgh ?_ hl hv h3.rInv h3.pending h3.like
      have h7 : 7 ≤ (m ++ le16 v).length := by omega
      exact List.prefix_of_prefix_length_le hh (List.prefix_append _ _) (by simp [header, le16] at h7 ⊢; omega)
    · simp only [h]
      exact .noInstruction h0 h1 hg hgh h3.rInv h3.pending h3.like
    · simp only [h]
      exact .valid h0 h1 hg hgh hwl hle hu hcar h3.rInv h3.pending h3.like
  | tooBig h0 h1 h2 h3 =>
    obtain ⟨hd, hsk, hh, h7, rfl, hbig, h8⟩ := parse_tooBig h2
    obtain ⟨g, hg, hgh⟩ := skip_split (b.rest.pending ++ _)
    rw [hsk] at hg
    rw [← lengthField_append (u := _) (by omega : 7 ≤ hd.length)] at hbig ⊢
    refine .tooBig h0 h1 hg hgh (hh.trans (List.prefix_append _ _)) (by simp; omega) hbig h3.rInv (h3.pending.trans ?_) h3.like
    rw [← h7, List.drop_left]
  | failed h0 h1 h2 h3 h4 h5 => exact .failed h0 h1 h2 h3 h4 h5.rInv h5.pending h5.like
  | crashed h0 h1 h2 h3 h4 h5 => exact .crashed h0 h1 h2 h3 h4 h5.rInv h5.pending h5.like
  | stuck h0 h1 h2 h3 h4 => exact .stuck h0 h1 h2 h3 h4
  | tooMany h0 h1 h2 h3 h4 h5 h6 h7 h8 => exact .tooMany h0 h1 h2 h3 h4 h5 h6 h7 h8
  | waiting h1 => exact .waiting h1

/-- **C83** With a read buffer that can not hold any packet, the port is not used. -/
theorem c83_small (w : Nat) (D : P.Instant) (fuel : Nat) {b : BusOf P} (h : b.rest.readBuffer.length < 10) :
    BusOf.readPacketDeadline w D fuel b = (b, .err (.bufferFull ⟨10, b.rest.readBuffer.length⟩)) := by
  unfold BusOf.readPacketDeadline
  rw [SO.get_bind]
  have hc : BufferTooSmall.check (headerSize + 3) b.rest.readBuffer.length
      = .err ⟨10, b.rest.readBuffer.length⟩ := if_neg (by simp [headerSize]; omega)
  rw [hc]
  rfl

/-- **C83** After a port has claimed more bytes than fit (and the panic was caught), every further read panics, without using the
port, … -/
theorem c83_poisoned (w : Nat) (D : P.Instant) (fuel : Nat) {b : BusOf P} (hN : 10 ≤ b.rest.readBuffer.length)
    (h : b.rest.readBuffer.length < b.rest.readLen) :
    BusOf.readPacketDeadline w D (fuel + 1) b = (b, .panic) := by
  unfold BusOf.readPacketDeadline
  rw [SO.get_bind]
  have hc : BufferTooSmall.check (headerSize + 3) b.rest.readBuffer.length = .ok () := if_pos hN
  rw [hc, Outcome.mapErr_ok, SO.lift_ok_bind, SO.bind_def, BusOf.readLoop_poisoned w D fuel h]

/-- **C83** … until an instruction is sent: then the reader is in order again, with nothing pending. -/
theorem c83_recovers (id instr : Byte) (n : Nat) (enc : Encoder) {b b' : BusOf P} (hb : b.rest.WInv)
    (h : BusOf.writePacket id instr n enc b = (b', .ok ())) : b'.rest.RInv ∧ b'.rest.pending = [] := by
  obtain ⟨-, -, -, -, -, h | ⟨params, wire, -, -, -, h1, h2⟩⟩ := c83_write id instr n enc hb h
  · simp at h
  · exact ⟨⟨by omega, by omega⟩, by simp [Bus.pending, h1, h2]⟩

/-- **C83** Without checks for overflow, a port that claims so many bytes that the sum overflows makes the reader forget some bytes
that it had already received, without any error: the sum wraps. -/
theorem c83_wrap {w n : Nat} {D : P.Instant} {b : BusOf P} {p : P.Port} {new : List Byte} (hr : b.rest.RInv)
    (hu : b.rest.usedBytes = 0) (hd : b.rest.debug = false) (hw : b.rest.readBuffer.length < 2 ^ w) (hn : n < 2 ^ w)
    (hread : P.read D (b.rest.readBuffer.drop b.rest.readLen) b.port = (p, new, .ok n))
    (hwrap : 2 ^ w ≤ b.rest.readLen + n) :
    (BusOf.readMore w D b).2 = .ok () ∧ (BusOf.readMore w D b).1.port = p ∧ (BusOf.readMore w D b).1.rest.RInv ∧
    (BusOf.readMore w D b).1.rest.pending = b.rest.pending.take (b.rest.readLen + n - 2 ^ w) := by
  have hle : b.rest.readLen ≤ b.rest.readBuffer.length := hr.len_le
  have hnl := P.read_length D (b.rest.readBuffer.drop b.rest.readLen) b.port
  rw [hread] at hnl
  simp only [List.length_drop] at hnl
  have hadd : usizeAdd (ε := ReadErrorOf P.Error) w false b.rest.readLen n = .ok (b.rest.readLen + n - 2 ^ w) := by
    unfold usizeAdd
    rw [if_neg (by omega)]
    simp only [Bool.false_eq_true, if_false]
    rw [Nat.mod_eq_sub_mod (by omega), Nat.mod_eq_of_lt (by omega)]
  have hm : BusOf.readMore w D b = (⟨p, { b.rest with
      readBuffer := b.rest.readBuffer.take b.rest.readLen ++ new, readLen := b.rest.readLen + n - 2 ^ w }⟩, .ok ()) := by
    unfold BusOf.readMore
    simp only
    rw [if_pos hle, hread]
    simp only [Outcome.mapErr_ok, SO.lift_ok_bind, hd, hadd]
    rfl
  rw [hm]
  refine ⟨rfl, rfl, ⟨?_, ?_⟩, ?_⟩
  · simp [hu]
  · simp; omega
  · simp only [Bus.pending, hu, List.drop_zero]
    rw [List.take_append_of_le_length (by simp; omega), List.take_take]

/-! ## Ending -/

/-- **C83** The deadline is left to the port: reading never ends with a port that answers every read, keeps its promise about the
number of bytes, and brings nothing that could be the start of a packet; for example with a port at end of file, that returns 0 at
once for ever. -/
theorem c83_never_ends {w : Nat} {D : P.Instant} {b : BusOf P} (hr : b.rest.RInv) (hN : 10 ≤ b.rest.readBuffer.length)
    (hw : b.rest.readBuffer.length < 2 ^ w) (hp : parse b.rest.readBuffer.length b.rest.pending = .more)
    (hP : ∀ old p, ∃ p' new n, P.read D old p = (p', new, .ok n) ∧ n ≤ old.length ∧
      (n = 0 ∨ skip b.rest.pending = [] ∧ ∀ x ∈ new.take n, x ≠ 0xFF#8))
    (fuel : Nat) : (BusOf.readPacketDeadline w D fuel b).2 = .hang := by
  have hwait : ∀ {k bs p}, P.Waits b.rest.readBuffer.length b.rest.pending D b.port k bs p →
      bs = [] ∨ skip b.rest.pending = [] ∧ ∀ x ∈ bs, x ≠ 0xFF#8 := by
    intro k bs p h
    induction h with
    | start => exact .inl rfl
    | read _ _ _ hread _ ih =>
      obtain ⟨p', new, n, h1, -, h2⟩ := hP _ _
      rw [h1] at hread
      simp only [Prod.mk.injEq, Outcome.ok.injEq] at hread
      obtain ⟨rfl, rfl, rfl⟩ := hread
      rcases h2 with rfl | ⟨h2, h3⟩
      · simpa using ih
      · refine .inr ⟨h2, fun x hx => ?_⟩
        rcases List.mem_append.1 hx with hx | hx
        · rcases ih with rfl | ih
          · simp at hx
          · exact ih.2 x hx
        · exact h3 x hx
  have hmore : ∀ {k bs p}, P.Waits b.rest.readBuffer.length b.rest.pending D b.port k bs p →
      parse b.rest.readBuffer.length (b.rest.pending ++ bs) = .more := by
    intro k bs p h
    rcases hwait h with rfl | ⟨h1, h2⟩
    · rw [List.append_nil]; exact hp
    · rw [parse_more_append, h1, List.nil_append]
      refine parse_garbage (fun hi => h2 0xFF#8 (hi.subset (by simp [header])) rfl) _
  have h := BusOf.readPacketDeadline_result w D fuel hr hN hw (.inr fun old p p' new n h hlt => by
    obtain ⟨_, _, _, h1, h2, -⟩ := hP old p
    rw [h] at h1
    simp only [Prod.mk.injEq, Outcome.ok.injEq] at h1
    omega)
  generalize BusOf.readPacketDeadline w D fuel b = r at h
  cases h with
  | packet _ h1 h2 _ => rw [hmore h1] at h2; simp at h2
  | tooBig _ h1 h2 _ => rw [hmore h1] at h2; simp at h2
  | failed _ _ _ _ h4 _ =>
    obtain ⟨_, _, _, h5, -⟩ := hP _ _
    rw [h5] at h4
    simp at h4
  | crashed _ _ _ _ h4 _ =>
    obtain ⟨_, _, _, h5, -⟩ := hP _ _
    rw [h5] at h4
    simp at h4
  | stuck => rfl
  | tooMany _ _ _ _ h4 h5 _ _ _ =>
    obtain ⟨_, _, _, h6, h7, -⟩ := hP _ _
    rw [h6] at h4
    simp only [Prod.mk.injEq, Outcome.ok.injEq] at h4
    omega
  | waiting => rfl

/-- The port of which `read` keeps to deadlines: there is a clock, a read fails whenever the clock is past `due`, every read that does
not fail takes some time, and every read returns. -/
structure Punctual (P : PortImpl) (D : P.Instant) (clock : P.Port → Nat) (due : Nat) : Prop where
  late : ∀ old p, due < clock p → ∃ p' new e, P.read D old p = (p', new, .err e)
  moves : ∀ old p p' new n, P.read D old p = (p', new, .ok n) → clock p < clock p'
  returns : ∀ old p, (P.read D old p).2.2 ≠ .hang

/-- **C83** With a port that keeps to deadlines, reading a packet ends. -/
theorem c83_ends {w : Nat} {D : P.Instant} {b : BusOf P} {clock : P.Port → Nat} {due : Nat} (hP : Punctual P D clock due)
    (hr : b.rest.RInv) (hN : 10 ≤ b.rest.readBuffer.length) (hw : b.rest.readBuffer.length < 2 ^ w)
    (hnw : b.rest.debug = true ∨ ∀ old p p' new n, P.read D old p = (p', new, .ok n) → old.length < n →
      b.rest.readBuffer.length + n < 2 ^ w)
    {fuel : Nat} (hf : due + 1 < clock b.port + fuel) (h0 : 0 < fuel) : (BusOf.readPacketDeadline w D fuel b).2 ≠ .hang := by
  have h := BusOf.readPacketDeadline_result w D fuel hr hN hw hnw
  generalize BusOf.readPacketDeadline w D fuel b = r at h
  cases h with
  | packet _ _ h2 _ =>
    have := BusOf.frameOutcome_not_hang _ (parse_packet h2).2.1 (parse_packet h2).2.2.1
    revert this
    generalize Bus.frameOutcome _ = o
    cases o <;> simp [Outcome.mapErr]
  | tooBig => simp
  | failed => simp
  | crashed => simp
  | stuck _ _ _ _ h4 => exact absurd (by rw [h4]) (hP.returns _ _)
  | @tooMany k n bs old new p1 p' c o _ h1 h2 h3 h4 h5 _ _ h8 =>
    rcases h8 with h8 | ⟨h8, -⟩
    · rw [h8]; simp
    · obtain ⟨h6, -⟩ := BusOf.waits_clock clock due hP.late hP.moves h1
      by_cases hd : due < clock p1
      · obtain ⟨_, _, _, h⟩ := hP.late _ _ hd
        rw [h4] at h
        simp at h
      · omega
  | waiting h1 =>
    obtain ⟨-, h6⟩ := BusOf.waits_clock clock due hP.late hP.moves h1
    omega

/-- The numbers that a port which keeps to deadlines gets smaller with every packet. -/
theorem punctual_step {w : Nat} {D : P.Instant} {b c : BusOf P} {pkt : Packet} {clock : P.Port → Nat} {due fuel : Nat}
    (hP : Punctual P D clock due)
    (hr : b.rest.RInv) (hN : 10 ≤ b.rest.readBuffer.length) (hw : b.rest.readBuffer.length < 2 ^ w)
    (hnw : b.rest.debug = true ∨ ∀ old p p' new n, P.read D old p = (p', new, .ok n) → old.length < n →
      b.rest.readBuffer.length + n < 2 ^ w)
    (h : BusOf.readPacketDeadline w D fuel b = (c, .ok pkt)) :
    (∃ id instr params, Carries pkt id instr params) ∧ c.rest.RInv ∧ Bus.Like b.rest c.rest ∧ clock b.port ≤ clock c.port ∧
    (due + 2 - clock c.port) * (b.rest.readBuffer.length + 1) + c.rest.pending.length <
      (due + 2 - clock b.port) * (b.rest.readBuffer.length + 1) + b.rest.pending.length := by
  have hres := BusOf.readPacketDeadline_result w D fuel hr hN hw hnw
  rw [h] at hres
  generalize ho : (c, Outcome.ok (ε := ReadErrorOf P.Error) pkt) = r at hres
  cases hres with
  | @packet k bs f rest p' c' _ h1 h2 h3 =>
    simp only [Prod.mk.injEq] at ho
    obtain ⟨rfl, ho⟩ := ho
    obtain ⟨hsk, hh, hl, -, -⟩ := parse_packet h2
    refine ⟨?_, h3.rInv, h3.like, ?_⟩
    · rcases frameOutcome_cases hh hl with ⟨_, _, _, _, h⟩ | ⟨_, _, h⟩ | ⟨id, _, instr, params, pkt', _, _, _, hc, h⟩
      · rw [h] at ho; simp [Outcome.mapErr] at ho
      · rw [h] at ho; simp [Outcome.mapErr] at ho
      · rw [h] at ho
        simp only [Outcome.mapErr_ok, Outcome.ok.injEq] at ho
        exact ⟨id, instr, params, ho ▸ hc⟩
    · obtain ⟨h4, h5⟩ := BusOf.waits_clock clock due hP.late hP.moves h1
      refine ⟨by simp only; omega, ?_⟩
      simp only [h3.pending]
      cases h1 with
      | start =>
        rw [List.append_nil] at hsk
        have hlen := (skip_suffix b.rest.pending).length_le
        rw [hsk, List.length_append] at hlen
        omega
      | read =>
        have hle := Bus.pending_length_le h3.rInv
        rw [h3.pending, h3.like.readSize] at hle
        have hx : due + 2 - clock p' + 1 ≤ due + 2 - clock b.port := by omega
        have := Nat.mul_le_mul_right (b.rest.readBuffer.length + 1) hx
        rw [Nat.add_mul] at this
        omega
  | tooBig => simp at ho
  | failed => simp at ho
  | crashed => simp at ho
  | stuck => simp at ho
  | tooMany _ _ _ _ _ _ _ _ h8 =>
    simp only [Prod.mk.injEq] at ho
    rcases h8 with h8 | ⟨_, h8⟩ <;> simp [h8] at ho
  | waiting => simp at ho

/-- **C83** With a port that keeps to deadlines, a device that waits for an instruction and ignores status packets also stops, however
many status packets pass by. -/
theorem c83_device_ends {w : Nat} {D : P.Instant} {clock : P.Port → Nat} {due : Nat} (hP : Punctual P D clock due) {fuel : Nat}
    (n : Nat) : ∀ b : BusOf P, b.rest.RInv → 10 ≤ b.rest.readBuffer.length → b.rest.readBuffer.length < 2 ^ w →
    (b.rest.debug = true ∨ ∀ old p p' new n, P.read D old p = (p', new, .ok n) → old.length < n →
      b.rest.readBuffer.length + n < 2 ^ w) → due + 1 < clock b.port + fuel → 0 < fuel →
    (due + 2 - clock b.port) * (b.rest.readBuffer.length + 1) + b.rest.pending.length < n →
    (BusOf.readRawLoop w D fuel n b).2 ≠ .hang := by
  induction n with
  | zero => intro b _ _ _ _ _ _ h; omega
  | succ n ih =>
    intro b hr hN hw hnw hf h0 hn
    have hend := c83_ends hP hr hN hw hnw hf h0
    unfold BusOf.readRawLoop
    rw [SO.bind_def]
    rcases h : BusOf.readPacketDeadline w D fuel b with ⟨c, o⟩
    rw [h] at hend
    cases o with
    | err e => simp
    | panic => simp
    | hang => simp at hend
    | ok pkt =>
      obtain ⟨⟨id, instr, params, hc⟩, h1, h2, h3, h4⟩ := punctual_step hP hr hN hw hnw h
      simp only
      rw [asInstruction_carries hc, SO.lift_ok_bind]
      split
      · refine ih c h1 (by rw [h2.readSize]; exact hN) (by rw [h2.readSize]; exact hw) (by rw [h2.readSize, h2.debug]; exact hnw)
          (by omega) h0 ?_
        rw [h2.readSize]
        omega
      · simp

/-- **C83** With a port that keeps to deadlines, reading a status response ends. -/
theorem c83_status_ends {w timeout : Nat} {D : P.Instant} {b : BusOf P} {p : P.Port} {clock : P.Port → Nat} {due : Nat}
    (hD : P.makeDeadline timeout b.port = (p, .ok D)) (hP : Punctual P D clock due)
    (hr : b.rest.RInv) (hN : 10 ≤ b.rest.readBuffer.length) (hw : b.rest.readBuffer.length < 2 ^ w)
    (hnw : b.rest.debug = true ∨ ∀ old p p' new n, P.read D old p = (p', new, .ok n) → old.length < n →
      b.rest.readBuffer.length + n < 2 ^ w)
    {fuel : Nat} (hf : due + 1 < clock p + fuel) (h0 : 0 < fuel) :
    (BusOf.readStatusResponseTimeout w timeout fuel b).2 ≠ .hang := by
  have hm : BusOf.makeDeadline timeout b = (⟨p, b.rest⟩, .ok D) := by
    unfold BusOf.makeDeadline
    rw [BusOf.onPort_apply, SO.mapErr_apply, hD]
    rfl
  unfold BusOf.readStatusResponseTimeout
  rw [SO.bind_ok hm, SO.bind_def]
  have hend := c83_ends (b := ⟨p, b.rest⟩) hP hr hN hw hnw hf h0
  rcases h : BusOf.readPacketDeadline w D fuel ⟨p, b.rest⟩ with ⟨c, o⟩
  rw [h] at hend
  cases o with
  | err e => simp
  | panic => simp
  | hang => simp at hend
  | ok pkt =>
    obtain ⟨⟨id, instr, params, hc⟩, -⟩ := punctual_step (b := ⟨p, b.rest⟩) hP hr hN hw hnw h
    simp only
    rw [checkStatus_carries hc, SO.lift_apply]
    simp only
    split
    · cases params with
      | nil => simp
      | cons e _ =>
        simp only
        split <;> simp
    · simp

/-- **C83** A status response that `transfer_single` returns with any port: the instruction was sent in one frame, after the input was
discarded; the deadline was made after that; the response is in a valid frame, received after that and before the next deadline
error; it is a status packet of the motor that was asked, without error code; and what follows it is kept. -/
theorem c83_transfer {w : Nat} {id instr : Byte} {n : Nat} {expected : U16} {enc : Encoder} {fuel : Nat} {b b' : BusOf P}
    {s : StatusPacket} (hb : b.rest.WInv) (hN : 10 ≤ b.rest.readBuffer.length) (hw : b.rest.readBuffer.length < 2 ^ w)
    (hnw : b.rest.debug = true ∨ ∀ D old p p' new n, P.read D old p = (p', new, .ok n) → old.length < n →
      b.rest.readBuffer.length + n < 2 ^ w)
    (h : BusOf.transferSingle w id instr n expected enc fuel b = (b', .ok s)) :
    ∃ params wire p1 time D p2 k bs g wire' e ps rest,
      Encodes enc n params ∧ StuffedForm (instr :: params) wire ∧ sendingTo P (frame id wire) b.port = (p1, .ok ()) ∧
      messageTransferTime (ε := ReadErrorOf P.Error) ((11 + expected.toNat) % 2 ^ 32) b.rest.baudRate = .ok time ∧
      P.makeDeadline (time + 34000000) p1 = (p2, .ok D) ∧
      k < fuel ∧ P.Waits b.rest.readBuffer.length [] D p2 k bs b'.port ∧
      bs = g ++ frame id wire' ++ rest ∧ ¬ header <:+: g ∧ Unstuffs wire' (0x55#8 :: e :: ps) ∧ e &&& 0x7F#8 = 0#8 ∧
      Carries s.packet id 0x55#8 (e :: ps) ∧ b'.rest.pending = rest := by
  unfold BusOf.transferSingle at h
  obtain ⟨b1, _, h1, h⟩ := SO.bind_eq_ok.1 h
  rw [SO.mapErr_eq_ok] at h1
  obtain ⟨b2, s', h2, h⟩ := SO.bind_eq_ok.1 h
  rw [SO.mapErr_eq_ok] at h2
  obtain ⟨b3, actual, h3, h⟩ := SO.bind_eq_ok.1 h
  obtain ⟨b4, _, h4, h⟩ := SO.bind_eq_ok.1 h
  rw [SO.lift_eq_ok] at h3 h4
  rw [SO.pure_apply] at h
  simp only [Prod.mk.injEq, Outcome.ok.injEq] at h
  obtain ⟨rfl, rfl⟩ := h
  obtain ⟨rfl, h4⟩ := h4
  obtain ⟨rfl, h3⟩ := h3
  obtain ⟨hw1, -, hrb, hbd, hdb, hh | ⟨params, wire, e1, e2, e3, e4, e5⟩⟩ := c83_write id instr n enc hb h1
  · simp at hh
  have hp1 : b1.rest.pending = [] := by simp [Bus.pending, e4, e5]
  have hr1 : b1.rest.RInv := ⟨by omega, by omega⟩
  unfold BusOf.readStatusResponse at h2
  rw [SO.get_bind] at h2
  obtain ⟨b5, time, h5, h2a⟩ := SO.bind_eq_ok.1 h2
  rw [SO.lift_eq_ok] at h5
  obtain ⟨rfl, h5⟩ := h5
  unfold BusOf.readStatusResponseTimeout at h2a
  obtain ⟨b6, D, h6, h2b⟩ := SO.bind_eq_ok.1 h2a
  obtain ⟨b7, pkt, h7, h2c⟩ := SO.bind_eq_ok.1 h2b
  rw [SO.lift_eq_ok] at h2c
  obtain ⟨rfl, h2c⟩ := h2c
  unfold BusOf.makeDeadline at h6
  rw [BusOf.onPort_apply, SO.mapErr_apply] at h6
  rcases hmd : P.makeDeadline (time + Client.flatTimeout) b5.port with ⟨p2, o⟩
  rw [hmd] at h6
  cases o with
  | err e => exact e.elim
  | panic => simp at h6
  | hang => simp at h6
  | ok D' =>
    simp only [Outcome.mapErr_ok, Prod.mk.injEq, Outcome.ok.injEq] at h6
    obtain ⟨rfl, rfl⟩ := h6
    have hread := c83_read (P := P) w D' fuel (b := ⟨p2, b5.rest⟩) hr1 (by simp only; rw [hrb]; exact hN)
      (by simp only; rw [hrb]; exact hw) (by
        simp only
        rw [hrb, hdb]
        rcases hnw with hnw | hnw
        · exact .inl hnw
        · exact .inr (hnw D'))
    rw [show (({ b5 with port := p2 } : BusOf P)) = ⟨p2, b5.rest⟩ from rfl] at h7
    rw [h7] at hread
    simp only at hread
    generalize ho : (Outcome.ok pkt : Outcome (ReadErrorOf P.Error) Packet) = o at hread
    cases hread with
    | @valid k bs g wire' ps' rest id' instr' pkt' p3 c a1 a2 a3 a4 a5 a6 a7 a8 a9 a10 a11 =>
      simp only [Outcome.ok.injEq] at ho
      subst ho
      rw [checkStatus_carries a8] at h2c
      split at h2c
      · rename_i hi
        subst hi
        cases ps' with
        | nil => simp at h2c
        | cons e ps =>
          simp only at h2c
          split at h2c
          · rename_i he
            simp only [Outcome.mapErr_ok, Outcome.ok.injEq] at h2c
            subst h2c
            have hid : id' = id := by
              have hacc := (carries_accessors a8 (TransferErrorOf P.Error)).1
              rw [show StatusPacket.packetId (ε := TransferErrorOf P.Error) ⟨pkt⟩ = pkt.packetId from rfl, hacc] at h3
              simp only [Outcome.ok.injEq] at h3
              subst h3
              unfold checkPacketId at h4
              split at h4
              · assumption
              · simp at h4
            subst hid
            simp only at a2 a3
            rw [hrb, hp1] at a2
            rw [hp1, List.nil_append] at a3
            refine ⟨params, wire, b5.port, time, D', p2, k, bs, g, wire', e, ps, rest, e1, e2, e3.symm, ?_, hmd, a1, a2, a3, a4,
              a7, he, a8, a10⟩
            have hml : StatusPacket.messageLen expected.toNat = 11 + expected.toNat := by
              unfold StatusPacket.messageLen headerSize; omega
            rw [← hbd, ← h5, hml]
          · simp at h2c
      · simp at h2c
    | tooMany _ _ _ _ _ _ _ _ h8 => rcases h8 with h8 | ⟨_, h8⟩ <;> simp [h8] at ho
    | corrupt => simp at ho
    | noInstruction => simp at ho
    | tooBig => simp at ho
    | failed => simp at ho
    | crashed => simp at ho
    | stuck => simp at ho
    | waiting => simp at ho

/-! ## The script port is one of them -/

/-- **C83** `fuel` only says when to stop looking: with a larger number, a result (a packet, an error or a panic) stays the same. -/
theorem c83_fuel (w : Nat) (D : P.Instant) {fuel fuel' : Nat} (hf : fuel ≤ fuel') {b : BusOf P}
    (h : (BusOf.readPacketDeadline w D fuel b).2 ≠ .hang) :
    BusOf.readPacketDeadline w D fuel' b = BusOf.readPacketDeadline w D fuel b := BusOf.readPacketDeadline_mono w D hf h

/-- **C83** With the script port as the implementation, reading is what it is in the model of all other theorems: same result, same
buffers, same port afterwards. -/
theorem c83_script_read {w D fuel : Nat} {x : BusOf scriptImpl} (hr : x.rest.RInv) (hw : x.rest.readBuffer.length < 2 ^ w)
    (hf : (scriptBus x).serialPort.measure < fuel) :
    scriptBus (BusOf.readPacketDeadline (P := scriptImpl) w D fuel x).1 = (Bus.readPacketDeadline D (scriptBus x)).1 ∧
    (BusOf.readPacketDeadline (P := scriptImpl) w D fuel x).2 = (Bus.readPacketDeadline D (scriptBus x)).2.mapErr scriptReadError := by
  have hrb : (scriptBus x).RInv := ⟨hr.1, hr.2⟩
  obtain ⟨h1, h2, -⟩ := BusOf.same_packet (w := w) (D := D) x hw rfl
  have hend := c19_terminates D hrb
  have hnh : (BusOf.readPacketDeadline (P := scriptImpl) w D ((scriptBus x).serialPort.measure + 1) x).2 ≠ .hang := by
    intro hh
    rw [h2] at hh
    revert hend hh
    generalize (Bus.readPacketDeadline D (scriptBus x)).2 = o
    cases o <;> intro h3 h4
    · cases h4
    · cases h4
    · cases h4
    · exact h3 rfl
  have heq := c83_fuel (P := scriptImpl) w D (Nat.succ_le_of_lt hf) hnh
  constructor
  · rw [heq]; exact h1
  · rw [heq]; exact h2

/-- **C83** The same for sending. -/
theorem c83_script_write (id instr : Byte) (n : Nat) (enc : Encoder) (x : BusOf scriptImpl) :
    scriptBus (BusOf.writePacket id instr n enc x).1 = (Bus.writePacket id instr n enc (scriptBus x)).1 ∧
    (BusOf.writePacket id instr n enc x).2 = (Bus.writePacket id instr n enc (scriptBus x)).2.mapErr scriptWriteError := by
  obtain ⟨p, r⟩ := x
  change scriptBus (BusOf.writePacket id instr n enc (⟨p, r⟩ : BusOf scriptImpl)).1 = (Bus.writePacket id instr n enc (r.onto p)).1 ∧
    (BusOf.writePacket id instr n enc (⟨p, r⟩ : BusOf scriptImpl)).2 =
      (Bus.writePacket id instr n enc (r.onto p)).2.mapErr scriptWriteError
  rcases hp : BusOf.preparePacket id instr n enc r with ⟨r', o⟩
  cases o with
  | ok m =>
    have h1 := writePacket_prepared (P := scriptImpl) p hp
    have h2 := script_prepared p hp
    rw [h1, h2]
    unfold sendingTo
    rw [show scriptImpl.discardInputBuffer = Port.discardInputBuffer from rfl, show scriptImpl.writeAll = Port.writeAll from rfl]
    rcases hd : Port.discardInputBuffer p with ⟨p1, o1⟩
    cases o1 with
    | ok _ =>
      simp only
      rcases hw : Port.writeAll (r'.writeBuffer.take m) p1 with ⟨p2, o2⟩
      cases o2 <;> exact ⟨rfl, rfl⟩
    | err e => exact ⟨rfl, rfl⟩
    | panic => exact ⟨rfl, rfl⟩
    | hang => exact ⟨rfl, rfl⟩
  | _ =>
    rw [BusOf.writePacket_split]
    unfold BusOf.writePacket
    rw [SO.bind_def, SO.bind_def, SO.mapErr_apply, SO.mapErr_apply, BusOf.onRest_apply,
      BusOf.portFree_preparePacket id instr n enc r p, hp]
    exact ⟨rfl, rfl⟩

/-! ## Concrete ports -/

/-- A port with a clock, that answers reads as told and on which everything else succeeds. -/
def demoImpl (read : Nat → List Byte → Nat → Nat × List Byte × Outcome String Nat)
    (h : ∀ D old p, (read D old p).2.1.length = old.length) : PortImpl where
  Port := Nat
  Error := String
  Instant := Nat
  baudRate := fun p => (p, .ok 57600)
  setBaudRate := fun _ p => (p, .ok ())
  discardInputBuffer := fun p => (p, .ok ())
  read := read
  read_length := h
  writeAll := fun _ p => (p, .ok ())
  makeDeadline := fun timeout p => (p, .ok (p + timeout))
  isTimeoutError := fun e => decide (e = "late")

/-- A file at its end: reads give nothing, at once, whatever the deadline. -/
def endOfFile : PortImpl := demoImpl (fun _ old p => (p, old, .ok 0)) fun _ _ _ => rfl

/-- The same, but the time passes and reads fail when the deadline is past. -/
def inTimeRead (D : Nat) (old : List Byte) (p : Nat) : Nat × List Byte × Outcome String Nat :=
  if D < p then (p, old, .err "late") else (p + 1, old, .ok 0)

def endOfFileInTime : PortImpl := demoImpl inTimeRead fun D old p => by
  unfold inTimeRead
  split <;> rfl

/-- A port that claims to have read `n` bytes. -/
def claiming (n : Nat) : PortImpl := demoImpl (fun _ old p => (p + 1, old, .ok n)) fun _ _ _ => rfl

/-- A port that hands out a stream, one byte at a time, and fails at the end of it. -/
def dripping (stream : List Byte) : PortImpl :=
  demoImpl (fun _ old p => match old, stream.drop p with
    | _ :: t, x :: _ => (p + 1, x :: t, .ok 1)
    | _, _ => (p, old, .err "end")) fun D old p => by
    cases old with
    | nil => rfl
    | cons a t => cases stream.drop p <;> rfl

/-- A bus on a port. -/
def busOf (P : PortImpl) (p : P.Port) : BusOf P := ⟨p, quietBus true 40⟩

theorem busOf_ready (P : PortImpl) (p : P.Port) : (busOf P p).rest.RInv ∧ 10 ≤ (busOf P p).rest.readBuffer.length ∧
    (busOf P p).rest.readBuffer.length < 2 ^ 64 ∧ (busOf P p).rest.debug = true ∧ (busOf P p).rest.WInv :=
  ⟨⟨by simp [busOf, quietBus], by simp [busOf, quietBus]⟩, by simp [busOf, quietBus], by simp [busOf, quietBus], rfl,
    quietBus_wInv true 40 (by omega)⟩

/-- Is this the result? -/
def givesPacket {E : Type} (d : List Byte) : Outcome (ReadErrorOf E) Packet → Bool
  | .ok p => decide (p.data = d)
  | _ => false

def givesIo {α : Type} (s : String) : Outcome (ReadErrorOf String) α → Bool
  | .err (.io e) => decide (e = s)
  | _ => false

def givesPanic {ε α : Type} : Outcome ε α → Bool
  | .panic => true
  | _ => false

/-- Sending, with a port on which all succeeds. -/
example : ∃ b', BusOf.writePacket 1#8 1#8 0 Encoder.nothing (busOf endOfFile (0 : Nat)) = (b', .ok ()) ∧ b'.rest.RInv :=
  ⟨_, rfl, (c83_recovers (P := endOfFile) 1#8 1#8 0 Encoder.nothing (busOf_ready endOfFile (0 : Nat)).2.2.2.2 rfl).1⟩

example {b' o} (h : BusOf.writePacket 1#8 1#8 0 Encoder.nothing (busOf endOfFile (0 : Nat)) = (b', o)) :
    b'.rest.writeBuffer.length = 44 :=
  (c83_write (P := endOfFile) 1#8 1#8 0 Encoder.nothing (busOf_ready endOfFile (0 : Nat)).2.2.2.2 h).2.1

/-- Sending works on a bus that can not read any more, and repairs it. -/
example : ∃ b', BusOf.writePacket 1#8 1#8 0 Encoder.nothing
    (⟨(0 : Nat), { quietBus true 40 with readLen := 21 }⟩ : BusOf endOfFile) = (b', .ok ()) ∧ b'.rest.RInv :=
  ⟨_, rfl, (c83_recovers (P := endOfFile) (b := ⟨(0 : Nat), { quietBus true 40 with readLen := 21 }⟩) 1#8 1#8 0 Encoder.nothing
    ⟨(busOf_ready endOfFile (0 : Nat)).2.2.2.2.1, (busOf_ready endOfFile (0 : Nat)).2.2.2.2.2⟩ rfl).1⟩

/-- … because until then all it does is panic. -/
example : BusOf.readPacketDeadline 64 (5 : Nat) 100 (⟨(0 : Nat), { quietBus true 40 with readLen := 21 }⟩ : BusOf endOfFile) =
    (⟨(0 : Nat), { quietBus true 40 with readLen := 21 }⟩, .panic) :=
  c83_poisoned (P := endOfFile) 64 (5 : Nat) 99 (by simp [quietBus]) (by simp [quietBus])

/-- A port that claims one byte too many brings that about. -/
example : givesPanic (BusOf.readPacketDeadline (P := claiming 21) 64 (5 : Nat) 100 (busOf _ (0 : Nat))).2 = true ∧
    (BusOf.readPacketDeadline (P := claiming 21) 64 (5 : Nat) 100 (busOf _ (0 : Nat))).1.rest.readLen = 21 := by decide +kernel

example : ReadsAny (busOf (claiming 21) (0 : Nat)) 64 (5 : Nat) 100
    (BusOf.readPacketDeadline (P := claiming 21) 64 (5 : Nat) 100 (busOf _ (0 : Nat))).1
    (BusOf.readPacketDeadline (P := claiming 21) 64 (5 : Nat) 100 (busOf _ (0 : Nat))).2 :=
  have h := busOf_ready (claiming 21) (0 : Nat)
  c83_read (P := claiming 21) 64 (5 : Nat) 100 h.1 h.2.1 h.2.2.1 (.inl h.2.2.2.1)

/-- A packet, one byte at a time, after some garbage and before some more, which is not even asked for. -/
example : givesPacket [0xFF#8, 0xFF#8, 0xFD#8, 0#8, 7#8, 5#8, 0#8, 0x55#8, 0#8, 3#8]
      (BusOf.readPacketDeadline (P := dripping ([0#8, 1#8] ++ frame 7#8 [0x55#8, 0#8, 3#8] ++ [9#8])) 64 (0 : Nat) 40
        (busOf _ (0 : Nat))).2 = true ∧
    (show Nat from (BusOf.readPacketDeadline (P := dripping ([0#8, 1#8] ++ frame 7#8 [0x55#8, 0#8, 3#8] ++ [9#8])) 64 (0 : Nat) 40
        (busOf _ (0 : Nat))).1.port) = 14 := by decide +kernel

/-- The error of the port, after part of a packet. -/
example : givesIo "end" (BusOf.readPacketDeadline (P := dripping ((frame 7#8 [0x55#8, 0#8, 3#8]).take 11)) 64 (0 : Nat) 40
    (busOf _ (0 : Nat))).2 = true := by decide +kernel

/-- A buffer of 9 bytes. -/
example : (BusOf.readPacketDeadline (P := endOfFile) 64 (5 : Nat) 100
    ⟨(0 : Nat), { quietBus true 40 with readBuffer := List.replicate 9 0#8 }⟩).2 = .err (.bufferFull ⟨10, 9⟩) := by
  rw [c83_small (P := endOfFile) 64 (5 : Nat) 100 (by simp)]
  rfl

/-- With words of 16 bits and no checks for overflow: of the three bytes received, one is left. -/
example : (BusOf.readMore (P := claiming 65534) 16 (5 : Nat)
    ⟨(0 : Nat), { quietBus false 40 with readLen := 3, readBuffer := 1#8 :: 2#8 :: 3#8 :: List.replicate 17 0#8 }⟩).1.rest.pending
      = [1#8] := by
  rw [(c83_wrap (P := claiming 65534) (w := 16) (n := 65534) (D := (5 : Nat))
    (b := ⟨(0 : Nat), { quietBus false 40 with readLen := 3, readBuffer := 1#8 :: 2#8 :: 3#8 :: List.replicate 17 0#8 }⟩)
    (p := (1 : Nat)) ⟨by simp [quietBus], by simp⟩ rfl rfl (by simp) (by omega) rfl (by simp)).2.2.2]
  rfl

/-- At the end of a file, reading never ends, … -/
example (fuel : Nat) : (BusOf.readPacketDeadline (P := endOfFile) 64 (5 : Nat) fuel (busOf _ (0 : Nat))).2 = .hang :=
  have h := busOf_ready endOfFile (0 : Nat)
  c83_never_ends (P := endOfFile) h.1 h.2.1 h.2.2.1 (by decide) (fun old p => ⟨p, old, 0, rfl, by omega, .inl rfl⟩) fuel

/-- … nor does it on a line with noise, … -/
example (fuel : Nat) : (BusOf.readPacketDeadline
    (P := demoImpl (fun _ old p => (p + 1, old.map fun _ => 0x55#8, .ok old.length)) fun _ _ _ => by simp)
    64 (5 : Nat) fuel (busOf _ (0 : Nat))).2 = .hang :=
  have h := busOf_ready (demoImpl (fun _ old p => (p + 1, old.map fun _ => 0x55#8, .ok old.length)) fun _ _ _ => by simp) (0 : Nat)
  c83_never_ends h.1 h.2.1 h.2.2.1 (by decide) (fun old p => ⟨_, _, _, rfl, by omega, .inr ⟨by decide, fun x hx => by
    obtain ⟨_, _, rfl⟩ := List.mem_map.1 (List.mem_of_mem_take hx)
    decide⟩⟩) fuel

theorem inTimeRead_ok {D p p' n : Nat} {old new : List Byte} (h : inTimeRead D old p = (p', new, .ok n)) : p < p' := by
  unfold inTimeRead at h
  split at h
  · simp at h
  · simp at h; omega

theorem inTimeRead_returns (D p : Nat) (old : List Byte) : (inTimeRead D old p).2.2 ≠ .hang := by
  unfold inTimeRead
  split <;> simp

theorem endOfFileInTime_punctual (D : Nat) : Punctual endOfFileInTime D (fun p => p) D where
  late := fun old p h => ⟨p, old, "late", if_pos h⟩
  moves := fun _ _ _ _ _ h => inTimeRead_ok h
  returns := fun old p => inTimeRead_returns D p old

/-- … but with a clock it ends, for a client and for a device. -/
example : (BusOf.readPacketDeadline (P := endOfFileInTime) 64 (5 : Nat) 7 (busOf _ (0 : Nat))).2 ≠ .hang :=
  have h := busOf_ready endOfFileInTime (0 : Nat)
  c83_ends (endOfFileInTime_punctual 5) h.1 h.2.1 h.2.2.1 (.inl h.2.2.2.1) (by change 6 < 0 + 7; omega) (by omega)

example : givesIo "late" (BusOf.readPacketDeadline (P := endOfFileInTime) 64 (5 : Nat) 7 (busOf _ (0 : Nat))).2 = true := by
  decide +kernel

example : (BusOf.readStatusResponseTimeout 64 5 7 (busOf endOfFileInTime (0 : Nat))).2 ≠ .hang :=
  have h := busOf_ready endOfFileInTime (0 : Nat)
  c83_status_ends (D := (5 : Nat)) (p := (0 : Nat)) rfl (endOfFileInTime_punctual 5) h.1 h.2.1 h.2.2.1 (.inl h.2.2.2.1)
    (by change 6 < 0 + 7; omega) (by omega)

example : (BusOf.readRawLoop 64 (5 : Nat) 200 200 (busOf endOfFileInTime (0 : Nat))).2 ≠ .hang :=
  have h := busOf_ready endOfFileInTime (0 : Nat)
  c83_device_ends (endOfFileInTime_punctual 5) 200 _ h.1 h.2.1 h.2.2.1 (.inl h.2.2.2.1) (by change 6 < 0 + 200; omega) (by omega)
    (by change (7 - 0) * 21 + 0 < 200; omega)

/-- More iterations. -/
example : BusOf.readPacketDeadline (P := endOfFileInTime) 64 (5 : Nat) 1000 (busOf _ (0 : Nat)) =
    BusOf.readPacketDeadline 64 (5 : Nat) 7 (busOf _ (0 : Nat)) :=
  have h := busOf_ready endOfFileInTime (0 : Nat)
  c83_fuel (P := endOfFileInTime) (fuel := 7) (fuel' := 1000) 64 (5 : Nat) (by omega) (c83_ends (endOfFileInTime_punctual 5) h.1 h.2.1 h.2.2.1 (.inl h.2.2.2.1)
    (by change 6 < 0 + 7; omega) (by omega))

/-- The script port. -/
example : scriptBus (BusOf.readPacketDeadline (P := scriptImpl) 64 (5 : Nat) 1 (busOf scriptImpl quietPort)).1 =
    (Bus.readPacketDeadline 5 (quietBus true 40)).1 :=
  have h := busOf_ready scriptImpl quietPort
  (c83_script_read (x := busOf scriptImpl quietPort) h.1 h.2.2.1 (by decide)).1

/-- An exchange: the port is drained of 13 bytes, the response of motor 7. -/
def dripExchange : BusOf (dripping (frame 7#8 [0x55#8, 0#8, 3#8])) × Outcome (TransferErrorOf String) StatusPacket :=
  BusOf.transferSingle 64 7#8 2#8 4 1#16 ⟨copyFromSlice [0#8, 0#8, 1#8, 0#8], KeepsLength.copyFromSlice _⟩ 40 (busOf _ (0 : Nat))

example : ∃ b' s, dripExchange = (b', .ok s) ∧ Carries s.packet 7#8 0x55#8 [0#8, 3#8] := by
  have hok : (match dripExchange.2 with | .ok s => decide (s.packet.data = header ++ [7#8, 5#8, 0#8, 0x55#8, 0#8, 3#8]) | _ => false)
      = true := by decide +kernel
  rcases he : dripExchange with ⟨b', o⟩
  rw [he] at hok
  cases o with
  | ok s =>
    refine ⟨b', s, rfl, 5#8, 0#8, ?_⟩
    simp only [decide_eq_true_eq] at hok
    rw [hok]
    rfl
  | _ => simp at hok

example {b' s} (he : dripExchange = (b', .ok s)) : ∃ (D p : Nat) (k : Nat) (bs g wire rest : List Byte), k < 40 ∧
    (dripping (frame 7#8 [0x55#8, 0#8, 3#8])).Waits 20 [] D p k bs b'.port ∧ bs = g ++ frame 7#8 wire ++ rest := by
  have h := busOf_ready (dripping (frame 7#8 [0x55#8, 0#8, 3#8])) (0 : Nat)
  obtain ⟨_, _, _, _, D, p, k, bs, g, wire, _, _, rest, -, -, -, -, -, h1, h2, h3, -⟩ :=
    c83_transfer (P := dripping (frame 7#8 [0x55#8, 0#8, 3#8])) h.2.2.2.2 h.2.1 h.2.2.1 (.inl h.2.2.2.1) he
  exact ⟨D, p, k, bs, g, wire, rest, h1, h2, h3⟩

end Dxl.Props
