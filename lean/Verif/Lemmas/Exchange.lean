import Verif.Props.Timing
import Verif.Lemmas.Encoders

/-! # Sending an instruction and reading a status response -/

namespace Dxl
open Spec

theorem SO.bind_eq_ok {σ ε α β : Type} {m : SO σ ε α} {f : α → SO σ ε β} {s s' : σ} {x : β} :
    (m >>= f) s = (s', .ok x) ↔ ∃ s₁ a, m s = (s₁, .ok a) ∧ f a s₁ = (s', .ok x) := by
  rw [SO.bind_def]
  rcases hm : m s with ⟨s₁, o⟩
  cases o with
  | ok a =>
    constructor
    · exact fun h => ⟨s₁, a, rfl, h⟩
    · rintro ⟨_, _, h, h'⟩
      cases h
      exact h'
  | _ => simp

theorem SO.mapErr_eq_ok {σ ε ε' α : Type} {m : SO σ ε α} {f : ε → ε'} {s s' : σ} {x : α} :
    m.mapErr f s = (s', .ok x) ↔ m s = (s', .ok x) := by
  rw [SO.mapErr_apply]
  rcases hm : m s with ⟨s₁, o⟩
  cases o <;> simp

theorem SO.lift_eq_ok {σ ε α : Type} {o : Outcome ε α} {s s' : σ} {x : α} :
    SO.lift o s = (s', .ok x) ↔ s' = s ∧ o = .ok x := by
  rw [SO.lift_apply]
  constructor
  · intro h
    simp only [Prod.mk.injEq] at h
    exact ⟨h.1.symm, h.2⟩
  · rintro ⟨rfl, rfl⟩; rfl

/-- The duration of the next call of `write_all`. -/
def Port.writeTime (p : Port) : Nat := match p.writeRes with
  | (dt, _) :: _ => dt
  | [] => 0

/-- The next calls to discard input and to write succeed. -/
structure Port.SendOk (p : Port) : Prop where
  discard : ∀ e, p.discardRes.head? ≠ some (some e)
  write : ∀ dt e, p.writeRes.head? ≠ some (dt, some e)

namespace Bus

theorem sendFrame_ok {f : List Byte} {b : Bus} (h : b.serialPort.SendOk) :
    sendFrame f b = ({ b with serialPort := b.serialPort.discarded.wrote f b.serialPort.writeTime true }, .ok ()) := by
  unfold sendFrame
  rcases discard_cases b.serialPort with ⟨e, he, -⟩ | ⟨-, hd⟩
  · exact absurd he (h.discard e)
  · have hd : onPort (Port.discardInputBuffer.mapErr WriteError.discardBuffer) b
        = ({ b with serialPort := b.serialPort.discarded }, .ok ()) := by
      rw [onPort_apply, SO.mapErr_apply, hd]; rfl
    rw [SO.bind_ok hd, onPort_apply, SO.mapErr_apply]
    have hw := h.write
    dsimp only
    unfold Port.writeAll Port.wrote Port.writeTime
    have e : b.serialPort.discarded.writeRes = b.serialPort.writeRes := rfl
    rw [e]
    rcases hr : b.serialPort.writeRes with _ | ⟨⟨dt, r⟩, rest⟩
    · simp
    · cases r with
      | none => simp
      | some er => rw [hr] at hw; exact absurd rfl (hw dt er)

theorem sendFrame_sendOk {f : List Byte} {b b' : Bus} (h : sendFrame f b = (b', .ok ())) : b.serialPort.SendOk := by
  rcases sendFrame_cases f b with ⟨e, h2, _⟩ | ⟨dt, e, h2, _⟩ | ⟨dt, h2, h3, h4⟩
  · rw [h2] at h; simp at h
  · rw [h2] at h; simp at h
  · exact ⟨h3, h4⟩

/-- Everything about a successful `write_instruction`. -/
theorem writeInstruction_ok {b b' : Bus} {id instr : Byte} {n : Nat} {enc : Encoder} (hb : b.WInv)
    (h : writeInstruction id instr n enc b = (b', .ok ())) :
    ∃ params, enc.run (b.paramSlice n) = (params, .ok ()) ∧ params.length = n ∧
      n + 10 ≤ b.writeBuffer.length ∧ b.serialPort.SendOk ∧
      b' = { b with
              serialPort := b.serialPort.discarded.wrote (frame id (codeStuff (instr :: params))) b.serialPort.writeTime true
              writeBuffer := frame id (codeStuff (instr :: params)) ++
                b.writeBuffer.drop (frame id (codeStuff (instr :: params))).length
              readLen := 0
              usedBytes := 0 } := by
  have h' : writePacket id instr n enc b = (b', .ok ()) := h
  obtain ⟨_, _, _, _, hn, _⟩ := writePacket_ok hb h'
  rcases writePacket_split id instr n enc hb with ⟨w, o, he, ho⟩ | ⟨params, h1, h2, he⟩
  · rw [he] at h'
    simp only [Prod.mk.injEq] at h'
    rw [h'.2] at ho
    simp at ho
  · rw [he] at h'
    have hok := sendFrame_sendOk h'
    rw [sendFrame_ok hok] at h'
    refine ⟨params, h1, h2, hn, hok, ?_⟩
    simpa using h'.symm

/-- `write_instruction` succeeds if the packet fits. -/
theorem writeInstruction_fits {b : Bus} {id instr : Byte} {n : Nat} {enc : Encoder} {params : List Byte} (hb : b.WInv)
    (he : Fills enc.run n params) (hp : b.serialPort.SendOk) (hn : n + 10 ≤ b.writeBuffer.length)
    (hf : 9 + (codeStuff (instr :: params)).length ≤ b.writeBuffer.length)
    (h16 : (codeStuff (instr :: params)).length + 2 < 2 ^ 16) :
    ∃ b', writeInstruction id instr n enc b = (b', .ok ()) := by
  have h := writePacket_send (id := id) (instr := instr) hb (he _ (paramSlice_length hn)) hn hf (by omega)
  exact ⟨_, h.trans (sendFrame_ok (f := frame id (codeStuff (instr :: params))) (b := { b with
              writeBuffer := frame id (codeStuff (instr :: params)) ++
                b.writeBuffer.drop (frame id (codeStuff (instr :: params))).length
              readLen := 0
              usedBytes := 0 }) hp)⟩

end Bus

namespace Props

/-- What arrives after the input buffer is discarded now. (All input, on a port that can not discard its input.) -/
def newInput (p : Port) : List RxEvent := if p.discardIsNoop then p.rx else notYetArrived p.now p.rx

theorem newInput_eq (p : Port) : newInput p = p.dropArrived := by
  unfold newInput Port.dropArrived
  split
  · rfl
  · unfold notYetArrived
    congr 1
    funext e
    cases e <;> simp [RxEvent.discardable, ← Nat.not_le]

/-- The bus after an instruction was sent. -/
structure AfterSend (b b₁ : Bus) (f : List Byte) : Prop where
  sent : Sent b b₁ f
  rinv : b₁.RInv
  readBuffer : b₁.readBuffer = b.readBuffer
  baudRate : b₁.baudRate = b.baudRate
  now : b₁.serialPort.now = b.serialPort.now + b.serialPort.writeTime
  stream : ∀ D, b₁.serialPort.now ≤ D → stream D b₁ = arriving D (newInput b.serialPort)

theorem afterSend {b b₁ : Bus} {id instr : Byte} {n : Nat} {enc : Encoder} (hb : b.WInv)
    (h : Bus.writeInstruction id instr n enc b = (b₁, .ok ())) :
    ∃ params wire, enc.run (b.paramSlice n) = (params, .ok ()) ∧ (b.paramSlice n).length = n ∧
      StuffedForm (instr :: params) wire ∧ AfterSend b b₁ (frame id wire) := by
  obtain ⟨params, h1, h2, h3, h4, rfl⟩ := Bus.writeInstruction_ok hb h
  refine ⟨params, _, h1, Bus.paramSlice_length h3, stuffedForm_codeStuff _, ?_, ?_, rfl, rfl, rfl, ?_⟩
  · simp [Sent, Port.wrote, Port.discarded]
  · exact ⟨Nat.le_refl _, Nat.zero_le _⟩
  · intro D hD
    unfold Props.stream readable
    rw [if_neg (by omega), newInput_eq]
    simp [Bus.pending, Port.wrote, Port.discarded]

/-- The first packet in the stream, after bytes without a packet header, is a status packet that fits in `cap` bytes, with
this ID, error byte and parameters; `rest` follows it. -/
def StatusFirst (cap : Nat) (s : List Byte) (id e : Byte) (ps rest : List Byte) : Prop :=
  ∃ g wire, s = g ++ frame id wire ++ rest ∧ ¬ header <:+: g ∧ wire.length + 2 < 2 ^ 16 ∧
    (frame id wire).length ≤ cap ∧ Unstuffs wire (0x55#8 :: e :: ps)

/-- The seven low bits are zero. -/
theorem low_bits_zero : ∀ e : Byte, e &&& 0x7F#8 = 0#8 ↔ e.toNat % 128 = 0 := by decide +kernel

/-- The alert bit. -/
theorem high_bit : ∀ e : Byte, (e &&& 0x80#8 != 0#8) = decide (128 ≤ e.toNat) := by decide +kernel

theorem motorError_check (e : Byte) : MotorError.check e = if e.toNat % 128 = 0 then .ok () else .err ⟨e⟩ := by
  have : (e &&& ~~~0x80#8 = 0#8) ↔ e.toNat % 128 = 0 := low_bits_zero e
  simp only [MotorError.check, this]

theorem status_sound {timeout : Nat} {b c : Bus} {s : StatusPacket} (hb : b.RInv)
    (h : Client.readStatusResponseTimeout timeout b = (c, .ok s)) :
    ∃ id e ps rest, StatusFirst b.readBuffer.length (stream (b.serialPort.now + timeout) b) id e ps rest ∧
      Carries s.packet id 0x55#8 (e :: ps) ∧ e.toNat % 128 = 0 ∧ stream (b.serialPort.now + timeout) c = rest := by
  unfold Client.readStatusResponseTimeout at h
  rw [SO.get_bind] at h
  obtain ⟨c', pkt, h1, h2⟩ := SO.bind_eq_ok.mp h
  obtain ⟨rfl, h3⟩ := SO.lift_eq_ok.mp h2
  obtain ⟨g, id, wire, instr, params, rest, e1, e2, e3, e4, e5, e6, e7⟩ := c16_returned_is_valid hb h1
  rw [checkStatus_carries e6] at h3
  by_cases h55 : instr = 0x55#8
  · subst h55
    rw [if_pos rfl] at h3
    match params with
    | [] => simp at h3
    | e :: ps =>
      dsimp only at h3
      split at h3
      · rename_i he
        simp only [Outcome.ok.injEq] at h3
        subst h3
        exact ⟨id, e, ps, rest, ⟨g, wire, e1, e2, e3, e4, e5⟩, e6, (low_bits_zero e).mp he, e7⟩
      · simp at h3
  · rw [if_neg h55] at h3
    simp at h3

theorem status_complete {timeout : Nat} {b : Bus} {id e : Byte} {ps rest : List Byte} (hb : b.RInv)
    (hf : StatusFirst b.readBuffer.length (stream (b.serialPort.now + timeout) b) id e ps rest) :
    ∃ c pkt, Client.readStatusResponseTimeout timeout b =
        (c, if e.toNat % 128 = 0 then .ok ⟨pkt⟩ else .err (.motorError ⟨e⟩)) ∧
      Carries pkt id 0x55#8 (e :: ps) ∧ stream (b.serialPort.now + timeout) c = rest := by
  obtain ⟨g, wire, e1, e2, e3, e4, e5⟩ := hf
  rcases hr : Bus.readPacketDeadline (b.serialPort.now + timeout) b with ⟨c, o⟩
  obtain ⟨pkt, rfl, h2, h3⟩ := c14_packet_after_garbage hb e2 e3 e4 e5 e1 hr
  refine ⟨c, pkt, ?_, h2, h3⟩
  unfold Client.readStatusResponseTimeout
  rw [SO.get_bind]
  dsimp only [Port.makeDeadline]
  rw [SO.bind_ok hr, SO.lift_apply, checkStatus_carries h2]
  simp only [if_true, low_bits_zero]

theorem readStatusResponse_eq {b : Bus} (h0 : b.baudRate ≠ 0) (hbaud : b.baudRate < 2 ^ 32) (n : U16) :
    ∃ ns, LeastTime (11 + n.toNat) b.baudRate ns ∧
      Client.readStatusResponse n b = Client.readStatusResponseTimeout (ns + 34000000) b := by
  have hn := n.isLt
  obtain ⟨ns, h1, h2⟩ := c21_transfer_time (ε := ReadError) (size := 11 + n.toNat) (by omega) hbaud h0
  have hlen : StatusPacket.messageLen n.toNat % 2 ^ 32 = 11 + n.toNat := by
    simp only [StatusPacket.messageLen, headerSize]; omega
  refine ⟨ns, h2, ?_⟩
  unfold Client.readStatusResponse
  rw [SO.get_bind]
  simp only [hlen, h1, SO.lift_ok_bind, Client.flatTimeout]

theorem readStatusResponse_zero {b : Bus} (h0 : b.baudRate = 0) (n : U16) :
    Client.readStatusResponse n b = (b, .panic) := by
  have hn := n.isLt
  unfold Client.readStatusResponse
  rw [SO.get_bind, h0, c21_zero_baud_panics (by simp only [StatusPacket.messageLen, headerSize]; omega)]
  rfl

theorem leastTime_unique {size baud a b : Nat} (ha : LeastTime size baud a) (hb : LeastTime size baud b) : a = b :=
  Nat.le_antisymm (ha.2 _ hb.1) (hb.2 _ ha.1)

/-- An instruction packet with the given body was sent to `id`, and then the first packet to arrive in time was a status
packet from `rid` with error byte `e` and parameters `ps`:
- the calls made to the serial port are: discard the input, write the packet, read (any number of times) until a deadline;
- the deadline is 34 ms plus the transfer time of a response with `n` parameters after the end of the write;
- only what arrived after the input was discarded counts. -/
def Exchange (b c : Bus) (id : Byte) (body : List Byte) (n : Nat) (rid e : Byte) (ps : List Byte) : Prop :=
  ∃ wire calls ns rest,
    StuffedForm body wire ∧ LeastTime (11 + n) b.baudRate ns ∧
    c.serialPort.log = b.serialPort.log ++ [.discard true, .write (frame id wire) true] ++ calls ∧
    (∀ call ∈ calls, ∃ cap, 0 < cap ∧
      call = .read cap (b.serialPort.now + b.serialPort.writeTime + (ns + 34000000))) ∧
    StatusFirst b.readBuffer.length
      (arriving (b.serialPort.now + b.serialPort.writeTime + (ns + 34000000)) (newInput b.serialPort)) rid e ps rest ∧
    stream (b.serialPort.now + b.serialPort.writeTime + (ns + 34000000)) c = rest

/-- Sending an instruction and then reading a response. -/
theorem exchange_any {b b₁ c : Bus} {id instr : Byte} {n : Nat} {exp : U16} {enc : Encoder}
    {s : StatusPacket} (hb : b.WInv) (hbaud : b.baudRate < 2 ^ 32)
    (hw : Bus.writeInstruction id instr n enc b = (b₁, .ok ())) (hr : Client.readStatusResponse exp b₁ = (c, .ok s)) :
    ∃ params rid e ps, (∃ old : List Byte, old.length = n ∧ enc.run old = (params, .ok ())) ∧
      Exchange b c id (instr :: params) exp.toNat rid e ps ∧ Carries s.packet rid 0x55#8 (e :: ps) ∧
      e.toNat % 128 = 0 := by
  obtain ⟨params, wire, h1, hl, h2, h3⟩ := afterSend hb hw
  have h0 : b₁.baudRate ≠ 0 := by
    intro h0
    rw [readStatusResponse_zero h0] at hr
    simp at hr
  obtain ⟨ns, hns, heq⟩ := readStatusResponse_eq h0 (h3.baudRate ▸ hbaud) exp
  rw [heq] at hr
  obtain ⟨rid, e, ps, rest, hf, hc, he, hst⟩ := status_sound h3.rinv hr
  obtain ⟨-, calls, hlog, hcalls⟩ := c20_response_deadline (ns + 34000000) h3.rinv
  rw [hr] at hlog
  rw [h3.stream _ (by omega), h3.readBuffer, h3.now] at hf
  rw [h3.now] at hst hcalls
  rw [h3.baudRate] at hns
  exact ⟨params, rid, e, ps, ⟨_, hl, h1⟩, ⟨wire, calls, ns, rest, h2, hns, by rw [hlog, h3.sent], hcalls, hf, hst⟩, hc, he⟩

theorem exchange_ok {b b₁ c : Bus} {id instr : Byte} {n : Nat} {exp : U16} {enc : Encoder} {params : List Byte}
    {s : StatusPacket} (hb : b.WInv) (hbaud : b.baudRate < 2 ^ 32) (hp : Fills enc.run n params)
    (hw : Bus.writeInstruction id instr n enc b = (b₁, .ok ())) (hr : Client.readStatusResponse exp b₁ = (c, .ok s)) :
    ∃ rid e ps, Exchange b c id (instr :: params) exp.toNat rid e ps ∧ Carries s.packet rid 0x55#8 (e :: ps) ∧
      e.toNat % 128 = 0 := by
  obtain ⟨params', rid, e, ps, ⟨old, hl, h1⟩, h2, h3, h4⟩ := exchange_any hb hbaud hw hr
  rw [hp _ hl] at h1
  simp only [Prod.mk.injEq, and_true] at h1
  subst h1
  exact ⟨rid, e, ps, h2, h3, h4⟩

/-- Sending an instruction when the first packet to come is a status packet. -/
theorem exchange_complete {b b₁ : Bus} {id instr : Byte} {n ns : Nat} {exp : U16} {enc : Encoder} {rid e : Byte}
    {ps rest : List Byte} (hb : b.WInv) (hbaud : b.baudRate < 2 ^ 32) (h0 : b.baudRate ≠ 0)
    (hw : Bus.writeInstruction id instr n enc b = (b₁, .ok ())) (hns : LeastTime (11 + exp.toNat) b.baudRate ns)
    (hf : StatusFirst b.readBuffer.length
      (arriving (b.serialPort.now + b.serialPort.writeTime + (ns + 34000000)) (newInput b.serialPort)) rid e ps rest) :
    ∃ c pkt, Client.readStatusResponse exp b₁ = (c, if e.toNat % 128 = 0 then .ok ⟨pkt⟩ else .err (.motorError ⟨e⟩)) ∧
      Carries pkt rid 0x55#8 (e :: ps) ∧
      stream (b.serialPort.now + b.serialPort.writeTime + (ns + 34000000)) c = rest := by
  obtain ⟨params', wire, -, -, -, h3⟩ := afterSend hb hw
  obtain ⟨ns', hns', heq⟩ := readStatusResponse_eq (b := b₁) (h3.baudRate ▸ h0) (h3.baudRate ▸ hbaud) exp
  rw [h3.baudRate] at hns'
  have := leastTime_unique hns hns'
  subst this
  rw [heq]
  have := status_complete (b := b₁) (timeout := ns + 34000000) (id := rid) (e := e) (ps := ps) (rest := rest) h3.rinv
    (by rw [h3.stream _ (by omega), h3.readBuffer, h3.now]; exact hf)
  rwa [h3.now] at this

theorem carries_unique {pkt : Packet} {id instr id' instr' : Byte} {ps ps' : List Byte} (h : Carries pkt id instr ps)
    (h' : Carries pkt id' instr' ps') : id = id' ∧ instr = instr' ∧ ps = ps' := by
  obtain ⟨x, y, h⟩ := h
  obtain ⟨x', y', h'⟩ := h'
  rw [h] at h'
  simp [header] at h'
  exact ⟨h'.1, h'.2.2.2.1, h'.2.2.2.2⟩

/-- A bus with a read buffer of `cap` bytes that receives `s`. -/
def receiver (cap : Nat) (s : List Byte) : Bus :=
  { quietBus true 40 with serialPort := portWith s, readBuffer := List.replicate cap 0#8 }

/-- There is only one first status packet. -/
theorem statusFirst_unique {cap : Nat} {s : List Byte} {id e id' e' : Byte} {ps rest ps' rest' : List Byte}
    (h : StatusFirst cap s id e ps rest) (h' : StatusFirst cap s id' e' ps' rest') :
    id = id' ∧ e = e' ∧ ps = ps' ∧ rest = rest' := by
  have hb : (receiver cap s).RInv := ⟨Nat.le_refl _, Nat.zero_le _⟩
  have hs : stream 0 (receiver cap s) = s := by
    simp [stream, receiver, readable, portWith, quietPort, arriving, Bus.pending, quietBus]
  have hc : (receiver cap s).readBuffer.length = cap := by simp [receiver]
  obtain ⟨g, wire, e1, e2, e3, e4, e5⟩ := h
  obtain ⟨g', wire', e1', e2', e3', e4', e5'⟩ := h'
  rcases hr : Bus.readPacketDeadline 0 (receiver cap s) with ⟨c, o⟩
  obtain ⟨pkt, rfl, h2, h3⟩ := c14_packet_after_garbage hb e2 e3 (by rw [hc]; exact e4) e5 (hs.trans e1) hr
  obtain ⟨pkt', heq, h2', h3'⟩ := c14_packet_after_garbage hb e2' e3' (by rw [hc]; exact e4') e5' (hs.trans e1') hr
  cases heq
  obtain ⟨h4, -, h5⟩ := carries_unique h2 h2'
  simp only [List.cons.injEq] at h5
  exact ⟨h4, h5.1, h5.2, h3.symm.trans h3'⟩

/-- The response in an exchange is determined. -/
theorem exchange_unique {b c c' : Bus} {id id' : Byte} {body body' : List Byte} {n : Nat} {rid e rid' e' : Byte}
    {ps ps' : List Byte} (h : Exchange b c id body n rid e ps) (h' : Exchange b c' id' body' n rid' e' ps') :
    rid = rid' ∧ e = e' ∧ ps = ps' := by
  obtain ⟨_, _, ns, rest, -, h1, -, -, h2, -⟩ := h
  obtain ⟨_, _, ns', rest', -, h1', -, -, h2', -⟩ := h'
  have := leastTime_unique h1 h1'
  subst this
  obtain ⟨h3, h4, h5, -⟩ := statusFirst_unique h2 h2'
  exact ⟨h3, h4, h5⟩

/-- Whatever its outcome, `write_instruction` does not read. -/
theorem write_calls {b : Bus} (hb : b.WInv) (id instr : Byte) (n : Nat) (enc : Encoder) :
    ∃ calls, (Bus.writeInstruction id instr n enc b).1.serialPort.log = b.serialPort.log ++ calls ∧
      ∀ call ∈ calls, (∃ ok, call = .discard ok) ∨ ∃ f ok, call = .write f ok := by
  have key : ∀ b' : Bus, b' = (Bus.writePacket id instr n enc b).1 →
      ∃ calls, b'.serialPort.log = b.serialPort.log ++ calls ∧
      ∀ call ∈ calls, (∃ ok, call = .discard ok) ∨ ∃ f ok, call = .write f ok := by
    intro b' hb'
    rcases Bus.writePacket_split id instr n enc hb with ⟨w, o, he, ho⟩ | ⟨params, h1, h2, he⟩
    · rw [he] at hb'
      subst hb'
      exact ⟨[], by simp, by simp⟩
    · rw [he] at hb'
      rcases Bus.sendFrame_cases (frame id (codeStuff (instr :: params))) { b with
              writeBuffer := frame id (codeStuff (instr :: params)) ++
                b.writeBuffer.drop (frame id (codeStuff (instr :: params))).length
              readLen := 0
              usedBytes := 0 } with ⟨e, h2, _⟩ | ⟨dt, e, h2, _⟩ | ⟨dt, h2, _⟩
      · rw [h2] at hb'; subst hb'
        exact ⟨[.discard false], rfl, by simp⟩
      · rw [h2] at hb'; subst hb'
        exact ⟨[.discard true, .write _ false], by simp [Port.wrote, Port.discarded]; rfl, by simp⟩
      · rw [h2] at hb'; subst hb'
        exact ⟨[.discard true, .write _ true], by simp [Port.wrote, Port.discarded]; rfl, by simp⟩
  exact key _ rfl

section responses
variable {s : StatusPacket} {id e : Byte} {ps : List Byte}

theorem alert_carries (h : Carries s.packet id 0x55#8 (e :: ps)) (ε : Type) :
    s.alert (ε := ε) = .ok (decide (128 ≤ e.toNat)) := by
  obtain ⟨-, -, -, h4⟩ := carries_accessors h ε
  have h4 := (h4 e ps rfl).1
  change s.error (ε := ε) = _ at h4
  unfold StatusPacket.alert
  rw [h4, Outcome.ok_bind, Outcome.pure_eq, high_bit]

theorem status_accessors (h : Carries s.packet id 0x55#8 (e :: ps)) (ε : Type) :
    s.packetId (ε := ε) = .ok id ∧ s.error (ε := ε) = .ok e ∧ s.parameters (ε := ε) = .ok ps := by
  obtain ⟨h1, -, -, h4⟩ := carries_accessors h ε
  exact ⟨h1, h4 e ps rfl⟩

theorem decodeBytes_carries (h : Carries s.packet id 0x55#8 (e :: ps)) :
    decodeStatusPacketBytes s =
      if e.toNat % 128 = 0 then .ok ⟨id, decide (128 ≤ e.toNat), ps⟩ else .err ⟨e⟩ := by
  obtain ⟨h1, h2, h3⟩ := status_accessors h MotorError
  unfold decodeStatusPacketBytes
  rw [h2, Outcome.ok_bind, motorError_check]
  split
  · rw [Outcome.ok_bind, h1, Outcome.ok_bind, alert_carries h, Outcome.ok_bind, h3]; rfl
  · rfl

theorem decode_carries {α : Type} (d : DataTy α) (h : Carries s.packet id 0x55#8 (e :: ps)) :
    decodeStatusPacket d s =
      if e.toNat % 128 = 0 then
        ((d.decode ps).mapErr .invalidMessage >>= fun data => .ok ⟨id, decide (128 ≤ e.toNat), data⟩)
      else .err (.motorError ⟨e⟩) := by
  obtain ⟨h1, h2, h3⟩ := status_accessors h ReadError
  unfold decodeStatusPacket
  rw [h2, Outcome.ok_bind, motorError_check]
  split
  · rw [Outcome.mapErr_ok, Outcome.ok_bind, h1, Outcome.ok_bind, alert_carries h, Outcome.ok_bind, h3]; rfl
  · rfl

theorem empty_carries (h : Carries s.packet id 0x55#8 (e :: ps)) :
    s.toEmptyResponse = if ps.length = 0 then .ok ⟨id, decide (128 ≤ e.toNat), ()⟩
      else .err (.parameterCount ps.length (.exact 0)) := by
  obtain ⟨h1, h2, h3⟩ := status_accessors h InvalidMessage
  unfold StatusPacket.toEmptyResponse checkCount
  rw [h3, Outcome.ok_bind]
  split
  · rw [Outcome.ok_bind, h1, Outcome.ok_bind, alert_carries h]; rfl
  · rfl

theorem ping_carries (h : Carries s.packet id 0x55#8 (e :: ps)) :
    (∃ model firmware, ps = le16 model ++ [firmware] ∧
      Client.toPingResponse s = .ok ⟨id, decide (128 ≤ e.toNat), ⟨model, firmware⟩⟩) ∨
    (ps.length ≠ 3 ∧ Client.toPingResponse s = .err (.parameterCount ps.length (.exact 3))) := by
  obtain ⟨h1, h2, h3⟩ := status_accessors h InvalidMessage
  unfold Client.toPingResponse checkCount
  rw [h3, Outcome.ok_bind]
  by_cases hl : ps.length = 3
  · left
    rw [if_pos hl, Outcome.ok_bind, h1, Outcome.ok_bind, alert_carries h]
    match ps, hl with
    | [x, y, z], _ => exact ⟨mk16 x y, z, by rw [le16_mk16]; rfl, rfl⟩
  · right
    rw [if_neg hl]
    exact ⟨hl, rfl⟩

end responses
end Props
end Dxl
