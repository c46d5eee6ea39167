import Verif.Model.Construct
import Verif.Props.History
import Verif.Props.Response

/-! # C50: the constructors of `Client` and `Device`, and what fits their buffers -/

namespace Dxl.Props
open Dxl Spec

/-- A bus on this port that has not done anything yet: no bytes are buffered, and nothing happened to the port. -/
structure Fresh (debug : Bool) (port : Port) (readBuffer writeBuffer : List Byte) (rate : Nat) (b : Bus) : Prop where
  port : b.serialPort = port
  rate : b.baudRate = rate
  readSize : b.readBuffer.length = readBuffer.length
  writeSize : b.writeBuffer.length = writeBuffer.length
  empty : b.pending = []
  debug : b.debug = debug
  rinv : b.RInv
  winv : b.WInv

/-- What a constructor must do, given the port, if any, and the baud rate, if it is known: return a fresh bus exactly if
there is a port and a rate and the write buffer holds at least an empty packet; otherwise return the error of the port,
or panic because of the buffer. -/
def Constructs (debug : Bool) (port : Outcome IoErr (Port × Nat)) (readBuffer writeBuffer : List Byte)
    (made : Outcome IoErr Bus) : Prop :=
  (∀ p rate, port = .ok (p, rate) → 10 ≤ writeBuffer.length →
    ∃ b, made = .ok b ∧ Fresh debug p readBuffer writeBuffer rate b) ∧
  (∀ p rate, port = .ok (p, rate) → writeBuffer.length < 10 → made = .panic) ∧
  (∀ e, port = .err e → made = .err e)

/-- An opened port, used with this rate. -/
def openedAt (opened : Outcome IoErr Port) (rate : Nat) : Outcome IoErr (Port × Nat) :=
  match opened with
  | .ok p => .ok (p, rate)
  | .err e => .err e
  | .panic => .panic
  | .hang => .hang

/-- A port that is asked for its rate. -/
def askedRate (p : Port) : Outcome IoErr (Port × Nat) :=
  match p.rateErr with
  | none => .ok (p, p.rate)
  | some e => .err e

theorem withRate_constructs {debug : Bool} {p : Port} {readBuffer writeBuffer : List Byte} {rate : Nat} :
    (10 ≤ writeBuffer.length → ∃ b, Bus.withBuffersAndBaudRate (ε := IoErr) debug p readBuffer writeBuffer rate = .ok b ∧
      Fresh debug p readBuffer writeBuffer rate b) ∧
    (writeBuffer.length < 10 → Bus.withBuffersAndBaudRate (ε := IoErr) debug p readBuffer writeBuffer rate = .panic) := by
  constructor
  · intro h
    have he : Bus.withBuffersAndBaudRate (ε := IoErr) debug p readBuffer writeBuffer rate =
        .ok { serialPort := p, baudRate := rate, readBuffer := readBuffer, readLen := 0, usedBytes := 0,
              writeBuffer := headerPrefix ++ writeBuffer.drop 4, debug := debug } := by
      unfold Bus.withBuffersAndBaudRate
      rw [if_pos (by simpa [headerSize] using h)]
    obtain ⟨h1, h2, h3, h4, h5⟩ := withBuffersAndBaudRate_ok he
    exact ⟨_, he, h2, h3, by rw [h4], h5, by simp [Bus.pending], rfl, h1.rInv, h1.wInv⟩
  · intro h
    unfold Bus.withBuffersAndBaudRate
    rw [if_neg (by simp [headerSize]; omega)]

theorem opened_constructs {debug : Bool} {readBuffer writeBuffer : List Byte} (opened : Outcome IoErr Port) (rate : Nat) :
    Constructs debug (openedAt opened rate) readBuffer writeBuffer
      (opened >>= fun p => Bus.withBuffersAndBaudRate debug p readBuffer writeBuffer rate) := by
  cases opened with
  | ok p =>
    refine ⟨fun q r h hl => ?_, fun q r h hl => ?_, fun e h => ?_⟩
    · obtain ⟨rfl, rfl⟩ := Prod.mk.inj (Outcome.ok.inj h); exact withRate_constructs.1 hl
    · obtain ⟨rfl, rfl⟩ := Prod.mk.inj (Outcome.ok.inj h); exact withRate_constructs.2 hl
    · cases h
  | err e =>
    refine ⟨fun _ _ h => (by cases h), fun _ _ h => (by cases h), fun e' h => ?_⟩
    cases h
    rfl
  | panic | hang => exact ⟨fun _ _ h => (by cases h), fun _ _ h => (by cases h), fun _ h => (by cases h)⟩

theorem asked_constructs {debug : Bool} {readBuffer writeBuffer : List Byte} (p : Port) :
    Constructs debug (askedRate p) readBuffer writeBuffer (Bus.withBuffers debug p readBuffer writeBuffer) := by
  unfold askedRate Bus.withBuffers Port.baudRate
  cases p.rateErr with
  | none =>
    refine ⟨fun q r h hl => ?_, fun q r h hl => ?_, fun e h => by cases h⟩
    · obtain ⟨rfl, rfl⟩ := Prod.mk.inj (Outcome.ok.inj h); exact withRate_constructs.1 hl
    · obtain ⟨rfl, rfl⟩ := Prod.mk.inj (Outcome.ok.inj h); exact withRate_constructs.2 hl
  | some e =>
    refine ⟨fun _ _ h => (by cases h), fun _ _ h => (by cases h), fun e' h => ?_⟩
    cases h
    rfl

/-- **C50** All constructors, of `Client` and of `Device`, with buffers given or with the default of 128 bytes each. -/
theorem c50_constructors (debug : Bool) (opened : Outcome IoErr Port) (p : Port) (rate : Nat) (rb wb : List Byte) :
    Constructs debug (openedAt opened rate) (List.replicate 128 0#8) (List.replicate 128 0#8) (Client.open debug opened rate) ∧
    Constructs debug (openedAt opened rate) rb wb (Client.openWithBuffers debug opened rate rb wb) ∧
    Constructs debug (askedRate p) (List.replicate 128 0#8) (List.replicate 128 0#8) (Client.new debug p) ∧
    Constructs debug (askedRate p) rb wb (Client.withBuffers debug p rb wb) ∧
    Constructs debug (openedAt opened rate) (List.replicate 128 0#8) (List.replicate 128 0#8) (Device.open debug opened rate) ∧
    Constructs debug (openedAt opened rate) rb wb (Device.openWithBuffers debug opened rate rb wb) ∧
    Constructs debug (askedRate p) (List.replicate 128 0#8) (List.replicate 128 0#8) (Device.new debug p) ∧
    Constructs debug (askedRate p) rb wb (Device.withBuffers debug p rb wb) := by
  refine ⟨opened_constructs _ _, opened_constructs _ _, ?_, ?_, opened_constructs _ _, opened_constructs _ _, ?_, ?_⟩
  · exact asked_constructs _
  · exact asked_constructs _
  · exact asked_constructs _
  · exact asked_constructs _

/-- Data without `FF FF FD` is not changed by stuffing. -/
theorem stuff_of_no_infix {d : List Byte} (h : ¬ [0xFF#8, 0xFF#8, 0xFD#8] <:+: d) : stuff d = d := by
  induction d with
  | nil => rfl
  | cons a d ih =>
    rw [stuff_cons_of_ne, ih (fun hh => h (hh.trans (List.suffix_cons a d).isInfix))]
    rintro ⟨rfl, hd⟩
    refine h ⟨[], d.drop 2, ?_⟩
    have := List.take_append_drop 2 d
    rw [hd] at this
    rw [← this]
    rfl

theorem unstuffs_length {wire body : List Byte} (h : Unstuffs wire body) : body.length ≤ wire.length := by
  rw [unstuffs_iff] at h
  rw [← h]
  exact unstuffGo_length _ _

/-- **C50** No call can read more parameters than fit the read buffer in one packet: `read_bytes` succeeds only for a count
of at most 11 less than its size. -/
theorem c50_read_limit {b c : Bus} {id : Byte} {address count : U16} {r : Response (List Byte)} (hb : b.WInv)
    (hbaud : b.baudRate < 2 ^ 32) (h : Client.readBytes id address count b = (c, .ok r)) :
    count.toNat + 11 ≤ b.readBuffer.length := by
  obtain ⟨e, ⟨wire, calls, ns, rest, -, -, -, -, ⟨g, wire', -, -, -, hfit, hun⟩, -⟩, -, hl, -⟩ := c30_read_bytes hb hbaud h
  have := unstuffs_length hun
  rw [Bus.frame_length] at hfit
  simp only [List.length_cons] at this
  omega

/-- **C50** `write_bytes` and `reg_write_bytes` of more than 12 bytes less than the size of the write buffer do nothing but
report the size that is needed. -/
theorem c50_write_limit {b : Bus} (id : Byte) (address : U16) (data : List Byte)
    (h : b.writeBuffer.length < data.length + 12) :
    Client.writeBytes id address data b = (b, .err (.writeError (.bufferTooSmall ⟨data.length + 12, b.writeBuffer.length⟩))) ∧
    Client.regWriteBytes id address data b =
      (b, .err (.writeError (.bufferTooSmall ⟨data.length + 12, b.writeBuffer.length⟩))) := by
  have key : ∀ instr enc, Client.instruct id instr (2 + data.length) enc b =
      (b, .err (.writeError (.bufferTooSmall ⟨data.length + 12, b.writeBuffer.length⟩))) := by
    intro instr enc
    unfold Client.instruct
    refine SO.bind_err (s' := b) ?_ _
    rw [SO.mapErr_apply]
    unfold Client.writeInstruction Bus.writeInstruction
    rw [Bus.writePacket_too_small _ _ _ _ _ (by omega), show 2 + data.length + 10 = data.length + 12 by omega]
    rfl
  exact ⟨key _ _, key _ _⟩

/-- A bus with the default buffers, after any calls. -/
def DefaultBus (b : Bus) : Prop :=
  ∃ debug port made ops, b = history made ops ∧
    (Client.new debug port = .ok made ∨ Device.new debug port = .ok made ∨
      ∃ rate, Client.open debug (.ok port) rate = .ok made ∨ Device.open debug (.ok port) rate = .ok made)

theorem defaultBus_sizes {b : Bus} (h : DefaultBus b) :
    b.readBuffer.length = 128 ∧ b.writeBuffer.length = 128 ∧ b.RInv ∧ b.WInv := by
  obtain ⟨debug, port, made, ops, rfl, h⟩ := h
  have key : ∀ {o : Outcome IoErr (Port × Nat)} {m : Outcome IoErr Bus},
      Constructs debug o (List.replicate 128 0#8) (List.replicate 128 0#8) m → m = .ok made → (∃ p, o = .ok p) ∨ (∃ e, o = .err e) →
      (history made ops).readBuffer.length = 128 ∧ (history made ops).writeBuffer.length = 128 ∧
        (history made ops).RInv ∧ (history made ops).WInv := by
    intro o m hc hm ho
    subst hm
    rcases ho with ⟨⟨p, r⟩, rfl⟩ | ⟨e, rfl⟩
    · obtain ⟨b, hb, hf⟩ := hc.1 p r rfl (by simp)
      cases hb
      have hs := history_step ops ⟨hf.rinv, hf.winv⟩
      exact ⟨by rw [hs.readSize, hf.readSize]; simp, by rw [hs.writeSize, hf.writeSize]; simp, hs.inv.rInv, hs.inv.wInv⟩
    · have := hc.2.2 e rfl
      cases this
  have hasked : (∃ p, askedRate port = .ok p) ∨ ∃ e, askedRate port = .err e := by
    unfold askedRate
    cases port.rateErr <;> simp
  obtain ⟨c1, -, c3, -, -, -, c7, -⟩ := c50_constructors debug (.ok port) port 0 [] []
  rcases h with h | h | ⟨rate, h | h⟩
  · exact key c3 h hasked
  · exact key c7 h hasked
  · exact key (c50_constructors debug (.ok port) port rate [] []).1 h (.inl ⟨_, rfl⟩)
  · exact key (c50_constructors debug (.ok port) port rate [] []).2.2.2.2.1 h (.inl ⟨_, rfl⟩)

/-- **C50** With the default buffers, whatever was done before: more than 117 bytes can not be read at once, more than 116
can not be written, and up to 86 can be written whatever they are. -/
theorem c50_default_limits {b : Bus} (h : DefaultBus b) (id : Byte) (address : U16) :
    (∀ count c r, b.baudRate < 2 ^ 32 → Client.readBytes id address count b = (c, .ok r) → count.toNat ≤ 117) ∧
    (∀ data : List Byte, 116 < data.length →
      Client.writeBytes id address data b = (b, .err (.writeError (.bufferTooSmall ⟨data.length + 12, 128⟩)))) ∧
    (∀ data : List Byte, data.length ≤ 86 → b.serialPort.SendOk →
      ∃ c, Client.writeInstruction id 0x03#8 (2 + data.length) (Client.writeBytesEncoder address data) b = (c, .ok ())) := by
  obtain ⟨h1, h2, -, h4⟩ := defaultBus_sizes h
  refine ⟨fun count c r hb hr => ?_, fun data hd => ?_, fun data hd hs => ?_⟩
  · have := c50_read_limit h4 hb hr
    omega
  · have := (c50_write_limit (b := b) id address data (by omega)).1
    rw [h2] at this
    exact this
  · exact write_room h4 (Client.writeBytesEncoder_fills address data) hs ⟨by omega, by omega⟩

/-- **C50** These limits are sharp: with the default buffers, `read_bytes` of up to 117 bytes returns every answer that
needs no stuffing, and a write of up to 116 bytes is sent, if its body needs none. -/
theorem c50_default_sharp {b : Bus} (h : DefaultBus b) {id : Byte} {address : U16} (hs : b.serialPort.SendOk)
    (hbaud : b.baudRate < 2 ^ 32) (h0 : b.baudRate ≠ 0) :
    (∀ (count : U16) (ps g rest : List Byte) (ns : Nat), count.toNat ≤ 117 → ps.length = count.toNat →
      ¬ [0xFF#8, 0xFF#8, 0xFD#8] <:+: 0x55#8 :: 0#8 :: ps → ¬ header <:+: g →
      LeastTime (11 + count.toNat) b.baudRate ns →
      arriving (b.serialPort.now + b.serialPort.writeTime + (ns + 34000000)) (newInput b.serialPort) =
        g ++ frame id (0x55#8 :: 0#8 :: ps) ++ rest →
      (Client.readBytes id address count b).2 = .ok ⟨id, false, ps⟩) ∧
    (∀ data : List Byte, data.length ≤ 116 → ¬ [0xFF#8, 0xFF#8, 0xFD#8] <:+: (Request.write address data).body →
      ∃ c, Client.writeInstruction id 0x03#8 (2 + data.length) (Client.writeBytesEncoder address data) b = (c, .ok ()) ∧
        Sent b c (frame id (Request.write address data).body)) := by
  obtain ⟨h1, h2, h3, h4⟩ := defaultBus_sizes h
  refine ⟨fun count ps g rest ns hc hl hst hg hns ha => ?_, fun data hd hst => ?_⟩
  · have hun : Unstuffs (0x55#8 :: 0#8 :: ps) (0x55#8 :: 0#8 :: ps) := by
      have hr : RunsOk (0x55#8 :: 0#8 :: ps) := runsOk_of_no_infix (fun hh => hst (List.IsInfix.trans ⟨[0xFF#8], [], rfl⟩ hh))
      have := (c06_unstuff_conforming_partial (0x55#8 :: 0#8 :: ps)).mpr hr
      rwa [stuff_of_no_infix hst, c06_unstuff_exact_partial] at this
    have := c30_read_bytes_complete (b := b) (id := id) (rid := id) (e := 0#8) (address := address) (count := count) (ps := ps)
      ⟨h4, hbaud, h0, hs, ⟨by omega, by omega⟩, ns, rest, hns, g, _, ha, hg, by simp only [List.length_cons]; omega,
        by rw [Bus.frame_length, h1]; simp only [List.length_cons]; omega, hun⟩
    rw [this]
    simp [answer, hl]
  · have hf := Client.writeBytesEncoder_fills address data
    have hcs : codeStuff (0x03#8 :: (le16 address ++ data)) = (Request.write address data).body := by
      have : (Request.write address data).body = 0x03#8 :: (le16 address ++ data) := rfl
      rw [← this]
      have hr : RunsOk (Request.write address data).body := runsOk_of_no_infix (fun hh => hst (List.IsInfix.trans ⟨[0xFF#8], [], rfl⟩ hh))
      rw [(codeStuff_eq_stuff _).mpr hr, stuff_of_no_infix hst]
    have hlen : (Request.write address data).body.length = data.length + 3 := by
      simp [Request.body, Request.parameters, le16]
    obtain ⟨c, hc⟩ := Bus.writeInstruction_fits (id := id) (instr := 0x03#8) h4 hf hs (by omega)
      (by rw [hcs, hlen]; omega) (by rw [hcs, hlen]; omega)
    refine ⟨c, hc, ?_⟩
    obtain ⟨params, wire, he, hw, hsent⟩ := c08_instruction_layout h4 hc
    obtain ⟨old, ho, he⟩ := he
    rw [hf _ ho] at he
    simp only [Prod.mk.injEq] at he
    rw [stuffedForm_iff, ← he.1, hcs] at hw
    rw [← hw]
    exact hsent

set_option maxRecDepth 10000 in
/-- A constructed client: 9600 baud, some pending input at the port. -/
example : ∃ b, Client.open true (.ok { quietPort with rx := [.data 0 [1#8]] }) 9600 = .ok b ∧ b.baudRate = 9600 ∧
    b.readBuffer.length = 128 ∧ b.serialPort.rx = [.data 0 [1#8]] ∧ b.serialPort.log = [] :=
  ⟨_, rfl, rfl, rfl, rfl, rfl⟩

example : Device.withBuffers false { quietPort with rateErr := some (.other 5) } [] (List.replicate 9 0#8) = .err (.other 5) ∧
    Device.withBuffers false quietPort [] (List.replicate 9 0#8) = .panic := ⟨rfl, rfl⟩

set_option maxRecDepth 10000 in
/-- A client of the default size on a port without input refuses to write 117 bytes. -/
example : ∃ b, DefaultBus b ∧ (Client.writeBytes 1#8 0#16 (List.replicate 117 0#8) b).2 =
    .err (.writeError (.bufferTooSmall ⟨129, 128⟩)) :=
  ⟨_, ⟨true, quietPort, _, [], rfl, .inl rfl⟩, by decide +kernel⟩

/-! Each theorem with hypotheses on a concrete case. -/

example := c50_read_limit (id := 1#8) (address := 132#16) (count := 4#16) (r := ⟨1#8, false, [0xA6#8, 0#8, 0#8, 0#8]⟩)
  sampleAnswer_wInv (by decide) (pair_eq (by decide +kernel))

/-- 33 bytes in a buffer of 44. -/
example := c50_write_limit (b := quietBus true 40) 1#8 116#16 (List.replicate 33 7#8) (by decide)

/-- A client of the default size. -/
def defaultClient : Bus :=
  { serialPort := quietPort, baudRate := 57600, readBuffer := defaultBuffer, readLen := 0, usedBytes := 0,
    writeBuffer := headerPrefix ++ defaultBuffer.drop 4, debug := true }

set_option maxRecDepth 10000 in
theorem defaultClient_default : DefaultBus defaultClient := ⟨true, quietPort, _, [], rfl, .inl rfl⟩

example := c50_default_limits defaultClient_default 1#8 116#16

example := c50_default_sharp (id := 1#8) (address := 116#16) defaultClient_default
  ⟨by simp [defaultClient, quietPort], by simp [defaultClient, quietPort]⟩ (by decide) (by decide)

end Dxl.Props
