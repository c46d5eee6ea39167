import Verif.Props.Response

/-! # C34 - C38, C46: what the instruction methods send

`Spec.Request.body` says what the protocol asks for. -/

namespace Dxl.Props
open Spec

/-- Between the states `b` and `c` an instruction packet with this body was sent to `id`, and after that the serial port was
only read. -/
def SentBody (b c : Bus) (id : Byte) (body : List Byte) : Prop :=
  ∃ wire calls, StuffedForm body wire ∧
    c.serialPort.log = b.serialPort.log ++ [.discard true, .write (frame id wire) true] ++ calls ∧
    ∀ call ∈ calls, ∃ cap D, call = .read cap D

/-- `m` succeeds in sending this body to this ID, in every state in which the packet fits and the port accepts it, and with
any response, or none. Without success at sending, no packet is written completely. -/
def Sends {ε α : Type} (m : SO Bus ε α) (id : Byte) (body : List Byte) : Prop :=
  ∀ b : Bus, b.WInv → b.baudRate < 2 ^ 32 →
    (b.serialPort.SendOk → Room b (body.length - 1) → SentBody b (m b).1 id body) ∧
    ((∃ a, (m b).2 = .ok a) → SentBody b (m b).1 id body) ∧
    ∀ c o, m b = (c, o) → SentBody b c id body ∨
      ∃ calls, c.serialPort.log = b.serialPort.log ++ calls ∧ ∀ call ∈ calls, ∀ f, call ≠ .write f true ∧ ∀ cap D, call ≠ .read cap D

/-- A response is only read. -/
theorem readStatusResponse_calls {b : Bus} (hb : b.RInv) (hbaud : b.baudRate < 2 ^ 32) (n : U16) :
    ∃ calls, (Client.readStatusResponse n b).1.serialPort.log = b.serialPort.log ++ calls ∧
      ∀ call ∈ calls, ∃ cap D, call = .read cap D := by
  by_cases h0 : b.baudRate = 0
  · rw [readStatusResponse_zero h0]
    exact ⟨[], by simp, by simp⟩
  · obtain ⟨ns, calls, -, -, h1, h2⟩ := c21_response_timeout hb h0 hbaud n
    exact ⟨calls, h1, fun c hc => by obtain ⟨cap, -, h⟩ := h2 c hc; exact ⟨cap, _, h⟩⟩

theorem writeInstruction_sentBody {b b₁ : Bus} {id instr : Byte} {n : Nat} {enc : Encoder} {params : List Byte} (hb : b.WInv)
    (hp : Fills enc.run n params) (h : Bus.writeInstruction id instr n enc b = (b₁, .ok ())) :
    SentBody b b₁ id (instr :: params) := by
  obtain ⟨params', wire, h1, h2, h3, h4⟩ := afterSend hb h
  rw [hp _ h2] at h1
  simp only [Prod.mk.injEq, and_true] at h1
  subst h1
  exact ⟨wire, [], h3, by rw [List.append_nil]; exact h4.sent, by simp⟩

/-- Failing `write_instruction`: nothing was written with success. -/
theorem writeInstruction_fails {b b₁ : Bus} {id instr : Byte} {n : Nat} {enc : Encoder} {o : Outcome WriteError Unit}
    (hb : b.WInv) (h : Bus.writeInstruction id instr n enc b = (b₁, o)) (ho : o ≠ .ok ()) :
    ∃ calls, b₁.serialPort.log = b.serialPort.log ++ calls ∧
      ∀ call ∈ calls, ∀ f, call ≠ .write f true ∧ ∀ cap D, call ≠ .read cap D := by
  have h' : Bus.writePacket id instr n enc b = (b₁, o) := h
  rcases Bus.writePacket_split id instr n enc hb with ⟨w, o', he, -⟩ | ⟨params, h1, h2, he⟩
  · rw [he] at h'
    simp only [Prod.mk.injEq] at h'
    rw [← h'.1]
    exact ⟨[], by simp, by simp⟩
  · rw [he] at h'
    rcases Bus.sendFrame_cases (frame id (codeStuff (instr :: params))) { b with
            writeBuffer := frame id (codeStuff (instr :: params)) ++
              b.writeBuffer.drop (frame id (codeStuff (instr :: params))).length
            readLen := 0
            usedBytes := 0 } with ⟨e, h2, _⟩ | ⟨dt, e, h2, _⟩ | ⟨dt, h2, _⟩
    · rw [h2] at h'
      simp only [Prod.mk.injEq] at h'
      rw [← h'.1]
      exact ⟨[.discard false], rfl, by simp⟩
    · rw [h2] at h'
      simp only [Prod.mk.injEq] at h'
      rw [← h'.1]
      exact ⟨[.discard true, .write _ false], by simp [Port.wrote, Port.discarded]; rfl, by simp⟩
    · rw [h2] at h'
      simp only [Prod.mk.injEq] at h'
      exact absurd h'.2.symm ho

theorem writeInstruction_sends {id instr : Byte} {n : Nat} {enc : Encoder} {params : List Byte} (hp : Fills enc.run n params) :
    Sends (Client.writeInstruction id instr n enc) id (instr :: params) := by
  intro b hb hbaud
  have hl := hp.length
  refine ⟨?_, ?_, ?_⟩
  · intro hs hroom
    simp only [List.length_cons, Nat.add_sub_cancel, hl] at hroom
    obtain ⟨b', h⟩ := write_room (id := id) (instr := instr) hb hp hs hroom
    unfold Client.writeInstruction
    rw [h]
    exact writeInstruction_sentBody hb hp h
  · rintro ⟨a, ha⟩
    exact writeInstruction_sentBody (b₁ := (Client.writeInstruction id instr n enc b).1) hb hp (Prod.ext rfl ha)
  · intro c o h
    cases o with
    | ok u => exact .inl (writeInstruction_sentBody hb hp h)
    | _ => exact .inr (writeInstruction_fails hb h (by simp))

/-- Sending, followed by something that only reads. -/
theorem sends_then {ε α : Type} {id instr : Byte} {n : Nat} {enc : Encoder} {params : List Byte} {m : SO Bus ε α}
    {f : WriteError → ε} (hp : Fills enc.run n params)
    (hm : ∀ b : Bus, b.RInv → b.baudRate < 2 ^ 32 → ∃ calls, (m b).1.serialPort.log = b.serialPort.log ++ calls ∧
      ∀ call ∈ calls, ∃ cap D, call = .read cap D) :
    Sends (do (Client.writeInstruction id instr n enc).mapErr f; m) id (instr :: params) := by
  have hsent : ∀ b b₁ : Bus, b.WInv → b.baudRate < 2 ^ 32 → Bus.writeInstruction id instr n enc b = (b₁, .ok ()) →
      SentBody b ((do (Client.writeInstruction id instr n enc).mapErr f; m : SO Bus ε α) b).1 id (instr :: params) := by
    intro b b₁ hb hbaud h
    have h' : (Client.writeInstruction id instr n enc).mapErr f b = (b₁, .ok ()) := SO.mapErr_eq_ok.mpr h
    rw [SO.bind_ok h']
    obtain ⟨wire, calls, h1, h2, h3⟩ := writeInstruction_sentBody hb hp h
    obtain ⟨_, _, _, _, _, ha⟩ := afterSend hb h
    obtain ⟨calls', h4, h5⟩ := hm b₁ ha.rinv (ha.baudRate ▸ hbaud)
    refine ⟨wire, calls ++ calls', h1, by rw [h4, h2]; simp, ?_⟩
    intro call hc
    rcases List.mem_append.mp hc with hc | hc
    · exact h3 _ hc
    · exact h5 _ hc
  intro b hb hbaud
  have hl := hp.length
  refine ⟨?_, ?_, ?_⟩
  · intro hs hroom
    simp only [List.length_cons, Nat.add_sub_cancel, hl] at hroom
    obtain ⟨b', h⟩ := write_room (id := id) (instr := instr) hb hp hs hroom
    exact hsent b b' hb hbaud h
  · rintro ⟨a, ha⟩
    obtain ⟨b₁, _, h1, -⟩ := SO.bind_eq_ok.mp (Prod.ext (rfl : _ = ((do (Client.writeInstruction id instr n enc).mapErr f; m : SO Bus ε α) b).1) ha)
    exact hsent b b₁ hb hbaud (SO.mapErr_eq_ok.mp h1)
  · intro c o h
    rcases hw : Bus.writeInstruction id instr n enc b with ⟨b₁, o₁⟩
    have hw' : (Client.writeInstruction id instr n enc).mapErr f b = (b₁, o₁.mapErr f) := by
      rw [SO.mapErr_apply]; unfold Client.writeInstruction; rw [hw]
    cases o₁ with
    | ok u =>
      have := hsent b b₁ hb hbaud hw
      rw [h] at this
      exact .inl this
    | err e =>
      rw [SO.bind_err hw'] at h
      simp only [Prod.mk.injEq] at h
      exact .inr (h.1 ▸ writeInstruction_fails hb hw (by simp))
    | panic =>
      rw [SO.bind_panic hw'] at h
      simp only [Prod.mk.injEq] at h
      exact .inr (h.1 ▸ writeInstruction_fails hb hw (by simp))
    | hang =>
      rw [SO.bind_hang hw'] at h
      simp only [Prod.mk.injEq] at h
      exact .inr (h.1 ▸ writeInstruction_fails hb hw (by simp))

theorem SO.bind_log {ε α β : Type} {m : SO Bus ε α} {f : α → SO Bus ε β} (hf : ∀ a b, (f a b).1 = b) (b : Bus) :
    ((m >>= f) b).1 = (m b).1 := by
  rw [SO.bind_def]
  rcases m b with ⟨b', o⟩
  cases o <;> simp [hf]

/-- Code that only looks at what was read before. -/
theorem Sends.bind {ε α β : Type} {m : SO Bus ε α} {f : α → SO Bus ε β} {id : Byte} {body : List Byte} (h : Sends m id body)
    (hf : ∀ a b, (f a b).1 = b) : Sends (m >>= f) id body := by
  intro b hb hbaud
  obtain ⟨h1, h2, h3⟩ := h b hb hbaud
  refine ⟨?_, ?_, ?_⟩
  · rw [SO.bind_log hf]; exact h1
  · rintro ⟨a, ha⟩
    rw [SO.bind_log hf]
    obtain ⟨b₁, x, hx, -⟩ := SO.bind_eq_ok.mp (Prod.ext (rfl : _ = ((m >>= f) b).1) ha)
    exact h2 ⟨x, by rw [hx]⟩
  · intro c o hc
    have := SO.bind_log (m := m) hf b
    rw [hc] at this
    rcases hm : m b with ⟨b', o'⟩
    rw [hm] at this
    dsimp only at this
    subst this
    exact h3 _ _ hm

theorem instruct_sends {id instr : Byte} {n : Nat} {enc : Encoder} {params : List Byte} (hp : Fills enc.run n params) :
    Sends (Client.instruct id instr n enc) id (instr :: params) := by
  refine sends_then hp fun b hb hbaud => ?_
  rw [SO.mapErr_apply]
  unfold Client.readResponseIfNotBroadcast
  by_cases hid : id = broadcast
  · rw [if_pos hid]; exact ⟨[], by simp, by simp⟩
  · rw [if_neg hid]
    dsimp only
    rw [SO.bind_log fun _ _ => rfl]
    exact readStatusResponse_calls hb hbaud _

theorem transferSingle_sends {id instr : Byte} {n : Nat} {exp : U16} {enc : Encoder} {params : List Byte}
    (hp : Fills enc.run n params) : Sends (Client.transferSingle id instr n exp enc) id (instr :: params) := by
  refine sends_then hp fun b hb hbaud => ?_
  rw [SO.bind_log]
  · rw [SO.mapErr_apply]
    exact readStatusResponse_calls hb hbaud _
  · intro s b
    rw [SO.bind_log]
    · rfl
    · intro a b
      rw [SO.bind_log fun _ _ => rfl]
      rfl

theorem readRaw_sends (id : Byte) (address count : U16) :
    Sends (Client.readRaw id address count) id (Request.read address count).body := by
  refine (transferSingle_sends (Client.readEncoder_fills address count)).bind fun s b => ?_
  rw [SO.bind_log]
  · rfl
  · intro a b
    rw [SO.bind_log fun _ _ => rfl]
    rfl

/-- The kinds of factory reset of the crate and of the protocol. -/
def resetKind : Client.FactoryResetKind → ResetKind
  | .resetAll => .resetAll
  | .keepId => .keepId
  | .keepIdAndBaudRate => .keepIdAndBaudRate

/-- C46 in full, for the instructions of fixed form. -/
def C46_statement : Prop :=
  ∀ id : Byte, Sends (Client.ping id) id Request.ping.body ∧ Sends Client.scan 0xFE#8 Request.ping.body ∧
    (∀ address count, Sends (Client.readBytes id address count) id (Request.read address count).body) ∧
    (∀ address data, Sends (Client.writeBytes id address data) id (Request.write address data).body) ∧
    Sends (Client.action id) id Request.action.body ∧
    (∀ kind, Sends (Client.factoryReset id kind) id (Request.factoryReset (resetKind kind)).body) ∧
    Sends (Client.reboot id) id Request.reboot.body ∧
    Sends (Client.clearRevolutionCounter id) id Request.clearRevolutionCount.body ∧
    Sends (Client.clearError id) id Request.clearError.body

/-- **C46** Ping, scan and the reads. -/
theorem c46_ping_partial (id : Byte) : Sends (Client.ping id) id Request.ping.body :=
  (transferSingle_sends Client.nothing_fills).bind fun _ _ => rfl

theorem c46_scan_partial : Sends Client.scan 0xFE#8 Request.ping.body := writeInstruction_sends Client.nothing_fills

theorem c46_read_bytes_partial (id : Byte) (address count : U16) :
    Sends (Client.readBytes id address count) id (Request.read address count).body :=
  (readRaw_sends id address count).bind fun _ _ => rfl

theorem c46_read_partial {α : Type} (d : DataTy α) (id : Byte) (address : U16) :
    Sends (Client.read d id address) id (Request.read address d.size).body :=
  (readRaw_sends id address d.size).bind fun _ _ => rfl

/-- **C46** Writes. -/
theorem c46_write_bytes_partial (id : Byte) (address : U16) (data : List Byte) :
    Sends (Client.writeBytes id address data) id (Request.write address data).body :=
  instruct_sends (Client.writeBytesEncoder_fills address data)

theorem c46_write_partial {α : Type} {d : DataTy α} {valid : α → Prop} {f : α → List Byte} (hd : ImplData d valid f) (id : Byte)
    (address : U16) {v : α} (hv : valid v) : Sends (Client.write d id address v) id (Request.write address (f v)).body :=
  instruct_sends (Client.writeEncoder_fills (c28_round_trip_partial d valid f hd) address hv)

theorem c46_reg_write_bytes_partial (id : Byte) (address : U16) (data : List Byte) :
    Sends (Client.regWriteBytes id address data) id (Request.regWrite address data).body :=
  instruct_sends (Client.writeBytesEncoder_fills address data)

/-- **C46** Instructions with constant parameters. -/
theorem c46_action_partial (id : Byte) : Sends (Client.action id) id Request.action.body ∧
    Sends Client.broadcastAction 0xFE#8 Request.action.body :=
  ⟨instruct_sends Client.nothing_fills, writeInstruction_sends Client.nothing_fills⟩

theorem c46_reboot_partial (id : Byte) : Sends (Client.reboot id) id Request.reboot.body ∧
    Sends Client.broadcastReboot 0xFE#8 Request.reboot.body :=
  ⟨instruct_sends Client.nothing_fills, writeInstruction_sends Client.nothing_fills⟩

theorem c46_factory_reset_partial (id : Byte) (kind : Client.FactoryResetKind) :
    Sends (Client.factoryReset id kind) id (Request.factoryReset (resetKind kind)).body ∧
    Sends (Client.broadcastFactoryReset kind) 0xFE#8 (Request.factoryReset (resetKind kind)).body := by
  have h := Client.factoryResetEncoder_fills kind
  cases kind <;> exact ⟨instruct_sends h, writeInstruction_sends h⟩

theorem c46_clear_revolution_counter_partial (id : Byte) :
    Sends (Client.clearRevolutionCounter id) id Request.clearRevolutionCount.body ∧
    Sends Client.broadcastClearRevolutionCounter 0xFE#8 Request.clearRevolutionCount.body :=
  ⟨instruct_sends (Client.constEncoder_fills _), writeInstruction_sends (Client.constEncoder_fills _)⟩

/-- **C46** `clear_error` sends parameters no instruction of the protocol has. -/
theorem c46_clear_error_partial (id : Byte) :
    Sends (Client.clearError id) id [0x10#8, 0x01#8, 0x45#8, 0x52#8, 0x43#8, 0x4C#8] ∧
    Sends Client.broadcastClearError 0xFE#8 [0x10#8, 0x01#8, 0x45#8, 0x52#8, 0x43#8, 0x4C#8] :=
  ⟨instruct_sends (Client.constEncoder_fills _), writeInstruction_sends (Client.constEncoder_fills _)⟩

/-- **C46** is false as stated, because of `clear_error`. -/
theorem c46_refuted : ¬ C46_statement := by
  intro h
  have h1 := ((h 1#8).2.2.2.2.2.2.2.2 (quietBus true 40) (quietBus_wInv true 40 (by decide)) (by decide)).1
    ⟨by simp [quietBus, quietPort], by simp [quietBus, quietPort]⟩ ⟨by decide, by decide⟩
  obtain ⟨wire, calls, hw, hlog, -⟩ := h1
  rw [stuffedForm_iff] at hw
  subst hw
  have h2 : (Client.clearError 1#8 (quietBus true 40)).1.serialPort.log.take 2 =
      [.discard true, .write (frame 1#8 [0x10#8, 0x01#8, 0x45#8, 0x52#8, 0x43#8, 0x4C#8]) true] := by decide +kernel
  rw [hlog] at h2
  revert h2
  simp [quietBus, quietPort]
  decide +kernel

/-- **C46** `sync_read`. -/
theorem c46_sync_read_partial (ids : List Byte) (address count : U16) :
    Sends (Client.syncReadBytes ids address count) 0xFE#8 (Request.syncRead address count ids).body ∧
    ∀ {α : Type} (d : DataTy α),
      Sends (Client.syncRead d ids address) 0xFE#8 (Request.syncRead address d.size ids).body :=
  ⟨writeInstruction_sends (Client.syncReadEncoder_fills address count ids),
    fun d => writeInstruction_sends (Client.syncReadEncoder_fills address d.size ids)⟩

/-- If the parameters can not be encoded, nothing happens except in the write buffer. -/
theorem write_encoder_fails {b : Bus} {id instr : Byte} {n : Nat} {enc : Encoder} {o : Outcome BufferTooSmall Unit}
    (hb : b.WInv) (hn : n + 10 ≤ b.writeBuffer.length) (h : ∀ s : List Byte, s.length = n → (enc.run s).2 = o) (ho : o ≠ .ok ()) :
    ∃ w, Client.writeInstruction id instr n enc b = ({ b with writeBuffer := w }, o.mapErr .bufferTooSmall) := by
  have h1 := Bus.writePacket_encode id instr n enc b hb hn
  have h2 := h _ (Bus.paramSlice_length hn)
  unfold Client.writeInstruction Bus.writeInstruction
  rw [h1]
  rcases hr : enc.run (b.paramSlice n) with ⟨params, o'⟩
  rw [hr] at h2
  dsimp only at h2
  subst h2
  cases o' with
  | ok u => exact absurd rfl ho
  | _ => exact ⟨_, rfl⟩

/-- Encoding into what is left of a slice that is too short. -/
theorem encode_short {α : Type} {d : DataTy α} {valid : α → Prop} {f : α → List Byte} (hc : Codec d valid f) {v : α}
    (hv : valid v) {k : Nat} {l : List Byte} (hk : k ≤ l.length) (h : l.length - k < d.size.toNat) :
    ∃ t, onSliceFrom k (d.encode v) l = (t, .err ⟨d.size.toNat, l.length - k⟩) := by
  unfold onSliceFrom
  rw [onSlice_ok _ hk (Nat.le_refl _), List.take_length, hc.short v hv _ (by rw [List.length_drop]; omega), List.length_drop]
  exact ⟨_, rfl⟩

/-! ## C34: `reg_write` -/

/-- C34 in full. -/
def C34_statement : Prop :=
  ∀ (α : Type) (d : DataTy α) (valid : α → Prop) (f : α → List Byte), ImplData d valid f → ∀ (id : Byte) (address : U16) (v : α),
    valid v → Sends (Client.regWrite d id address v) id (Request.regWrite address (f v)).body

/-- **C34** For data types of one byte. -/
theorem c34_reg_write_one_byte_partial {α : Type} {d : DataTy α} {valid : α → Prop} {f : α → List Byte}
    (hd : ImplData d valid f) (h1 : d.size = 1#16) (id : Byte) (address : U16) {v : α} (hv : valid v) :
    Sends (Client.regWrite d id address v) id (Request.regWrite address (f v)).body := by
  have h := Client.writeEncoder_fills (c28_round_trip_partial d valid f hd) address hv
  rw [h1] at h
  exact instruct_sends h

/-- **C34** For data types of more bytes, `reg_write` never sends anything: it fails with the claim that the buffer is too
small, whatever the size of the buffer. -/
theorem c34_reg_write_larger_fails_partial {α : Type} {d : DataTy α} {valid : α → Prop} {f : α → List Byte}
    (hd : ImplData d valid f) (h2 : 2 ≤ d.size.toNat) (id : Byte) (address : U16) {v : α} (hv : valid v) {b : Bus} (hb : b.WInv)
    (hn : 13 ≤ b.writeBuffer.length) :
    ∃ w, Client.regWrite d id address v b =
      ({ b with writeBuffer := w }, .err (.writeError (.bufferTooSmall ⟨d.size.toNat, 1⟩))) := by
  have hc := c28_round_trip_partial d valid f hd
  obtain ⟨w, hw⟩ := write_encoder_fails (id := id) (instr := InstructionId.regWrite) (n := 3)
    (enc := Client.writeEncoder d address v) (o := .err ⟨d.size.toNat, 1⟩) hb hn (by
      intro s hs
      unfold Client.writeEncoder
      dsimp only
      rw [SO.bind_ok (writeU16Le_at address (k := 0) (by omega))]
      have hl : (List.take 0 s ++ le16 address ++ List.drop (0 + 2) s).length = 3 := by simp [le16]; omega
      obtain ⟨t, ht⟩ := encode_short hc hv (k := 2) (l := List.take 0 s ++ le16 address ++ List.drop (0 + 2) s)
        (by omega) (by omega)
      rw [ht, hl]) (by simp)
  refine ⟨w, ?_⟩
  unfold Client.regWrite Client.instruct
  rw [SO.bind_err (e := .writeError (.bufferTooSmall ⟨d.size.toNat, 1⟩))]
  rw [SO.mapErr_apply, hw]
  rfl

/-- **C34** For data types without bytes, an old byte of the write buffer is sent along. -/
theorem c34_reg_write_empty_partial {α : Type} {d : DataTy α} {valid : α → Prop} {f : α → List Byte}
    (hd : ImplData d valid f) (h0 : d.size = 0#16) (id : Byte) (address : U16) {v : α} (hv : valid v) {b : Bus} (hb : b.WInv)
    (hbaud : b.baudRate < 2 ^ 32) (hs : b.serialPort.SendOk) (hroom : Room b 3) :
    ∃ x, b.writeBuffer[10]? = some x ∧
      SentBody b (Client.regWrite d id address v b).1 id (Request.regWrite address [x]).body := by
  have hc := c28_round_trip_partial d valid f hd
  have hlen : 11 ≤ b.writeBuffer.length := by have := hroom.1; omega
  refine ⟨b.writeBuffer[10], List.getElem?_eq_getElem (by omega), ?_⟩
  have hx : b.paramSlice 3 = [b.writeBuffer[8], b.writeBuffer[9], b.writeBuffer[10]] := by
    apply List.ext_getElem
    · simp [Bus.paramSlice]; omega
    · intro i h1 h2
      simp only [Bus.paramSlice, List.getElem_drop, List.getElem_take]
      match i, h2 with
      | 0, _ => rfl
      | 1, _ => rfl
      | 2, _ => rfl
  -- The encoder that gives the same parameters in every buffer.
  have key : Client.regWrite d id address v b =
      Client.instruct id InstructionId.regWrite (2 + [b.writeBuffer[10]].length)
        (Client.writeBytesEncoder address [b.writeBuffer[10]]) b := by
    unfold Client.regWrite Client.instruct
    have : Client.writeInstruction id InstructionId.regWrite (2 + 1) (Client.writeEncoder d address v) b =
        Client.writeInstruction id InstructionId.regWrite (2 + 1) (Client.writeBytesEncoder address [b.writeBuffer[10]]) b := by
      unfold Client.writeInstruction Bus.writeInstruction
      rw [Bus.writePacket_encode _ _ _ _ b hb (by have := hroom.1; omega),
        Bus.writePacket_encode _ _ _ _ b hb (by have := hroom.1; omega)]
      have hw : (Client.writeBytesEncoder address [b.writeBuffer[10]]).run (b.paramSlice (2 + 1)) = _ :=
        Client.writeBytesEncoder_fills address [b.writeBuffer[10]] _ (Bus.paramSlice_length (by have := hroom.1; simp; omega))
      rw [hw]
      have he : (Client.writeEncoder d address v).run (b.paramSlice (2 + 1)) = (le16 address ++ [b.writeBuffer[10]], .ok ()) := by
        rw [hx]
        unfold Client.writeEncoder
        dsimp only
        rw [SO.bind_ok (writeU16Le_at address (k := 0) (by simp))]
        have hf : f v = [] := List.eq_nil_of_length_eq_zero (by rw [hc.length v hv, h0]; rfl)
        unfold onSliceFrom onSlice
        rw [if_pos (by simp [le16]), hc.encode v hv _ (by rw [h0]; exact Nat.zero_le _), hf, h0]
        simp [le16]
      rw [he]
    simp only [SO.bind_def, SO.mapErr_apply]
    rw [this]
    rfl
  rw [key]
  exact ((instruct_sends (Client.writeBytesEncoder_fills address [b.writeBuffer[10]])) b hb hbaud).1 hs hroom

/-- **C34** is false as stated. -/
theorem c34_refuted : ¬ C34_statement := by
  intro h
  have h1 := (h _ (DataTy.unsigned 2) _ _ (.unsigned (by decide) (fun v => toLeBytes 2 v.toNat) fun v => littleEndian_iff.mpr rfl) 1#8 116#16
    0x0200#16 trivial (quietBus true 40) (quietBus_wInv true 40 (by decide)) (by decide)).1
    ⟨by simp [quietBus, quietPort], by simp [quietBus, quietPort]⟩ ⟨by decide, by decide⟩
  obtain ⟨wire, calls, -, hlog, -⟩ := h1
  have h2 : (Client.regWrite (DataTy.unsigned 2) 1#8 116#16 0x0200#16 (quietBus true 40)).1.serialPort.log = [] := by
    decide +kernel
  rw [h2] at hlog
  exact absurd hlog (by simp)

/-! ## C35: `sync_write` -/

/-- C35 in full. -/
def C35_statement : Prop :=
  ∀ (α : Type) (d : DataTy α) (valid : α → Prop) (f : α → List Byte), ImplData d valid f →
    ∀ (address : U16) (data : List (SyncWriteData α)), (∀ c ∈ data, valid c.data) →
      Sends (Client.syncWrite d address data) 0xFE#8
        (Request.syncWrite address d.size (data.map fun c => (c.motorId, f c.data))).body

/-- **C35** For data types of one byte. -/
theorem c35_sync_write_one_byte_partial {α : Type} {d : DataTy α} {valid : α → Prop} {f : α → List Byte}
    (hd : ImplData d valid f) (h1 : d.size = 1#16) (address : U16) (data : List (SyncWriteData α))
    (hv : ∀ c ∈ data, valid c.data) :
    Sends (Client.syncWrite d address data) 0xFE#8
      (Request.syncWrite address d.size (data.map fun c => (c.motorId, f c.data))).body := by
  have h := Client.syncWriteEncoder_fills (c28_round_trip_partial d valid f hd) address data hv
  have e : (Request.syncWrite address d.size (data.map fun c => (c.motorId, f c.data))).body =
      InstructionId.syncWrite :: (le16 address ++ le16 d.size ++ data.flatMap fun c => c.motorId :: f c.data) := by
    simp [Request.body, Request.parameters, Request.number, InstructionId.syncWrite, List.flatMap_map]
  rw [e]
  have h' : d.size.toNat = 1 := by rw [h1]; rfl
  rw [h'] at h
  exact writeInstruction_sends h

/-- **C35** For data types of more bytes and at least one motor, `sync_write` never sends anything. -/
theorem c35_sync_write_larger_fails_partial {α : Type} {d : DataTy α} {valid : α → Prop} {f : α → List Byte}
    (hd : ImplData d valid f) (h2 : 2 ≤ d.size.toNat) (address : U16) (c : SyncWriteData α) (data : List (SyncWriteData α))
    (hv : valid c.data) {b : Bus} (hb : b.WInv) (hn : 14 + 2 * (data.length + 1) ≤ b.writeBuffer.length) :
    ∃ w, Client.syncWrite d address (c :: data) b =
      ({ b with writeBuffer := w }, .err (.bufferTooSmall ⟨d.size.toNat, 1⟩)) := by
  have hc := c28_round_trip_partial d valid f hd
  refine write_encoder_fails (o := .err ⟨d.size.toNat, 1⟩) hb (by simp only [List.length_cons]; omega) (fun s hs => ?_) (by simp)
  simp only [List.length_cons] at hs
  unfold Client.syncWriteEncoder
  dsimp only
  rw [SO.bind_ok (writeU16Le_at address (k := 0) (by omega))]
  have hl : (List.take 0 s ++ le16 address ++ List.drop (0 + 2) s).length = s.length := by simp [le16]; omega
  generalize List.take 0 s ++ le16 address ++ List.drop (0 + 2) s = s1 at hl ⊢
  rw [SO.bind_ok (writeU16Le_at _ (k := 2) (by omega))]
  have hl2 : (List.take 2 s1 ++ le16 (BitVec.ofNat 16 1) ++ List.drop (2 + 2) s1).length = s.length := by
    simp [le16, Nat.min_def]; split <;> omega
  generalize List.take 2 s1 ++ le16 (BitVec.ofNat 16 1) ++ List.drop (2 + 2) s1 = s2 at hl2 ⊢
  unfold Client.syncWriteLoop
  have hm : ∀ t : List Byte, t.length = 2 → ∃ t', (do setIdx 0 c.motorId; onSliceFrom 1 (d.encode c.data) : SO (List Byte) BufferTooSmall Unit) t =
      (t', .err ⟨d.size.toNat, 1⟩) := by
    intro t ht
    have h0 : setIdx (ε := BufferTooSmall) 0 c.motorId t = (t.set 0 c.motorId, .ok ()) := setIdx_ok _ (by omega)
    have hl : (t.set 0 c.motorId).length = 2 := by rw [List.length_set, ht]
    rw [SO.bind_ok h0]
    obtain ⟨t', ht'⟩ := encode_short hc hv (k := 1) (l := t.set 0 c.motorId) (by omega) (by omega)
    rw [ht', hl]
    exact ⟨t', rfl⟩
  obtain ⟨t', ht'⟩ := hm ((s2.take (4 + 0 * (1 + 1) + (1 + 1))).drop (4 + 0 * (1 + 1))) (by simp; omega)
  rw [SO.bind_err]
  unfold onSlice
  rw [if_pos ⟨by omega, by omega⟩, ht']

/-- **C35** Without motors, the length field is one for every data type. -/
theorem c35_sync_write_no_motors_partial {α : Type} (d : DataTy α) (address : U16) :
    Sends (Client.syncWrite d address []) 0xFE#8 (Request.syncWrite address 1#16 []).body := by
  refine writeInstruction_sends (n := 4) (params := le16 address ++ le16 1#16 ++ []) fun s hs => ?_
  exact Client.two_then (n := 0) address 1#16 (fun s' h1 h2 => by
    show (s', _) = _
    rw [← h2, List.take_of_length_le (by omega), List.append_nil]) s hs

/-- **C35** is false as stated. -/
theorem c35_refuted : ¬ C35_statement := by
  intro h
  have h1 := (h _ (DataTy.unsigned 2) _ _ (.unsigned (by decide) (fun v => toLeBytes 2 v.toNat) fun v => littleEndian_iff.mpr rfl) 116#16
    [⟨1#8, 0x0200#16⟩] (fun _ _ => trivial) (quietBus true 40) (quietBus_wInv true 40 (by decide)) (by decide)).1
    ⟨by simp [quietBus, quietPort], by simp [quietBus, quietPort]⟩ ⟨by decide, by decide⟩
  obtain ⟨wire, calls, -, hlog, -⟩ := h1
  have h2 : (Client.syncWrite (DataTy.unsigned 2) 116#16 [⟨1#8, 0x0200#16⟩] (quietBus true 40)).1.serialPort.log = [] := by
    decide +kernel
  rw [h2] at hlog
  exact absurd hlog (by simp)

/-! ## C36: `sync_write_bytes` -/

/-- **C36** The layout, if all data has the promised length. -/
theorem c36_sync_write_bytes (address count : U16) (data : List (SyncWriteData (List Byte)))
    (h : ∀ c ∈ data, c.data.length = count.toNat) :
    Sends (Client.syncWriteBytes address count data) 0xFE#8
      (Request.syncWrite address count (data.map fun c => (c.motorId, c.data))).body := by
  have e : (Request.syncWrite address count (data.map fun c => (c.motorId, c.data))).body =
      InstructionId.syncWrite :: (le16 address ++ le16 count ++ data.flatMap fun c => c.motorId :: c.data) := by
    simp [Request.body, Request.parameters, Request.number, InstructionId.syncWrite, List.flatMap_map]
  rw [e]
  exact writeInstruction_sends (Client.syncWriteBytesEncoder_fills address count data h)

/-- **C36** If some data has another length, `sync_write_bytes` panics before it uses the serial port. If the packet would
not fit the write buffer, it reports that instead. -/
theorem c36_panics (address count : U16) (data : List (SyncWriteData (List Byte)))
    (h : ∃ c ∈ data, c.data.length ≠ count.toNat) {b : Bus} (hb : b.WInv) :
    (14 + data.length * (1 + count.toNat) ≤ b.writeBuffer.length →
      ∃ w, Client.syncWriteBytes address count data b = ({ b with writeBuffer := w }, .panic)) ∧
    (b.writeBuffer.length < 14 + data.length * (1 + count.toNat) →
      Client.syncWriteBytes address count data b =
        (b, .err (.bufferTooSmall ⟨14 + data.length * (1 + count.toNat), b.writeBuffer.length⟩))) := by
  constructor
  · intro hn
    exact write_encoder_fails (o := .panic) hb (by omega) (Client.syncWriteBytesEncoder_panic address count data h) (by simp)
  · intro hn
    have := Bus.writePacket_too_small broadcast InstructionId.syncWrite (4 + data.length * (1 + count.toNat))
      (Client.syncWriteBytesEncoder address count data) b (by omega)
    rw [show 4 + data.length * (1 + count.toNat) + 10 = 14 + data.length * (1 + count.toNat) by omega] at this
    exact this

/-! ## C37: `bulk_write` -/

/-- The write as the protocol sees it. -/
def bulkWriteSpec (w : BulkWriteData) : Byte × U16 × List Byte := (w.motorId, w.address, w.data)

/-- C37 in full, with the panic on repeated motor IDs that the documentation promises (`src/instructions/bulk_write.rs:17-20`). -/
def C37_statement : Prop :=
  ∀ writes : List BulkWriteData,
    ((writes.map (·.motorId)).Nodup → (∀ w ∈ writes, w.data.length ≤ 65535) →
      Sends (Client.bulkWrite writes) 0xFE#8 (Request.bulkWrite (writes.map bulkWriteSpec)).body) ∧
    ((∃ w ∈ writes, 65535 < w.data.length) → ∀ b, Client.bulkWrite writes b = (b, .panic)) ∧
    (¬ (writes.map (·.motorId)).Nodup → ∀ b, Client.bulkWrite writes b = (b, .panic))

/-- **C37** The layout. Nothing is asked of the motor IDs. -/
theorem c37_layout_partial (writes : List BulkWriteData) (h : ∀ w ∈ writes, w.data.length ≤ 65535) :
    Sends (Client.bulkWrite writes) 0xFE#8 (Request.bulkWrite (writes.map bulkWriteSpec)).body := by
  have e : (Request.bulkWrite (writes.map bulkWriteSpec)).body =
      InstructionId.bulkWrite :: writes.flatMap Client.bulkWriteEntry := by
    simp [Request.body, Request.parameters, Request.number, InstructionId.bulkWrite, List.flatMap_map, bulkWriteSpec]
    rfl
  rw [e]
  have e2 : Client.bulkWrite writes = Client.writeInstruction broadcast InstructionId.bulkWrite (Client.bulkWriteSize writes)
      ⟨Client.bulkWriteLoop 0 writes, Client.bulkWriteLoop_length writes 0⟩ := by
    unfold Client.bulkWrite
    funext b
    rw [Client.bulkWriteCount_ok writes 0 h, SO.lift_ok_bind, Nat.zero_add]
  rw [e2]
  exact writeInstruction_sends (Client.bulkWrite_fills writes)

/-- **C37** Data longer than the length field can say: a panic, with the bus untouched. -/
theorem c37_long_data_panics_partial (writes : List BulkWriteData) (h : ∃ w ∈ writes, 65535 < w.data.length) (b : Bus) :
    Client.bulkWrite writes b = (b, .panic) := by
  unfold Client.bulkWrite
  rw [Client.bulkWriteCount_panic writes 0 h]
  rfl

/-- **C37** is false as stated: repeated motor IDs are sent. -/
theorem c37_refuted : ¬ C37_statement := by
  intro h
  have h1 := (h [⟨1#8, 116#16, [5#8]⟩, ⟨1#8, 116#16, [6#8]⟩]).2.2 (by decide) (quietBus true 60)
  revert h1
  decide +kernel

/-- More than one witness: whatever the writes, a repetition is sent. -/
theorem c37_duplicates_are_sent_partial (writes : List BulkWriteData) (w : BulkWriteData) (hw : w ∈ writes)
    (h : ∀ w ∈ writes, w.data.length ≤ 65535) :
    Sends (Client.bulkWrite (w :: writes)) 0xFE#8 (Request.bulkWrite ((w :: writes).map bulkWriteSpec)).body :=
  c37_layout_partial _ fun x hx => by
    rcases List.mem_cons.mp hx with rfl | hx
    · exact h _ hw
    · exact h _ hx

/-! ## C38: `bulk_read` -/

/-- The read as the protocol sees it. -/
def bulkReadSpec (r : BulkReadData) : Byte × U16 × U16 := (r.motorId, r.address, r.count)

theorem hasDuplicateId_iff : ∀ reads : List BulkReadData,
    Client.hasDuplicateId reads = true ↔ ¬ (reads.map (·.motorId)).Nodup := by
  intro reads
  induction reads with
  | nil => simp [Client.hasDuplicateId]
  | cons r rest ih =>
    simp only [Client.hasDuplicateId, Bool.or_eq_true, ih, List.map_cons, List.nodup_cons, List.any_eq_true, beq_iff_eq,
      List.mem_map]
    constructor
    · rintro (⟨x, h1, h2⟩ | h)
      · exact fun h => h.1 ⟨x, h1, h2.symm⟩
      · exact fun h' => h h'.2
    · intro h
      by_cases h1 : ∃ a, a ∈ rest ∧ a.motorId = r.motorId
      · obtain ⟨a, h2, h3⟩ := h1
        exact .inl ⟨a, h2, h3.symm⟩
      · exact .inr fun h2 => h ⟨h1, h2⟩

/-- **C38** Two reads of the same motor: a panic, with the bus untouched. -/
theorem c38_duplicates_panic (reads : List BulkReadData)
    (h : ∃ i j : Nat, ∃ r s : BulkReadData, i < j ∧ reads[i]? = some r ∧ reads[j]? = some s ∧ r.motorId = s.motorId) (b : Bus) :
    Client.bulkReadBytes reads b = (b, .panic) := by
  unfold Client.bulkReadBytes
  rw [if_pos]
  · rfl
  · rw [hasDuplicateId_iff]
    obtain ⟨i, j, r, s, hij, hr, hs, he⟩ := h
    intro hn
    have hj : j < reads.length := by
      rw [List.getElem?_eq_some_iff] at hs
      exact hs.1
    have h1 := List.getElem?_inj (i := i) (j := j) (l := reads.map (·.motorId)) (by simp; omega) hn
    have := h1.mp (by simp [hr, hs, he])
    omega

/-- **C38** Otherwise, the layout. -/
theorem c38_layout (reads : List BulkReadData)
    (h : ¬ ∃ i j : Nat, ∃ r s : BulkReadData, i < j ∧ reads[i]? = some r ∧ reads[j]? = some s ∧ r.motorId = s.motorId) :
    Sends (Client.bulkReadBytes reads) 0xFE#8 (Request.bulkRead (reads.map bulkReadSpec)).body := by
  unfold Client.bulkReadBytes
  have hn : (reads.map (·.motorId)).Nodup := by
    rw [List.Nodup, List.pairwise_iff_getElem]
    intro i j hi hj hij he
    simp only [List.length_map] at hi hj
    simp only [List.getElem_map] at he
    exact h ⟨i, j, reads[i], reads[j], hij, List.getElem?_eq_getElem hi, List.getElem?_eq_getElem hj, he⟩
  rw [if_neg (by rw [hasDuplicateId_iff]; exact fun h => h hn)]
  have e : (Request.bulkRead (reads.map bulkReadSpec)).body =
      InstructionId.bulkRead :: reads.flatMap (fun r => r.motorId :: (le16 r.address ++ le16 r.count)) := by
    simp [Request.body, Request.parameters, Request.number, InstructionId.bulkRead, List.flatMap_map, bulkReadSpec]
  rw [e]
  exact writeInstruction_sends (Client.bulkRead_fills reads)

/-! ## Concrete cases -/

/-- A packet as it goes over the wire. -/
def firstWrite (b : Bus) : Option (List Byte) :=
  b.serialPort.log.findSome? fun | .write f true => some f | _ => none

-- `reg_write` of a `u8`.
example : firstWrite (Client.regWrite (DataTy.unsigned 1) 1#8 0x0074#16 5#8 (quietBus true 40)).1 =
    some (frame 1#8 [0x04#8, 0x74#8, 0x00#8, 5#8]) := by decide +kernel

-- `reg_write` of a `u16` says that a buffer of 40 bytes is too small.
example : (Client.regWrite (DataTy.unsigned 2) 1#8 0x0074#16 5#16 (quietBus true 40)).2 =
    .err (.writeError (.bufferTooSmall ⟨2, 1⟩)) := by decide +kernel

-- The example of `sync_write_bytes` in the protocol documentation: goal positions of motors 1 and 2.
example : firstWrite (Client.syncWriteBytes 116#16 4#16
    [⟨1#8, [0x96#8, 0x00#8, 0x00#8, 0x00#8]⟩, ⟨2#8, [0xAA#8, 0x00#8, 0x00#8, 0x00#8]⟩] (quietBus true 60)).1 =
    some [0xFF#8, 0xFF#8, 0xFD#8, 0x00#8, 0xFE#8, 0x11#8, 0x00#8, 0x83#8, 0x74#8, 0x00#8, 0x04#8, 0x00#8, 0x01#8, 0x96#8,
      0x00#8, 0x00#8, 0x00#8, 0x02#8, 0xAA#8, 0x00#8, 0x00#8, 0x00#8, 0x82#8, 0x87#8] := by decide +kernel

-- One of the two motors gets the wrong amount of data.
example : (Client.syncWriteBytes 116#16 2#16 [⟨1#8, [1#8, 2#8]⟩, ⟨2#8, [1#8]⟩] (quietBus true 60)).2 = .panic := by decide +kernel

-- The examples of `bulk_read` and `bulk_write` in the protocol documentation.
example : firstWrite (Client.bulkReadBytes [⟨1#8, 144#16, 2#16⟩, ⟨2#8, 146#16, 1#16⟩] (quietBus true 60)).1 =
    some [0xFF#8, 0xFF#8, 0xFD#8, 0x00#8, 0xFE#8, 0x0D#8, 0x00#8, 0x92#8, 0x01#8, 0x90#8, 0x00#8, 0x02#8, 0x00#8, 0x02#8,
      0x92#8, 0x00#8, 0x01#8, 0x00#8, 0x1A#8, 0x05#8] := by decide +kernel

example : firstWrite (Client.bulkWrite [⟨1#8, 32#16, [0xA0#8, 0x00#8]⟩, ⟨2#8, 31#16, [0x50#8]⟩] (quietBus true 60)).1 =
    some [0xFF#8, 0xFF#8, 0xFD#8, 0x00#8, 0xFE#8, 0x10#8, 0x00#8, 0x93#8, 0x01#8, 0x20#8, 0x00#8, 0x02#8, 0x00#8, 0xA0#8,
      0x00#8, 0x02#8, 0x1F#8, 0x00#8, 0x01#8, 0x00#8, 0x50#8, 0xB7#8, 0x68#8] := by decide +kernel

example : (Client.bulkReadBytes [⟨1#8, 144#16, 2#16⟩, ⟨2#8, 146#16, 1#16⟩, ⟨1#8, 1#16, 1#16⟩] (quietBus true 60)).2 = .panic := by
  decide +kernel

-- A write buffer and a port that the hypotheses of `Sends` allow.
example : (quietBus true 40).WInv ∧ (quietBus true 40).baudRate < 2 ^ 32 ∧ (quietBus true 40).serialPort.SendOk ∧
    Room (quietBus true 40) 5 :=
  ⟨quietBus_wInv true 40 (by decide), by decide, ⟨by simp [quietBus, quietPort], by simp [quietBus, quietPort]⟩, by decide, by decide⟩

/-! Each theorem with hypotheses on a concrete case. -/

/-- `write` of a `u16`. -/
example := c46_write_partial (implUnsigned (n := 2) (by decide)) 1#8 116#16 (v := 0x1234#16) trivial

/-- `reg_write` of a `u8`. -/
example := c34_reg_write_one_byte_partial (implUnsigned (n := 1) (by decide)) rfl 1#8 116#16 (v := 5#8) trivial

/-- `reg_write` of a `u16`. -/
example := c34_reg_write_larger_fails_partial (implUnsigned (n := 2) (by decide)) (by decide) 1#8 116#16 (v := 0x1234#16) trivial
  (quietBus_wInv true 40 (by decide)) (by decide)

/-- `reg_write` of a `[u8; 0]`. -/
example := c34_reg_write_empty_partial (.array (implUnsigned (n := 1) (by decide)) 0 (by decide)) rfl 1#8 116#16 (v := [])
  ⟨rfl, by simp⟩ (quietBus_wInv true 40 (by decide)) (by decide) ⟨by simp [quietBus, quietPort], by simp [quietBus, quietPort]⟩
  ⟨by decide, by decide⟩

example := c35_sync_write_one_byte_partial (implUnsigned (n := 1) (by decide)) rfl 116#16 [⟨1#8, 5#8⟩, ⟨2#8, 6#8⟩] fun _ _ => trivial

example := c35_sync_write_larger_fails_partial (implUnsigned (n := 2) (by decide)) (by decide) 116#16 ⟨1#8, 5#16⟩ [⟨2#8, 6#16⟩] trivial
  (quietBus_wInv true 40 (by decide)) (by decide)

example := c36_sync_write_bytes 116#16 2#16 [⟨1#8, [1#8, 2#8]⟩, ⟨2#8, [3#8, 4#8]⟩] (by simp)

example := c36_panics 116#16 2#16 [⟨1#8, [1#8, 2#8]⟩, ⟨2#8, [3#8]⟩] ⟨⟨2#8, [3#8]⟩, by simp, by decide⟩ (quietBus_wInv true 40 (by decide))

example := c37_layout_partial [⟨1#8, 32#16, [0xA0#8, 0x00#8]⟩, ⟨2#8, 31#16, [0x50#8]⟩] (by simp)

/-- 65536 bytes for motor 2. -/
example := c37_long_data_panics_partial [⟨1#8, 32#16, [0xA0#8, 0x00#8]⟩, ⟨2#8, 31#16, List.replicate 65536 0#8⟩]
  ⟨_, List.mem_cons_of_mem _ (List.mem_singleton_self _), by rw [List.length_replicate]; omega⟩ (quietBus true 40)

/-- Two writes for motor 2. -/
example := c37_duplicates_are_sent_partial [⟨1#8, 32#16, [0xA0#8, 0x00#8]⟩, ⟨2#8, 31#16, [0x50#8]⟩] ⟨2#8, 31#16, [0x50#8]⟩ (by simp) (by simp)

example := c38_duplicates_panic [⟨1#8, 144#16, 2#16⟩, ⟨2#8, 146#16, 1#16⟩, ⟨1#8, 1#16, 1#16⟩]
  ⟨0, 2, ⟨1#8, 144#16, 2#16⟩, ⟨1#8, 1#16, 1#16⟩, by decide, rfl, rfl, rfl⟩ (quietBus true 60)

end Dxl.Props
