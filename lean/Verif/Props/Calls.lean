import Verif.Lemmas.Turns

/-! # C62: what every call for one motor does

A complete description of the outcomes: for every state of the bus and every behaviour of the serial port. -/

namespace Dxl.Props
open Spec

/-! ## The parts of the description -/

/-- What comes of handing a packet with `n` parameters, whose stuffed body is `wire`, to the bus: too large for the write
buffer, a panic (see C09 and C10), or what the serial port says to discarding its input and to writing. -/
def sending (b : Bus) (n : Nat) (wire : List Byte) : Outcome WriteError Unit :=
  if b.writeBuffer.length < n + 10 then .err (.bufferTooSmall ⟨n + 10, b.writeBuffer.length⟩)
  else if b.writeBuffer.length < 7 + wire.length then
    .err (.bufferTooSmall ⟨wire.length, b.writeBuffer.length - 7⟩)
  else if b.writeBuffer.length < 9 + wire.length then .panic
  else if b.debug = true ∧ 65534 ≤ wire.length % 65536 then .panic
  else match b.serialPort.discardRes.head? with
    | some (some e) => .err (.discardBuffer e)
    | _ => match b.serialPort.writeRes.head? with
      | some (_, some e) => .err (.write e)
      | _ => .ok ()

/-- The end of the time for a response with `exp` parameters, if the instruction is sent now; 34 ms and the time to
transfer the response after the end of the write. -/
def EndOfWait (b : Bus) (exp D : Nat) : Prop :=
  ∃ ns, LeastTime (11 + exp) b.baudRate ns ∧ D = b.serialPort.now + b.serialPort.writeTime + (ns + 34000000)

/-- What a call that sends `body` and waits for a response with `exp` parameters does, where `Means` is what it makes of a
status packet without error. -/
def Comes {α : Type} (b : Bus) (body : List Byte) (exp : Nat)
    (Means : Byte → Byte → List Byte → Outcome TransferError α → Prop) (r : Bus × Outcome TransferError α) : Prop :=
  ∃ wire, StuffedForm body wire ∧
    match sending b (body.length - 1) wire with
    | .err w => r.2 = .err (.writeError w)
    | .panic => r.2 = .panic
    | .hang => False
    | .ok () =>
      if b.baudRate = 0 then r.2 = .panic
      else ∃ D v left, EndOfWait b exp D ∧ r.1.serialPort.now ≤ D ∧
        Verdict b.readBuffer.length (arriving D (newInput b.serialPort))
          (obstacle D (newInput b.serialPort) b.serialPort.tail) v left ∧ Leaves D r.1 v left ∧
        match v with
        | .err x => r.2 = .err (.readError x)
        | .panic => r.2 = .panic
        | .hang => False
        | .ok (rid, error, ps) => Means rid error ps r.2

/-! ## Proofs -/

/-- **C62** The cases exclude each other. -/
theorem c62_verdict_unique {cap : Nat} {s : List Byte} {e : IoErr} {v v' : Outcome ReadError (Byte × Byte × List Byte)}
    {left left' : List Byte} (h : Verdict cap s e v left) (h' : Verdict cap s e v' left') : v = v' ∧ left = left' := by
  rw [verdict_eq h, verdict_eq h', left_eq h, left_eq h']
  exact ⟨rfl, rfl⟩

/-- **C62** One of the cases applies. -/
theorem c62_verdict_exists (cap : Nat) (s : List Byte) (e : IoErr) : ∃ v left, Verdict cap s e v left := by
  by_cases hN : 10 ≤ cap
  · cases hp : parse cap s with
    | more => exact ⟨_, _, .nothing hN hp⟩
    | tooBig req rest => exact ⟨_, _, .tooBig hN hp⟩
    | packet f rest =>
      obtain ⟨-, k2, k3, -⟩ := parse_packet hp
      rcases frameOutcome_cases k2 k3 with ⟨m, v, rfl, hv, -⟩ | ⟨id, rfl, -⟩ | ⟨id, wire, instr, params, pkt, rfl, -, hu, -, -⟩
      · exact ⟨_, _, .corrupt hN hp hv⟩
      · exact ⟨_, _, .noInstruction hN hp⟩
      · by_cases h55 : instr = 0x55#8
        · subst h55
          match params with
          | [] => exact ⟨_, _, .noError hN hp hu⟩
          | e :: ps =>
            by_cases he : e.toNat % 128 = 0
            · exact ⟨_, _, .status hN hp hu he⟩
            · exact ⟨_, _, .motorError hN hp hu he⟩
        · exact ⟨_, _, .instruction hN hp hu h55⟩
  · exact ⟨_, _, .small (by omega)⟩

/-- **C62** Sending an instruction. -/
theorem c62_send {b : Bus} {id instr : Byte} {n : Nat} {enc : Encoder} {params wire : List Byte} (hb : b.WInv)
    (hp : Fills enc.run n params) (hw : StuffedForm (instr :: params) wire) :
    (Bus.writeInstruction id instr n enc b).2 = sending b n wire := by
  have hlp := hp.length
  unfold sending
  by_cases h1 : b.writeBuffer.length < n + 10
  · rw [if_pos h1]
    have := Bus.writePacket_too_small id instr n enc b h1
    unfold Bus.writeInstruction
    rw [this]
  rw [if_neg h1]
  by_cases h2 : b.writeBuffer.length < 9 + wire.length
  · by_cases h3 : b.writeBuffer.length < 7 + wire.length
    · rw [if_pos h3]
      obtain ⟨b', h⟩ := c09_reported_partial (id := id) hb hp hw (by rw [Bus.frame_length]; omega) (fun h => by have := h.2.1; omega)
      rw [h]
      unfold reported
      rw [if_neg h1]
    · rw [if_neg h3, if_pos h2]
      exact c09_gap_panics hb hp hw ⟨by omega, by omega, h2⟩
  · rw [if_neg (by omega), if_neg h2]
    by_cases h4 : b.debug = true ∧ 65534 ≤ wire.length % 65536
    · rw [if_pos h4]
      have h := c10_exact_partial (id := id) hb hp hw hlp (by rw [Bus.frame_length]; omega)
      rw [if_pos h4] at h
      obtain ⟨b', h, -⟩ := h
      rw [h]
    · rw [if_neg h4]
      rw [stuffedForm_iff] at hw
      subst hw
      unfold Bus.writeInstruction
      rw [Bus.writePacket_send hb (hp _ (Bus.paramSlice_length (by omega))) (by omega) (by omega) (fun h => h4 ⟨h.1, by omega⟩)]
      rcases Bus.sendFrame_cases (frame id (codeStuff (instr :: params))) { b with
          writeBuffer := frame id (codeStuff (instr :: params)) ++
            b.writeBuffer.drop (frame id (codeStuff (instr :: params))).length
          readLen := 0
          usedBytes := 0 } with ⟨e, h, k⟩ | ⟨dt, e, h, k, k'⟩ | ⟨dt, h, k, k'⟩
      · rw [h]; dsimp only at k; simp only [k]
      · rw [h]
        dsimp only at k k'
        split
        · rename_i e' he; exact absurd he (k e')
        · simp only [k']
      · rw [h]
        dsimp only at k k'
        split
        · rename_i e' he; exact absurd he (k e')
        · split
          · rename_i dt' e' he; exact absurd he (k' dt' e')
          · rfl

/-- What sending and waiting comes to. `k` is what is done with the status packet. -/
theorem comes_of {α : Type} {b : Bus} {id instr : Byte} {n : Nat} {exp : U16} {enc : Encoder} {params : List Byte}
    {Means : Byte → Byte → List Byte → Outcome TransferError α → Prop} {k : StatusPacket → Outcome TransferError α}
    (hb : b.WInv) (hbaud : b.baudRate < 2 ^ 32) (hp : Fills enc.run n params)
    (hk : ∀ pkt rid e ps, Carries pkt rid 0x55#8 (e :: ps) → e.toNat % 128 = 0 → Means rid e ps (k ⟨pkt⟩)) :
    Comes b (instr :: params) exp.toNat Means
      (((Client.writeInstruction id instr n enc).mapErr TransferError.writeError >>= fun _ =>
        (Client.readStatusResponse exp).mapErr TransferError.readError >>= fun s => SO.lift (k s)) b) := by
  refine ⟨_, stuffedForm_codeStuff _, ?_⟩
  have hs := c62_send (id := id) hb hp (stuffedForm_codeStuff (instr :: params))
  have hn : (instr :: params).length - 1 = n := by have := hp.length; simp [this]
  rw [hn, ← hs, SO.bind_def, SO.mapErr_apply]
  unfold Client.writeInstruction
  rcases hm : Bus.writeInstruction id instr n enc b with ⟨b₁, o⟩
  cases o with
  | err w => rfl
  | panic => rfl
  | hang =>
    rw [hm] at hs
    simp only [sending] at hs
    repeat' split at hs
    all_goals simp at hs
  | ok u =>
    simp only [Outcome.mapErr_ok]
    obtain ⟨_, _, -, -, -, h3⟩ := afterSend hb hm
    obtain ⟨_, _, _, _, _, hb₁⟩ := Bus.writeInstruction_ok hb hm
    rw [SO.bind_def, SO.mapErr_apply]
    by_cases h0 : b.baudRate = 0
    · rw [if_pos h0, readStatusResponse_zero (by rw [h3.baudRate]; exact h0)]
      rfl
    · rw [if_neg h0]
      obtain ⟨ns, hns, heq⟩ := readStatusResponse_eq (b := b₁) (h3.baudRate ▸ h0) (h3.baudRate ▸ hbaud) exp
      obtain ⟨c, o, v, left, h4, h5, h6, hleft, h7⟩ := response_verdict (timeout := ns + 34000000) h3.rinv
      rw [heq, h4]
      have hlog : ∀ D, b₁.serialPort.now ≤ D →
          readEnd D b₁.serialPort = obstacle D (newInput b.serialPort) b.serialPort.tail := by
        intro D hD
        unfold readEnd
        rw [if_neg (by omega), newInput_eq, hb₁]
        rfl
      rw [h3.stream _ (by omega), hlog _ (by omega), h3.readBuffer, h3.now] at h6
      rw [h3.baudRate] at hns
      rw [h3.now] at h5 hleft
      refine ⟨_, v, left, ⟨ns, hns, rfl⟩, ?_, h6, ?_, ?_⟩
      · cases o <;> exact h5
      · cases o <;> exact hleft
      · cases v with
        | ok x =>
          obtain ⟨rid, e, ps⟩ := x
          obtain ⟨pkt, rfl, hc, he⟩ := h7
          exact hk pkt rid e ps hc he
        | err x => dsimp only at h7; subst h7; rfl
        | panic => dsimp only at h7; subst h7; rfl
        | hang => exact h7

theorem SO.bind_assoc' {σ ε α β γ : Type} (m : SO σ ε α) (f : α → SO σ ε β) (g : β → SO σ ε γ) :
    (m >>= f >>= g) = m >>= fun a => f a >>= g := by
  funext s
  simp only [SO.bind_def]
  rcases m s with ⟨s₁, o⟩
  cases o <;> rfl

theorem SO.lift_bind_lift {σ ε α β : Type} (o : Outcome ε α) (f : α → Outcome ε β) :
    ((SO.lift o : SO σ ε α) >>= fun a => SO.lift (f a)) = SO.lift (o.bind f) := by
  funext s
  simp only [SO.bind_def, SO.lift_apply]
  cases o <;> rfl

theorem SO.pure_eq_lift {σ ε α : Type} (a : α) : (pure a : SO σ ε α) = SO.lift (.ok a) := rfl

/-- What `transfer_single` does with the status packet. -/
def checkSender (id : Byte) (s : StatusPacket) : Outcome TransferError StatusPacket :=
  (s.packetId (ε := TransferError)).bind fun actual =>
    ((checkPacketId actual id).mapErr fun e => TransferError.readError (.invalidMessage e)).bind fun _ => .ok s

theorem transferSingle_shape (id instr : Byte) (n : Nat) (exp : U16) (enc : Encoder) :
    Client.transferSingle id instr n exp enc =
      ((Client.writeInstruction id instr n enc).mapErr TransferError.writeError >>= fun _ =>
        (Client.readStatusResponse exp).mapErr TransferError.readError >>= fun s => SO.lift (checkSender id s)) := by
  unfold Client.transferSingle checkSender
  simp only [SO.pure_eq_lift, SO.lift_bind_lift]

theorem checkSender_carries {pkt : Packet} {id rid e : Byte} {ps : List Byte} (hc : Carries pkt rid 0x55#8 (e :: ps)) :
    checkSender id ⟨pkt⟩ =
      if rid ≠ id then .err (.readError (.invalidMessage (.packetId rid id))) else .ok ⟨pkt⟩ := by
  have hc' : Carries (StatusPacket.mk pkt).packet rid 0x55#8 (e :: ps) := hc
  unfold checkSender checkPacketId
  rw [(status_accessors hc' _).1]
  by_cases h : rid = id
  · rw [if_neg (by simpa using h)]
    simp only [if_pos h, Outcome.bind]; rfl
  · rw [if_pos h]
    simp only [if_neg h, Outcome.bind]; rfl

/-- What `read_raw` does with the status packet. -/
def checkRead (id : Byte) (count : Nat) (s : StatusPacket) : Outcome TransferError StatusPacket :=
  (checkSender id s).bind fun s => (s.parameters (ε := TransferError)).bind fun ps =>
    ((checkCount ps.length count).mapErr fun e => TransferError.readError (.invalidMessage e)).bind fun _ => .ok s

theorem readRaw_shape (id : Byte) (address count : U16) :
    Client.readRaw id address count =
      ((Client.writeInstruction id InstructionId.read 4 (Client.readEncoder address count)).mapErr TransferError.writeError >>= fun _ =>
        (Client.readStatusResponse count).mapErr TransferError.readError >>= fun s => SO.lift (checkRead id count.toNat s)) := by
  unfold Client.readRaw checkRead
  simp only [transferSingle_shape, SO.pure_eq_lift, SO.bind_assoc', SO.lift_bind_lift]

theorem checkRead_carries {pkt : Packet} {id rid e : Byte} {ps : List Byte} {count : Nat}
    (hc : Carries pkt rid 0x55#8 (e :: ps)) :
    checkRead id count ⟨pkt⟩ =
      if rid ≠ id then .err (.readError (.invalidMessage (.packetId rid id)))
      else if ps.length ≠ count then .err (.readError (.invalidMessage (.parameterCount ps.length (.exact count))))
      else .ok ⟨pkt⟩ := by
  have hc' : Carries (StatusPacket.mk pkt).packet rid 0x55#8 (e :: ps) := hc
  unfold checkRead
  rw [checkSender_carries hc]
  by_cases h : rid ≠ id
  · rw [if_pos h, if_pos h]; rfl
  · rw [if_neg h, if_neg h]
    simp only [Outcome.bind]
    rw [(status_accessors hc' _).2.2]
    unfold checkCount
    by_cases hl : ps.length = count
    · rw [if_neg (by simpa using hl)]
      simp only [if_pos hl]; rfl
    · rw [if_pos hl]
      simp only [if_neg hl]; rfl

theorem answer_calm {α : Type} {id rid e : Byte} {count : Nat} {ps : List Byte} {data : α} (he : e.toNat % 128 = 0) :
    answer id count rid e ps data =
      if rid ≠ id then .err (.readError (.invalidMessage (.packetId rid id)))
      else if ps.length ≠ count then .err (.readError (.invalidMessage (.parameterCount ps.length (.exact count))))
      else .ok ⟨rid, decide (128 ≤ e.toNat), data⟩ := by
  rw [answer, if_neg (by omega)]

theorem emptyAnswer_calm {rid e : Byte} {ps : List Byte} (he : e.toNat % 128 = 0) :
    emptyAnswer rid e ps =
      if ps.length ≠ 0 then .err (.readError (.invalidMessage (.parameterCount ps.length (.exact 0))))
      else .ok ⟨rid, decide (128 ≤ e.toNat), ()⟩ := by
  rw [emptyAnswer, if_neg (by omega)]

/-! ## The calls -/

/-- **C62** `read_bytes` -/
theorem c62_read_bytes {b : Bus} (hb : b.WInv) (hbaud : b.baudRate < 2 ^ 32) (id : Byte) (address count : U16) :
    Comes b (Request.read address count).body count.toNat (fun rid e ps o => o = answer id count.toNat rid e ps ps)
      (Client.readBytes id address count b) := by
  unfold Client.readBytes
  simp only [readRaw_shape, SO.bind_assoc', SO.lift_bind_lift]
  refine comes_of hb hbaud (Client.readEncoder_fills address count) fun pkt rid e ps hc he => ?_
  have hc' : Carries (StatusPacket.mk pkt).packet rid 0x55#8 (e :: ps) := hc
  rw [checkRead_carries hc, answer_calm he]
  split
  · rfl
  · split
    · rfl
    · simp only [Outcome.bind]
      rw [decodeBytes_carries hc', if_pos he]
      rfl

/-- **C62** `read`, for the types the crate implements `Data` for. -/
theorem c62_read {α : Type} {d : DataTy α} {valid : α → Prop} {f : α → List Byte} (hd : ImplData d valid f) {b : Bus}
    (hb : b.WInv) (hbaud : b.baudRate < 2 ^ 32) (id : Byte) (address : U16) :
    Comes b (Request.read address d.size).body d.size.toNat
      (fun rid e ps o => ∃ v, (ps.length = d.size.toNat → valid v ∧ f v = ps) ∧ o = answer id d.size.toNat rid e ps v)
      (Client.read d id address b) := by
  unfold Client.read
  simp only [readRaw_shape, SO.bind_assoc', SO.lift_bind_lift]
  refine comes_of hb hbaud (Client.readEncoder_fills address d.size) fun pkt rid e ps hc he => ?_
  have hc' : Carries (StatusPacket.mk pkt).packet rid 0x55#8 (e :: ps) := hc
  rw [checkRead_carries hc]
  by_cases hl : ps.length = d.size.toNat
  · obtain ⟨v, hv, hf, hdec⟩ := c28_decode_onto_partial d valid f hd ps hl
    refine ⟨v, fun _ => ⟨hv, hf⟩, ?_⟩
    rw [answer_calm he]
    split
    · rfl
    · rw [if_neg (by simpa using hl), if_neg (by simpa using hl)]
      simp only [Outcome.bind]
      rw [decode_carries d hc', if_pos he, hdec]
      rfl
  · obtain ⟨v, -⟩ := c28_decode_onto_partial d valid f hd (List.replicate d.size.toNat 0#8) (List.length_replicate ..)
    refine ⟨v, fun h => absurd h hl, ?_⟩
    rw [answer_calm he]
    split
    · rfl
    · rfl

/-- **C62** `ping` -/
theorem c62_ping {b : Bus} (hb : b.WInv) (hbaud : b.baudRate < 2 ^ 32) (id : Byte) :
    Comes b Request.ping.body 3
      (fun rid e ps o => ∃ v : Client.Ping, (ps.length = 3 → ps = le16 v.model ++ [v.firmware]) ∧ o = answer id 3 rid e ps v)
      (Client.ping id b) := by
  unfold Client.ping
  simp only [transferSingle_shape, SO.bind_assoc', SO.lift_bind_lift]
  refine comes_of (exp := 3#16) hb hbaud Client.nothing_fills fun pkt rid e ps hc he => ?_
  have hc' : Carries (StatusPacket.mk pkt).packet rid 0x55#8 (e :: ps) := hc
  rw [checkSender_carries hc]
  rcases ping_carries hc' with ⟨m, fw, rfl, h3⟩ | ⟨hl, h3⟩
  · refine ⟨⟨m, fw⟩, fun _ => rfl, ?_⟩
    rw [answer_calm he]
    split
    · rfl
    · rw [if_neg (by simp [le16])]
      simp only [Outcome.bind, h3]
      rfl
  · refine ⟨⟨0#16, 0#8⟩, fun h => absurd h hl, ?_⟩
    rw [answer_calm he]
    split
    · rfl
    · simp only [Outcome.bind, h3]
      rfl

/-- The body that a write-like call sends. (`clear_error` sends the wrong parameters, see C46; `reg_write` of a type of
another size than one byte sends nothing, see C34.) -/
inductive WriteCall.Orders : WriteCall → List Byte → Prop
  | action : Orders .action Request.action.body
  | reboot : Orders .reboot Request.reboot.body
  | clearRevolutionCounter : Orders .clearRevolutionCounter Request.clearRevolutionCount.body
  | clearError : Orders .clearError [0x10#8, 0x01#8, 0x45#8, 0x52#8, 0x43#8, 0x4C#8]
  | resetAll : Orders (.factoryReset .resetAll) (Request.factoryReset .resetAll).body
  | keepId : Orders (.factoryReset .keepId) (Request.factoryReset .keepId).body
  | keepIdAndBaudRate : Orders (.factoryReset .keepIdAndBaudRate) (Request.factoryReset .keepIdAndBaudRate).body
  | write {α : Type} {d : DataTy α} {valid : α → Prop} {f : α → List Byte} {v : α} (address : U16) :
      ImplData d valid f → valid v → Orders (.write d address v) (Request.write address (f v)).body
  | writeBytes (address : U16) (data : List Byte) : Orders (.writeBytes address data) (Request.write address data).body
  | regWrite {α : Type} {d : DataTy α} {valid : α → Prop} {f : α → List Byte} {v : α} (address : U16) :
      ImplData d valid f → valid v → d.size = 1#16 → Orders (.regWrite d address v) (Request.regWrite address (f v)).body
  | regWriteBytes (address : U16) (data : List Byte) :
      Orders (.regWriteBytes address data) (Request.regWrite address data).body

theorem WriteCall.Orders.instruct {w : WriteCall} {body : List Byte} (h : w.Orders body) :
    ∃ instr params n enc, body = instr :: params ∧ Fills enc.run n params ∧ ∀ id, w.run id = Client.instruct id instr n enc := by
  cases h with
  | action => exact ⟨_, _, _, _, rfl, Client.nothing_fills, fun _ => rfl⟩
  | reboot => exact ⟨_, _, _, _, rfl, Client.nothing_fills, fun _ => rfl⟩
  | clearRevolutionCounter => exact ⟨_, _, _, _, rfl, Client.constEncoder_fills _, fun _ => rfl⟩
  | clearError => exact ⟨_, _, _, _, rfl, Client.constEncoder_fills _, fun _ => rfl⟩
  | resetAll => exact ⟨_, _, _, _, rfl, Client.factoryResetEncoder_fills _, fun _ => rfl⟩
  | keepId => exact ⟨_, _, _, _, rfl, Client.factoryResetEncoder_fills _, fun _ => rfl⟩
  | keepIdAndBaudRate => exact ⟨_, _, _, _, rfl, Client.factoryResetEncoder_fills _, fun _ => rfl⟩
  | write address hd hv =>
    exact ⟨_, _, _, _, rfl, Client.writeEncoder_fills (c28_round_trip_partial _ _ _ hd) address hv, fun _ => rfl⟩
  | writeBytes address data => exact ⟨_, _, _, _, rfl, Client.writeBytesEncoder_fills address data, fun _ => rfl⟩
  | regWrite address hd hv h1 =>
    have h := Client.writeEncoder_fills (c28_round_trip_partial _ _ _ hd) address hv
    rw [h1] at h
    exact ⟨_, _, _, _, rfl, h, fun _ => rfl⟩
  | regWriteBytes address data => exact ⟨_, _, _, _, rfl, Client.writeBytesEncoder_fills address data, fun _ => rfl⟩

/-- **C62** The write-like calls. -/
theorem c62_write {w : WriteCall} {body : List Byte} (hw : w.Orders body) {b : Bus} (hb : b.WInv) (hbaud : b.baudRate < 2 ^ 32)
    {id : Byte} (hid : id ≠ 0xFE#8) :
    Comes b body 0 (fun rid e ps o => o = emptyAnswer rid e ps) (w.run id b) := by
  obtain ⟨instr, params, n, enc, rfl, hp, h⟩ := hw.instruct
  have hsh : Client.instruct id instr n enc =
      ((Client.writeInstruction id instr n enc).mapErr TransferError.writeError >>= fun _ =>
        (Client.readStatusResponse 0#16).mapErr TransferError.readError >>= fun s =>
          SO.lift ((s.toEmptyResponse.mapErr ReadError.invalidMessage).mapErr TransferError.readError)) := by
    unfold Client.instruct Client.readResponseIfNotBroadcast
    congr 1
    funext _ s
    rw [if_neg (by exact hid)]
    simp only [SO.mapErr_apply, SO.bind_def]
    rcases Client.readStatusResponse 0#16 s with ⟨s₁, o⟩
    cases o <;> rfl
  rw [h, hsh]
  refine comes_of (exp := 0#16) hb hbaud hp fun pkt rid e ps hc he => ?_
  have hc' : Carries (StatusPacket.mk pkt).packet rid 0x55#8 (e :: ps) := hc
  rw [empty_carries hc', emptyAnswer_calm he]
  by_cases hl : ps.length = 0
  · rw [if_pos hl, if_neg (by simpa using hl)]; rfl
  · rw [if_neg hl, if_pos hl]; rfl

/-- **C62** The write-like calls for all motors do not wait. -/
theorem c62_write_all {w : WriteCall} {body : List Byte} (hw : w.Orders body) {b : Bus} (hb : b.WInv) :
    ∃ wire, StuffedForm body wire ∧ (w.run 0xFE#8 b).2 =
      match sending b (body.length - 1) wire with
      | .err e => .err (.writeError e)
      | .panic => .panic
      | .hang => .hang
      | .ok () => .ok ⟨0xFE#8, false, ()⟩ := by
  obtain ⟨instr, params, n, enc, rfl, hp, h⟩ := hw.instruct
  refine ⟨_, stuffedForm_codeStuff _, ?_⟩
  have hs := c62_send (id := 0xFE#8) hb hp (stuffedForm_codeStuff (instr :: params))
  have hn : (instr :: params).length - 1 = n := by have := hp.length; simp [this]
  rw [hn, ← hs, h]
  unfold Client.instruct Client.readResponseIfNotBroadcast Client.writeInstruction
  rw [if_pos (by rfl), SO.bind_def, SO.mapErr_apply]
  rcases Bus.writeInstruction 0xFE#8 instr n enc b with ⟨b₁, o⟩
  cases o <;> rfl

/-! ## Panics -/

/-- The first packet to arrive is one the code can not handle: without an instruction byte, or a status packet without an
error byte, with a valid CRC. -/
def FirstIsMalformed (cap : Nat) (s : List Byte) : Prop :=
  10 ≤ cap ∧ ∃ g id rest, ¬ header <:+: g ∧ (s = g ++ frame id [] ++ rest ∨ s = g ++ frame id [0x55#8] ++ rest)

theorem verdict_panic_iff (cap : Nat) (s : List Byte) (e : IoErr) : (∃ left, Verdict cap s e .panic left) ↔ FirstIsMalformed cap s := by
  constructor
  · rintro ⟨left, h⟩
    obtain ⟨g, hg, hgh⟩ := skip_split s
    cases h with
    | noInstruction hN hp =>
      rw [(parse_packet hp).1, ← List.append_assoc] at hg
      exact ⟨hN, g, _, _, hgh, .inl hg⟩
    | noError hN hp hu =>
      rw [(parse_packet hp).1, ← List.append_assoc, unstuffs_singleton.mp hu] at hg
      exact ⟨hN, g, _, _, hgh, .inr hg⟩
  · rintro ⟨hN, g, id, rest, hg, rfl | rfl⟩
    · refine ⟨_, .noInstruction (id := id) (rest := rest) hN ?_⟩
      rw [List.append_assoc]
      exact parse_good_frame id hg (by decide) (by rw [Bus.frame_length]; simp; omega)
    · refine ⟨_, .noError (id := id) (wire := [0x55#8]) (rest := rest) hN ?_ (unstuffs_singleton.mpr rfl)⟩
      rw [List.append_assoc]
      exact parse_good_frame id hg (by decide) (by rw [Bus.frame_length]; simpa using hN)

/-- The packet is one that can not be handed to the port: everything but its CRC fits the write buffer (C09), or the build
has overflow checks and the length field overflows (C10). -/
def SendPanics (b : Bus) (n : Nat) (wire : List Byte) : Prop :=
  CrcGap b.writeBuffer.length n wire ∨
    (n + 10 ≤ b.writeBuffer.length ∧ 9 + wire.length ≤ b.writeBuffer.length ∧ b.debug = true ∧ 65534 ≤ wire.length % 65536)

theorem sending_panic_iff (b : Bus) (n : Nat) (wire : List Byte) : sending b n wire = .panic ↔ SendPanics b n wire := by
  unfold sending SendPanics CrcGap
  split
  · simp; omega
  · split
    · simp; omega
    · split
      · simp; omega
      · split
        · rename_i h1 h2 h3 h4
          exact iff_of_true rfl (.inr ⟨by omega, by omega, h4⟩)
        · rename_i h1 h2 h3 h4
          constructor
          · intro h
            split at h
            · simp at h
            · split at h <;> simp at h
          · intro h
            rcases h with h | h
            · omega
            · exact absurd h.2.2 h4

/-- The packet is sent. -/
structure SendSucceeds (b : Bus) (n : Nat) (wire : List Byte) : Prop where
  unstuffed : n + 10 ≤ b.writeBuffer.length
  stuffed : 9 + wire.length ≤ b.writeBuffer.length
  length : ¬ (b.debug = true ∧ 65534 ≤ wire.length % 65536)
  sendOk : b.serialPort.SendOk

theorem sending_ok_iff (b : Bus) (n : Nat) (wire : List Byte) : sending b n wire = .ok () ↔ SendSucceeds b n wire := by
  unfold sending
  constructor
  · intro h
    split at h
    · simp at h
    · split at h
      · simp at h
      · split at h
        · simp at h
        · split at h
          · simp at h
          · rename_i h1 h2 h3 h4
            refine ⟨by omega, by omega, h4, ?_, ?_⟩
            · intro e he
              rw [he] at h
              simp at h
            · intro dt e he
              split at h
              · simp at h
              · rw [he] at h; simp at h
  · rintro ⟨h1, h2, h3, h4, h5⟩
    rw [if_neg (by omega), if_neg (by omega), if_neg (by omega), if_neg h3]
    split
    · rename_i e he; exact absurd he (h4 e)
    · split
      · rename_i dt e he; exact absurd he (h5 dt e)
      · rfl

theorem stuffedForm_unique {body wire wire' : List Byte} (h : StuffedForm body wire) (h' : StuffedForm body wire') :
    wire = wire' := by
  rw [stuffedForm_iff] at h h'
  rw [h, h']

theorem endOfWait_unique {b : Bus} {exp D D' : Nat} (h : EndOfWait b exp D) (h' : EndOfWait b exp D') : D = D' := by
  obtain ⟨ns, h1, rfl⟩ := h
  obtain ⟨ns', h1', rfl⟩ := h'
  rw [leastTime_unique h1 h1']

theorem comes_panic_iff {α : Type} {b : Bus} {body wire : List Byte} {exp : Nat}
    {Means : Byte → Byte → List Byte → Outcome TransferError α → Prop} {r : Bus × Outcome TransferError α}
    (hM : ∀ rid e ps o, Means rid e ps o → o ≠ .panic) (hw : StuffedForm body wire) (h : Comes b body exp Means r) :
    r.2 = .panic ↔ SendPanics b (body.length - 1) wire ∨
      (SendSucceeds b (body.length - 1) wire ∧ (b.baudRate = 0 ∨
        ∃ D, EndOfWait b exp D ∧ FirstIsMalformed b.readBuffer.length (arriving D (newInput b.serialPort)))) := by
  obtain ⟨wire', hw', h⟩ := h
  obtain rfl := stuffedForm_unique hw hw'
  rw [← sending_panic_iff, ← sending_ok_iff]
  cases hs : sending b (body.length - 1) wire with
  | err w =>
    rw [hs] at h
    dsimp only at h
    rw [h]
    simp
  | panic =>
    rw [hs] at h
    simp [h]
  | hang => rw [hs] at h; exact h.elim
  | ok u =>
    rw [hs] at h
    dsimp only at h
    simp only [reduceCtorEq, false_or, true_and]
    by_cases h0 : b.baudRate = 0
    · rw [if_pos h0] at h
      simp [h, h0]
    · rw [if_neg h0] at h
      obtain ⟨D, v, left, h1, -, h2, -, h3⟩ := h
      simp only [h0, false_or]
      have key : (∃ D, EndOfWait b exp D ∧ FirstIsMalformed b.readBuffer.length (arriving D (newInput b.serialPort))) ↔ v = .panic := by
        constructor
        · rintro ⟨D', k1, k2⟩
          obtain rfl := endOfWait_unique h1 k1
          obtain ⟨left', k3⟩ := (verdict_panic_iff _ _ _).mpr k2
          exact (c62_verdict_unique h2 k3).1
        · rintro rfl
          exact ⟨D, h1, (verdict_panic_iff _ _ _).mp ⟨left, h2⟩⟩
      rw [key]
      cases v with
      | ok x => simp only [reduceCtorEq, iff_false]; exact hM _ _ _ _ h3
      | err x => dsimp only at h3; rw [h3]; simp
      | panic => dsimp only at h3; simp [h3]
      | hang => exact h3.elim

theorem answer_no_panic {α : Type} (id rid e : Byte) (count : Nat) (ps : List Byte) (data : α) :
    answer id count rid e ps data ≠ .panic := by
  unfold answer
  repeat' split
  all_goals simp

theorem emptyAnswer_no_panic (rid e : Byte) (ps : List Byte) : emptyAnswer rid e ps ≠ .panic := by
  unfold emptyAnswer
  repeat' split
  all_goals simp

/-- **C62** When the reading calls panic: if the request just does not fit the write buffer with its CRC, or at zero baud, or
if the first packet to arrive is malformed. -/
theorem c62_read_bytes_panics_iff {b : Bus} (hb : b.WInv) (hbaud : b.baudRate < 2 ^ 32) (id : Byte) (address count : U16)
    {wire : List Byte} (hw : StuffedForm (Request.read address count).body wire) :
    (Client.readBytes id address count b).2 = .panic ↔ SendPanics b 4 wire ∨
      (SendSucceeds b 4 wire ∧ (b.baudRate = 0 ∨
        ∃ D, EndOfWait b count.toNat D ∧ FirstIsMalformed b.readBuffer.length (arriving D (newInput b.serialPort)))) :=
  comes_panic_iff (fun rid e ps o h => by rw [h]; exact answer_no_panic _ _ _ _ _ _) hw (c62_read_bytes hb hbaud id address count)

theorem c62_read_panics_iff {α : Type} {d : DataTy α} {valid : α → Prop} {f : α → List Byte} (hd : ImplData d valid f)
    {b : Bus} (hb : b.WInv) (hbaud : b.baudRate < 2 ^ 32) (id : Byte) (address : U16)
    {wire : List Byte} (hw : StuffedForm (Request.read address d.size).body wire) :
    (Client.read d id address b).2 = .panic ↔ SendPanics b 4 wire ∨
      (SendSucceeds b 4 wire ∧ (b.baudRate = 0 ∨
        ∃ D, EndOfWait b d.size.toNat D ∧ FirstIsMalformed b.readBuffer.length (arriving D (newInput b.serialPort)))) :=
  comes_panic_iff (fun rid e ps o h => by obtain ⟨v, -, rfl⟩ := h; exact answer_no_panic _ _ _ _ _ _) hw (c62_read hd hb hbaud id address)

/-- **C62** When a ping panics: its packet has always the same length. -/
theorem c62_ping_panics_iff {b : Bus} (hb : b.WInv) (hbaud : b.baudRate < 2 ^ 32) (id : Byte) :
    (Client.ping id b).2 = .panic ↔ 10 ≤ b.writeBuffer.length ∧ b.serialPort.SendOk ∧ (b.baudRate = 0 ∨
        ∃ D, EndOfWait b 3 D ∧ FirstIsMalformed b.readBuffer.length (arriving D (newInput b.serialPort))) := by
  have hw : StuffedForm Request.ping.body [0x01#8] := stuffedForm_iff.mpr (by decide)
  rw [comes_panic_iff (fun rid e ps o h => by obtain ⟨v, -, rfl⟩ := h; exact answer_no_panic _ _ _ _ _ _) hw (c62_ping hb hbaud id)]
  constructor
  · rintro (h | ⟨h1, h2⟩)
    · rcases h with h | h
      · obtain ⟨k1, k2, k3⟩ := h
        simp [Request.body, Request.parameters] at k1 k3
        omega
      · simp at h
    · exact ⟨by simpa [Request.body, Request.parameters] using h1.unstuffed, h1.sendOk, h2⟩
  · rintro ⟨h1, h2, h3⟩
    exact .inr ⟨⟨by simpa [Request.body, Request.parameters] using h1, by simpa using h1, by simp, h2⟩, h3⟩

/-- **C62** When the write-like calls panic. -/
theorem c62_write_panics_iff {w : WriteCall} {body wire : List Byte} (ho : w.Orders body) {b : Bus} (hb : b.WInv)
    (hbaud : b.baudRate < 2 ^ 32) {id : Byte} (hid : id ≠ 0xFE#8) (hw : StuffedForm body wire) :
    (w.run id b).2 = .panic ↔ SendPanics b (body.length - 1) wire ∨
      (SendSucceeds b (body.length - 1) wire ∧ (b.baudRate = 0 ∨
        ∃ D, EndOfWait b 0 D ∧ FirstIsMalformed b.readBuffer.length (arriving D (newInput b.serialPort)))) :=
  comes_panic_iff (fun rid e ps o h => by rw [h]; exact emptyAnswer_no_panic _ _ _) hw (c62_write ho hb hbaud hid)

/-! ## Cases -/

/-- A corrupted answer to a ping: the last byte should be `0C`. -/
def corruptAnswer : Bus :=
  busWithChunks [(5, [0xFF#8, 0xFF#8, 0xFD#8, 0x00#8, 0x02#8, 0x04#8, 0x00#8, 0x55#8, 0x00#8, 0x29#8, 0x0D#8])]

example : (Client.ping 2#8 corruptAnswer).2 =
    .err (.readError (.invalidMessage (.checksum 0x0D29#16 0x0C29#16))) := by decide +kernel

/-- The same as described by the theorem. -/
example : Verdict 20 [0xFF#8, 0xFF#8, 0xFD#8, 0x00#8, 0x02#8, 0x04#8, 0x00#8, 0x55#8, 0x00#8, 0x29#8, 0x0D#8] .timedOut
    (.err (.invalidMessage (.checksum 0x0D29#16 0x0C29#16))) [] := by
  have h : crc 0#16 [0xFF#8, 0xFF#8, 0xFD#8, 0x00#8, 0x02#8, 0x04#8, 0x00#8, 0x55#8, 0x00#8] = 0x0C29#16 := by decide +kernel
  have := Verdict.corrupt (cap := 20) (e := .timedOut) (s := [0xFF#8, 0xFF#8, 0xFD#8, 0x00#8, 0x02#8, 0x04#8, 0x00#8, 0x55#8, 0x00#8, 0x29#8, 0x0D#8])
    (v := 0x0D29#16) (m := [0xFF#8, 0xFF#8, 0xFD#8, 0x00#8, 0x02#8, 0x04#8, 0x00#8, 0x55#8, 0x00#8]) (rest := []) (by decide)
    (by decide +kernel) (by decide +kernel)
  rwa [h] at this

/-- A packet with a length field of 300 bytes makes the call fail, and so does half a packet. -/
example : (Client.ping 2#8 (busWithChunks [(5, [0xFF#8, 0xFF#8, 0xFD#8, 0x00#8, 0x02#8, 0x2C#8, 0x01#8, 0x55#8])])).2 =
      .err (.readError (.bufferFull ⟨307, 20⟩)) ∧
    (Client.ping 2#8 (busWithChunks [(5, [0xFF#8, 0xFF#8, 0xFD#8, 0x00#8, 0x02#8, 0x04#8, 0x00#8, 0x55#8])])).2 =
      .err (.readError (.io .timedOut)) := by
  refine ⟨?_, ?_⟩ <;> decide +kernel

/-- The echo of a ping is no status packet. -/
example : (Client.ping 2#8 (busWithChunks [(5, frame 2#8 [0x01#8])])).2 =
    .err (.readError (.invalidMessage (.instruction 0x01#8 0x55#8))) := by decide +kernel

/-- A malformed packet crashes the caller of any of them. -/
example : (Client.ping 2#8 (busWithChunks [(5, frame 7#8 [])])).2 = .panic ∧
    ((WriteCall.reboot).run 2#8 (busWithChunks [(5, frame 7#8 [0x55#8])])).2 = .panic := by
  refine ⟨?_, ?_⟩ <;> decide +kernel

/-- The descriptions hold for such buses. -/
example : corruptAnswer.WInv ∧ SendSucceeds corruptAnswer 0 [0x01#8] ∧ EndOfWait corruptAnswer 3 36430556 := by
  refine ⟨⟨by decide, by decide⟩, ⟨by decide, by decide, by decide, fun _ h => (nomatch h), fun _ _ h => (nomatch h)⟩, 2430556, ⟨?_, ?_⟩, by decide⟩
  · simp [LongEnough, corruptAnswer, busWithChunks, quietBus]
  · intro t ht
    simp only [LongEnough, corruptAnswer, busWithChunks, quietBus] at ht
    omega

/-! ## Each theorem with hypotheses on a concrete case -/

theorem corruptAnswer_wInv : corruptAnswer.WInv := ⟨by decide, by decide⟩

/-- A byte of half a packet, and a timeout. -/
example := c62_verdict_unique (cap := 20) (s := [0x01#8, 0xFF#8, 0xFF#8]) (e := .timedOut)
  (.nothing (by decide) (by decide +kernel)) (.nothing (by decide) (by decide +kernel))

example := c62_send (id := 1#8) corruptAnswer_wInv (bytesEncoder_fills _) sampleForm

example := c62_read_bytes corruptAnswer_wInv (by decide) 2#8 132#16 4#16

example := c62_read (implSigned (n := 4) (by decide)) corruptAnswer_wInv (by decide) 2#8 132#16

example := c62_ping corruptAnswer_wInv (by decide) 2#8

example := c62_write (.writeBytes 116#16 [1#8, 2#8]) corruptAnswer_wInv (by decide) (id := 2#8) (by decide)

example := c62_write_all (.write 116#16 (implUnsigned (n := 4) (by decide)) (v := 5#32) trivial) corruptAnswer_wInv

/-- A status packet without error byte is the answer to a read. -/
example := (c62_read_bytes_panics_iff (b := busWithChunks [(5, frame 7#8 [0x55#8])]) ⟨by decide, by decide⟩ (by decide) 2#8 132#16 4#16
  (wire := (Request.read 132#16 4#16).body) ⟨[], _, rfl, by decide, by decide, by decide⟩).2
  (.inr ⟨⟨by decide, by decide, by decide, by simp [busWithChunks, quietPort], by simp [busWithChunks, quietPort]⟩,
    .inr ⟨_, ⟨_, leastTime_57600 _, rfl⟩, by decide, [], 7#8, [], by decide, .inr (by decide +kernel)⟩⟩)

example := (c62_read_panics_iff (implUnsigned (n := 4) (by decide)) (b := busWithChunks [(5, frame 7#8 [0x55#8])]) ⟨by decide, by decide⟩ (by decide)
  2#8 132#16 (wire := (Request.read 132#16 4#16).body) ⟨[], _, rfl, by decide, by decide, by decide⟩).2
  (.inr ⟨⟨by decide, by decide, by decide, by simp [busWithChunks, quietPort], by simp [busWithChunks, quietPort]⟩,
    .inr ⟨_, ⟨_, leastTime_57600 _, rfl⟩, by decide, [], 7#8, [], by decide, .inr (by decide +kernel)⟩⟩)

example := (c62_ping_panics_iff (b := busWithChunks [(5, frame 7#8 [0x55#8])]) ⟨by decide, by decide⟩ (by decide) 2#8).2
  ⟨by decide, ⟨by simp [busWithChunks, quietPort], by simp [busWithChunks, quietPort]⟩,
    .inr ⟨_, ⟨_, leastTime_57600 _, rfl⟩, by decide, [], 7#8, [], by decide, .inr (by decide +kernel)⟩⟩

end Dxl.Props
