import Verif.Lemmas.Conversation
import Verif.Props.Calls
import Verif.Props.Network

/-! # The thread of the client, on whole packets -/

namespace Dxl.Props
open Dxl Spec Spec.Line

/-- A call that sends one packet and looks at one status packet. -/
structure OneAnswer {α : Type} (m : SO Bus TransferError (Response α)) (id : Byte) (r : Request) (value : List Byte → α → Prop)
    (n : Nat) (enc : Encoder) (exp : U16) (k : StatusPacket → Outcome TransferError (Response α)) : Prop where
  fills : Fills enc.run n r.parameters
  shape : m = ((Client.writeInstruction id r.number n enc).mapErr TransferError.writeError >>= fun _ =>
    (Client.readStatusResponse exp).mapErr TransferError.readError >>= fun s => SO.lift (k s))
  shows : ∀ pkt data, Carries pkt id 0x55#8 (0#8 :: data) → data.length = answerSize r →
    ∃ v, value data v ∧ k ⟨pkt⟩ = .ok ⟨id, false, v⟩

theorem instruct_shape {id : Byte} (hid : id ≠ 254#8) (instr : Byte) (n : Nat) (enc : Encoder) : Client.instruct id instr n enc =
    ((Client.writeInstruction id instr n enc).mapErr TransferError.writeError >>= fun _ =>
      (Client.readStatusResponse 0#16).mapErr TransferError.readError >>= fun s =>
        SO.lift ((s.toEmptyResponse.mapErr ReadError.invalidMessage).mapErr TransferError.readError)) := by
  unfold Client.instruct Client.readResponseIfNotBroadcast
  congr 1
  funext _ s
  rw [if_neg (by exact hid)]
  simp only [SO.mapErr_apply, SO.bind_def]
  rcases Client.readStatusResponse 0#16 s with ⟨s₁, o⟩
  cases o <;> rfl

theorem uses_shape {α : Type} {m : SO Bus TransferError (Response α)} {id : Byte} {r : Request} {value : List Byte → α → Prop}
    (h : Uses m id r value) (hid : id ≠ 254#8) : ∃ n enc exp k, OneAnswer m id r value n enc exp k := by
  have empty : ∀ {r : Request} {n : Nat} {enc : Encoder}, answerSize r = 0 → Fills enc.run n r.parameters →
      ∃ n' enc' exp k, OneAnswer (Client.instruct id r.number n enc) id r (fun _ _ => True) n' enc' exp k := by
    intro r n enc h0 he
    refine ⟨n, enc, 0#16, _, he, instruct_shape hid _ _ _, ?_⟩
    intro pkt data hc hl
    have hc' : Carries (StatusPacket.mk pkt).packet id 0x55#8 (0#8 :: data) := hc
    refine ⟨(), trivial, ?_⟩
    rw [empty_carries hc', if_pos (hl.trans h0)]
    rfl
  cases h with
  | ping =>
    refine ⟨_, _, ?exp1, ?k1, Client.nothing_fills, ?shape1, ?shows1⟩
    case shape1 =>
      unfold Client.ping
      simp only [transferSingle_shape, SO.bind_assoc', SO.lift_bind_lift]
      rfl
    case shows1 =>
      intro pkt data hc hl
      have hc' : Carries (StatusPacket.mk pkt).packet id 0x55#8 (0#8 :: data) := hc
      rcases ping_carries hc' with ⟨m, fw, rfl, h3⟩ | ⟨hl', h3⟩
      · refine ⟨⟨m, fw⟩, rfl, ?_⟩
        rw [checkSender_carries hc, if_neg (by simp)]
        simp only [Outcome.bind, h3]
        rfl
      · exact absurd hl hl'
  | readBytes id a n =>
    refine ⟨_, _, ?exp2, ?k2, Client.readEncoder_fills a n, ?shape2, ?shows2⟩
    case shape2 =>
      unfold Client.readBytes
      simp only [readRaw_shape, SO.bind_assoc', SO.lift_bind_lift]
      rfl
    case shows2 =>
      intro pkt data hc hl
      have hc' : Carries (StatusPacket.mk pkt).packet id 0x55#8 (0#8 :: data) := hc
      refine ⟨data, rfl, ?_⟩
      rw [checkRead_carries hc, if_neg (by simp), if_neg (by simpa [answerSize] using hl)]
      simp only [Outcome.bind]
      rw [decodeBytes_carries hc', if_pos (by decide)]
      rfl
  | @read _ d valid f hd id a =>
    refine ⟨_, _, ?exp3, ?k3, Client.readEncoder_fills a d.size, ?shape3, ?shows3⟩
    case shape3 =>
      unfold Client.read
      simp only [readRaw_shape, SO.bind_assoc', SO.lift_bind_lift]
      rfl
    case shows3 =>
      intro pkt data hc hl
      have hc' : Carries (StatusPacket.mk pkt).packet id 0x55#8 (0#8 :: data) := hc
      obtain ⟨v, hv, hf, hdec⟩ := c28_decode_onto_partial d valid f hd data hl
      refine ⟨v, ⟨hv, hf⟩, ?_⟩
      rw [checkRead_carries hc, if_neg (by simp), if_neg (by simpa [answerSize] using hl)]
      simp only [Outcome.bind]
      rw [decode_carries d hc', if_pos (by decide), hdec]
      rfl
  | writeBytes id a data => exact empty (r := .write a data) rfl (Client.writeBytesEncoder_fills a data)
  | @write _ d valid f hd id a v hv =>
    exact empty (r := .write a (f v)) rfl (Client.writeEncoder_fills (c28_round_trip_partial _ _ _ hd) a hv)
  | regWriteBytes id a data => exact empty (r := .regWrite a data) rfl (Client.writeBytesEncoder_fills a data)
  | action => exact empty (r := .action) rfl Client.nothing_fills

/-- The call could not write, or could not read: there was no answer in time. -/
def Failed {α : Type} (o : Outcome TransferError α) : Prop :=
  (∃ e, o = .err (.writeError e)) ∨ ∃ e, o = .err (.readError (.io e))

/-- What a call sees of the line if it does not fail, and what it returns. -/
structure Asked {α : Type} (o : Outcome TransferError (Response α)) (id : Byte) (r : Request) (value : List Byte → α → Prop)
    (es : List Seen) (gs : List (List Byte)) : Prop where
  saw : es = .wrote (requestFrame id r) :: gs.map .got
  some : gs.flatten ≠ []
  shows : ∀ reply : ServoReply, gs.flatten = replyFrame id reply → Survives (0x55#8 :: reply.error :: reply.data) →
    (replyFrame id reply).length ≤ 128 → (reply = Servo.outside ∨ (reply.error = 0#8 ∧ reply.data.length = answerSize r)) →
    Shows o id value reply

theorem readPacketDeadline_baudRate (D : Nat) {b : Bus} (hr : b.RInv) (hN : 10 ≤ b.readBuffer.length) :
    (Bus.readPacketDeadline D b).1.baudRate = b.baudRate := by
  have h := Bus.readPacketDeadline_result D hr hN
  generalize Bus.readPacketDeadline D b = r at h
  cases h with
  | packet _ _ h => exact h.like.baudRate
  | tooBig _ _ h => exact h.like.baudRate
  | ended _ _ _ _ h => exact h.like.baudRate

theorem requestFrame_length (id : Byte) (r : Request) : r.parameters.length + 10 ≤ (requestFrame id r).length := by
  unfold requestFrame
  rw [Bus.frame_length, codeStuff_length]
  simp [Request.body]
  omega

theorem answer_eq {α : Type} (k : StatusPacket → Outcome TransferError α) {b c : Bus} {exp : U16} {t : Nat} {o : Outcome ReadError Packet}
    (heq : Client.readStatusResponse exp b = Client.readStatusResponseTimeout t b)
    (hx : Bus.readPacketDeadline (b.serialPort.makeDeadline t) b = (c, o)) :
    ((Client.readStatusResponse exp).mapErr TransferError.readError >>= fun s => SO.lift (k s)) b =
      (c, ((o.bind Client.checkStatus).mapErr TransferError.readError).bind k) := by
  rw [SO.bind_def, SO.mapErr_apply, heq]
  unfold Client.readStatusResponseTimeout
  rw [SO.get_bind, SO.bind_def]
  rw [hx]
  cases o with
  | ok p =>
    simp only [SO.lift_apply, Outcome.bind]
    cases Client.checkStatus p <;> rfl
  | _ => rfl

theorem sending_ok {b : Bus} (h : b.serialPort.SendOk) {n : Nat} {wire : List Byte} (hn : n + 10 ≤ b.writeBuffer.length)
    (hw : 9 + wire.length ≤ b.writeBuffer.length) (h16 : wire.length < 65534) : sending b n wire = .ok () := by
  unfold sending
  rw [if_neg (by omega), if_neg (by omega), if_neg (by omega), if_neg (by omega)]
  have hd := h.discard
  have hwr := h.write
  generalize b.serialPort.discardRes.head? = x at hd
  generalize b.serialPort.writeRes.head? = y at hwr
  rcases x with _ | _ | e
  · rcases y with _ | ⟨dt, _ | e⟩
    · rfl
    · rfl
    · exact absurd rfl (hwr dt e)
  · rcases y with _ | ⟨dt, _ | e⟩
    · rfl
    · rfl
    · exact absurd rfl (hwr dt e)
  · exact absurd rfl (hd e)

theorem uses_client {α : Type} {m : SO Bus TransferError (Response α)} {id : Byte} {r : Request} {value : List Byte → α → Prop}
    (h : Uses m id r value) (hid : id ≠ 254#8) {b : Bus} (hb : b.Inv) (hN : b.readBuffer.length = 128)
    (hW : b.writeBuffer.length = 128) (h0 : b.baudRate ≠ 0) (hbaud : b.baudRate < 2 ^ 32) (hl : (requestFrame id r).length ≤ 128) :
    ∃ es, Saw b.serialPort es (m b).1.serialPort ∧ (m b).1.baudRate = b.baudRate ∧
      ((Failed (m b).2 ∧ (b.serialPort.SendOk → ∃ gs e, es = .wrote (requestFrame id r) :: List.map .got gs ++ [.failed e])) ∨ ∃ gs, Asked (m b).2 id r value es gs) := by
  obtain ⟨n, enc, exp, k, hf, rfl, hk⟩ := uses_shape h hid
  have hlen := hf.length
  have hreq := requestFrame_length id r
  have hwire : (requestFrame id r).length = 9 + (codeStuff r.body).length := Bus.frame_length _ _
  have hsend := c62_send (id := id) hb.wInv hf (stuffedForm_codeStuff (r.number :: r.parameters))
  have hsaw := Bus.writePacket_saw id r.number hb.wInv hf
  have hkept := (Bus.writePacket_kept id r.number n enc hb.wInv).baudRate
  have hnp : sending b n (codeStuff (r.number :: r.parameters)) ≠ .panic := by
    rw [Ne, sending_panic_iff]
    have hw : (requestFrame id r).length = 9 + (codeStuff (r.number :: r.parameters)).length := hwire
    rintro (⟨-, -, h⟩ | ⟨-, -, -, h⟩) <;> omega
  have hnh : sending b n (codeStuff (r.number :: r.parameters)) ≠ .hang := by
    unfold sending
    repeat' split
    all_goals simp
  rw [← hsend] at hnp hnh
  rw [SO.bind_def, SO.mapErr_apply]
  unfold Client.writeInstruction
  change _ = _ at hkept
  rcases hm : Bus.writeInstruction id r.number n enc b with ⟨b₁, o⟩
  have hm' : Bus.writePacket id r.number n enc b = (b₁, o) := hm
  rw [hm] at hnp hnh
  rw [hm'] at hsaw hkept
  cases o with
  | err w =>
    simp only [Outcome.mapErr_err]
    have hok : ¬ b.serialPort.SendOk := by
      intro hp
      have := sending_ok hp (n := n) (wire := codeStuff (r.number :: r.parameters)) (by omega) (by
        have hw : (requestFrame id r).length = 9 + (codeStuff (r.number :: r.parameters)).length := hwire
        omega) (by
        have hw : (requestFrame id r).length = 9 + (codeStuff (r.number :: r.parameters)).length := hwire
        omega)
      rw [← hsend, hm] at this
      cases this
    rcases hsaw with ⟨h1, -⟩ | ⟨h1, -⟩
    · exact ⟨_, h1, hkept, .inl ⟨.inl ⟨_, rfl⟩, fun h => absurd h hok⟩⟩
    · exact ⟨_, h1, hkept, .inl ⟨.inl ⟨_, rfl⟩, fun h => absurd h hok⟩⟩
  | panic => exact absurd rfl hnp
  | hang => exact absurd rfl hnh
  | ok u =>
    simp only [Outcome.mapErr_ok]
    obtain ⟨_, _, -, -, -, h3⟩ := afterSend hb.wInv hm
    rcases hsaw with ⟨-, h1⟩ | ⟨h1, -, h4, h5⟩
    · exact absurd rfl h1
    dsimp only at h1 h4 h5 hkept
    have hpend : b₁.pending = [] := by simp [Bus.pending, h4, h5]
    have hN₁ : b₁.readBuffer.length = 128 := by rw [h3.readBuffer, hN]
    obtain ⟨ns, -, heq⟩ := readStatusResponse_eq (b := b₁) (h3.baudRate ▸ h0) (h3.baudRate ▸ hbaud) exp
    obtain ⟨es, hs, hsees⟩ := Bus.readPacketDeadline_sees (b₁.serialPort.makeDeadline (ns + 34000000)) h3.rinv (by omega)
    have hrate := readPacketDeadline_baudRate (b₁.serialPort.makeDeadline (ns + 34000000)) h3.rinv (by omega)
    rcases hx : Bus.readPacketDeadline (b₁.serialPort.makeDeadline (ns + 34000000)) b₁ with ⟨c, o⟩
    rw [hx] at hs hsees hrate
    rw [answer_eq k heq hx]
    dsimp only at hs hrate
    have hsaw := h1.trans hs
    have hrate := hrate.trans hkept
    have hne : ∀ {gs : List (List Byte)}, parse b₁.readBuffer.length (b₁.pending ++ gs.flatten) ≠ .more → gs.flatten ≠ [] := by
      intro gs hp he
      rw [hpend, he] at hp
      exact hp (by rw [hN₁]; decide)
    have hreply : ∀ {gs : List (List Byte)} {reply : ServoReply}, gs.flatten = replyFrame id reply →
        Survives (0x55#8 :: reply.error :: reply.data) → (replyFrame id reply).length ≤ 128 →
        parse b₁.readBuffer.length (b₁.pending ++ gs.flatten) = .packet (replyFrame id reply) [] := by
      intro gs reply h1 h2 h3
      have := good_parse (R := ForOne) (m := (0, replyFrame id reply)) (.reply h2 h3) []
      rw [hpend, hN₁, h1]
      simpa [bytes] using this
    refine ⟨_, hsaw, hrate, ?_⟩
    cases hsees with
    | @packet gs f rest _ hp _ _ _ =>
      refine .inr ⟨gs, by simp [requestFrame, Request.body], hne (by rw [hp]; simp), ?_⟩
      intro reply k1 k2 k3 k4
      rw [hreply k1 k2 k3] at hp
      obtain ⟨rfl, -⟩ := Parsed.packet.inj hp
      obtain ⟨pkt, k5, k6⟩ := frameOutcome_carries (id := id) (survives_unstuffs (stuffedForm_codeStuff _) k2)
      change Bus.frameOutcome (replyFrame id reply) = _ at k5
      rw [k5]
      simp only [Outcome.bind, checkStatus_carries k6, if_pos]
      rcases k4 with rfl | ⟨k7, k8⟩
      · rfl
      · rw [k7] at k6 ⊢
        obtain ⟨v, k9, k10⟩ := hk pkt reply.data k6 k8
        unfold Shows
        rw [if_pos k7]
        refine ⟨v, k9, ?_⟩
        rw [← k10]
        rfl
    | @tooBig gs req rest _ hp =>
      refine .inr ⟨gs, by simp [requestFrame, Request.body], hne (by rw [hp]; simp), ?_⟩
      intro reply k1 k2 k3 _
      rw [hreply k1 k2 k3] at hp
      cases hp
    | ended => exact .inl ⟨.inr ⟨_, rfl⟩, fun _ => ⟨_, _, by simp [requestFrame, Request.body]; exact ⟨rfl, rfl⟩⟩⟩

end Dxl.Props
