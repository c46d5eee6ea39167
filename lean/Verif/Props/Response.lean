import Verif.Lemmas.Exchange
import Verif.Props.DataTypes
import Verif.Spec.Request

/-! # C30 - C33: responses to instructions

`Exchange b c id body n rid e ps` (in `Lemmas/Exchange.lean`): an instruction packet with this body was sent to `id`, and
the first packet to arrive after it (in time) was a status packet from `rid` with error byte `e` and parameters `ps`. -/

namespace Dxl.Props
open Spec

/-- A body grows by at most a third when stuffed. -/
theorem ncount_le_third (p : List Byte) : 3 * ncount p + nstate p ≤ p.length := by
  induction p with
  | nil => simp [ncount, nstate]
  | cons b p ih =>
    simp only [ncount, nstate, List.length_cons]
    repeat' split
    all_goals simp_all
    all_goals omega

/-- There is room for an instruction packet with `n` parameters, whatever they are. -/
def Room (b : Bus) (n : Nat) : Prop :=
  9 + (n + 1) + (n + 1) / 3 ≤ b.writeBuffer.length ∧ (n + 1) + (n + 1) / 3 + 2 < 2 ^ 16

theorem write_room {b : Bus} {id instr : Byte} {n : Nat} {enc : Encoder} {params : List Byte} (hb : b.WInv)
    (he : Fills enc.run n params) (hp : b.serialPort.SendOk) (hroom : Room b n) :
    ∃ b', Bus.writeInstruction id instr n enc b = (b', .ok ()) := by
  have hl := he.length
  have h1 := codeStuff_length (instr :: params)
  have h2 := ncount_le_third (instr :: params).reverse
  simp only [List.length_cons, List.length_reverse] at h1 h2
  obtain ⟨hr1, hr2⟩ := hroom
  exact Bus.writeInstruction_fits hb he hp (by omega) (by omega) (by omega)

theorem transferSingle_ok {b c : Bus} {id instr : Byte} {n : Nat} {exp : U16} {enc : Encoder} {params : List Byte}
    {s : StatusPacket} (hb : b.WInv) (hbaud : b.baudRate < 2 ^ 32) (hp : Fills enc.run n params)
    (h : Client.transferSingle id instr n exp enc b = (c, .ok s)) :
    ∃ e ps, Exchange b c id (instr :: params) exp.toNat id e ps ∧ Carries s.packet id 0x55#8 (e :: ps) ∧
      e.toNat % 128 = 0 := by
  unfold Client.transferSingle at h
  obtain ⟨b₁, _, hw, h⟩ := SO.bind_eq_ok.mp h
  obtain ⟨c', s', hr, h⟩ := SO.bind_eq_ok.mp h
  obtain ⟨rid, e, ps, hx, hc, he⟩ := exchange_ok hb hbaud hp (SO.mapErr_eq_ok.mp hw) (SO.mapErr_eq_ok.mp hr)
  obtain ⟨c₂, a, k1, k2⟩ := SO.bind_eq_ok.mp h
  obtain ⟨rfl, h1⟩ := SO.lift_eq_ok.mp k1
  obtain ⟨c₃, _, k3, k4⟩ := SO.bind_eq_ok.mp k2
  obtain ⟨rfl, h2⟩ := SO.lift_eq_ok.mp k3
  rw [(status_accessors hc _).1] at h1
  simp only [SO.pure_apply, Prod.mk.injEq, Outcome.ok.injEq] at k4 h1
  obtain ⟨rfl, rfl⟩ := k4
  subst h1
  unfold checkPacketId at h2
  split at h2
  · rename_i heq
    subst heq
    exact ⟨e, ps, hx, hc, he⟩
  · simp at h2

/-- What a transfer makes of a status packet. -/
theorem transferSingle_complete {b : Bus} {id instr : Byte} {n ns : Nat} {exp : U16} {enc : Encoder} {params : List Byte}
    {rid e : Byte} {ps rest : List Byte} (hb : b.WInv) (hbaud : b.baudRate < 2 ^ 32) (h0 : b.baudRate ≠ 0)
    (hp : Fills enc.run n params) (hs : b.serialPort.SendOk) (hroom : Room b n)
    (hns : LeastTime (11 + exp.toNat) b.baudRate ns)
    (hf : StatusFirst b.readBuffer.length
      (arriving (b.serialPort.now + b.serialPort.writeTime + (ns + 34000000)) (newInput b.serialPort)) rid e ps rest) :
    ∃ c pkt, Client.transferSingle id instr n exp enc b =
        (c, if e.toNat % 128 ≠ 0 then .err (.readError (.motorError ⟨e⟩))
            else if rid ≠ id then .err (.readError (.invalidMessage (.packetId rid id))) else .ok ⟨pkt⟩) ∧
      Carries pkt rid 0x55#8 (e :: ps) := by
  obtain ⟨b₁, hw⟩ := write_room (id := id) (instr := instr) hb hp hs hroom
  obtain ⟨c, pkt, hr, hc, -⟩ := exchange_complete hb hbaud h0 hw hns hf
  refine ⟨c, pkt, ?_, hc⟩
  have hw' : (Client.writeInstruction id instr n enc).mapErr TransferError.writeError b = (b₁, .ok ()) :=
    SO.mapErr_eq_ok.mpr hw
  unfold Client.transferSingle
  rw [SO.bind_ok hw']
  by_cases he : e.toNat % 128 = 0
  · rw [if_pos he] at hr
    have hr' : (Client.readStatusResponse exp).mapErr TransferError.readError b₁ = (c, .ok ⟨pkt⟩) := SO.mapErr_eq_ok.mpr hr
    have hc' : Carries (StatusPacket.mk pkt).packet rid 0x55#8 (e :: ps) := hc
    rw [SO.bind_ok hr', (status_accessors hc' _).1, SO.lift_ok_bind, if_neg (by simpa using he)]
    unfold checkPacketId
    by_cases hid : rid = id
    · rw [if_pos hid, if_neg (by simpa using hid)]; rfl
    · rw [if_neg hid, if_pos hid]; rfl
  · rw [if_neg he] at hr
    have hr' : (Client.readStatusResponse exp).mapErr TransferError.readError b₁ = (c, .err (.readError (.motorError ⟨e⟩))) := by
      rw [SO.mapErr_apply, hr]; rfl
    rw [SO.bind_err hr', if_pos he]

theorem readRaw_ok {b c : Bus} {id : Byte} {address count : U16} {s : StatusPacket} (hb : b.WInv)
    (hbaud : b.baudRate < 2 ^ 32) (h : Client.readRaw id address count b = (c, .ok s)) :
    ∃ e ps, Exchange b c id (Request.read address count).body count.toNat id e ps ∧
      Carries s.packet id 0x55#8 (e :: ps) ∧ e.toNat % 128 = 0 ∧ ps.length = count.toNat := by
  unfold Client.readRaw at h
  obtain ⟨c₁, s', h1, h⟩ := SO.bind_eq_ok.mp h
  obtain ⟨e, ps, hx, hc, he⟩ := transferSingle_ok hb hbaud (Client.readEncoder_fills address count) h1
  obtain ⟨c₂, ps', k1, k2⟩ := SO.bind_eq_ok.mp h
  obtain ⟨rfl, h2⟩ := SO.lift_eq_ok.mp k1
  obtain ⟨c₃, _, k3, k4⟩ := SO.bind_eq_ok.mp k2
  obtain ⟨rfl, h3⟩ := SO.lift_eq_ok.mp k3
  rw [(status_accessors hc _).2.2] at h2
  simp only [SO.pure_apply, Prod.mk.injEq, Outcome.ok.injEq] at k4 h2
  obtain ⟨rfl, rfl⟩ := k4
  subst h2
  unfold checkCount at h3
  split at h3
  · rename_i hl; exact ⟨e, ps, hx, hc, he, hl⟩
  · simp at h3

/-- **C30** If `read_bytes` succeeds, the read instruction was sent, the first packet to arrive after it was a valid status
packet of the addressed motor without error, it has exactly the requested number of parameters, and those are the
data returned. -/
theorem c30_read_bytes {b c : Bus} {id : Byte} {address count : U16} {r : Response (List Byte)} (hb : b.WInv)
    (hbaud : b.baudRate < 2 ^ 32) (h : Client.readBytes id address count b = (c, .ok r)) :
    ∃ e, Exchange b c id (Request.read address count).body count.toNat id e r.data ∧ e.toNat % 128 = 0 ∧
      r.data.length = count.toNat ∧ r.motorId = id ∧ r.alert = decide (128 ≤ e.toNat) := by
  unfold Client.readBytes at h
  obtain ⟨c₁, s, h1, h⟩ := SO.bind_eq_ok.mp h
  obtain ⟨rfl, h2⟩ := SO.lift_eq_ok.mp h
  obtain ⟨e, ps, hx, hc, he, hl⟩ := readRaw_ok hb hbaud h1
  rw [decodeBytes_carries hc, if_pos he] at h2
  simp only [Outcome.mapErr_ok, Outcome.ok.injEq] at h2
  subst h2
  exact ⟨e, hx, he, hl, rfl, rfl⟩

/-- **C30** The same for `read`, for any implementation of `Data`: the parameters are decoded. -/
theorem c30_read {α : Type} {d : DataTy α} {b c : Bus} {id : Byte} {address : U16} {r : Response α} (hb : b.WInv)
    (hbaud : b.baudRate < 2 ^ 32) (h : Client.read d id address b = (c, .ok r)) :
    ∃ e ps, Exchange b c id (Request.read address d.size).body d.size.toNat id e ps ∧ e.toNat % 128 = 0 ∧
      ps.length = d.size.toNat ∧ d.decode ps = .ok r.data ∧ r.motorId = id ∧ r.alert = decide (128 ≤ e.toNat) := by
  unfold Client.read at h
  obtain ⟨c₁, s, h1, h⟩ := SO.bind_eq_ok.mp h
  obtain ⟨rfl, h2⟩ := SO.lift_eq_ok.mp h
  obtain ⟨e, ps, hx, hc, he, hl⟩ := readRaw_ok hb hbaud h1
  rw [decode_carries d hc, if_pos he, Outcome.mapErr_eq_ok, Outcome.bind_eq_ok] at h2
  obtain ⟨v, h2, h3⟩ := h2
  simp only [Outcome.ok.injEq] at h3
  subst h3
  exact ⟨e, ps, hx, he, hl, Outcome.mapErr_eq_ok.mp h2, rfl, rfl⟩

/-- **C30** For the integers and arrays the crate implements `Data` for, the parameters are the encoding of the value
returned. -/
theorem c30_read_value {α : Type} {d : DataTy α} {valid : α → Prop} {f : α → List Byte} (hd : ImplData d valid f)
    {b c : Bus} {id : Byte} {address : U16} {r : Response α} (hb : b.WInv) (hbaud : b.baudRate < 2 ^ 32)
    (h : Client.read d id address b = (c, .ok r)) :
    ∃ e, Exchange b c id (Request.read address d.size).body d.size.toNat id e (f r.data) ∧ valid r.data ∧
      e.toNat % 128 = 0 ∧ r.motorId = id ∧ r.alert = decide (128 ≤ e.toNat) := by
  obtain ⟨e, ps, hx, he, hl, hdec, h1, h2⟩ := c30_read hb hbaud h
  obtain ⟨v, hv, hf, hdec'⟩ := c28_decode_onto_partial d valid f hd ps hl
  rw [hdec'] at hdec
  simp only [Outcome.ok.injEq] at hdec
  subst hdec
  subst hf
  exact ⟨e, hx, hv, he, h1, h2⟩

/-- **C30** The same for `ping`. -/
theorem c30_ping {b c : Bus} {id : Byte} {r : Response Client.Ping} (hb : b.WInv)
    (hbaud : b.baudRate < 2 ^ 32) (h : Client.ping id b = (c, .ok r)) :
    ∃ e, Exchange b c id Request.ping.body 3 id e (le16 r.data.model ++ [r.data.firmware]) ∧ e.toNat % 128 = 0 ∧
      r.motorId = id ∧ r.alert = decide (128 ≤ e.toNat) := by
  unfold Client.ping at h
  obtain ⟨c₁, s, h1, h⟩ := SO.bind_eq_ok.mp h
  obtain ⟨rfl, h2⟩ := SO.lift_eq_ok.mp h
  obtain ⟨e, ps, hx, hc, he⟩ := transferSingle_ok hb hbaud Client.nothing_fills h1
  rcases ping_carries hc with ⟨m, fw, rfl, h3⟩ | ⟨-, h3⟩
  · rw [h3] at h2
    simp only [Outcome.mapErr_ok, Outcome.ok.injEq] at h2
    subst h2
    exact ⟨e, hx, he, rfl, rfl⟩
  · rw [h3] at h2
    simp at h2

/-- What the reading calls make of an answer: motor error, other motor, wrong number of parameters, or data, in this
order. -/
def answer {α : Type} (id : Byte) (count : Nat) (rid e : Byte) (ps : List Byte) (data : α) :
    Outcome TransferError (Response α) :=
  if e.toNat % 128 ≠ 0 then .err (.readError (.motorError ⟨e⟩))
  else if rid ≠ id then .err (.readError (.invalidMessage (.packetId rid id)))
  else if ps.length ≠ count then .err (.readError (.invalidMessage (.parameterCount ps.length (.exact count))))
  else .ok ⟨rid, decide (128 ≤ e.toNat), data⟩

/-- The serial port accepts an instruction of `n` parameters, and then the first packet to arrive in time for a response with
`exp` parameters is this status packet. -/
structure Answered (b : Bus) (n exp : Nat) (rid e : Byte) (ps : List Byte) : Prop where
  winv : b.WInv
  baud : b.baudRate < 2 ^ 32
  baud0 : b.baudRate ≠ 0
  sendOk : b.serialPort.SendOk
  room : Room b n
  first : ∃ ns rest, LeastTime (11 + exp) b.baudRate ns ∧ StatusFirst b.readBuffer.length
    (arriving (b.serialPort.now + b.serialPort.writeTime + (ns + 34000000)) (newInput b.serialPort)) rid e ps rest

theorem readRaw_complete {b : Bus} {id rid e : Byte} {address count : U16} {ps : List Byte}
    (h : Answered b 4 count.toNat rid e ps) :
    ∃ c s, Client.readRaw id address count b = (c, (answer id count.toNat rid e ps ()).bind fun _ => .ok s) ∧
      Carries s.packet rid 0x55#8 (e :: ps) := by
  obtain ⟨ns, rest, hns, hf⟩ := h.first
  obtain ⟨c, pkt, h1, h2⟩ := transferSingle_complete (id := id) (instr := InstructionId.read) h.winv h.baud h.baud0
    (Client.readEncoder_fills address count) h.sendOk h.room hns hf
  refine ⟨c, ⟨pkt⟩, ?_, h2⟩
  unfold Client.readRaw answer
  by_cases he : e.toNat % 128 ≠ 0
  · rw [if_pos he] at h1 ⊢
    rw [SO.bind_err h1]; rfl
  · rw [if_neg he] at h1 ⊢
    by_cases hid : rid ≠ id
    · rw [if_pos hid] at h1 ⊢
      rw [SO.bind_err h1]; rfl
    · rw [if_neg hid] at h1 ⊢
      have hc' : Carries (StatusPacket.mk pkt).packet rid 0x55#8 (e :: ps) := h2
      rw [SO.bind_ok h1, (status_accessors hc' _).2.2, SO.lift_ok_bind]
      unfold checkCount
      by_cases hl : ps.length = count.toNat
      · rw [if_pos hl, if_neg (by simpa using hl)]; rfl
      · rw [if_neg hl, if_pos hl]; rfl

/-- **C30** The converse for `read_bytes`: a status packet is reported as what it is. -/
theorem c30_read_bytes_complete {b : Bus} {id rid e : Byte} {address count : U16} {ps : List Byte}
    (h : Answered b 4 count.toNat rid e ps) :
    (Client.readBytes id address count b).2 = answer id count.toNat rid e ps ps := by
  obtain ⟨c, s, h1, h2⟩ := readRaw_complete (id := id) (address := address) h
  unfold Client.readBytes
  unfold answer at h1 ⊢
  by_cases he : e.toNat % 128 ≠ 0
  · rw [if_pos he] at h1 ⊢
    rw [SO.bind_err h1]
  · rw [if_neg he] at h1 ⊢
    by_cases hid : rid ≠ id
    · rw [if_pos hid] at h1 ⊢
      rw [SO.bind_err h1]
    · rw [if_neg hid] at h1 ⊢
      by_cases hl : ps.length ≠ count.toNat
      · rw [if_pos hl] at h1 ⊢
        rw [SO.bind_err h1]
      · rw [if_neg hl] at h1 ⊢
        rw [SO.bind_ok h1, decodeBytes_carries h2, if_pos (by simpa using he)]
        rfl

/-- **C30** The converse for `read`, for the types the crate implements `Data` for. -/
theorem c30_read_complete {α : Type} {d : DataTy α} {valid : α → Prop} {f : α → List Byte} (hd : ImplData d valid f)
    {b : Bus} {id rid e : Byte} {address : U16} {v : α} (hv : valid v)
    (h : Answered b 4 d.size.toNat rid e (f v)) :
    (Client.read d id address b).2 = answer id d.size.toNat rid e (f v) v := by
  obtain ⟨c, s, h1, h2⟩ := readRaw_complete (id := id) (address := address) h
  have hcodec := c28_round_trip_partial d valid f hd
  unfold Client.read
  unfold answer at h1 ⊢
  by_cases he : e.toNat % 128 ≠ 0
  · rw [if_pos he] at h1 ⊢
    rw [SO.bind_err h1]
  · rw [if_neg he] at h1 ⊢
    by_cases hid : rid ≠ id
    · rw [if_pos hid] at h1 ⊢
      rw [SO.bind_err h1]
    · rw [if_neg hid] at h1 ⊢
      rw [if_neg (by simpa using hcodec.length v hv)] at h1 ⊢
      rw [SO.bind_ok h1, decode_carries d h2, if_pos (by simpa using he), hcodec.decode v hv]
      rfl

/-- **C30** The converse for `ping`. -/
theorem c30_ping_complete {b : Bus} {id rid e firmware : Byte} {model : U16}
    (h : Answered b 0 3 rid e (le16 model ++ [firmware])) :
    (Client.ping id b).2 = answer id 3 rid e (le16 model ++ [firmware]) ⟨model, firmware⟩ := by
  obtain ⟨ns, rest, hns, hf⟩ := h.first
  obtain ⟨c, pkt, h1, h2⟩ := transferSingle_complete (id := id) (instr := InstructionId.ping) (exp := 3#16) h.winv h.baud
    h.baud0 Client.nothing_fills h.sendOk h.room hns hf
  have hc' : Carries (StatusPacket.mk pkt).packet rid 0x55#8 (e :: (le16 model ++ [firmware])) := h2
  unfold Client.ping answer
  by_cases he : e.toNat % 128 ≠ 0
  · rw [if_pos he] at h1 ⊢
    rw [SO.bind_err h1]
  · rw [if_neg he] at h1 ⊢
    by_cases hid : rid ≠ id
    · rw [if_pos hid] at h1 ⊢
      rw [SO.bind_err h1]
    · rw [if_neg hid] at h1 ⊢
      rw [SO.bind_ok h1, if_neg (by simp [le16])]
      rcases ping_carries hc' with ⟨m, fw, hps, h3⟩ | ⟨h3, -⟩
      · rw [h3]
        have := List.append_inj hps rfl
        have h4 := le16_inj this.1
        have h5 := this.2
        simp only [List.cons.injEq, and_true] at h5
        subst h4; subst h5
        rfl
      · simp [le16] at h3

/-- **C30** Parameters of another number than asked for are not decoded, whatever they are. -/
theorem c30_read_rejects {α : Type} {d : DataTy α} {b : Bus} {id rid e : Byte} {address : U16} {ps : List Byte}
    (h : Answered b 4 d.size.toNat rid e ps) (hl : ps.length ≠ d.size.toNat) (v : α) :
    (Client.read d id address b).2 = answer id d.size.toNat rid e ps v := by
  obtain ⟨c, s, h1, h2⟩ := readRaw_complete (id := id) (address := address) h
  unfold Client.read
  unfold answer at h1 ⊢
  rw [if_pos hl] at h1 ⊢
  by_cases he : e.toNat % 128 ≠ 0
  · rw [if_pos he] at h1 ⊢
    rw [SO.bind_err h1]
  · rw [if_neg he] at h1 ⊢
    by_cases hid : rid ≠ id
    · rw [if_pos hid] at h1 ⊢
      rw [SO.bind_err h1]
    · rw [if_neg hid] at h1 ⊢
      rw [SO.bind_err h1]

/-- **C30** The same for `ping`. -/
theorem c30_ping_rejects {b : Bus} {id rid e : Byte} {ps : List Byte} (h : Answered b 0 3 rid e ps) (hl : ps.length ≠ 3)
    (v : Client.Ping) : (Client.ping id b).2 = answer id 3 rid e ps v := by
  obtain ⟨ns, rest, hns, hf⟩ := h.first
  obtain ⟨c, pkt, h1, h2⟩ := transferSingle_complete (id := id) (instr := InstructionId.ping) (exp := 3#16) h.winv h.baud
    h.baud0 Client.nothing_fills h.sendOk h.room hns hf
  have hc' : Carries (StatusPacket.mk pkt).packet rid 0x55#8 (e :: ps) := h2
  unfold Client.ping answer
  rw [if_pos hl]
  by_cases he : e.toNat % 128 ≠ 0
  · rw [if_pos he] at h1 ⊢
    rw [SO.bind_err h1]
  · rw [if_neg he] at h1 ⊢
    by_cases hid : rid ≠ id
    · rw [if_pos hid] at h1 ⊢
      rw [SO.bind_err h1]
    · rw [if_neg hid] at h1 ⊢
      rw [SO.bind_ok h1]
      rcases ping_carries hc' with ⟨m, fw, hps, h3⟩ | ⟨-, h3⟩
      · simp [hps, le16] at hl
      · rw [h3]
        rfl

/-- The calls that write to one motor, or to all with the broadcast ID, and wait for an empty response. -/
inductive WriteCall : Type 1
  | action
  | reboot
  | clearRevolutionCounter
  | clearError
  | factoryReset (kind : Client.FactoryResetKind)
  | write {α : Type} (d : DataTy α) (address : U16) (value : α)
  | writeBytes (address : U16) (data : List Byte)
  | regWrite {α : Type} (d : DataTy α) (address : U16) (value : α)
  | regWriteBytes (address : U16) (data : List Byte)

/-- The code that is called. -/
def WriteCall.run : WriteCall → Byte → SO Bus TransferError (Response Unit)
  | action, id => Client.action id
  | reboot, id => Client.reboot id
  | clearRevolutionCounter, id => Client.clearRevolutionCounter id
  | clearError, id => Client.clearError id
  | factoryReset kind, id => Client.factoryReset id kind
  | write d address value, id => Client.write d id address value
  | writeBytes address data, id => Client.writeBytes id address data
  | regWrite d address value, id => Client.regWrite d id address value
  | regWriteBytes address data, id => Client.regWriteBytes id address data

theorem WriteCall.eq_instruct (w : WriteCall) : ∃ instr n enc, ∀ id, w.run id = Client.instruct id instr n enc := by
  cases w <;> exact ⟨_, _, _, fun _ => rfl⟩

/-- C31 in full. -/
def C31_statement : Prop :=
  ∀ (w : WriteCall) (id : Byte) (b c : Bus) (r : Response Unit), b.WInv → b.baudRate < 2 ^ 32 → id ≠ 0xFE#8 →
    w.run id b = (c, .ok r) → ∃ body e, Exchange b c id body 0 id e [] ∧ e.toNat % 128 = 0

/-- **C31** What does hold: the confirmation is a valid status packet without error or parameters, the first to arrive after
the instruction was sent, but of any motor; the response says which. -/
theorem c31_confirmed_by_some_motor_partial {w : WriteCall} {id : Byte} {b c : Bus} {r : Response Unit} (hb : b.WInv)
    (hbaud : b.baudRate < 2 ^ 32) (hid : id ≠ 0xFE#8) (h : w.run id b = (c, .ok r)) :
    ∃ body e, Exchange b c id body 0 r.motorId e [] ∧ e.toNat % 128 = 0 ∧ r.alert = decide (128 ≤ e.toNat) := by
  obtain ⟨instr, n, enc, hw⟩ := w.eq_instruct
  rw [hw] at h
  unfold Client.instruct at h
  obtain ⟨b₁, _, h1, h2⟩ := SO.bind_eq_ok.mp h
  have h3 := SO.mapErr_eq_ok.mp h2
  unfold Client.readResponseIfNotBroadcast at h3
  rw [if_neg (by exact hid)] at h3
  obtain ⟨c', s, h4, h5⟩ := SO.bind_eq_ok.mp h3
  obtain ⟨rfl, h6⟩ := SO.lift_eq_ok.mp h5
  obtain ⟨params, rid, e, ps, -, hx, hc, he⟩ := exchange_any hb hbaud (SO.mapErr_eq_ok.mp h1) h4
  rw [empty_carries hc] at h6
  split at h6
  · rename_i hl
    have := List.length_eq_zero_iff.mp hl
    subst this
    simp only [Outcome.mapErr_ok, Outcome.ok.injEq] at h6
    subst h6
    exact ⟨_, e, hx, he, rfl⟩
  · simp at h6

/-- **C31** So the claim holds for callers that compare the ID in the response. -/
theorem c31_checked_by_caller_partial {w : WriteCall} {id : Byte} {b c : Bus} {r : Response Unit} (hb : b.WInv)
    (hbaud : b.baudRate < 2 ^ 32) (hid : id ≠ 0xFE#8) (h : w.run id b = (c, .ok r)) :
    r.motorId = id ↔ ∃ body e, Exchange b c id body 0 id e [] ∧ e.toNat % 128 = 0 := by
  obtain ⟨body, e, hx, he, ha⟩ := c31_confirmed_by_some_motor_partial hb hbaud hid h
  constructor
  · rintro rfl; exact ⟨body, e, hx, he⟩
  · rintro ⟨body', e', hx', he'⟩
    exact (exchange_unique hx hx').1

/-- Motor 2 acknowledges something at 5 ns. -/
def otherMotor : Bus := busWithChunks [(5, [0xFF#8, 0xFF#8, 0xFD#8, 0x00#8, 0x02#8, 0x04#8, 0x00#8, 0x55#8, 0x00#8, 0x29#8, 0x0C#8])]

theorem otherMotor_wInv : otherMotor.WInv := ⟨by decide, by decide⟩

/-- **C31** is false as stated: rebooting motor 1 is reported as successful when motor 2 answers. -/
theorem c31_refuted : ¬ C31_statement := by
  intro h
  have hrun : (WriteCall.reboot.run 1#8 otherMotor).2 = .ok ⟨2#8, false, ()⟩ := by decide +kernel
  have hrun' : WriteCall.reboot.run 1#8 otherMotor = ((WriteCall.reboot.run 1#8 otherMotor).1, .ok ⟨2#8, false, ()⟩) :=
    Prod.ext rfl hrun
  have h1 := h .reboot 1#8 otherMotor _ _ otherMotor_wInv (by decide) (by decide) hrun'
  have := (c31_checked_by_caller_partial otherMotor_wInv (by decide) (by decide) hrun').mpr h1
  exact absurd this (by decide)

/-- What the write-like calls make of an answer. -/
def emptyAnswer (rid e : Byte) (ps : List Byte) : Outcome TransferError (Response Unit) :=
  if e.toNat % 128 ≠ 0 then .err (.readError (.motorError ⟨e⟩))
  else if ps.length ≠ 0 then .err (.readError (.invalidMessage (.parameterCount ps.length (.exact 0))))
  else .ok ⟨rid, decide (128 ≤ e.toNat), ()⟩

/-- The outcome of a write-like instruction that is answered. -/
theorem instruct_complete {b : Bus} {id instr rid e : Byte} {n : Nat} {enc : Encoder} {params ps : List Byte}
    (hid : id ≠ 0xFE#8) (hp : Fills enc.run n params) (h : Answered b n 0 rid e ps) :
    (Client.instruct id instr n enc b).2 = emptyAnswer rid e ps := by
  obtain ⟨ns, rest, hns, hf⟩ := h.first
  obtain ⟨b₁, hw⟩ := write_room (id := id) (instr := instr) h.winv hp h.sendOk h.room
  obtain ⟨c, pkt, hr, hc, -⟩ := exchange_complete (exp := 0#16) h.winv h.baud h.baud0 hw hns hf
  have hw' : (Client.writeInstruction id instr n enc).mapErr TransferError.writeError b = (b₁, .ok ()) :=
    SO.mapErr_eq_ok.mpr hw
  unfold Client.instruct
  rw [SO.bind_ok hw', SO.mapErr_apply]
  unfold Client.readResponseIfNotBroadcast emptyAnswer
  rw [if_neg (by exact hid)]
  by_cases he : e.toNat % 128 = 0
  · rw [if_pos he] at hr
    have hc' : Carries (StatusPacket.mk pkt).packet rid 0x55#8 (e :: ps) := hc
    rw [SO.bind_ok hr, SO.lift_apply, empty_carries hc', if_neg (show ¬ (e.toNat % 128 ≠ 0) from fun h => h he)]
    by_cases hl : ps.length = 0
    · rw [if_pos hl, if_neg (by simpa using hl)]; rfl
    · rw [if_neg hl, if_pos hl]; rfl
  · rw [if_neg he] at hr
    rw [SO.bind_err hr, if_pos he]; rfl

/-- **C31, C33** The outcome of the calls without data, for any first answer. -/
theorem c33_write_answered {b : Bus} {id rid e : Byte} {ps : List Byte} (hid : id ≠ 0xFE#8) (h : Answered b 0 0 rid e ps) :
    (Client.action id b).2 = emptyAnswer rid e ps ∧ (Client.reboot id b).2 = emptyAnswer rid e ps :=
  ⟨instruct_complete hid Client.nothing_fills h, instruct_complete hid Client.nothing_fills h⟩

/-- **C31, C33** The outcome of `write_bytes` and `reg_write_bytes`, for any first answer. -/
theorem c33_write_bytes_answered {b : Bus} {id rid e : Byte} {address : U16} {data ps : List Byte} (hid : id ≠ 0xFE#8)
    (h : Answered b (2 + data.length) 0 rid e ps) :
    (Client.writeBytes id address data b).2 = emptyAnswer rid e ps ∧
    (Client.regWriteBytes id address data b).2 = emptyAnswer rid e ps :=
  ⟨instruct_complete hid (Client.writeBytesEncoder_fills address data) h,
    instruct_complete hid (Client.writeBytesEncoder_fills address data) h⟩

/-- **C32** With the broadcast ID these calls never read from the serial port, in any outcome. They succeed as soon as the
packet is sent, and their only errors are those of sending. -/
theorem c32_broadcast_does_not_wait (w : WriteCall) {b c : Bus} {o : Outcome TransferError (Response Unit)} (hb : b.WInv)
    (h : w.run 0xFE#8 b = (c, o)) :
    (∃ calls, c.serialPort.log = b.serialPort.log ++ calls ∧
      ∀ call ∈ calls, (∃ ok, call = .discard ok) ∨ ∃ f ok, call = .write f ok) ∧
    (∀ r, o = .ok r → r = ⟨0xFE#8, false, ()⟩ ∧ ∃ wire, Sent b c (frame 0xFE#8 wire)) ∧
    (∀ e, o = .err e → ∃ e', e = .writeError e') := by
  obtain ⟨instr, n, enc, hw⟩ := w.eq_instruct
  rw [hw] at h
  unfold Client.instruct at h
  obtain ⟨calls, h1, h2⟩ := write_calls hb 0xFE#8 instr n enc
  rcases hm : Bus.writeInstruction 0xFE#8 instr n enc b with ⟨b₁, o₁⟩
  rw [hm] at h1
  have hm' : (Client.writeInstruction 0xFE#8 instr n enc).mapErr TransferError.writeError b =
      (b₁, o₁.mapErr TransferError.writeError) := by
    rw [SO.mapErr_apply]; unfold Client.writeInstruction; rw [hm]
  cases o₁ with
  | ok u =>
    rw [SO.bind_ok hm'] at h
    unfold Client.readResponseIfNotBroadcast at h
    rw [if_pos (by rfl)] at h
    simp only [SO.mapErr_apply, SO.pure_apply, Outcome.mapErr_ok, Prod.mk.injEq] at h
    obtain ⟨rfl, rfl⟩ := h
    obtain ⟨params, wire, -, -, -, ha⟩ := afterSend hb hm
    refine ⟨⟨calls, h1, h2⟩, ?_, by simp⟩
    intro r hr
    simp only [Outcome.ok.injEq] at hr
    exact ⟨hr.symm, wire, ha.sent⟩
  | err e =>
    rw [SO.bind_err hm'] at h
    simp only [Prod.mk.injEq] at h
    obtain ⟨rfl, rfl⟩ := h
    exact ⟨⟨calls, h1, h2⟩, by simp, by simp⟩
  | panic =>
    rw [SO.bind_panic hm'] at h
    simp only [Prod.mk.injEq] at h
    obtain ⟨rfl, rfl⟩ := h
    exact ⟨⟨calls, h1, h2⟩, by simp, by simp⟩
  | hang =>
    rw [SO.bind_hang hm'] at h
    simp only [Prod.mk.injEq] at h
    obtain ⟨rfl, rfl⟩ := h
    exact ⟨⟨calls, h1, h2⟩, by simp, by simp⟩

/-- **C32** The broadcast calls that only send do not read either. -/
theorem c32_send_only {b : Bus} (hb : b.WInv) (m : SO Bus WriteError Unit)
    (hm : m = Client.broadcastAction ∨ m = Client.broadcastReboot ∨ m = Client.broadcastClearRevolutionCounter ∨
      m = Client.broadcastClearError ∨ ∃ kind, m = Client.broadcastFactoryReset kind) :
    ∃ calls, (m b).1.serialPort.log = b.serialPort.log ++ calls ∧
      ∀ call ∈ calls, (∃ ok, call = .discard ok) ∨ ∃ f ok, call = .write f ok := by
  rcases hm with rfl | rfl | rfl | rfl | ⟨kind, rfl⟩ <;> exact write_calls hb _ _ _ _

/-- **C33** A status packet is a motor error exactly if the low 7 bits of its error byte are not all zero; otherwise it is
returned, with the alert flag equal to bit 7. -/
theorem c33_motor_error {timeout : Nat} {b : Bus} {id e : Byte} {ps rest : List Byte} (hb : b.RInv)
    (hf : StatusFirst b.readBuffer.length (stream (b.serialPort.now + timeout) b) id e ps rest) :
    ((Client.readStatusResponseTimeout timeout b).2 = .err (.motorError ⟨e⟩) ↔ e.toNat % 128 ≠ 0) ∧
    (e.toNat % 128 = 0 → ∃ s, (Client.readStatusResponseTimeout timeout b).2 = .ok s ∧
      s.packetId (ε := Empty) = .ok id ∧ s.error (ε := Empty) = .ok e ∧ s.parameters (ε := Empty) = .ok ps ∧
      s.alert (ε := Empty) = .ok (decide (128 ≤ e.toNat))) := by
  obtain ⟨c, pkt, h1, h2, -⟩ := status_complete hb hf
  have hc' : Carries (StatusPacket.mk pkt).packet id 0x55#8 (e :: ps) := h2
  rw [h1]
  constructor
  · dsimp only
    split <;> simp [*]
  · intro he
    obtain ⟨a1, a2, a3⟩ := status_accessors hc' Empty
    exact ⟨⟨pkt⟩, by rw [if_pos he], a1, a2, a3, alert_carries hc' Empty⟩

/-- **C33** What can be asked of the status packet in a buffer that carries an error byte and parameters: the ID, the error
byte, its number without the alert bit, the alert flag, the parameters, and the conversion into a response, which keeps
them whatever the error byte is. -/
theorem c33_status_packet {s : StatusPacket} {id e : Byte} {ps : List Byte} (h : Carries s.packet id 0x55#8 (e :: ps))
    (ε : Type) :
    s.packetId (ε := ε) = .ok id ∧ s.error (ε := ε) = .ok e ∧
      (∃ n : Byte, s.errorNumber (ε := ε) = .ok n ∧ n.toNat = e.toNat % 128) ∧
      s.alert (ε := ε) = .ok (decide (128 ≤ e.toNat)) ∧ s.parameters (ε := ε) = .ok ps ∧
      s.toBytesResponse (ε := ε) = .ok ⟨id, decide (128 ≤ e.toNat), ps⟩ := by
  obtain ⟨h1, h2, h3⟩ := status_accessors h ε
  have h4 := alert_carries h ε
  refine ⟨h1, h2, ⟨e &&& ~~~0x80#8, ?_, ?_⟩, h4, h3, ?_⟩
  · unfold StatusPacket.errorNumber
    rw [h2]
    rfl
  · clear h h1 h2 h3 h4
    revert e
    decide +kernel
  · unfold StatusPacket.toBytesResponse
    rw [h1, Outcome.ok_bind, h4, Outcome.ok_bind, h3]
    rfl

/-- A status with the alert bit, error number 4 and two parameters. -/
example : (StatusPacket.mk ⟨header ++ [3#8, 7#8, 0#8] ++ 0x55#8 :: [0x84#8, 9#8, 8#8]⟩).toBytesResponse (ε := Empty) =
      .ok ⟨3#8, true, [9#8, 8#8]⟩ ∧
    ∃ n : Byte, (StatusPacket.mk ⟨header ++ [3#8, 7#8, 0#8] ++ 0x55#8 :: [0x84#8, 9#8, 8#8]⟩).errorNumber (ε := Empty) = .ok n ∧
      n.toNat = 4 :=
  have h := c33_status_packet (s := ⟨⟨header ++ [3#8, 7#8, 0#8] ++ 0x55#8 :: [0x84#8, 9#8, 8#8]⟩⟩) ⟨_, _, rfl⟩ Empty
  ⟨h.2.2.2.2.2, h.2.2.1⟩

theorem read_no_motorError {D : Nat} {b c : Bus} {e : ReadError} (hb : b.RInv)
    (h : Bus.readPacketDeadline D b = (c, .err e)) (m : MotorError) : e ≠ .motorError m := by
  by_cases hN : 10 ≤ b.readBuffer.length
  · obtain ⟨c', o, h1, -, -, -, h2⟩ := Bus.readPacketDeadline_stream D hb hN
    rw [h] at h1
    simp only [Prod.mk.injEq] at h1
    obtain ⟨rfl, rfl⟩ := h1
    split at h2
    · rename_i f rest hp
      have hp' := parse_packet hp
      rcases frameOutcome_cases hp'.2.1 hp'.2.2.1 with ⟨_, _, _, _, h3⟩ | ⟨_, _, h3⟩ | ⟨_, _, _, _, _, _, _, _, _, h3⟩
      · rw [h3] at h2; simp at h2; simp [h2.1]
      · rw [h3] at h2; simp at h2
      · rw [h3] at h2; simp at h2
    · simp at h2; simp [h2.1]
    · simp at h2; simp [h2.1]
  · rw [Bus.readPacketDeadline_small D (by omega)] at h
    simp at h
    simp [← h.2]

/-- **C33** Conversely, `MotorError` always comes from a status packet with that error byte. -/
theorem c33_motor_error_only {timeout : Nat} {b c : Bus} {m : MotorError} (hb : b.RInv)
    (h : Client.readStatusResponseTimeout timeout b = (c, .err (.motorError m))) :
    m.raw.toNat % 128 ≠ 0 ∧ ∃ id ps rest,
      StatusFirst b.readBuffer.length (stream (b.serialPort.now + timeout) b) id m.raw ps rest := by
  unfold Client.readStatusResponseTimeout at h
  rw [SO.get_bind] at h
  dsimp only [Port.makeDeadline] at h
  rw [SO.bind_def] at h
  rcases hr : Bus.readPacketDeadline (b.serialPort.now + timeout) b with ⟨c', o⟩
  rw [hr] at h
  cases o with
  | ok pkt =>
    obtain ⟨g, id, wire, instr, params, rest, e1, e2, e3, e4, e5, e6, e7⟩ := c16_returned_is_valid hb hr
    simp only [SO.lift_apply, checkStatus_carries e6, Prod.mk.injEq] at h
    by_cases h55 : instr = 0x55#8
    · subst h55
      rw [if_pos rfl] at h
      match params with
      | [] => simp at h
      | e :: ps =>
        dsimp only at h
        by_cases he : e &&& 0x7F#8 = 0#8
        · rw [if_pos he] at h; simp at h
        · rw [if_neg he] at h
          have h := h.2
          simp only [Outcome.err.injEq, ReadError.motorError.injEq] at h
          subst h
          exact ⟨fun h0 => he ((low_bits_zero e).mpr h0), id, ps, rest, g, wire, e1, e2, e3, e4, e5⟩
    · rw [if_neg h55] at h; simp at h
  | err e =>
    simp only [Prod.mk.injEq, Outcome.err.injEq] at h
    exact absurd h.2 (read_no_motorError hb hr m)
  | panic => simp at h
  | hang => simp at h

/-- **C33** The accessors of a motor error split its byte. -/
theorem c33_accessors : ∀ e : Byte, (MotorError.mk e).errorNumber.toNat = e.toNat % 128 ∧
    (MotorError.mk e).alert = decide (128 ≤ e.toNat) ∧
    e.toNat = (MotorError.mk e).errorNumber.toNat + 128 * (MotorError.mk e).alert.toNat := by decide +kernel

/-- C30: reading 4 bytes from motor 1, and the same answer to a question to motor 3, or for 3 bytes. -/
example : (Client.readBytes 1#8 132#16 4#16 (busWithChunks [(5, sampleGarbage ++ sampleFrame)])).2 =
      .ok ⟨1#8, false, [0xA6#8, 0x00#8, 0x00#8, 0x00#8]⟩ ∧
    (Client.readBytes 3#8 132#16 4#16 (busWithChunks [(5, sampleFrame)])).2 =
      .err (.readError (.invalidMessage (.packetId 1#8 3#8))) ∧
    (Client.readBytes 1#8 132#16 3#16 (busWithChunks [(5, sampleFrame)])).2 =
      .err (.readError (.invalidMessage (.parameterCount 4 (.exact 3)))) ∧
    (Client.read (DataTy.unsigned 4) 1#8 132#16 (busWithChunks [(5, sampleFrame)])).2 = .ok ⟨1#8, false, 166#32⟩ := by
  decide +kernel

/-- C32: a broadcast reboot does not wait for the answer that would come. -/
example : (WriteCall.reboot.run 0xFE#8 otherMotor).2 = .ok ⟨0xFE#8, false, ()⟩ ∧
    (WriteCall.reboot.run 0xFE#8 otherMotor).1.serialPort.log =
      [.discard true, .write [0xFF#8, 0xFF#8, 0xFD#8, 0x00#8, 0xFE#8, 0x03#8, 0x00#8, 0x08#8, 0x07#8, 0x42#8] true] := by
  decide +kernel

/-! ## Each theorem with hypotheses on a concrete case -/

/-- The motor of the sample packet answers after garbage. -/
def sampleAnswer : Bus := busWithChunks [(5, sampleGarbage ++ sampleFrame)]

theorem sampleAnswer_wInv : sampleAnswer.WInv := ⟨by decide, by decide⟩

example := c30_read_bytes (id := 1#8) (address := 132#16) (count := 4#16) (r := ⟨1#8, false, [0xA6#8, 0#8, 0#8, 0#8]⟩)
  sampleAnswer_wInv (by decide) (pair_eq (by decide +kernel))

example := c30_read (d := DataTy.unsigned 4) (id := 1#8) (address := 132#16) (r := ⟨1#8, false, 0xA6#32⟩)
  sampleAnswer_wInv (by decide) (pair_eq (by decide +kernel))

example := c30_read_value (implUnsigned (n := 4) (by decide)) (id := 1#8) (address := 132#16) (r := ⟨1#8, false, 0xA6#32⟩)
  sampleAnswer_wInv (by decide) (pair_eq (by decide +kernel))

/-- A motor that answers with this error number and these parameters. -/
def motorAnswers (rid e : Byte) (ps : List Byte) : Bus :=
  busWithChunks [(5, sampleGarbage ++ (frame rid (codeStuff (0x55#8 :: e :: ps))).take 8), (9, (frame rid (codeStuff (0x55#8 :: e :: ps))).drop 8)]

example := c30_ping (id := 1#8) (r := ⟨1#8, true, ⟨0x0406#16, 0x26#8⟩⟩) (b := motorAnswers 1#8 0x80#8 [0x06#8, 0x04#8, 0x26#8])
  ⟨by decide +kernel, by decide +kernel⟩ (by decide +kernel) (pair_eq (by decide +kernel))

/-- The time that this many bytes take at 57600 bits per second. -/
theorem leastTime_57600 (n : Nat) : LeastTime n 57600 ((n * 10 * 1000000000 + 57599) / 57600) := by
  unfold LeastTime LongEnough
  exact ⟨by omega, fun m hm => by omega⟩

theorem motorAnswers_answered {n exp : Nat} {rid e : Byte} {ps : List Byte} (hn : Room (quietBus true 40) n)
    (hl : (frame rid (codeStuff (0x55#8 :: e :: ps))).length ≤ 20) (hu : codeUnstuff (codeStuff (0x55#8 :: e :: ps)) = 0x55#8 :: e :: ps) :
    Answered (motorAnswers rid e ps) n exp rid e ps where
  winv := ⟨by simp [motorAnswers, busWithChunks, quietBus, headerPrefix], by simp [motorAnswers, busWithChunks, quietBus, headerPrefix]⟩
  baud := by show (57600 : Nat) < 2 ^ 32; decide
  baud0 := by show (57600 : Nat) ≠ 0; decide
  sendOk := ⟨by simp [motorAnswers, busWithChunks, quietPort], by simp [motorAnswers, busWithChunks, quietPort]⟩
  room := hn
  first := by
    refine ⟨((11 + exp) * 10 * 1000000000 + 57599) / 57600, [], ?_, sampleGarbage, codeStuff (0x55#8 :: e :: ps),
      ?_, by decide +kernel, ?_, hl, (unstuffs_iff _ _).2 hu⟩
    · exact leastTime_57600 (11 + exp)
    · show arriving (0 + 0 + _) [RxEvent.data 5 _, RxEvent.data 9 _] = _
      simp only [arriving]
      rw [if_pos (by omega), if_pos (by omega)]
      simp only [List.append_assoc, List.append_nil]
      rw [List.take_append_drop]
    · have := Bus.frame_length rid (codeStuff (0x55#8 :: e :: ps))
      omega

example := c30_read_bytes_complete (id := 1#8) (address := 132#16) (count := 3#16)
  (motorAnswers_answered (rid := 1#8) (e := 0x80#8) (ps := [0xFF#8, 0xFF#8, 0xFD#8]) ⟨by decide, by decide⟩
    (by decide +kernel) (by decide +kernel))

example := c30_read_complete (implUnsigned (n := 2) (by decide)) (id := 1#8) (address := 132#16) (v := 0x1234#16) trivial
  (motorAnswers_answered (rid := 1#8) (e := 0x80#8) ⟨by decide, by decide⟩ (by decide +kernel) (by decide +kernel))

example := c30_ping_complete (id := 1#8) (model := 0x0406#16) (firmware := 0x26#8)
  (motorAnswers_answered (rid := 2#8) (e := 0x80#8) ⟨by decide, by decide⟩ (by decide +kernel) (by decide +kernel))

/-- Three bytes where two are expected. -/
example := c30_read_rejects (d := DataTy.unsigned 2) (id := 1#8) (address := 132#16)
  (motorAnswers_answered (rid := 1#8) (e := 0#8) (ps := [1#8, 2#8, 3#8]) ⟨by decide, by decide⟩ (by decide +kernel)
    (by decide +kernel)) (by decide) 0#16

example := c30_ping_rejects (id := 1#8)
  (motorAnswers_answered (rid := 1#8) (e := 0#8) (ps := [1#8, 2#8]) ⟨by decide, by decide⟩ (by decide +kernel)
    (by decide +kernel)) (by decide) ⟨0#16, 0#8⟩

example := c31_confirmed_by_some_motor_partial (w := .writeBytes 116#16 [1#8, 2#8]) (id := 1#8) (b := otherMotor)
  (r := ⟨2#8, false, ()⟩) ⟨by decide, by decide⟩ (by decide) (by decide) (pair_eq (by decide +kernel))

example := c31_checked_by_caller_partial (w := .reboot) (id := 2#8) (b := otherMotor)
  (r := ⟨2#8, false, ()⟩) ⟨by decide, by decide⟩ (by decide) (by decide) (pair_eq (by decide +kernel))

example := c33_write_answered (id := 1#8) (by decide)
  (motorAnswers_answered (rid := 1#8) (e := 0x83#8) (ps := []) ⟨by decide, by decide⟩ (by decide +kernel)
    (by decide +kernel))

example := c33_write_bytes_answered (id := 1#8) (address := 116#16) (data := [1#8, 2#8]) (by decide)
  (motorAnswers_answered (rid := 1#8) (e := 0x03#8) (ps := []) ⟨by decide, by decide⟩ (by decide +kernel)
    (by decide +kernel))

/-- Motor 2 answers, but nobody waits for it. -/
example := c32_broadcast_does_not_wait (.writeBytes 116#16 [1#8, 2#8]) (b := otherMotor) ⟨by decide, by decide⟩ (pair_eq rfl)

example := c32_send_only (b := otherMotor) ⟨by decide, by decide⟩ _ (.inr (.inr (.inr (.inr ⟨.keepId, rfl⟩))))

/-- A status packet with error number 4 and an alert. -/
example := c33_motor_error (timeout := 50) (id := 3#8) (e := 0x84#8) (ps := [9#8, 8#8]) (rest := [1#8])
  (busWith_rInv (sampleGarbage ++ frame 3#8 [0x55#8, 0x84#8, 9#8, 8#8] ++ [1#8]))
  ⟨sampleGarbage, [0x55#8, 0x84#8, 9#8, 8#8], by decide +kernel, by decide +kernel, by decide, by decide +kernel,
    (unstuffs_iff _ _).2 (by decide +kernel)⟩

example := c33_motor_error_only (timeout := 50) (m := ⟨0x84#8⟩)
  (busWith_rInv (sampleGarbage ++ frame 3#8 [0x55#8, 0x84#8, 9#8, 8#8] ++ [1#8])) (pair_eq (by decide +kernel))

end Dxl.Props
