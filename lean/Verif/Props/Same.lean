import Verif.Props.Layout
import Verif.Props.CliRun
import Verif.Lemmas.Iter

/-! # C70: calls that do the same

Equations between the calls of the client, as functions of the state: both sides put the same on the wire, ask the same of the serial
port, return the same, and leave the same buffers behind, in every state and whatever the serial port does. -/

namespace Dxl.Props
open Dxl Dxl.Spec

/-- Packets with encoders that write the same are the same. -/
theorem writeInstruction_congr {n : Nat} {enc enc' : Encoder} {bytes : List Byte} (h : Fills enc.run n bytes) (h' : Fills enc'.run n bytes)
    (id instr : Byte) : Client.writeInstruction id instr n enc = Client.writeInstruction id instr n enc' := by
  have key : onSlice 8 (8 + n) enc.run = onSlice 8 (8 + n) enc'.run := by
    funext l
    unfold onSlice
    split
    · rename_i hl
      have hlen : ((l.take (8 + n)).drop 8).length = n := by simp; omega
      rw [h _ hlen, h' _ hlen]
    · rfl
  unfold Client.writeInstruction Bus.writeInstruction Bus.writePacket
  rw [key]

theorem instruct_congr {n : Nat} {enc enc' : Encoder} {bytes : List Byte} (h : Fills enc.run n bytes) (h' : Fills enc'.run n bytes)
    (id instr : Byte) : Client.instruct id instr n enc = Client.instruct id instr n enc' := by
  unfold Client.instruct
  rw [writeInstruction_congr h h']

/-- **C70** `write` of a value is `write_bytes` of its encoding. -/
theorem c70_write {α : Type} {d : DataTy α} {valid : α → Prop} {f : α → List Byte} (hd : ImplData d valid f) (id : Byte) (address : U16)
    {v : α} (hv : valid v) : Client.write d id address v = Client.writeBytes id address (f v) := by
  have hc := c28_round_trip_partial d valid f hd
  have h2 := Client.writeBytesEncoder_fills address (f v)
  unfold Client.write Client.writeBytes
  rw [hc.length v hv] at h2 ⊢
  exact instruct_congr (Client.writeEncoder_fills hc address hv) h2 _ _

/-- **C70** For one-byte types `reg_write` is `reg_write_bytes` (for others it is not, see C34). -/
theorem c70_reg_write_one_byte {α : Type} {d : DataTy α} {valid : α → Prop} {f : α → List Byte} (hd : ImplData d valid f)
    (h1 : d.size = 1#16) (id : Byte) (address : U16) {v : α} (hv : valid v) :
    Client.regWrite d id address v = Client.regWriteBytes id address (f v) := by
  have hc := c28_round_trip_partial d valid f hd
  have h2 := Client.writeBytesEncoder_fills address (f v)
  have h3 := Client.writeEncoder_fills hc address hv
  have hl : (f v).length = 1 := by rw [hc.length v hv, h1]; rfl
  unfold Client.regWrite Client.regWriteBytes
  rw [hl] at h2 ⊢
  rw [h1] at h3
  exact instruct_congr h3 h2 _ _

/-- **C70** For one-byte types `sync_write` is `sync_write_bytes` (for others it is not, see C35). -/
theorem c70_sync_write_one_byte {α : Type} {d : DataTy α} {valid : α → Prop} {f : α → List Byte} (hd : ImplData d valid f)
    (h1 : d.size = 1#16) (address : U16) (data : List (SyncWriteData α)) (hv : ∀ c ∈ data, valid c.data) :
    Client.syncWrite d address data =
      Client.syncWriteBytes address 1#16 (data.map fun c => { motorId := c.motorId, data := f c.data }) := by
  have hc := c28_round_trip_partial d valid f hd
  have h2 := Client.syncWriteEncoder_fills hc address data hv
  have h3 := Client.syncWriteBytesEncoder_fills address 1#16
    (data.map fun c => { motorId := c.motorId, data := f c.data : SyncWriteData (List Byte) }) (by
      intro c hcm
      obtain ⟨c', hm, rfl⟩ := List.mem_map.mp hcm
      dsimp only
      rw [hc.length _ (hv c' hm), h1])
  rw [h1] at h2
  rw [List.length_map, List.flatMap_map] at h3
  unfold Client.syncWrite Client.syncWriteBytes
  rw [List.length_map]
  exact writeInstruction_congr h2 h3 _ _

/-- The value decoded from the bytes of a response; what is called `T::decode` on the bytes by hand. -/
def decodeResponse {α : Type} (decode : List Byte → Outcome InvalidMessage α) (r : Response (List Byte)) : Outcome InvalidMessage (Response α) :=
  match decode r.data with
  | .ok v => .ok { motorId := r.motorId, alert := r.alert, data := v }
  | .err e => .err e
  | .panic => .panic
  | .hang => .hang

/-- Decoding a status packet is taking its bytes and decoding these. -/
theorem decodeStatusPacket_split {α : Type} (d : DataTy α) (s : StatusPacket) :
    decodeStatusPacket d s = (do
      let r ← (decodeStatusPacketBytes s).mapErr ReadError.motorError
      (decodeResponse d.decode r).mapErr .invalidMessage) := by
  have hp : ∃ l, ∀ ε, (s.packet.packetId : Outcome ε Byte) = (match l with | some b => .ok b | none => .panic) := ⟨_, fun _ => rfl⟩
  have he : ∃ l, ∀ ε, (s.error : Outcome ε Byte) = (match l with | some b => .ok b | none => .panic) := ⟨_, fun _ => rfl⟩
  have hq : ∃ l, ∀ ε, (s.parameters : Outcome ε (List Byte)) = (match l with | some b => .ok b | none => .panic) := by
    unfold StatusPacket.parameters sliceFrom slice
    split
    · exact ⟨some _, fun _ => rfl⟩
    · exact ⟨none, fun _ => rfl⟩
  obtain ⟨p, hp⟩ := hp
  obtain ⟨e, he⟩ := he
  obtain ⟨q, hq⟩ := hq
  unfold decodeStatusPacket decodeStatusPacketBytes StatusPacket.alert StatusPacket.packetId
  rw [he, he, hp, hp, hq, hq]
  rcases e with _ | e
  · rfl
  cases hm : MotorError.check e with
  | ok u =>
    rcases p with _ | p
    · simp only [hm, bind, Outcome.bind, Outcome.mapErr]
    rcases q with _ | q
    · simp only [hm, bind, Outcome.bind, Outcome.mapErr, pure]
    simp only [hm, bind, Outcome.bind, Outcome.mapErr, pure, decodeResponse]
    cases d.decode q <;> rfl
  | _ => simp only [hm, bind, Outcome.bind, Outcome.mapErr]

/-- **C70** `read` is `read_bytes` of as many bytes as the type has, and then `decode`, for every implementation of `Data`. -/
theorem c70_read {α : Type} (d : DataTy α) (id : Byte) (address : U16) : Client.read d id address = (do
    let r ← Client.readBytes id address d.size
    SO.lift ((decodeResponse d.decode r).mapErr fun e => .readError (.invalidMessage e))) := by
  funext b
  unfold Client.read Client.readBytes
  rcases hr : Client.readRaw id address d.size b with ⟨b', o⟩
  simp only [SO.bind_def, hr]
  cases o with
  | ok s =>
    dsimp only
    rw [decodeStatusPacket_split]
    simp only [SO.lift_apply]
    cases hs : decodeStatusPacketBytes s with
    | ok r =>
      simp only [bind, Outcome.bind, Outcome.mapErr]
      cases decodeResponse d.decode r <;> rfl
    | _ => rfl
  | _ => rfl

/-- If `read_bytes` succeeds, it returns as many bytes as asked for. -/
theorem readBytes_length {id : Byte} {address count : U16} {b c : Bus} {r : Response (List Byte)}
    (h : Client.readBytes id address count b = (c, .ok r)) : r.data.length = count.toNat := by
  unfold Client.readBytes Client.readRaw at h
  simp only [SO.bind_def] at h
  rcases ht : Client.transferSingle id InstructionId.read 4 count (Client.readEncoder address count) b with ⟨b', o⟩
  rw [ht] at h
  cases o with
  | ok s =>
    dsimp only [SO.lift_apply] at h
    cases hq : (s.parameters : Outcome TransferError (List Byte)) with
    | ok q =>
      rw [hq] at h
      dsimp only at h
      by_cases hl : q.length = count.toNat
      · unfold checkCount at h
        rw [if_pos hl] at h
        have hq' : ∀ ε, (s.parameters : Outcome ε (List Byte)) = .ok q := by
          intro ε
          unfold StatusPacket.parameters sliceFrom slice at hq ⊢
          split at hq
          · rename_i hc
            rw [if_pos hc]
            simpa using hq
          · exact absurd hq (by simp)
        simp only [Outcome.mapErr, SO.pure_apply] at h
        unfold decodeStatusPacketBytes at h
        rw [hq'] at h
        cases he : (s.error : Outcome MotorError Byte) with
        | ok e =>
          cases hm : MotorError.check e with
          | ok u =>
            cases hp : (s.packetId : Outcome MotorError Byte) with
            | ok i =>
              simp only [StatusPacket.alert, he, hm, hp, bind, Outcome.bind, pure] at h
              have h2 := (Prod.mk.inj h).2
              injection h2 with h2
              rw [← h2]
              exact hl
            | _ => simp [StatusPacket.alert, he, hm, hp, bind, Outcome.bind, pure] at h
          | _ => simp [StatusPacket.alert, he, hm, bind, Outcome.bind, pure] at h
        | _ => simp [StatusPacket.alert, he, bind, Outcome.bind, pure] at h
      · unfold checkCount at h
        rw [if_neg hl] at h
        simp [Outcome.mapErr] at h
    | _ => rw [hq] at h; simp at h
  | _ => simp at h

/-- Decoding into bytes changes nothing. -/
theorem decode_byte_array {N : Nat} (hN : (DataTy.unsigned 1).size.toNat * N < 2 ^ 16) (bytes : List Byte) (h : bytes.length = N) :
    (DataTy.array (DataTy.unsigned 1) N hN).decode bytes = .ok bytes := by
  obtain ⟨v, -, hf, hv⟩ := c28_decode_onto_partial _ _ _ (.array (unsigned_impl (n := 1) (by decide)) N hN) bytes (by
    simp only [DataTy.array, BitVec.toNat_ofNat]
    rw [h, Nat.mod_eq_of_lt hN]
    simp [DataTy.unsigned])
  rw [hv]
  congr 1
  rw [← hf]
  clear hv hf h hN
  induction v with
  | nil => rfl
  | cons x rest ih =>
    rw [List.flatMap_cons, ← ih]
    show x :: rest = _
    simp [toLeBytes]

/-- **C70** `read` of an array of bytes is `read_bytes`. -/
theorem c70_read_byte_array (id : Byte) (address : U16) (N : Nat) (hN : (DataTy.unsigned 1).size.toNat * N < 2 ^ 16) :
    Client.read (DataTy.array (DataTy.unsigned 1) N hN) id address = Client.readBytes id address (BitVec.ofNat 16 N) := by
  have hsize : (DataTy.array (DataTy.unsigned 1) N hN).size = BitVec.ofNat 16 N := by
    simp [DataTy.array, DataTy.unsigned]
  have hN' : N < 2 ^ 16 := by simpa [DataTy.unsigned] using hN
  rw [c70_read, hsize]
  funext b
  rw [SO.bind_def]
  rcases h : Client.readBytes id address (BitVec.ofNat 16 N) b with ⟨c, o⟩
  cases o with
  | ok r =>
    have hl := readBytes_length h
    rw [BitVec.toNat_ofNat, Nat.mod_eq_of_lt hN'] at hl
    dsimp only [SO.lift_apply]
    unfold decodeResponse
    rw [decode_byte_array hN _ hl]
    rfl
  | _ => rfl

/-- **C70** `write` of an array of bytes is `write_bytes`. -/
theorem c70_write_byte_array (id : Byte) (address : U16) (bytes : List Byte) (hN : (DataTy.unsigned 1).size.toNat * bytes.length < 2 ^ 16) :
    Client.write (DataTy.array (DataTy.unsigned 1) bytes.length hN) id address bytes = Client.writeBytes id address bytes := by
  rw [c70_write (.array (unsigned_impl (n := 1) (by decide)) bytes.length hN) id address (v := bytes) ⟨rfl, fun _ _ => trivial⟩]
  congr 1
  clear hN
  induction bytes with
  | nil => rfl
  | cons x rest ih =>
    rw [List.flatMap_cons, ih]
    simp [toLeBytes]

/-- **C70** A signed number is read as the unsigned one of the same size, taken as two's complement. -/
theorem c70_read_signed (n : Nat) (id : Byte) (address : U16) : Client.read (DataTy.signed n) id address = (do
    let r ← Client.read (DataTy.unsigned n) id address
    pure { motorId := r.motorId, alert := r.alert,
           data := if 2 * r.data.toNat < 2 ^ (8 * n) then (r.data.toNat : Int) else (r.data.toNat : Int) - 2 ^ (8 * n) }) := by
  rw [c70_read, c70_read]
  funext b
  simp only [SO.bind_def]
  have hsize : (DataTy.signed n).size = (DataTy.unsigned n).size := rfl
  rw [hsize]
  rcases h : Client.readBytes id address (DataTy.unsigned n).size b with ⟨c, o⟩
  cases o with
  | ok r =>
    dsimp only [SO.lift_apply]
    unfold decodeResponse DataTy.signed DataTy.unsigned
    dsimp only
    cases hd : decodeNumber n r.data with
    | ok v =>
      simp only [bind, Outcome.bind, pure, Outcome.mapErr, BitVec.toInt_eq_toNat_cond]
      congr 3
    | _ => rfl
  | _ => rfl

/-! ## Orders for all motors -/

/-- The result of an order that nobody answers. -/
def unanswered : Response Unit := { motorId := 0xFE#8, alert := false, data := () }

theorem instruct_all (instr : Byte) (n : Nat) (enc : Encoder) : Client.instruct 0xFE#8 instr n enc = (do
    (Client.writeInstruction 0xFE#8 instr n enc).mapErr .writeError
    pure unanswered) := by
  funext b
  unfold Client.instruct Client.readResponseIfNotBroadcast
  rfl

/-- **C70** An order with the broadcast ID is the call for all motors. -/
theorem c70_broadcast (kind : Client.FactoryResetKind) :
    Client.action 0xFE#8 = (do Client.broadcastAction.mapErr .writeError; pure unanswered) ∧
    Client.reboot 0xFE#8 = (do Client.broadcastReboot.mapErr .writeError; pure unanswered) ∧
    Client.clearRevolutionCounter 0xFE#8 = (do Client.broadcastClearRevolutionCounter.mapErr .writeError; pure unanswered) ∧
    Client.clearError 0xFE#8 = (do Client.broadcastClearError.mapErr .writeError; pure unanswered) ∧
    Client.factoryReset 0xFE#8 kind = (do (Client.broadcastFactoryReset kind).mapErr .writeError; pure unanswered) :=
  ⟨instruct_all _ _ _, instruct_all _ _ _, instruct_all _ _ _, instruct_all _ _ _, instruct_all _ _ _⟩

/-! ## Iterators -/

/-- **C70** `next` of a `SyncRead` is `next` of a `SyncReadBytes` with as many bytes per motor as the type has, and then `decode`. -/
theorem c70_sync_next {α : Type} (d : DataTy α) (ε : Type) {s : SyncIter} (hs : s.count = d.size) :
    SyncIter.next d (ε := ε) s = (do
      match ← SyncIter.nextBytes (ε := ε) with
      | none => pure none
      | some (.error e) => pure (some (.error e))
      | some (.ok r) =>
        match decodeResponse d.decode r with
        | .ok r => pure (some (.ok r))
        | .err e => pure (some (.error (.invalidMessage e)))
        | .panic => SO.panic
        | .hang => SO.hang : SO SyncIter ε (Option (Except ReadError (Response α)))) s := by
  unfold SyncIter.next SyncIter.nextBytes
  cases hi : s.motorIds[s.index]? with
  | none =>
    have hpop : ∀ ε, SyncIter.popMotorId (ε := ε) s = (s, .ok none) := by
      intro ε; unfold SyncIter.popMotorId; rw [hi]
    rw [SO.bind_ok (hpop _), SO.bind_ok (s' := s) (a := none) (by rw [SO.bind_ok (hpop _)]; rfl)]
  | some id =>
    have hpop : ∀ ε, SyncIter.popMotorId (ε := ε) s = ({ s with index := s.index + 1 }, .ok (some id)) := by
      intro ε; unfold SyncIter.popMotorId; rw [hi]
    rw [SO.bind_ok (hpop _)]
    rw [SO.bind_def, SO.bind_ok (hpop _)]
    simp only [SO.bind_def]
    unfold SO.attempt SyncIter.nextResponse SyncIter.nextResponseBytes
    simp only [SO.bind_def, SO.get_apply, hs]
    rcases hr : SyncIter.onClient (Client.readStatusResponse d.size) { s with index := s.index + 1 } with ⟨s', o⟩
    rw [hs] at hr
    simp only [hr]
    cases o with
    | ok p =>
      dsimp only [SO.lift_apply]
      cases hc : SyncIter.checkResponse p id d.size with
      | ok u =>
        dsimp only
        rw [decodeStatusPacket_split]
        cases hp : decodeStatusPacketBytes p with
        | ok r =>
          simp only [bind, Outcome.bind, Outcome.mapErr]
          cases hdr : decodeResponse d.decode r <;> simp only [SO.pure_apply, hdr] <;> rfl
        | _ => rfl
      | _ => rfl
    | _ => rfl

/-- A status packet that was received has all its fields. -/
theorem readStatusResponse_fields {n : U16} {b c : Bus} {p : StatusPacket} (h : Client.readStatusResponse n b = (c, .ok p)) :
    9 ≤ p.packet.data.length := by
  unfold Client.readStatusResponse Client.readStatusResponseTimeout at h
  simp only [SO.bind_def, SO.get_apply, SO.lift_apply] at h
  cases ht : messageTransferTime (ε := ReadError) (StatusPacket.messageLen n.toNat % 2 ^ 32) b.baudRate with
  | ok t =>
    rw [ht] at h
    dsimp only at h
    rcases hr : Bus.readPacketDeadline (b.serialPort.makeDeadline (t + Client.flatTimeout)) b with ⟨b', o⟩
    rw [hr] at h
    cases o with
    | ok q =>
      have h2 := (Prod.mk.inj h).2
      unfold Client.checkStatus at h2
      rcases hq : (q.asStatus : Outcome ReadError (Option StatusPacket)) with o | _ | _ | _ <;> rw [hq] at h2
      · cases o with
        | none => simp [bind, Outcome.bind] at h2; revert h2; cases (q.instructionId : Outcome ReadError Byte) <;> simp
        | some s =>
          simp only [bind, Outcome.bind, StatusPacket.error] at h2
          cases he : (idx s.packet.data 8 : Outcome ReadError Byte) with
          | ok e =>
            rw [he] at h2
            dsimp only at h2
            cases hm : MotorError.check e with
            | ok u =>
              rw [hm] at h2
              simp only [Outcome.mapErr, pure] at h2
              injection h2 with h2
              subst h2
              unfold idx at he
              split at he
              · rename_i hx
                obtain ⟨hlt, -⟩ := List.getElem?_eq_some_iff.mp hx
                exact hlt
              · exact absurd he (by simp)
            | _ => rw [hm] at h2; simp [Outcome.mapErr] at h2
          | _ => rw [he] at h2; simp at h2
      all_goals simp [bind, Outcome.bind] at h2
    | _ => simp at h
  | _ => rw [ht] at h; simp at h

/-- What a status packet with all its fields is checked for. -/
theorem checkResponse_total {p : StatusPacket} (h : 9 ≤ p.packet.data.length) (id : Byte) (count : U16) :
    (∃ e, SyncIter.checkResponse p id count = .err e) ∨
      (SyncIter.checkResponse p id count = .ok () ∧ ∀ ε, ∃ q, (p.parameters : Outcome ε (List Byte)) = .ok q ∧ q.length = count.toNat) := by
  have hp : ∀ ε, (p.parameters : Outcome ε (List Byte)) = .ok (p.packet.data.drop 9) := by
    intro ε
    unfold StatusPacket.parameters sliceFrom slice headerSize
    rw [if_pos (by omega), List.take_length]
  have hi : ∀ ε, (p.packetId : Outcome ε Byte) = .ok p.packet.data[4] := by
    intro ε
    unfold StatusPacket.packetId Packet.packetId idx
    rw [List.getElem?_eq_getElem (by omega)]
  unfold SyncIter.checkResponse checkPacketId checkCount
  rw [hi, hp]
  by_cases h1 : p.packet.data[4] = id
  · by_cases h2 : (p.packet.data.drop 9).length = count.toNat
    · right
      refine ⟨?_, fun ε => ⟨_, hp ε, h2⟩⟩
      simp only [bind, Outcome.bind, Outcome.mapErr, h1, h2, if_true]
    · left
      simp only [bind, Outcome.bind, Outcome.mapErr, h1, h2, if_true, if_false]
      exact ⟨_, rfl⟩
  · left
    simp only [bind, Outcome.bind, Outcome.mapErr, h1, if_false]
    exact ⟨_, rfl⟩

theorem decodeStatusPacket_total {α : Type} {d : DataTy α} {p : StatusPacket} (h : 9 ≤ p.packet.data.length)
    (hd : ∀ q, (p.parameters : Outcome ReadError (List Byte)) = .ok q → d.decode q ≠ .panic ∧ d.decode q ≠ .hang) :
    (∃ r, decodeStatusPacket d p = .ok r) ∨ ∃ e, decodeStatusPacket d p = .err e := by
  have hp : ∀ ε, (p.parameters : Outcome ε (List Byte)) = .ok (p.packet.data.drop 9) := by
    intro ε
    unfold StatusPacket.parameters sliceFrom slice headerSize
    rw [if_pos (by omega), List.take_length]
  have hi : ∀ ε, (p.packetId : Outcome ε Byte) = .ok p.packet.data[4] := by
    intro ε
    unfold StatusPacket.packetId Packet.packetId idx
    rw [List.getElem?_eq_getElem (by omega)]
  have he : ∀ ε, (p.error : Outcome ε Byte) = .ok p.packet.data[8] := by
    intro ε
    unfold StatusPacket.error idx
    rw [List.getElem?_eq_getElem (by omega)]
  obtain ⟨h1, h2⟩ := hd _ (hp _)
  unfold decodeStatusPacket StatusPacket.alert MotorError.check
  rw [he, hi, hp]
  by_cases hm : p.packet.data[8] &&& ~~~0x80#8 = 0#8
  · simp only [bind, Outcome.bind, pure, Outcome.mapErr, hm, if_true]
    cases hx : d.decode (p.packet.data.drop 9) with
    | ok v => exact .inl ⟨_, rfl⟩
    | err e => exact .inr ⟨_, rfl⟩
    | panic => exact absurd hx h1
    | hang => exact absurd hx h2
  · simp only [bind, Outcome.bind, pure, Outcome.mapErr, hm, if_false]
    exact .inr ⟨_, rfl⟩

/-- **C70** Dropping a `SyncRead` is dropping a `SyncReadBytes`, although one of them decodes what it drops: for every type whose
decoder does not panic on slices of the right length. -/
theorem c70_sync_drop {α : Type} (d : DataTy α) (hd : ∀ bytes : List Byte, bytes.length = d.size.toNat → d.decode bytes ≠ .panic ∧ d.decode bytes ≠ .hang)
    (ε : Type) (fuel : Nat) : ∀ {s : SyncIter}, s.count = d.size → SyncIter.drop d (ε := ε) fuel s = SyncIter.dropBytes (ε := ε) fuel s := by
  induction fuel with
  | zero => intro s _; rfl
  | succ fuel ih =>
    intro s hs
    unfold SyncIter.drop SyncIter.dropBytes SyncIter.next
    cases hi : s.motorIds[s.index]? with
    | none =>
      have hpop : ∀ ε, SyncIter.popMotorId (ε := ε) s = (s, .ok none) := by
        intro ε; unfold SyncIter.popMotorId; rw [hi]
      rw [SO.bind_ok (hpop _), SO.bind_ok (s' := s) (a := none) (by rw [SO.bind_ok (hpop _)]; rfl)]
    | some id =>
      have hpop : ∀ ε, SyncIter.popMotorId (ε := ε) s = ({ s with index := s.index + 1 }, .ok (some id)) := by
        intro ε; unfold SyncIter.popMotorId; rw [hi]
      rw [SO.bind_ok (hpop _), SO.bind_def, SO.bind_ok (hpop _)]
      simp only [SO.bind_def]
      unfold SO.attempt SyncIter.nextResponse
      simp only [SO.bind_def, SO.get_apply, hs]
      rcases hr : SyncIter.onClient (Client.readStatusResponse d.size) { s with index := s.index + 1 } with ⟨s', o⟩
      rw [hs] at hr
      simp only [hr]
      have hs' : s'.count = d.size := by
        unfold SyncIter.onClient at hr
        rw [SO.zoom_apply] at hr
        rw [← (Prod.mk.inj hr).1]
      cases o with
      | ok p =>
        have hp : 9 ≤ p.packet.data.length := by
          unfold SyncIter.onClient at hr
          rw [SO.zoom_apply] at hr
          exact readStatusResponse_fields (Prod.ext rfl (Prod.mk.inj hr).2)
        dsimp only [SO.lift_apply]
        rcases checkResponse_total hp id d.size with ⟨e, he⟩ | ⟨he, hq⟩
        · rw [he]
          exact ih hs'
        · rw [he]
          dsimp only
          obtain ⟨q, hq, hl⟩ := hq ReadError
          rcases decodeStatusPacket_total (d := d) hp (fun q' h' => by rw [hq] at h'; injection h' with h'; exact h' ▸ hd q hl) with
            ⟨r, hr'⟩ | ⟨e, hr'⟩ <;> rw [hr'] <;> exact ih hs'
      | err e => exact ih hs'
      | _ => rfl

/-- The types of the crate have such decoders. -/
theorem c70_sync_drop_impl {α : Type} {d : DataTy α} {valid : α → Prop} {f : α → List Byte} (h : ImplData d valid f) (ε : Type) (fuel : Nat)
    {s : SyncIter} (hs : s.count = d.size) : SyncIter.drop d (ε := ε) fuel s = SyncIter.dropBytes (ε := ε) fuel s := by
  refine c70_sync_drop d (fun bytes hl => ?_) ε fuel hs
  obtain ⟨v, -, -, hv⟩ := c28_decode_onto_partial d valid f h bytes hl
  rw [hv]
  simp

/-- A bulk read with the same number of bytes for every motor, and a sync read of the same motors that got equally far. -/
def SameReads (t : BulkIter) (s : SyncIter) : Prop :=
  t.client = s.client ∧ t.reads.map (·.motorId) = s.motorIds ∧ t.index = s.index ∧ ∀ r ∈ t.reads, r.count = s.count

/-- **C70** What `next` of a `BulkReadBytes` returns, and does, is what `next` of a `SyncReadBytes` for the same motors with the same number
of bytes does. -/
theorem c70_bulk_next (ε : Type) {t : BulkIter} {s : SyncIter} (h : SameReads t s) :
    (BulkIter.next (ε := ε) t).2 = (SyncIter.nextBytes (ε := ε) s).2 ∧
      SameReads (BulkIter.next (ε := ε) t).1 (SyncIter.nextBytes (ε := ε) s).1 := by
  obtain ⟨hc, hm, hi, hn⟩ := h
  unfold BulkIter.next SyncIter.nextBytes
  cases hr : t.reads[t.index]? with
  | none =>
    have h1 : ∀ ε, BulkIter.pop (ε := ε) t = (t, .ok none) := by intro ε; unfold BulkIter.pop; rw [hr]
    have h2 : ∀ ε, SyncIter.popMotorId (ε := ε) s = (s, .ok none) := by
      intro ε; unfold SyncIter.popMotorId; rw [← hm, ← hi, List.getElem?_map, hr]; rfl
    rw [SO.bind_ok (h1 _), SO.bind_ok (h2 _)]
    exact ⟨rfl, hc, hm, hi, hn⟩
  | some r =>
    have h1 : ∀ ε, BulkIter.pop (ε := ε) t = ({ t with index := t.index + 1 }, .ok (some r)) := by intro ε; unfold BulkIter.pop; rw [hr]
    have h2 : ∀ ε, SyncIter.popMotorId (ε := ε) s = ({ s with index := s.index + 1 }, .ok (some r.motorId)) := by
      intro ε; unfold SyncIter.popMotorId; rw [← hm, ← hi, List.getElem?_map, hr]; rfl
    rw [SO.bind_ok (h1 _), SO.bind_ok (h2 _)]
    have hcount : r.count = s.count := hn r (List.mem_of_getElem? hr)
    have key : ∀ (t' : BulkIter) (s' : SyncIter), SameReads t' s' → s'.count = s.count →
        (BulkIter.nextResponse r.motorId r.count t').2 = (SyncIter.nextResponseBytes r.motorId s').2 ∧
        SameReads (BulkIter.nextResponse r.motorId r.count t').1 (SyncIter.nextResponseBytes r.motorId s').1 := by
      intro t' s' ⟨hc', hm', hi', hn'⟩ hs'
      unfold BulkIter.nextResponse SyncIter.nextResponseBytes BulkIter.onClient SyncIter.onClient
      simp only [SO.bind_def, SO.get_apply, SO.zoom_apply, hcount, hs', hc']
      rcases Client.readStatusResponse s.count s'.client with ⟨c, o⟩
      cases o with
      | ok p =>
        dsimp only [SO.lift_apply]
        cases SyncIter.checkResponse p r.motorId s.count with
        | ok u => exact ⟨rfl, rfl, hm', hi', fun r hr => (hn' r hr).trans hs'⟩
        | _ => exact ⟨rfl, rfl, hm', hi', fun r hr => (hn' r hr).trans hs'⟩
      | _ => exact ⟨rfl, rfl, hm', hi', fun r hr => (hn' r hr).trans hs'⟩
    have hk := key { t with index := t.index + 1 } { s with index := s.index + 1 } ⟨hc, hm, by simp [hi], hn⟩ rfl
    simp only [SO.bind_def]
    unfold SO.attempt
    rcases hx : BulkIter.nextResponse r.motorId r.count { t with index := t.index + 1 } with ⟨t', o⟩
    rcases hy : SyncIter.nextResponseBytes r.motorId { s with index := s.index + 1 } with ⟨s', o'⟩
    rw [hx, hy] at hk
    obtain ⟨rfl, hk⟩ := hk
    cases o <;> exact ⟨rfl, hk⟩

theorem bulk_dropLoop_same (ε : Type) (rest : List BulkReadData) : ∀ (fuel : Nat) {t : BulkIter} {s : SyncIter}, t.client = s.client →
    s.motorIds.drop s.index = rest.map (·.motorId) → (∀ r ∈ rest, r.count = s.count) → rest.length < fuel →
    (BulkIter.dropLoop (ε := ε) rest t).2 = (SyncIter.dropBytes (ε := ε) fuel s).2 ∧
      (BulkIter.dropLoop (ε := ε) rest t).1.client = (SyncIter.dropBytes (ε := ε) fuel s).1.client := by
  induction rest with
  | nil =>
    intro fuel t s hc hm _ hf
    match fuel, hf with
    | fuel + 1, _ =>
      unfold SyncIter.dropBytes
      have h2 : ∀ ε, SyncIter.popMotorId (ε := ε) s = (s, .ok none) := by
        intro ε
        unfold SyncIter.popMotorId
        rw [List.getElem?_eq_none (by simpa using hm)]
      rw [SO.bind_ok (h2 _)]
      exact ⟨rfl, hc⟩
  | cons r rest ih =>
    intro fuel t s hc hm hn hf
    match fuel, hf with
    | fuel + 1, hf =>
      unfold SyncIter.dropBytes BulkIter.dropLoop
      have hget : s.motorIds[s.index]? = some r.motorId := by
        have : (s.motorIds.drop s.index)[0]? = some r.motorId := by rw [hm]; rfl
        simpa using this
      have h2 : ∀ ε, SyncIter.popMotorId (ε := ε) s = ({ s with index := s.index + 1 }, .ok (some r.motorId)) := by
        intro ε; unfold SyncIter.popMotorId; rw [hget]
      have hcount : r.count = s.count := hn r (by simp)
      rw [SO.bind_ok (h2 _)]
      simp only [SO.bind_def, SO.get_apply]
      unfold SO.attempt BulkIter.onClient SyncIter.onClient
      simp only [SO.zoom_apply, hcount, hc]
      rcases Client.readStatusResponse s.count s.client with ⟨c, o⟩
      have hd : s.motorIds.drop (s.index + 1) = rest.map (·.motorId) := by
        rw [← List.drop_drop, hm]; rfl
      cases o with
      | ok p => exact ih fuel rfl hd (fun x hx => hn x (by simp [hx])) (by simp at hf; omega)
      | err e => exact ih fuel rfl hd (fun x hx => hn x (by simp [hx])) (by simp at hf; omega)
      | _ => exact ⟨rfl, rfl⟩

/-- **C70** So is dropping it. -/
theorem c70_bulk_drop (ε : Type) {t : BulkIter} {s : SyncIter} (h : SameReads t s) (hi : s.index ≤ s.motorIds.length) (fuel : Nat)
    (hf : s.motorIds.length - s.index < fuel) :
    (BulkIter.drop (ε := ε) t).2 = (SyncIter.dropBytes (ε := ε) fuel s).2 ∧
      (BulkIter.drop (ε := ε) t).1.client = (SyncIter.dropBytes (ε := ε) fuel s).1.client := by
  obtain ⟨hc, hm, hx, hn⟩ := h
  have hl : t.reads.length = s.motorIds.length := by rw [← hm, List.length_map]
  unfold BulkIter.drop
  simp only [SO.bind_def, SO.get_apply]
  rw [if_pos (by omega)]
  refine bulk_dropLoop_same ε _ fuel hc ?_ (fun r hr => hn r (List.mem_of_mem_drop hr)) (by rw [List.length_drop]; omega)
  rw [← hm, hx, List.map_drop]

/-- **C70** After its request, `read_bytes` does what `next` of a sync read of one motor does. -/
theorem c70_single (ε : Type) (id : Byte) (address count : U16) {b c : Bus}
    (h : Client.writeInstruction id 0x02#8 4 (Client.readEncoder address count) b = (c, .ok ())) :
    match SyncIter.nextBytes (ε := ε) ⟨c, count, [id], 0⟩ with
    | (s, .ok (some (.ok r))) => Client.readBytes id address count b = (s.client, .ok r)
    | (s, .ok (some (.error e))) => Client.readBytes id address count b = (s.client, .err (.readError e))
    | (s, .panic) => Client.readBytes id address count b = (s.client, .panic)
    | (s, .hang) => Client.readBytes id address count b = (s.client, .hang)
    | (_, .ok none) => False
    | (_, .err _) => False := by
  have h2 : ∀ ε, SyncIter.popMotorId (ε := ε) ⟨c, count, [id], 0⟩ = (⟨c, count, [id], 1⟩, .ok (some id)) := fun _ => rfl
  have hw : (Client.writeInstruction id InstructionId.read 4 (Client.readEncoder address count)).mapErr TransferError.writeError b = (c, .ok ()) := by
    rw [SO.mapErr_apply, show InstructionId.read = 0x02#8 from rfl, h]; rfl
  unfold SyncIter.nextBytes
  rw [SO.bind_ok (h2 _)]
  simp only [SO.bind_def]
  unfold SO.attempt SyncIter.nextResponseBytes Client.readBytes Client.readRaw Client.transferSingle SyncIter.checkResponse SyncIter.onClient
  simp only [SO.bind_def, SO.get_apply, SO.zoom_apply, hw, SO.mapErr_apply]
  rcases hr : Client.readStatusResponse count c with ⟨c', o⟩
  cases o with
  | ok p =>
    have hp := readStatusResponse_fields hr
    have hpar : ∀ ε, (p.parameters : Outcome ε (List Byte)) = .ok (p.packet.data.drop 9) := by
      intro ε
      unfold StatusPacket.parameters sliceFrom slice headerSize
      rw [if_pos (by omega), List.take_length]
    have hid : ∀ ε, (p.packetId : Outcome ε Byte) = .ok p.packet.data[4] := by
      intro ε
      unfold StatusPacket.packetId Packet.packetId idx
      rw [List.getElem?_eq_getElem (by omega)]
    by_cases h1 : p.packet.data[4] = id
    · by_cases h2 : (p.packet.data.drop 9).length = count.toNat
      · cases hdec : decodeStatusPacketBytes p <;>
          simp only [checkPacketId, checkCount, h1, h2, if_true, bind, Outcome.bind, Outcome.mapErr, SO.lift_apply, hpar, hid, SO.pure_apply,
            hdec]
      · simp only [checkPacketId, checkCount, h1, h2, if_true, if_false, bind, Outcome.bind, Outcome.mapErr, SO.lift_apply, hpar, hid,
          SO.pure_apply]
    · simp only [checkPacketId, h1, if_false, bind, Outcome.bind, Outcome.mapErr, SO.lift_apply, hid, SO.pure_apply]
  | _ => rfl

/-! ## Cases -/

/-- The value 0x0200 at address 116 is the bytes 00 02: the same packet. -/
example : Client.write (DataTy.unsigned 2) 1#8 116#16 0x0200#16 = Client.writeBytes 1#8 116#16 [0x00#8, 0x02#8] := by
  have h := c70_write (unsigned_impl (n := 2) (by decide)) 1#8 116#16 (v := 0x0200#16) trivial
  rwa [show toLeBytes 2 (BitVec.toNat 0x0200#16) = [0x00#8, 0x02#8] by decide] at h

/-- But not with `reg_write`. -/
example : Client.regWrite (DataTy.unsigned 2) 1#8 116#16 0x0200#16 ≠ Client.regWriteBytes 1#8 116#16 [0x00#8, 0x02#8] := by
  intro h
  have := congrArg (fun m => (m (quietBus true 40)).1.serialPort.log.length) h
  revert this
  decide +kernel

/-- An answer to a read of two bytes: motor 1, alert, bytes FE FF. -/
def minusTwo : Bus := busWithChunks [(5, frame 1#8 [0x55#8, 0x80#8, 0xFE#8, 0xFF#8])]

/-- Read in four ways. -/
example : (Client.readBytes 1#8 36#16 2#16 minusTwo).2 = .ok { motorId := 1#8, alert := true, data := [0xFE#8, 0xFF#8] } ∧
    (Client.read (DataTy.unsigned 2) 1#8 36#16 minusTwo).2 = .ok { motorId := 1#8, alert := true, data := 0xFFFE#16 } ∧
    (Client.read (DataTy.signed 2) 1#8 36#16 minusTwo).2 = .ok { motorId := 1#8, alert := true, data := -2 } ∧
    (Client.read (DataTy.array (DataTy.unsigned 1) 2 (by decide)) 1#8 36#16 minusTwo).2 =
      .ok { motorId := 1#8, alert := true, data := [0xFE#8, 0xFF#8] } := by
  refine ⟨?_, ?_, ?_, ?_⟩ <;> decide +kernel

/-- The decoder of an array of two-byte numbers is asked about the bytes. -/
example : decodeResponse (DataTy.array (DataTy.unsigned 2) 1 (by decide)).decode { motorId := 1#8, alert := true, data := [0xFE#8, 0xFF#8] } =
    .ok { motorId := 1#8, alert := true, data := [0xFFFE#16] } := by decide +kernel

/-- A sync read and a bulk read of the same motor on this line. -/
example : SameReads ⟨minusTwo, [⟨1#8, 36#16, 2#16⟩], 0⟩ ⟨minusTwo, 2#16, [1#8], 0⟩ ∧
    (BulkIter.next (ε := Empty) ⟨minusTwo, [⟨1#8, 36#16, 2#16⟩], 0⟩).2 =
      .ok (some (.ok { motorId := 1#8, alert := true, data := [0xFE#8, 0xFF#8] })) ∧
    (SyncIter.next (DataTy.signed 2) (ε := Empty) ⟨minusTwo, 2#16, [1#8], 0⟩).2 =
      .ok (some (.ok { motorId := 1#8, alert := true, data := -2 })) := by
  refine ⟨⟨rfl, rfl, rfl, by simp⟩, ?_, ?_⟩ <;> decide +kernel

/-- Both kinds of iterators leave the same behind when they are dropped. -/
example : (SyncIter.drop (DataTy.signed 2) (ε := Empty) 2 ⟨minusTwo, 2#16, [1#8], 0⟩).1.client =
      (BulkIter.drop (ε := Empty) ⟨minusTwo, [⟨1#8, 36#16, 2#16⟩], 0⟩).1.client ∧
    (SyncIter.drop (DataTy.signed 2) (ε := Empty) 2 ⟨minusTwo, 2#16, [1#8], 0⟩).1.client ≠ minusTwo := by
  refine ⟨?_, ?_⟩ <;> decide +kernel

/-- A reboot of all motors. -/
example : (Client.reboot 0xFE#8 (quietBus true 40)).2 = .ok unanswered ∧
    (Client.reboot 0xFE#8 (quietBus true 40)).1 = (Client.broadcastReboot (quietBus true 40)).1 := by
  refine ⟨?_, ?_⟩ <;> decide +kernel

/-- The hypotheses of `c70_single`. -/
example : (Client.writeInstruction 1#8 0x02#8 4 (Client.readEncoder 36#16 2#16) minusTwo).2 = .ok () := by decide +kernel

/-! Each theorem with hypotheses on a concrete case. -/

example := c70_reg_write_one_byte (implSigned (n := 1) (by decide)) rfl 1#8 116#16 (v := -2) (by unfold InSignedRange; decide)

example := c70_sync_write_one_byte (implUnsigned (n := 1) (by decide)) rfl 116#16 [⟨1#8, 7#8⟩, ⟨2#8, 9#8⟩] fun _ _ => trivial

example := c70_read_byte_array 1#8 116#16 5 (by decide)

example := c70_write_byte_array 1#8 116#16 [7#8, 9#8] (by decide)

example := c70_sync_next (DataTy.unsigned 2) Empty (s := ⟨minusTwo, 2#16, [1#8], 0⟩) rfl

example := c70_sync_drop (DataTy.unsigned 2)
  (fun bytes h => by
    obtain ⟨v, -, -, hv⟩ := c28_decode_onto_partial _ _ _ (implUnsigned (n := 2) (by decide)) bytes h
    rw [hv]
    exact ⟨nofun, nofun⟩) Empty 3 (s := ⟨minusTwo, 2#16, [1#8], 0⟩) rfl

example := c70_sync_drop_impl (implSigned (n := 2) (by decide)) Empty 3 (s := ⟨minusTwo, 2#16, [1#8], 0⟩) rfl

theorem minusTwo_same : SameReads ⟨minusTwo, [⟨1#8, 36#16, 2#16⟩], 0⟩ ⟨minusTwo, 2#16, [1#8], 0⟩ := ⟨rfl, rfl, rfl, by simp⟩

example := c70_bulk_next Empty minusTwo_same

example := c70_bulk_drop Empty minusTwo_same (by decide) 3 (by decide)

end Dxl.Props
