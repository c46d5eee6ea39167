import Verif.Spec.Duration
import Verif.Props.LostAnswers
import Verif.Lemmas.JustReads

/-! # How much time passes in the calls (C100) -/

namespace Dxl
open Spec Props

theorem Spends.refl (b : Bus) : Spends 0 0 b b := ⟨⟨[], by simp, by simp⟩, [], by simp, by simp, by simp, by simp⟩

theorem Spends.trans {a b c : Bus} {n n' w w' : Nat} (h : Spends n w a b) (h' : Spends n' w' b c) : Spends (n + n') (w + w') a c := by
  obtain ⟨⟨x, x1, x2⟩, u, h1, h2, h3, h4⟩ := h
  obtain ⟨⟨y, y1, y2⟩, v, k1, k2, k3, k4⟩ := h'
  refine ⟨⟨x ++ y, by rw [y1, x1, List.append_assoc], by rw [List.filter_append, List.length_append]; omega⟩,
    u ++ v, by rw [h1, k1, List.append_assoc], by rw [List.length_append]; omega, ?_, ?_⟩
  all_goals rw [List.map_append, List.sum_append]; omega

theorem Spends.mono {b c : Bus} {n n' w w' : Nat} (h : Spends n w b c) (hn : n ≤ n') (hw : w ≤ w') : Spends n' w' b c := by
  obtain ⟨⟨x, x1, x2⟩, u, h1, h2, h3, h4⟩ := h
  exact ⟨⟨x, x1, by omega⟩, u, h1, by omega, h3, by omega⟩

theorem spends_of_port {b c : Bus} (h1 : c.serialPort.writeRes = b.serialPort.writeRes) (h2 : c.serialPort.now = b.serialPort.now)
    (h3 : ∃ calls, c.serialPort.log = b.serialPort.log ++ calls ∧ calls.filter Call.isWrite = []) : Spends 0 0 b c := by
  obtain ⟨calls, e, h⟩ := h3
  exact ⟨⟨calls, e, by rw [h]; simp⟩, [], by simp [h1], by simp, by simp [h2], by simp [h2]⟩

theorem spends_of_reads {b c : Bus} {w : Nat} (h1 : c.serialPort.writeRes = b.serialPort.writeRes) (h2 : b.serialPort.now ≤ c.serialPort.now)
    (h3 : c.serialPort.now ≤ b.serialPort.now + w)
    (h4 : ∃ calls, c.serialPort.log = b.serialPort.log ++ calls ∧ ∀ call ∈ calls, ∃ cap D, call = .read cap D) : Spends 0 w b c := by
  obtain ⟨calls, e, h⟩ := h4
  have : calls.filter Call.isWrite = [] := by
    rw [List.filter_eq_nil_iff]
    intro call hc
    obtain ⟨cap, D, rfl⟩ := h call hc
    simp [Call.isWrite]
  exact ⟨⟨calls, e, by rw [this]; simp⟩, [], by simp [h1], by simp, by simpa using h2, by simpa using h3⟩

/-- What this code spends, whatever the outcome, and in which states. -/
def Costs {ε α : Type} (n : Nat) (w : Nat → Nat) (m : SO Bus ε α) : Prop :=
  ∀ b, b.RInv → b.baudRate < 2 ^ 32 →
    (m b).1.RInv ∧ (m b).1.baudRate = b.baudRate ∧ Spends n (w b.baudRate) b (m b).1

/-- The time for a response of this size, if there is one. -/
def allowance (baud : Nat) : Option Nat → Nat
  | none => 0
  | some count => responseWait baud count

namespace Costs
variable {ε ε' α β : Type} {n n' : Nat} {w w' : Nat → Nat}

theorem bind {m : SO Bus ε α} {k : α → SO Bus ε β} (h : Costs n w m) (hk : ∀ a, Costs n' w' (k a)) :
    Costs (n + n') (fun r => w r + w' r) (m >>= k) := by
  intro b hb hr
  obtain ⟨h1, h2, h3⟩ := h b hb hr
  rw [SO.bind_def]
  rcases e : m b with ⟨c, o⟩
  rw [e] at h1 h2 h3
  cases o with
  | ok a =>
    obtain ⟨k1, k2, k3⟩ := hk a c h1 (by rw [h2]; exact hr)
    exact ⟨k1, k2.trans h2, by rw [h2] at k3; exact h3.trans k3⟩
  | _ => exact ⟨h1, h2, h3.mono (by omega) (by dsimp only; omega)⟩

theorem mapErr {m : SO Bus ε α} (h : Costs n w m) (f : ε → ε') : Costs n w (m.mapErr f) := h

theorem free {m : SO Bus ε α} (h : ∀ b, (m b).1.serialPort.writeRes = b.serialPort.writeRes ∧ (m b).1.serialPort.now = b.serialPort.now ∧
    (m b).1.baudRate = b.baudRate ∧ (b.RInv → (m b).1.RInv) ∧
    ∃ calls, (m b).1.serialPort.log = b.serialPort.log ++ calls ∧ calls.filter Call.isWrite = []) : Costs 0 (fun _ => 0) m := fun b hb _ =>
  ⟨(h b).2.2.2.1 hb, (h b).2.2.1, spends_of_port (h b).1 (h b).2.1 (h b).2.2.2.2⟩

theorem lift (o : Outcome ε α) : Costs 0 (fun _ => 0) (SO.lift o : SO Bus ε α) := free fun _ => ⟨rfl, rfl, rfl, fun h => ⟨h.1, h.2⟩, [], by simp, rfl⟩
theorem pure (a : α) : Costs 0 (fun _ => 0) (Pure.pure a : SO Bus ε α) := free fun _ => ⟨rfl, rfl, rfl, fun h => ⟨h.1, h.2⟩, [], by simp, rfl⟩

theorem get {k : Bus → SO Bus ε α} (h : ∀ b, Costs n w (k b)) : Costs n w (SO.get >>= k) := fun b hb hr => h b b hb hr

/-- Something that costs nothing first. -/
theorem andThen {m : SO Bus ε α} {k : α → SO Bus ε β} (h : Costs 0 (fun _ => 0) m) (hk : ∀ a, Costs n w (k a)) : Costs n w (m >>= k) := by
  have := h.bind hk
  simpa using this

/-- Something that costs nothing afterwards. -/
theorem beforeFree {m : SO Bus ε α} {k : α → SO Bus ε β} (h : Costs n w m) (hk : ∀ a, Costs 0 (fun _ => 0) (k a)) : Costs n w (m >>= k) := by
  have := h.bind hk
  simpa using this

theorem onWriteBuffer (m : SO (List Byte) ε α) : Costs 0 (fun _ => 0) (Bus.onWriteBuffer m) :=
  free fun b => ⟨rfl, rfl, rfl, fun h => ⟨h.1, h.2⟩, [], (List.append_nil b.serialPort.log).symm, rfl⟩

theorem clear : Costs (ε := ε) 0 (fun _ => 0) (SO.modify fun b : Bus => { b with readLen := 0, usedBytes := 0 }) :=
  free fun _ => ⟨rfl, rfl, rfl, fun _ => ⟨Nat.le_refl _, Nat.zero_le _⟩, [], by simp, rfl⟩

theorem discard (f : IoErr → ε) : Costs 0 (fun _ => 0) (Bus.onPort (Port.discardInputBuffer.mapErr f)) := by
  refine free fun b => ?_
  rw [Bus.onPort_apply, SO.mapErr_apply]
  unfold Port.discardInputBuffer
  split <;> exact ⟨rfl, rfl, rfl, fun h => ⟨h.1, h.2⟩, [.discard _], rfl, rfl⟩

theorem writeAll (bytes : List Byte) (f : IoErr → ε) : Costs 1 (fun _ => 0) (Bus.onPort ((Port.writeAll bytes).mapErr f)) := by
  intro b hb hr
  rw [Bus.onPort_apply, SO.mapErr_apply]
  unfold Port.writeAll
  split
  · rename_i dt e rest h
    exact ⟨⟨hb.1, hb.2⟩, rfl, ⟨[.write bytes false], rfl, Nat.le_refl 1⟩, [(dt, some e)], h, by simp, by simp, by simp⟩
  · rename_i dt rest h
    exact ⟨⟨hb.1, hb.2⟩, rfl, ⟨[.write bytes true], rfl, Nat.le_refl 1⟩, [(dt, none)], h, by simp, by simp, by simp⟩
  · exact ⟨⟨hb.1, hb.2⟩, rfl, ⟨[.write bytes true], rfl, Nat.le_refl 1⟩, [], by simp, by simp, by simp, by simp⟩

theorem writePacket (id instr : Byte) (k : Nat) (enc : Encoder) : Costs 1 (fun _ => 0) (Bus.writePacket id instr k enc) := by
  unfold Bus.writePacket
  refine get fun b => ?_
  refine (lift _).andThen fun _ => ?_
  refine (onWriteBuffer _).andThen fun _ => ?_
  refine (onWriteBuffer _).andThen fun _ => ?_
  refine (onWriteBuffer _).andThen fun _ => ?_
  refine (onWriteBuffer _).andThen fun _ => ?_
  refine (onWriteBuffer _).andThen fun _ => ?_
  refine (onWriteBuffer _).andThen fun _ => ?_
  refine (lift _).andThen fun _ => ?_
  refine (onWriteBuffer _).andThen fun _ => ?_
  refine get fun b => ?_
  refine (lift _).andThen fun _ => ?_
  refine (lift _).andThen fun _ => ?_
  refine (onWriteBuffer _).andThen fun _ => ?_
  refine clear.andThen fun _ => ?_
  refine (discard _).andThen fun _ => ?_
  refine get fun b => ?_
  refine (lift _).andThen fun _ => ?_
  exact writeAll _ _

theorem writeInstruction (id instr : Byte) (k : Nat) (enc : Encoder) : Costs 1 (fun _ => 0) (Client.writeInstruction id instr k enc) :=
  writePacket id instr k enc

theorem waitedFor {b : Bus} (hb : b.RInv) (wait : Nat) :
    (Bus.readPacketDeadline (b.serialPort.now + wait) b).1.RInv ∧
    (Bus.readPacketDeadline (b.serialPort.now + wait) b).1.baudRate = b.baudRate ∧
    Spends 0 wait b (Bus.readPacketDeadline (b.serialPort.now + wait) b).1 := by
  have h := waited_read hb (Nat.le_add_right b.serialPort.now wait)
  have hj := Bus.readPacketDeadline_just (b.serialPort.now + wait) b
  exact ⟨h.rinv, hj.baudRate, spends_of_reads hj.writeRes h.now_le h.deadline hj.calls⟩

theorem readStatusResponse (count : U16) : Costs 0 (fun r => responseWait r count.toNat) (Client.readStatusResponse count) := by
  intro b hb hr
  by_cases h0 : b.baudRate = 0
  · rw [readStatusResponse_zero h0]
    exact ⟨hb, rfl, (Spends.refl b).mono (by omega) (by omega)⟩
  · rw [readStatusResponse_client h0 hr]
    exact waitedFor hb _

theorem scanNext : Costs 0 scanWait (Client.scanNext (ε := ε)) := by
  intro b hb hr
  by_cases h0 : b.baudRate = 0
  · have : Client.scanNext (ε := ε) b = (b, .panic) := by
      unfold Client.scanNext
      rw [SO.bind_panic (attempt_panic (scanNextResponse_zero h0))]
    rw [this]
    exact ⟨hb, rfl, (Spends.refl b).mono (by omega) (by omega)⟩
  · rw [(scanNext_fst h0 hr).1]
    exact waitedFor hb _

theorem instruct (id instr : Byte) (k : Nat) (enc : Encoder) :
    Costs 1 (fun r => allowance r (if id = 0xFE#8 then none else some 0)) (Client.instruct id instr k enc) := by
  unfold Client.instruct
  have := ((writeInstruction id instr k enc).mapErr TransferError.writeError).bind (n' := 0)
    (w' := fun r => allowance r (if id = 0xFE#8 then none else some 0))
    (k := fun _ => (Client.readResponseIfNotBroadcast id).mapErr TransferError.readError) fun _ => ?_
  · simpa using this
  · refine mapErr ?_ _
    unfold Client.readResponseIfNotBroadcast
    by_cases h : id = 0xFE#8
    · rw [if_pos h, if_pos (show id = broadcast from h)]
      exact pure _
    · rw [if_neg h, if_neg (show ¬ id = broadcast from h)]
      exact (readStatusResponse 0#16).beforeFree fun _ => lift _

theorem transferSingle (id instr : Byte) (k : Nat) (count : U16) (enc : Encoder) :
    Costs 1 (fun r => allowance r (some count.toNat)) (Client.transferSingle id instr k count enc) := by
  unfold Client.transferSingle
  have := ((writeInstruction id instr k enc).mapErr TransferError.writeError).bind (n' := 0) (w' := fun r => allowance r (some count.toNat))
    (k := fun _ => (Client.readStatusResponse count).mapErr TransferError.readError >>= fun response =>
      SO.lift response.packetId >>= fun actual =>
        SO.lift ((checkPacketId actual id).mapErr fun e => TransferError.readError (.invalidMessage e)) >>= fun _ => Pure.pure response)
    fun _ => ?_
  · simpa using this
  · exact ((readStatusResponse count).mapErr _).beforeFree fun _ =>
      (lift _).andThen fun _ => (lift _).andThen fun _ => pure _

theorem readRaw (id : Byte) (address count : U16) : Costs 1 (fun r => allowance r (some count.toNat)) (Client.readRaw id address count) :=
  (transferSingle _ _ _ _ _).beforeFree fun _ => (lift _).andThen fun _ => (lift _).andThen fun _ => pure _

end Costs

open Client in
theorem waits_costs {ε α : Type} {m : SO Bus ε α} {exp : Option Nat} (h : Waits m exp) : Costs 1 (fun r => allowance r exp) m := by
  cases h with
  | transferSingle => exact .transferSingle _ _ _ _ _
  | action | reboot | clearRevolutionCounter | clearError | factoryReset | write | regWrite | writeBytes | regWriteBytes =>
    exact .instruct _ _ _ _
  | writeInstruction | broadcastAction | broadcastReboot | scan | broadcastClearRevolutionCounter | broadcastClearError | broadcastFactoryReset
  | syncReadBytes | syncRead | syncWriteBytes | syncWrite => exact .writePacket _ _ _ _
  | readRaw => exact .readRaw _ _ _
  | readBytes | read => exact (Costs.readRaw _ _ _).beforeFree fun _ => .lift _
  | ping => exact (Costs.transferSingle _ _ _ 3#16 _).beforeFree fun _ => .lift _
  | bulkReadBytes reads =>
    unfold bulkReadBytes
    split
    · intro b hb _
      exact ⟨hb, rfl, (Spends.refl b).mono (by omega) (by omega)⟩
    · exact .writePacket _ _ _ _
  | bulkWrite writes => exact (Costs.lift _).andThen fun _ => .writePacket _ _ _ _
  | deviceWriteStatus | deviceWriteStatusError | deviceWriteStatusOk =>
    exact Costs.get fun _ => (Costs.lift _).andThen fun _ => .writePacket _ _ _ _

/-! ## A device that waits for an instruction -/

theorem readRawLoop_waited (D fuel : Nat) {b : Bus} (hb : b.RInv) (hD : b.serialPort.now ≤ D) :
    (Device.readRawLoop D fuel b).1.RInv ∧ b.serialPort.now ≤ (Device.readRawLoop D fuel b).1.serialPort.now ∧
    (Device.readRawLoop D fuel b).1.serialPort.now ≤ D := by
  induction fuel generalizing b with
  | zero => exact ⟨hb, Nat.le_refl _, hD⟩
  | succ fuel ih =>
    unfold Device.readRawLoop
    have h := waited_read hb hD
    rw [SO.bind_def]
    rcases e : Bus.readPacketDeadline D b with ⟨c, o⟩
    rw [e] at h
    cases o with
    | ok p =>
      dsimp only
      rw [SO.bind_def, SO.lift_apply]
      cases p.asInstruction with
      | ok x =>
        cases x with
        | some => exact ⟨h.rinv, h.now_le, h.deadline⟩
        | none =>
          obtain ⟨k1, k2, k3⟩ := ih h.rinv h.deadline
          exact ⟨k1, Nat.le_trans h.now_le k2, k3⟩
      | _ => exact ⟨h.rinv, h.now_le, h.deadline⟩
    | _ => exact ⟨h.rinv, h.now_le, h.deadline⟩

theorem readRaw_costs (timeout : Nat) : Costs 0 (fun _ => timeout) (Device.readRawInstructionTimeout timeout) := by
  intro b hb _
  unfold Device.readRawInstructionTimeout
  rw [SO.get_bind]
  obtain ⟨h1, h2, h3⟩ := readRawLoop_waited (b.serialPort.makeDeadline timeout) (b.readLen + b.serialPort.measure + 1) hb
    (Nat.le_add_right _ _)
  have hj := Device.readRawLoop_just (b.serialPort.makeDeadline timeout) (b.readLen + b.serialPort.measure + 1) b
  exact ⟨h1, hj.baudRate, spends_of_reads hj.writeRes h2 h3 hj.calls⟩

theorem listening_costs {ε α : Type} {m : SO Bus ε α} {timeout : Nat} (h : Listening m timeout) : Costs 0 (fun _ => timeout) m := by
  cases h with
  | readRaw => exact readRaw_costs _
  | read | readOwned => exact (readRaw_costs _).beforeFree fun _ => .lift _

/-! ## Iterators -/

/-- From `b` to `c`, where `left` and `left'` are the times that the responses not yet awaited may still take. -/
structure Uses (b c : Bus) (left left' : Nat) : Prop where
  rinv : c.RInv
  baudRate : c.baudRate = b.baudRate
  writes : c.serialPort.writeRes = b.serialPort.writeRes
  calls : ∃ calls, c.serialPort.log = b.serialPort.log ++ calls ∧ ∀ call ∈ calls, ∃ cap D, call = .read cap D
  now_le : b.serialPort.now ≤ c.serialPort.now
  time : c.serialPort.now + left' ≤ b.serialPort.now + left

theorem Uses.refl {b : Bus} (hb : b.RInv) (left : Nat) : Uses b b left left := ⟨hb, rfl, rfl, ⟨[], by simp, by simp⟩, Nat.le_refl _, Nat.le_refl _⟩

theorem Uses.trans {a b c : Bus} {x y z : Nat} (h : Uses a b x y) (h' : Uses b c y z) : Uses a c x z := by
  refine ⟨h'.rinv, h'.baudRate.trans h.baudRate, h'.writes.trans h.writes, ?_, Nat.le_trans h.now_le h'.now_le, Nat.le_trans h'.time h.time⟩
  obtain ⟨u, u1, u2⟩ := h.calls
  obtain ⟨v, v1, v2⟩ := h'.calls
  refine ⟨u ++ v, by rw [v1, u1, List.append_assoc], fun call hc => ?_⟩
  rcases List.mem_append.mp hc with hc | hc
  · exact u2 _ hc
  · exact v2 _ hc

theorem Uses.spends {b c : Bus} {x y : Nat} (h : Uses b c x y) : Spends 0 x b c :=
  spends_of_reads h.writes h.now_le (by have := h.time; omega) h.calls

theorem uses_response {b : Bus} (hb : b.RInv) (hr : b.baudRate < 2 ^ 32) (count : U16) (left : Nat) :
    Uses b (Client.readStatusResponse count b).1 (responseWait b.baudRate count.toNat + left) left := by
  obtain ⟨h1, h2, -⟩ := Costs.readStatusResponse count b hb hr
  by_cases h0 : b.baudRate = 0
  · rw [readStatusResponse_zero h0]
    exact ⟨hb, rfl, rfl, ⟨[], by simp, by simp⟩, Nat.le_refl _, by dsimp only; omega⟩
  · rw [readStatusResponse_client h0 hr] at h1 h2 ⊢
    have h := waited_read hb (Nat.le_add_right b.serialPort.now (responseWait b.baudRate count.toNat))
    have hj := Bus.readPacketDeadline_just (b.serialPort.now + responseWait b.baudRate count.toNat) b
    exact ⟨h1, h2, hj.writeRes, hj.calls, h.now_le, by have := h.deadline; omega⟩

/-- The time that the responses not yet awaited may take. -/
def SyncIter.left (s : SyncIter) : Nat := (s.motorIds.length - s.index) * responseWait s.client.baudRate s.count.toNat

/-- The same for a bulk read. -/
def BulkIter.left (s : BulkIter) : Nat := ((s.reads.drop s.index).map fun r => responseWait s.client.baudRate r.count.toNat).sum

theorem attempt_state {σ ε ε' α : Type} (m : SO σ ε α) (s : σ) : ((m.attempt : SO σ ε' (Except ε α)) s).1 = (m s).1 := by
  unfold SO.attempt
  rcases m s with ⟨s', o⟩
  cases o <;> rfl

theorem bind_state {σ ε α β : Type} (m : SO σ ε α) (k : α → SO σ ε β) (hk : ∀ a s, (k a s).1 = s) (s : σ) : ((m >>= k) s).1 = (m s).1 := by
  rw [SO.bind_def]
  rcases m s with ⟨s', o⟩
  cases o with
  | ok a => exact hk a s'
  | _ => rfl

/-- An iterator after one response was awaited. -/
def SyncIter.awaited (s : SyncIter) : SyncIter :=
  { s with index := s.index + 1, client := (Client.readStatusResponse s.count s.client).1 }

theorem sync_nextBytes_state {ε : Type} (s : SyncIter) : (SyncIter.nextBytes (ε := ε) s).1 =
    if s.index < s.motorIds.length then s.awaited else s := by
  unfold SyncIter.nextBytes
  rw [SO.bind_def]
  unfold SyncIter.popMotorId
  by_cases h : s.index < s.motorIds.length
  · rw [if_pos h, List.getElem?_eq_getElem h]
    dsimp only
    rw [bind_state _ _ (fun _ _ => rfl), attempt_state]
    unfold SyncIter.nextResponseBytes
    rw [SO.get_bind, bind_state _ _ (fun _ _ => bind_state _ _ (fun _ _ => rfl) _)]
    rfl
  · rw [if_neg h, List.getElem?_eq_none (by omega)]
    rfl

theorem sync_next_state {ε α : Type} (d : DataTy α) (s : SyncIter) (hd : d.size = s.count) : (SyncIter.next (ε := ε) d s).1 =
    if s.index < s.motorIds.length then s.awaited else s := by
  unfold SyncIter.next
  rw [SO.bind_def]
  unfold SyncIter.popMotorId
  by_cases h : s.index < s.motorIds.length
  · rw [if_pos h, List.getElem?_eq_getElem h]
    dsimp only
    rw [bind_state _ _ (fun _ _ => rfl), attempt_state]
    unfold SyncIter.nextResponse
    rw [hd, bind_state _ _ (fun _ _ => bind_state _ _ (fun _ _ => rfl) _)]
    rfl
  · rw [if_neg h, List.getElem?_eq_none (by omega)]
    rfl

/-- The same request, and this much time. -/
def SyncIter.Goes (s t : SyncIter) : Prop :=
  t.count = s.count ∧ t.motorIds = s.motorIds ∧ (s.client.RInv → s.client.baudRate < 2 ^ 32 → Uses s.client t.client s.left t.left)

theorem SyncIter.Goes.refl (s : SyncIter) : s.Goes s := ⟨rfl, rfl, fun h _ => .refl h _⟩

theorem SyncIter.Goes.trans {s t u : SyncIter} (h : s.Goes t) (h' : t.Goes u) : s.Goes u :=
  ⟨h'.1.trans h.1, h'.2.1.trans h.2.1, fun hr hb => (h.2.2 hr hb).trans (h'.2.2 (h.2.2 hr hb).rinv (by rw [(h.2.2 hr hb).baudRate]; exact hb))⟩

theorem sync_awaited_goes (s : SyncIter) (h : s.index < s.motorIds.length) : s.Goes s.awaited := by
  refine ⟨rfl, rfl, fun hr hb => ?_⟩
  have hu := uses_response hr hb s.count s.awaited.left
  have e : s.awaited.client.baudRate = s.client.baudRate := hu.baudRate
  have hl : s.left = responseWait s.client.baudRate s.count.toNat + s.awaited.left := by
    unfold SyncIter.left
    rw [e, show s.motorIds.length - s.index = (s.motorIds.length - (s.index + 1)) + 1 by omega, Nat.add_mul, Nat.one_mul, Nat.add_comm]
    rfl
  rw [hl]
  exact hu

theorem sync_nextBytes_goes {ε : Type} (s : SyncIter) : s.Goes (SyncIter.nextBytes (ε := ε) s).1 := by
  rw [sync_nextBytes_state]
  split
  · exact sync_awaited_goes s ‹_›
  · exact .refl s

theorem sync_next_goes {ε α : Type} (d : DataTy α) (s : SyncIter) (hd : d.size = s.count) : s.Goes (SyncIter.next (ε := ε) d s).1 := by
  rw [sync_next_state d s hd]
  split
  · exact sync_awaited_goes s ‹_›
  · exact .refl s

theorem sync_dropBytes_goes {ε : Type} (fuel : Nat) (s : SyncIter) : s.Goes (SyncIter.dropBytes (ε := ε) fuel s).1 := by
  induction fuel generalizing s with
  | zero => exact .refl s
  | succ fuel ih =>
    unfold SyncIter.dropBytes
    rw [SO.bind_def]
    unfold SyncIter.popMotorId
    by_cases h : s.index < s.motorIds.length
    · rw [List.getElem?_eq_getElem h]
      dsimp only
      rw [SO.get_bind, SO.bind_def]
      have hs := attempt_state (ε' := ε) (SyncIter.onClient (Client.readStatusResponse s.count)) { s with index := s.index + 1 }
      rcases e : (SO.attempt (ε' := ε) (SyncIter.onClient (Client.readStatusResponse s.count))) { s with index := s.index + 1 } with ⟨s', o⟩
      rw [e] at hs
      have hs : s' = s.awaited := hs
      subst hs
      cases o with
      | ok => exact (sync_awaited_goes s h).trans (ih _)
      | _ => exact sync_awaited_goes s h
    · rw [List.getElem?_eq_none (by omega)]
      exact .refl s

theorem sync_drop_goes {ε α : Type} (d : DataTy α) (fuel : Nat) (s : SyncIter) (hd : d.size = s.count) :
    s.Goes (SyncIter.drop (ε := ε) d fuel s).1 := by
  induction fuel generalizing s with
  | zero => exact .refl s
  | succ fuel ih =>
    unfold SyncIter.drop
    rw [SO.bind_def]
    have hs := sync_next_goes (ε := ε) d s hd
    rcases e : SyncIter.next (ε := ε) d s with ⟨s', o⟩
    rw [e] at hs
    cases o with
    | ok x =>
      cases x with
      | none => exact hs
      | some x => exact hs.trans (ih s' (hd.trans hs.1.symm))
    | _ => exact hs

theorem syncUse_goes {s t : SyncIter} (h : SyncUse s t) : s.Goes t := by
  induction h with
  | none => exact .refl s
  | nextBytes _ ih => exact ih.trans (sync_nextBytes_goes _)
  | next _ d hd ih => exact ih.trans (sync_next_goes d _ (hd.trans ih.1.symm))
  | dropBytes _ fuel ih => exact ih.trans (sync_dropBytes_goes fuel _)
  | drop _ d hd fuel ih => exact ih.trans (sync_drop_goes d fuel _ (hd.trans ih.1.symm))

/-- The same for a bulk read. -/
def BulkIter.Goes (s t : BulkIter) : Prop :=
  t.reads = s.reads ∧ (s.client.RInv → s.client.baudRate < 2 ^ 32 → Uses s.client t.client s.left t.left)

theorem BulkIter.Goes.refl (s : BulkIter) : s.Goes s := ⟨rfl, fun h _ => .refl h _⟩

theorem BulkIter.Goes.trans {s t u : BulkIter} (h : s.Goes t) (h' : t.Goes u) : s.Goes u :=
  ⟨h'.1.trans h.1, fun hr hb => (h.2 hr hb).trans (h'.2 (h.2 hr hb).rinv (by rw [(h.2 hr hb).baudRate]; exact hb))⟩

theorem bulk_next_goes {ε : Type} (s : BulkIter) : s.Goes (BulkIter.next (ε := ε) s).1 := by
  unfold BulkIter.next
  rw [SO.bind_def]
  unfold BulkIter.pop
  by_cases h : s.index < s.reads.length
  · rw [List.getElem?_eq_getElem h]
    dsimp only
    rw [bind_state _ _ (fun _ _ => rfl), attempt_state]
    unfold BulkIter.nextResponse
    rw [bind_state _ _ (fun _ _ => bind_state _ _ (fun _ _ => rfl) _)]
    refine ⟨rfl, fun hr hb => ?_⟩
    have hu := uses_response hr hb s.reads[s.index].count
      (BulkIter.left ⟨(Client.readStatusResponse s.reads[s.index].count s.client).1, s.reads, s.index + 1⟩)
    have hl : s.left = responseWait s.client.baudRate s.reads[s.index].count.toNat +
        BulkIter.left ⟨(Client.readStatusResponse s.reads[s.index].count s.client).1, s.reads, s.index + 1⟩ := by
      unfold BulkIter.left
      rw [List.drop_eq_getElem_cons h]
      dsimp only
      rw [hu.baudRate, List.map_cons, List.sum_cons]
    rw [hl]
    exact hu
  · rw [List.getElem?_eq_none (by omega)]
    exact .refl s

theorem bulkUse_goes {s t : BulkIter} (h : BulkUse s t) : s.Goes t := by
  induction h with
  | none => exact .refl s
  | next _ ih => exact ih.trans (bulk_next_goes _)

theorem bulk_dropLoop_uses {ε : Type} (reads : List BulkReadData) (s : BulkIter) (hr : s.client.RInv) (hb : s.client.baudRate < 2 ^ 32) :
    Uses s.client (BulkIter.dropLoop (ε := ε) reads s).1.client
      (reads.map fun r => responseWait s.client.baudRate r.count.toNat).sum 0 := by
  induction reads generalizing s with
  | nil => exact .refl hr _
  | cons r rest ih =>
    unfold BulkIter.dropLoop
    rw [SO.bind_def]
    have hs := attempt_state (ε' := ε) (BulkIter.onClient (Client.readStatusResponse r.count)) s
    rcases e : (SO.attempt (ε' := ε) (BulkIter.onClient (Client.readStatusResponse r.count))) s with ⟨s', o⟩
    rw [e] at hs
    have hs : s' = { s with client := (Client.readStatusResponse r.count s.client).1 } := hs
    have hu := uses_response hr hb r.count (rest.map fun r => responseWait s.client.baudRate r.count.toNat).sum
    have hc : s'.client = (Client.readStatusResponse r.count s.client).1 := by rw [hs]
    rw [← hc] at hu
    rw [List.map_cons, List.sum_cons]
    cases o with
    | ok =>
      have := ih s' hu.rinv (by rw [hu.baudRate]; exact hb)
      rw [hu.baudRate] at this
      exact hu.trans this
    | _ => exact ⟨hu.rinv, hu.baudRate, hu.writes, hu.calls, hu.now_le, by have := hu.time; dsimp only; omega⟩

theorem bulk_drop_uses {ε : Type} (s : BulkIter) (hr : s.client.RInv) (hb : s.client.baudRate < 2 ^ 32) :
    Uses s.client (BulkIter.drop (ε := ε) s).1.client s.left 0 := by
  unfold BulkIter.drop
  rw [SO.get_bind]
  split
  · exact bulk_dropLoop_uses _ s hr hb
  · exact ⟨hr, rfl, rfl, ⟨[], by simp [SO.panic], by simp⟩, Nat.le_refl _, by show s.client.serialPort.now + 0 ≤ _; omega⟩

end Dxl
