import Verif.Model.Mock
import Verif.Spec.Servo
import Verif.Props.Status
import Verif.Props.Construct

/-! # C52: the simulated motor is a memory -/

namespace Dxl.Props
open Dxl Spec

/-! ## The control table -/

theorem controlTable_read {ε : Type} (data : List Byte) (a n : U16) :
    ControlTable.read (ε := ε) data a n = .ok (load data a.toNat n.toNat) := by
  unfold ControlTable.read load
  by_cases h : a.toNat + n.toNat ≤ data.length
  · rw [if_neg (by omega), if_pos h, slice_ok (by omega) h]
    refine congrArg (fun l => Outcome.ok (some l)) ?_
    apply List.ext_getElem
    · simp; omega
    · intro i h1 h2
      simp at h1 h2
      simp only [List.getElem_drop, List.getElem_take, List.getElem_map, List.getElem_range]
      rw [List.getD_eq_getElem?_getD, List.getElem?_eq_getElem (by omega)]
      rfl
  · rw [if_pos (by omega), if_neg h]

theorem controlTable_write {ε : Type} (data : List Byte) (a : U16) (bytes : List Byte) :
    ControlTable.write (ε := ε) a bytes data =
      ((store data a.toNat bytes).getD data, .ok (store data a.toNat bytes).isSome) := by
  unfold ControlTable.write store
  rw [SO.get_bind]
  by_cases h : a.toNat + bytes.length ≤ data.length
  · rw [if_neg (by omega), if_pos h]
    have hs : onSlice (ε := ε) a.toNat (a.toNat + bytes.length) (copyFromSlice bytes) data =
        (data.take a.toNat ++ bytes ++ data.drop (a.toNat + bytes.length), .ok ()) := by
      rw [onSlice_ok _ (by omega) h]
      have : copyFromSlice (ε := ε) bytes ((data.take (a.toNat + bytes.length)).drop a.toNat) = (bytes, .ok ()) := by
        unfold copyFromSlice
        rw [if_pos (by simp; omega)]
      rw [this]
    rw [SO.bind_ok hs]
    refine Prod.ext ?_ rfl
    change _ ++ _ ++ _ = _
    rw [Option.getD_some]
    apply List.ext_getElem
    · simp; omega
    · intro i h1 h2
      simp only [List.length_map, List.length_range] at h2
      simp only [List.getElem_map, List.getElem_range]
      rw [List.getElem_append]
      split
      · rename_i h3
        simp only [List.length_append, List.length_take] at h3
        rw [List.getElem_append]
        split
        · rename_i h4
          simp only [List.length_take] at h4
          rw [if_neg (by omega), List.getElem_take, List.getD_eq_getElem?_getD, List.getElem?_eq_getElem h2]
          rfl
        · rename_i h4
          simp only [List.length_take] at h4
          rw [if_pos (by omega), List.getD_eq_getElem?_getD, List.getElem?_eq_getElem (by omega)]
          simp only [List.length_take, Option.getD_some]
          congr 1
          omega
      · rename_i h3
        simp only [List.length_append, List.length_take] at h3
        rw [if_neg (by omega), List.getD_eq_getElem?_getD, List.getElem?_eq_getElem h2]
        simp only [List.getElem_drop, List.length_append, List.length_take, Option.getD_some]
        congr 1
        omega
  · rw [if_pos (by omega), if_neg h]
    rfl

/-! ## One instruction -/

/-- The abstract motor that a simulated one stands for. -/
def servo (d : MockDevice) : Servo := ⟨d.controlTable, d.actionRegister⟩

/-- The first instruction that arrives at the simulated motor in the 10 ms it waits, after status packets and garbage, is
this one, for this ID. -/
def Receives (d : MockDevice) (to : Byte) (body : List Byte) : Prop :=
  ∃ statuses i rest, Statuses d.device.readBuffer.length statuses ∧ i.Ok d.device.readBuffer.length ∧ i.id = to ∧
    i.instr :: i.params = body ∧
    stream (d.device.serialPort.now + 10000000) d.device = itemBytes (statuses ++ [i]) ++ rest

/-- The calls only read. -/
def ReadCalls (calls : List Call) : Prop := ∀ call ∈ calls, ∃ cap D, call = .read cap D

/-- Between the two states the motor only listened. -/
def Listened (d d' : MockDevice) : Prop :=
  ∃ reads, ReadCalls reads ∧ d'.device.serialPort.log = d.device.serialPort.log ++ reads

/-- Between the two states the motor listened and then sent one status packet, with its own ID and this answer. -/
def Answers (d d' : MockDevice) (r : ServoReply) : Prop :=
  ∃ reads wire, ReadCalls reads ∧ StuffedForm (0x55#8 :: r.error :: r.data) wire ∧
    d'.device.serialPort.log = d.device.serialPort.log ++ reads ++ [.discard true, .write (frame d.id wire) true]

theorem attempt_ok {σ ε ε' α : Type} {m : SO σ ε α} {s s' : σ} {a : α} (h : m s = (s', .ok a)) :
    (m.attempt : SO σ ε' (Except ε α)) s = (s', .ok (.ok a)) := by
  unfold SO.attempt
  rw [h]

theorem onDevice_apply {ε α : Type} {m : SO Bus ε α} {d : MockDevice} {c : Bus} {o : Outcome ε α} (h : m d.device = (c, o)) :
    MockDevice.onDevice m d = ({ d with device := c }, o) := by
  unfold MockDevice.onDevice
  rw [SO.zoom_apply, h]

theorem assertOk_ok {σ ε ε' : Type} {m : SO σ ε Unit} {s s' : σ} (h : m s = (s', .ok ())) :
    (MockDevice.assertOk m : SO σ ε' Unit) s = (s', .ok ()) := by
  unfold MockDevice.assertOk
  rw [SO.bind_ok (attempt_ok h)]
  rfl

/-- Sending a status packet. -/
theorem mock_send {ε : Type} {d : MockDevice} {e : Byte} {n : Nat} {enc : Encoder} {params : List Byte} (hd : d.device.Inv)
    (he : Fills enc.run n params) (hp : d.device.serialPort.SendOk) (hroom : Room d.device (n + 1)) :
    ∃ c wire, (MockDevice.assertOk (MockDevice.onDevice (Device.writeStatus d.id e n enc)) : SO MockDevice ε Unit) d =
        ({ d with device := c }, .ok ()) ∧
      StuffedForm (0x55#8 :: e :: params) wire ∧ Sent d.device c (frame d.id wire) ∧ Step d.device c := by
  obtain ⟨c, wire, h1, h2, h3⟩ := c51_sent (id := d.id) (e := e) hd.wInv he hp hroom
  refine ⟨c, wire, assertOk_ok (onDevice_apply h1), h2, h3, ?_⟩
  have := Bus.writeStatus_sound d.id e n enc d.device hd
  unfold Device.writeStatus at h1
  rw [h1] at this
  exact this

theorem pingEncoder_fills : Fills MockDevice.pingEncoder.run 3 [10#8, 20#8, 46#8] := by
  intro s hs
  match s, hs with
  | [a, b, c], _ => rfl

/-- What the motor does with an instruction that it has received. -/
theorem mock_handle {ε : Type} {d : MockDevice} (fuel : Nat) {r : Request} {s' : Servo} {reply : ServoReply} (hd : d.device.Inv)
    (hp : d.device.serialPort.SendOk) (hs : (servo d).serve r = some (s', reply)) (hroom : Room d.device (reply.data.length + 1)) :
    ∃ d' wire, (MockDevice.handle fuel (decoded r) : SO MockDevice ε Unit) d = (d', .ok ()) ∧ d'.id = d.id ∧ servo d' = s' ∧
      StuffedForm (0x55#8 :: reply.error :: reply.data) wire ∧ Sent d.device d'.device (frame d.id wire) ∧
      Step d.device d'.device := by
  have put : ∀ (d : MockDevice) (a : U16) (bytes : List Byte) (s' : Servo) (reply : ServoReply), d.device.Inv →
      d.device.serialPort.SendOk → (servo d).put a bytes = (s', reply) → Room d.device (reply.data.length + 1) →
      ∃ d' wire, (MockDevice.writeAndAnswer a bytes : SO MockDevice ε Unit) d = (d', .ok ()) ∧ d'.id = d.id ∧ servo d' = s' ∧
        StuffedForm (0x55#8 :: reply.error :: reply.data) wire ∧ Sent d.device d'.device (frame d.id wire) ∧
        Step d.device d'.device := by
    intro d a bytes s' reply hd hp hs hroom
    have ht : (MockDevice.onTable (ControlTable.write a bytes) : SO MockDevice ε Bool) d =
        ({ d with controlTable := (store d.controlTable a.toNat bytes).getD d.controlTable },
          .ok (store d.controlTable a.toNat bytes).isSome) := by
      unfold MockDevice.onTable
      rw [SO.zoom_apply, controlTable_write]
    unfold MockDevice.writeAndAnswer
    rw [SO.get_bind, SO.bind_ok ht]
    unfold Servo.put at hs
    cases hst : store d.controlTable a.toNat bytes with
    | some m =>
      simp only [Option.isSome_some, if_true, Option.getD_some]
      rw [show (servo d).memory = d.controlTable from rfl, hst] at hs
      obtain ⟨rfl, rfl⟩ := Prod.mk.inj hs
      obtain ⟨c, wire, h1, h2, h3, h4⟩ := mock_send (ε := ε) (d := { d with controlTable := m }) (e := 0#8) hd Client.nothing_fills hp hroom
      exact ⟨_, wire, h1, rfl, rfl, h2, h3, h4⟩
    | none =>
      simp only [Option.isSome_none, Bool.false_eq_true, if_false, Option.getD_none]
      rw [show (servo d).memory = d.controlTable from rfl, hst] at hs
      obtain ⟨rfl, rfl⟩ := Prod.mk.inj hs
      obtain ⟨c, wire, h1, h2, h3, h4⟩ := mock_send (ε := ε) (d := d) (e := 7#8) hd Client.nothing_fills hp hroom
      exact ⟨_, wire, h1, rfl, rfl, h2, h3, h4⟩
  cases r with
  | ping =>
    rw [show decoded .ping = .ping from rfl, MockDevice.handle, SO.get_bind]
    obtain ⟨rfl, rfl⟩ := Prod.mk.inj (Option.some.inj hs)
    obtain ⟨c, wire, h1, h2, h3, h4⟩ := mock_send (ε := ε) (d := d) (e := 0#8) hd pingEncoder_fills hp hroom
    exact ⟨_, wire, h1, rfl, rfl, h2, h3, h4⟩
  | read a n =>
    rw [show decoded (.read a n) = .read a n from rfl, MockDevice.handle]
    unfold MockDevice.reply
    rw [SO.get_bind, controlTable_read, SO.lift_ok_bind]
    obtain ⟨rfl, hg⟩ := Prod.mk.inj (Option.some.inj hs)
    clear hs
    change (match load d.controlTable a.toNat n.toNat with
      | some data => (⟨0#8, data⟩ : ServoReply)
      | none => Servo.outside) = _ at hg
    cases hl : load d.controlTable a.toNat n.toNat with
    | some data =>
      rw [hl] at hg
      subst hg
      have hlen : data.length = n.toNat := by
        unfold load at hl
        split at hl
        · cases hl; simp
        · cases hl
      have hf : Fills (MockDevice.dataEncoder data).run n.toNat data := hlen ▸ fills_copyFromSlice data
      obtain ⟨c, wire, h1, h2, h3, h4⟩ := mock_send (ε := ε) (d := d) (e := 0#8) hd hf hp (hlen ▸ hroom)
      exact ⟨_, wire, h1, rfl, rfl, h2, h3, h4⟩
    | none =>
      rw [hl] at hg
      subst hg
      obtain ⟨c, wire, h1, h2, h3, h4⟩ := mock_send (ε := ε) (d := d) (e := 7#8) hd Client.nothing_fills hp hroom
      exact ⟨_, wire, h1, rfl, rfl, h2, h3, h4⟩
  | write a data =>
    rw [show decoded (.write a data) = .write a data from rfl, MockDevice.handle]
    exact put d a data s' reply hd hp (Option.some.inj hs) hroom
  | regWrite a data =>
    rw [show decoded (.regWrite a data) = .regWrite a data from rfl, MockDevice.handle, SO.modify_bind, SO.get_bind]
    obtain ⟨rfl, rfl⟩ := Prod.mk.inj (Option.some.inj hs)
    obtain ⟨c, wire, h1, h2, h3, h4⟩ := mock_send (ε := ε) (d := { d with actionRegister := some (a, data) }) (e := 0#8) hd
      Client.nothing_fills hp hroom
    exact ⟨_, wire, h1, rfl, rfl, h2, h3, h4⟩
  | action =>
    rw [show decoded .action = .action from rfl, MockDevice.handle, SO.get_bind]
    change (match d.actionRegister with
      | some (address, data) => some (Servo.put { servo d with registered := none } address data)
      | none => some (servo d, Servo.outside)) = _ at hs
    rcases hr : d.actionRegister with _ | ⟨a, data⟩
    · rw [hr] at hs
      obtain ⟨rfl, rfl⟩ := Prod.mk.inj (Option.some.inj hs)
      obtain ⟨c, wire, h1, h2, h3, h4⟩ := mock_send (ε := ε) (d := d) (e := 7#8) hd Client.nothing_fills hp hroom
      exact ⟨_, wire, h1, rfl, rfl, h2, h3, h4⟩
    · rw [hr] at hs
      obtain ⟨d', wire, h1, h2, h3, h4, h5, h6⟩ :=
        put { d with actionRegister := none } a data s' reply hd hp (Option.some.inj hs) hroom
      exact ⟨d', wire, h1, h2, h3, h4, h5, h6⟩
  | _ => cases hs

/-- Receiving an instruction. -/
theorem mock_receive {ε : Type} {d : MockDevice} (fuel : Nat) {to : Byte} {r : Request} (hd : d.device.Inv)
    (hr : Receives d to r.body) :
    ∃ c, ReadsOnly d.device c ∧ Step d.device c ∧ (MockDevice.step fuel : SO MockDevice ε Unit) d =
      (if to ≠ d.id ∧ to ≠ 254#8 then pure () else MockDevice.handle fuel (decoded r) : SO MockDevice ε Unit)
        { d with device := c } := by
  obtain ⟨statuses, i, rest, h1, h2, rfl, h3, h4⟩ := hr
  obtain ⟨hi, hps⟩ := List.cons.inj h3
  obtain ⟨c, h5, h6, h7⟩ := deviceRead_first hd.rInv h1 h2 (by rw [hi]; exact request_number_ne r) h4
  rw [hi, hps, parseInstruction_request] at h5
  refine ⟨c, ?_, ?_, ?_⟩
  · have := Device.read_just 10000000 d.device
    rw [h5] at this
    exact this
  · have := Device.read_sound 10000000 d.device hd
    rw [h5] at this
    exact this
  · change Device.read MockDevice.timeout _ = _ at h5
    unfold MockDevice.step
    rw [SO.bind_ok (attempt_ok (onDevice_apply h5))]
    rfl

/-- **C52** (partial: the English claim has no hypothesis on the size of the buffer) The simulated motor does what the
memory does, for every instruction for its ID (or for all motors): it answers once, with the answer of the memory. -/
theorem c52_serves_partial {ε : Type} {d : MockDevice} (fuel : Nat) {to : Byte} {r : Request} {s' : Servo} {reply : ServoReply}
    (hd : d.device.Inv) (hp : d.device.serialPort.SendOk) (hto : to = d.id ∨ to = 254#8) (hr : Receives d to r.body)
    (hs : (servo d).serve r = some (s', reply)) (hroom : Room d.device (reply.data.length + 1)) :
    ∃ d', (MockDevice.step fuel : SO MockDevice ε Unit) d = (d', .ok ()) ∧ d'.id = d.id ∧ servo d' = s' ∧ Answers d d' reply ∧
      Step d.device d'.device := by
  obtain ⟨c, h1, h2, h3⟩ := mock_receive (ε := ε) fuel hd hr
  rw [if_neg (fun h => hto.elim h.1 h.2)] at h3
  obtain ⟨d', wire, h4, h5, h6, h7, h8, h9⟩ := mock_handle (ε := ε) (d := { d with device := c }) fuel h2.inv (h1.sendOk hp) hs
    (by unfold Room; rw [h2.writeSize]; exact hroom)
  refine ⟨d', h3.trans h4, h5, h6, ?_, h2.trans h9⟩
  obtain ⟨reads, h10, h11⟩ := h1.calls
  refine ⟨reads, wire, h11, h7, ?_⟩
  unfold Sent at h8
  rw [h8, ← h10]

/-- **C52** Instructions for other motors change nothing, and are not answered. -/
theorem c52_ignores_others {ε : Type} {d : MockDevice} (fuel : Nat) {to : Byte} {r : Request} (hd : d.device.Inv)
    (hto : to ≠ d.id) (hb : to ≠ 254#8) (hr : Receives d to r.body) :
    ∃ d', (MockDevice.step fuel : SO MockDevice ε Unit) d = (d', .ok ()) ∧ d'.id = d.id ∧ servo d' = servo d ∧ Listened d d' ∧
      Step d.device d'.device := by
  obtain ⟨c, h1, h2, h3⟩ := mock_receive (ε := ε) fuel hd hr
  rw [if_pos ⟨hto, hb⟩] at h3
  obtain ⟨reads, h10, h11⟩ := h1.calls
  exact ⟨_, h3, rfl, rfl, ⟨reads, h11, h10⟩, h2⟩

/-- Without an instruction, the device reports the end of the input. -/
theorem deviceRead_end {timeout : Nat} {b : Bus} (hb : b.RInv) (hN : 10 ≤ b.readBuffer.length) {statuses : List Item}
    (hst : Statuses b.readBuffer.length statuses) {trailing : List Byte} (ht : ¬ header <:+: trailing)
    (hs : stream (b.serialPort.now + timeout) b = itemBytes statuses ++ trailing) :
    ∃ c, Device.read timeout b = (c, .err (.io (readEnd (b.serialPort.now + timeout) b.serialPort))) := by
  have key : ∀ (fuel : Nat) (D : Nat) (b : Bus) (statuses : List Item), b.work < fuel → b.RInv → 10 ≤ b.readBuffer.length →
      Statuses b.readBuffer.length statuses → stream D b = itemBytes statuses ++ trailing →
      ∃ c, Device.readRawLoop D fuel b = (c, .err (.io (readEnd D b.serialPort))) := by
    intro fuel
    induction fuel with
    | zero => intro D b _ h; omega
    | succ fuel ih =>
      intro D b statuses hf hb hN hst hs
      obtain ⟨c, o, h, hlike, hrinv, -, hm⟩ := Bus.readPacketDeadline_stream D hb hN
      match statuses with
      | [] =>
        simp only [itemBytes, List.flatMap_nil, List.nil_append] at hs
        rw [stream] at hs
        rw [hs, parse_garbage ht] at hm
        obtain ⟨rfl, -⟩ := hm
        exact ⟨c, (readRawLoop_succ h).2.2.1 _ rfl⟩
      | i :: items =>
        have hi := (hst i (by simp)).1
        have hs' : stream D b = i.garbage ++ frame i.id i.wire ++ (itemBytes items ++ trailing) := by
          rw [hs]; simp [itemBytes]
        obtain ⟨pkt, rfl, hp, hr⟩ := c14_packet_after_garbage hb hi.garbage hi.length hi.fits hi.body hs' h
        rw [(hst i (by simp)).2] at hp
        have hend : readEnd D c.serialPort = readEnd D b.serialPort := by
          rw [stream] at hs'
          rw [hs', List.append_assoc, parse_good_frame i.id hi.garbage hi.length hi.fits] at hm
          exact hm.2.2.1
        have hw := read_ok_work hb h
        rw [(readRawLoop_succ h).1 _ _ _ rfl hp, ← hend]
        exact ih D c items (by omega) hrinv (by rw [hlike.readSize]; exact hN)
          (fun j hj => by rw [hlike.readSize]; exact hst j (by simp [hj])) hr
  obtain ⟨c, hc⟩ := key _ _ b statuses (work_fuel hb) hb hN hst hs
  exact ⟨c, by unfold Device.read; rw [SO.bind_err (by rw [readRaw_eq]; exact hc)]⟩

/-- **C52** If no instruction arrives, nothing happens; unless the port fails, which ends the simulation with a panic. -/
theorem c52_waits {ε : Type} {d : MockDevice} (fuel : Nat) (hd : d.device.Inv) (hN : 10 ≤ d.device.readBuffer.length)
    {statuses : List Item} (hst : Statuses d.device.readBuffer.length statuses) {trailing : List Byte}
    (ht : ¬ header <:+: trailing)
    (hs : stream (d.device.serialPort.now + 10000000) d.device = itemBytes statuses ++ trailing) :
    ∃ d', ((MockDevice.step fuel : SO MockDevice ε Unit) d).1 = d' ∧ d'.id = d.id ∧ servo d' = servo d ∧ Listened d d' ∧
      Step d.device d'.device ∧ ((MockDevice.step fuel : SO MockDevice ε Unit) d).2 =
        if readEnd (d.device.serialPort.now + 10000000) d.device.serialPort = .timedOut then .ok () else .panic := by
  obtain ⟨c, h⟩ := deviceRead_end hd.rInv hN hst ht hs
  have h1 := Device.read_just 10000000 d.device
  have h2 := Device.read_sound 10000000 d.device hd
  rw [h] at h1 h2
  change Device.read MockDevice.timeout _ = _ at h
  have h3 : ∀ e : IoErr, (e.isTimeout = true ↔ e = .timedOut) := by
    intro e
    cases e <;> simp [IoErr.isTimeout]
  have h4 : (MockDevice.step fuel : SO MockDevice ε Unit) d = ({ d with device := c },
      if readEnd (d.device.serialPort.now + 10000000) d.device.serialPort = .timedOut then .ok () else .panic) := by
    unfold MockDevice.step
    have : ((MockDevice.onDevice (Device.read MockDevice.timeout)).attempt : SO MockDevice ε _) d = ({ d with device := c },
        .ok (.error (.io (readEnd (d.device.serialPort.now + 10000000) d.device.serialPort)))) := by
      unfold SO.attempt
      rw [onDevice_apply h]
    rw [SO.bind_ok this]
    dsimp only
    simp only [h3]
    split <;> rfl
  rw [h4]
  obtain ⟨reads, h10, h11⟩ := h1.calls
  exact ⟨_, rfl, rfl, rfl, ⟨reads, h11, h10⟩, h2, rfl⟩

/-- C52 in full: a simulated motor with the default buffers and the control table of `MockDevice::new`, in any state, does
what the memory does with every instruction for it. -/
def C52_statement : Prop :=
  ∀ (d : MockDevice) (fuel : Nat) (r : Request) (s' : Servo) (reply : ServoReply), DefaultBus d.device →
    d.controlTable.length = 200 → d.device.serialPort.SendOk → Receives d d.id r.body → (servo d).serve r = some (s', reply) →
    ∃ d', (MockDevice.step fuel : SO MockDevice Empty Unit) d = (d', .ok ()) ∧ d'.id = d.id ∧ servo d' = s' ∧ Answers d d' reply

theorem writeStatus_too_small {b : Bus} {id e : Byte} {n : Nat} {enc : Encoder} (h : b.writeBuffer.length < n + 11) :
    Device.writeStatus id e n enc b = (b, .err (.bufferTooSmall ⟨n + 11, b.writeBuffer.length⟩)) := by
  unfold Device.writeStatus Bus.writeStatus
  rw [SO.get_bind]
  have : BufferTooSmall.check (StatusPacket.messageLen n) b.writeBuffer.length = .err ⟨n + 11, b.writeBuffer.length⟩ := by
    unfold BufferTooSmall.check StatusPacket.messageLen
    rw [if_neg (by simp only [headerSize]; omega)]
    simp only [headerSize, Outcome.err.injEq, BufferTooSmall.mk.injEq, and_true]
    omega
  rw [this]
  rfl

theorem load_length {m : List Byte} {a n : Nat} {data : List Byte} (h : load m a n = some data) : data.length = n := by
  unfold load at h
  split at h
  · cases h; simp
  · cases h

/-- **C52** Reading more from the simulated motor than fits a packet in its write buffer, although it is in its control
table, ends the simulation with a panic, without an answer. -/
theorem c52_big_read_panics {ε : Type} {d : MockDevice} (fuel : Nat) {a n : U16} {data : List Byte} (hd : d.device.Inv)
    (hr : Receives d d.id (Request.read a n).body) (hl : load d.controlTable a.toNat n.toNat = some data)
    (hbig : d.device.writeBuffer.length < n.toNat + 11) :
    ((MockDevice.step fuel : SO MockDevice ε Unit) d).2 = .panic ∧
      Listened d ((MockDevice.step fuel : SO MockDevice ε Unit) d).1 := by
  obtain ⟨c, h1, h2, h3⟩ := mock_receive (ε := ε) fuel hd hr
  rw [if_neg (fun h => h.1 rfl), show decoded (.read a n) = .read a n from rfl, MockDevice.handle, MockDevice.reply, SO.get_bind,
    controlTable_read, SO.lift_ok_bind] at h3
  dsimp only at h3
  rw [hl] at h3
  have h4 : (MockDevice.onDevice (Device.writeStatus d.id 0#8 n.toNat (MockDevice.dataEncoder data))) { d with device := c } =
      ({ d with device := c }, .err (.bufferTooSmall ⟨n.toNat + 11, c.writeBuffer.length⟩)) :=
    onDevice_apply (d := { d with device := c }) (writeStatus_too_small (by rw [h2.writeSize]; exact hbig))
  have h5 : (MockDevice.step fuel : SO MockDevice ε Unit) d = ({ d with device := c }, .panic) := by
    rw [h3]
    dsimp only
    unfold MockDevice.assertOk
    have : ((MockDevice.onDevice (Device.writeStatus d.id 0#8 n.toNat (MockDevice.dataEncoder data))).attempt :
        SO MockDevice ε _) { d with device := c } =
        ({ d with device := c }, .ok (.error (.bufferTooSmall ⟨n.toNat + 11, c.writeBuffer.length⟩))) := by
      unfold SO.attempt
      rw [h4]
    rw [SO.bind_ok this]
    rfl
  rw [h5]
  obtain ⟨reads, h10, h11⟩ := h1.calls
  exact ⟨rfl, reads, h11, h10⟩

/-- **C52** Factory reset, reboot and clear are not implemented by the simulated motor: they end the simulation. -/
theorem c52_unimplemented_panics {ε : Type} {d : MockDevice} (fuel : Nat) {to : Byte} {r : Request} (hd : d.device.Inv)
    (hto : to = d.id ∨ to = 254#8)
    (h : r = .reboot ∨ r = .clearRevolutionCount ∨ r = .clearError ∨ ∃ kind, r = .factoryReset kind) (hr : Receives d to r.body) :
    ((MockDevice.step fuel : SO MockDevice ε Unit) d).2 = .panic ∧
      Listened d ((MockDevice.step fuel : SO MockDevice ε Unit) d).1 := by
  obtain ⟨c, h1, h2, h3⟩ := mock_receive (ε := ε) fuel hd hr
  rw [if_neg (fun h => hto.elim h.1 h.2)] at h3
  have h5 : (MockDevice.step fuel : SO MockDevice ε Unit) d = ({ d with device := c }, .panic) := by
    rw [h3]
    rcases h with rfl | rfl | rfl | ⟨kind, rfl⟩
    · rfl
    · rfl
    · rfl
    · cases kind <;> rfl
  rw [h5]
  obtain ⟨reads, h10, h11⟩ := h1.calls
  exact ⟨rfl, reads, h11, h10⟩

/-- A simulated motor with ID 1 and the default buffers, on a port where these bytes are waiting. -/
def mockWith (bytes : List Byte) : MockDevice :=
  .new 1#8 { serialPort := { quietPort with rx := [.data 0 bytes] }, baudRate := 57600, readBuffer := List.replicate 128 0#8,
             readLen := 0, usedBytes := 0, writeBuffer := headerPrefix ++ List.replicate 124 0#8, debug := true }

set_option maxRecDepth 10000 in
theorem mockWith_default (bytes : List Byte) : DefaultBus (mockWith bytes).device :=
  ⟨true, { quietPort with rx := [.data 0 bytes] }, _, [], rfl, .inr (.inl (by
    unfold Device.new Bus.withBuffers
    rfl))⟩

theorem mockWith_receives {id instr : Byte} {params : List Byte} (hl : params.length ≤ 100)
    (hu : Unstuffs (instr :: params) (instr :: params)) : Receives (mockWith (frame id (instr :: params))) id (instr :: params) := by
  refine ⟨[], ⟨[], id, instr :: params, instr, params⟩, [], by simp [Statuses], ⟨(by decide : ¬ header <:+: []), ?_, ?_, hu⟩, rfl, rfl, ?_⟩
  · simp only [List.length_cons]; omega
  · rw [Bus.frame_length]
    simp [mockWith, MockDevice.new]
    omega
  · simp [mockWith, MockDevice.new, stream, Bus.pending, readable, quietPort, arriving, itemBytes]

/-- **C52** is false as stated: the control table has 200 bytes, but only 117 can be read. -/
theorem c52_refuted : ¬ C52_statement := by
  intro h
  have hr : Receives (mockWith (frame 1#8 (Request.read 0#16 118#16).body)) 1#8 (Request.read 0#16 118#16).body :=
    mockWith_receives (by decide) (by rw [unstuffs_iff]; decide +kernel)
  obtain ⟨-, -, i1, i2⟩ := defaultBus_sizes (mockWith_default (frame 1#8 (Request.read 0#16 118#16).body))
  have hp := c52_big_read_panics (ε := Empty) 0 (a := 0#16) (n := 118#16) (data := List.replicate 118 0#8) ⟨i1, i2⟩ hr
    (by decide +kernel) (by decide +kernel)
  obtain ⟨d', h1, -⟩ := h (mockWith (frame 1#8 (Request.read 0#16 118#16).body)) 0 (.read 0#16 118#16) ⟨List.replicate 200 0#8, none⟩
    ⟨0#8, List.replicate 118 0#8⟩ (mockWith_default _) (by decide +kernel) ⟨by simp [mockWith, MockDevice.new, quietPort], by simp [mockWith, MockDevice.new, quietPort]⟩ hr
    (by decide +kernel)
  rw [h1] at hp
  cases hp.1

/-- The motor after a write with stuffed data in the middle of garbage. -/
def afterWrite : MockDevice := ((MockDevice.step 0 : SO MockDevice Empty Unit) (mockWith (sampleGarbage ++
  frame 1#8 (codeStuff (Request.write 3#16 [0xFF#8, 0xFF#8, 0xFD#8]).body)))).1

/-- Another packet arrives at the motor. -/
def thenReceives (d : MockDevice) (body : List Byte) : MockDevice :=
  ((MockDevice.step 0 : SO MockDevice Empty Unit) { d with device := { d.device with serialPort :=
    { d.device.serialPort with rx := [.data 0 (frame 1#8 body)], log := [] } } }).1

set_option maxRecDepth 10000 in
/-- C52: a write, a read of what was written and its surroundings, an access outside, a registered write and its action, and
an action without a registered write. -/
example : afterWrite.device.serialPort.log.getLast? = some (.write (frame 1#8 [0x55#8, 0#8]) true) ∧
    (thenReceives afterWrite (Request.read 2#16 5#16).body).device.serialPort.log.getLast? =
      some (.write (frame 1#8 [0x55#8, 0#8, 0#8, 0xFF#8, 0xFF#8, 0xFD#8, 0xFD#8, 0#8]) true) ∧
    (thenReceives afterWrite (Request.write 199#16 [1#8, 2#8]).body).device.serialPort.log.getLast? =
      some (.write (frame 1#8 [0x55#8, 7#8]) true) ∧
    (thenReceives (thenReceives afterWrite (Request.regWrite 0#16 [9#8, 8#8]).body) Request.action.body).controlTable.take 6 =
      [9#8, 8#8, 0#8, 0xFF#8, 0xFF#8, 0xFD#8] ∧
    (thenReceives afterWrite Request.action.body).device.serialPort.log.getLast? =
      some (.write (frame 1#8 [0x55#8, 7#8]) true) := by
  decide +kernel

/-! ## The theorems on these cases -/

theorem mockWith_inv (bytes : List Byte) : (mockWith bytes).device.Inv := by
  refine ⟨⟨Nat.le_refl _, Nat.zero_le _⟩, ⟨?_, ?_⟩⟩ <;> simp [mockWith, MockDevice.new, headerPrefix]

theorem mockWith_sendOk (bytes : List Byte) : (mockWith bytes).device.serialPort.SendOk :=
  ⟨fun _ h => (nomatch h), fun _ _ h => (nomatch h)⟩

example := c52_serves_partial (ε := Empty) 0 (d := mockWith (frame 1#8 (Request.write 3#16 [7#8, 8#8]).body)) (to := 1#8)
  (r := .write 3#16 [7#8, 8#8]) (mockWith_inv _) (mockWith_sendOk _) (.inl rfl)
  (mockWith_receives (by decide) ((unstuffs_iff _ _).2 (by decide +kernel)))
  (s' := ⟨[0#8, 0#8, 0#8, 7#8, 8#8] ++ List.replicate 195 0#8, none⟩) (reply := ⟨0#8, []⟩) (by decide +kernel) (by unfold Room; decide +kernel)
example := c52_ignores_others (ε := Empty) 0 (d := mockWith (frame 2#8 (Request.write 3#16 [7#8, 8#8]).body)) (to := 2#8)
  (r := .write 3#16 [7#8, 8#8]) (mockWith_inv _) (by decide) (by decide)
  (mockWith_receives (by decide) ((unstuffs_iff _ _).2 (by decide +kernel)))
example := c52_waits (ε := Empty) 0 (d := mockWith (itemBytes heardStatuses ++ sampleGarbage)) (mockWith_inv _) (by decide +kernel)
  (statuses := heardStatuses)
  (by
    intro i hi
    obtain rfl := List.mem_singleton.mp hi
    exact ⟨⟨by decide +kernel, by decide, by decide +kernel, sampleBody⟩, rfl⟩)
  (trailing := sampleGarbage) (by decide +kernel) (by decide +kernel)
example := c52_big_read_panics (ε := Empty) 0 (d := mockWith (frame 1#8 (Request.read 0#16 118#16).body)) (a := 0#16) (n := 118#16) (mockWith_inv _)
  (mockWith_receives (by decide) ((unstuffs_iff _ _).2 (by decide +kernel))) (data := List.replicate 118 0#8) (by decide +kernel) (by decide +kernel)
example := c52_unimplemented_panics (ε := Empty) 0 (d := mockWith (frame 1#8 Request.reboot.body)) (to := 1#8) (mockWith_inv _) (.inl rfl) (.inl rfl)
  (mockWith_receives (by decide) ((unstuffs_iff _ _).2 (by decide +kernel)))

end Dxl.Props
