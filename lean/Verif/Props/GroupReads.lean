import Verif.Props.Iterators
import Verif.Props.Status
import Verif.Props.DataTypes
import Verif.Lemmas.History
import Verif.Props.Session

/-! # C59: one read instruction, the answers of many devices -/

namespace Dxl.Props
open Dxl Spec

/-- An answer of a device to a group read: `device` is its bus before, and `device'` after sending; `packet` is what it put
on the line, and `garbage` what the client receives before it. -/
structure DeviceAnswer (α : Type) where
  id : Byte
  error : Byte
  value : α
  params : List Byte
  device : Bus
  device' : Bus
  garbage : List Byte
  packet : List Byte

namespace DeviceAnswer

/-- The device sends the answer with `write_status`, and it fits a read buffer of `size` bytes. -/
structure IsSent {α : Type} (size : Nat) (a : DeviceAnswer α) : Prop where
  inv : a.device.WInv
  write : ∃ n enc, Fills enc.run n a.params ∧ Device.writeStatus a.id a.error n enc a.device = (a.device', .ok ())
  sent : Sent a.device a.device' a.packet
  garbage : ¬ header <:+: a.garbage
  length : a.packet.length ≤ 65542
  fits : a.packet.length ≤ size
  body : Survives (0x55#8 :: a.error :: a.params)

/-- What the client makes of it: the error of the motor, or the value, with the alert. -/
def item {α : Type} (a : DeviceAnswer α) : Except ReadError (Response α) :=
  if a.error.toNat % 128 ≠ 0 then .error (.motorError ⟨a.error⟩) else .ok ⟨a.id, decide (128 ≤ a.error.toNat), a.value⟩

theorem IsSent.reply {α : Type} {size : Nat} {a : DeviceAnswer α} (h : a.IsSent size) :
    ∃ r : Reply, r.Ok size ∧ r.bytes = a.garbage ++ a.packet ∧ r.id = a.id ∧ r.error = a.error ∧ r.params = a.params := by
  obtain ⟨n, enc, he, hw⟩ := h.write
  obtain ⟨params₁, wire, ⟨old, hold, hrun⟩, hform, hsent⟩ := c08_status_layout h.inv hw
  rw [he old hold] at hrun
  simp only [Prod.mk.injEq, and_true] at hrun
  subst hrun
  have hf : a.packet = frame a.id wire := by
    have hs := h.sent
    unfold Sent at hs hsent
    rw [hs] at hsent
    simpa using hsent
  have hl := Bus.frame_length a.id wire
  have h1 := h.length
  rw [hf] at h1
  refine ⟨⟨a.garbage, a.id, wire, a.error, a.params⟩, ⟨h.garbage, by dsimp only; omega, ?_, survives_unstuffs hform h.body⟩,
    by rw [hf]; rfl, rfl, rfl, rfl⟩
  have := h.fits
  rw [hf] at this
  exact this

end DeviceAnswer

/-- The answers as rounds of an exchange. -/
theorem answers_rounds {α : Type} {size : Nat} {count : DeviceAnswer α → Nat} {answers : List (DeviceAnswer α)}
    (hs : ∀ a ∈ answers, a.IsSent size) : ∃ rounds : List Round, rounds.map (·.1) = answers.map (fun a => (a.id, count a)) ∧
      (∀ r ∈ rounds, r.2.Ok size) ∧ (∀ wait : Nat → Nat, rounds.map (fun r => (wait r.1.2, r.2.bytes)) =
        answers.map (fun a => (wait (count a), a.garbage ++ a.packet))) ∧
      Pairwise₂ (fun (r : Round) a => r.1 = (a.id, count a) ∧ r.2.id = a.id ∧ r.2.error = a.error ∧ r.2.params = a.params)
        rounds answers := by
  induction answers with
  | nil => exact ⟨[], rfl, by simp, fun _ => rfl, .nil⟩
  | cons a l ih =>
    obtain ⟨rounds, h1, h2, h3, h4⟩ := ih fun a ha => hs a (by simp [ha])
    obtain ⟨r, k1, k2, k3, k4, k5⟩ := (hs a (by simp)).reply
    refine ⟨((a.id, count a), r) :: rounds, by simp [h1], ?_, fun wait => by simp [h3 wait, k2], .cons ⟨rfl, k3, k4, k5⟩ h4⟩
    intro x hx
    rcases List.mem_cons.mp hx with rfl | hx
    · exact k1
    · exact h2 x hx

/-- An iterator over answers of devices returns them all, and then `None`. -/
theorem answers_delivered {σ α : Type} {next : SO σ ReadError (Option (Except ReadError (Response α)))} {client : σ → Bus}
    {todo : σ → List (Byte × Nat)} {Value : α → List Byte → Prop} (h : IsIterator next client todo Value)
    {answers : List (DeviceAnswer α)} {count : DeviceAnswer α → Nat} {s : σ}
    (ht : todo s = answers.map fun a => (a.id, count a)) (hr : (client s).RInv) (hb : (client s).baudRate < 2 ^ 32)
    (h0 : (client s).baudRate ≠ 0) (hs : ∀ a ∈ answers, a.IsSent (client s).readBuffer.length)
    (hv : ∀ a ∈ answers, a.error.toNat % 128 = 0 → a.params.length = count a ∧ ∀ v, Value v a.params → v = a.value)
    (hon : OnTime (client s) [] (answers.map fun a => (responseWait (client s).baudRate (count a), a.garbage ++ a.packet))) :
    ∃ s', callTimes next (answers.length + 1) s = (s', .ok (answers.map (fun a => some a.item) ++ [none])) := by
  obtain ⟨rounds, h1, h2, h3, h4⟩ := answers_rounds (count := count) hs
  obtain ⟨s', xs, k1, k2, k3, -, -⟩ := h.delivers rounds [] s (by rw [ht, h1, List.append_nil]) hr hb h0 h2
    (by rw [h3 (responseWait (client s).baudRate)]; exact hon)
  have hlen : rounds.length = answers.length := by
    have := congrArg List.length h1
    simpa using this
  have hxs : xs = answers.map DeviceAnswer.item := by
    clear h1 h2 h3 k1 k2 hlen hon ht hs
    induction h4 generalizing xs with
    | nil => cases k3; rfl
    | @cons r a rs as hm _ ih =>
      cases k3 with
      | @cons _ x _ ys hj hjs =>
        rw [List.map_cons, ih (fun a ha => hv a (by simp [ha])) _ hjs]
        congr 1
        obtain ⟨e1, e2, e3, e4⟩ := hm
        rw [e1, e2, e3, e4] at hj
        unfold Judged at hj
        unfold DeviceAnswer.item
        by_cases he : a.error.toNat % 128 = 0
        · obtain ⟨l1, l2⟩ := hv a (by simp) he
          rw [if_neg (by simpa using he), if_neg (by simp), if_neg (by simpa using l1)] at hj
          obtain ⟨v, hv1, hv2⟩ := hj
          rw [if_neg (by simpa using he), hv2, l2 v hv1]
        · rw [if_pos he] at hj
          rw [if_pos he, hj]
  subst hxs
  refine ⟨s', ?_⟩
  rw [← hlen, callTimes_snoc _ k1 (h.finished s' k2), List.map_map]
  rfl

/-- **C59** `sync_read` and devices that answer in time: the values that the devices sent, in order, each with its alert, and the
errors that they reported; and then the end. For every type of data. -/
theorem c59_sync_read {α : Type} {d : DataTy α} {valid : α → Prop} {f : α → List Byte} (hd : ImplData d valid f)
    {answers : List (DeviceAnswer α)} {address : U16} {b b' : Bus} (hb : b.Inv) (hbaud : b.baudRate < 2 ^ 32) (h0 : b.baudRate ≠ 0)
    (h : Client.syncRead d (answers.map (·.id)) address b = (b', .ok ()))
    (hs : ∀ a ∈ answers, a.IsSent b.readBuffer.length)
    (hv : ∀ a ∈ answers, a.error.toNat % 128 = 0 → valid a.value ∧ a.params = f a.value)
    (hon : OnTime b' [] (answers.map fun a => (responseWait b.baudRate d.size.toNat, a.garbage ++ a.packet))) :
    ∃ s', callTimes (SyncIter.next d (ε := ReadError)) (answers.length + 1) ⟨b', d.size, answers.map (·.id), 0⟩ =
      (s', .ok (answers.map (fun a => some a.item) ++ [none])) := by
  obtain ⟨params, wire, -, -, -, k⟩ := afterSend hb.wInv h
  have hc := c28_round_trip_partial d valid f hd
  refine answers_delivered (syncData_iterator hd ReadError) (answers := answers) (count := fun _ => d.size.toNat) (s := ⟨b', d.size, answers.map (·.id), 0⟩)
    (by simp [Function.comp_def]) k.rinv (by rw [k.baudRate]; exact hbaud) (by rw [k.baudRate]; exact h0)
    (by rw [k.readBuffer]; exact hs) (fun a ha he => ?_) (by rw [k.baudRate]; exact hon)
  obtain ⟨h1, h2⟩ := hv a ha he
  refine ⟨by rw [h2, hc.length _ h1], fun v hv' => ?_⟩
  have hdec := hc.decode v hv'.1
  rw [hv'.2, h2, hc.decode _ h1] at hdec
  exact (Outcome.ok.inj hdec).symm

/-- **C59** `sync_read_bytes` and devices that answer in time: the bytes that the devices sent. -/
theorem c59_sync_read_bytes {answers : List (DeviceAnswer (List Byte))} {address count : U16} {b b' : Bus} (hb : b.Inv)
    (hbaud : b.baudRate < 2 ^ 32) (h0 : b.baudRate ≠ 0)
    (h : Client.syncReadBytes (answers.map (·.id)) address count b = (b', .ok ()))
    (hs : ∀ a ∈ answers, a.IsSent b.readBuffer.length)
    (hv : ∀ a ∈ answers, a.error.toNat % 128 = 0 → a.value.length = count.toNat ∧ a.params = a.value)
    (hon : OnTime b' [] (answers.map fun a => (responseWait b.baudRate count.toNat, a.garbage ++ a.packet))) :
    ∃ s', callTimes (SyncIter.nextBytes (ε := ReadError)) (answers.length + 1) ⟨b', count, answers.map (·.id), 0⟩ =
      (s', .ok (answers.map (fun a => some a.item) ++ [none])) := by
  obtain ⟨params, wire, -, -, -, k⟩ := afterSend hb.wInv h
  refine answers_delivered (syncBytes_iterator ReadError) (answers := answers) (count := fun _ => count.toNat) (s := ⟨b', count, answers.map (·.id), 0⟩)
    (by simp [syncTodo, Function.comp_def]) k.rinv (by rw [k.baudRate]; exact hbaud) (by rw [k.baudRate]; exact h0)
    (by rw [k.readBuffer]; exact hs) (fun a ha he => ?_) (by rw [k.baudRate]; exact hon)
  obtain ⟨h1, h2⟩ := hv a ha he
  exact ⟨by rw [h2, h1], fun v hv' => by rw [show v = a.params from hv', h2]⟩

/-- **C59** `bulk_read_bytes` and devices that answer in time: the bytes that the devices sent. Here each answer has its own
address and number of bytes. -/
theorem c59_bulk_read_bytes {answers : List (DeviceAnswer (List Byte))} {reads : List BulkReadData} {b b' : Bus} (hb : b.Inv)
    (hbaud : b.baudRate < 2 ^ 32) (h0 : b.baudRate ≠ 0) (h : Client.bulkReadBytes reads b = (b', .ok ()))
    (hreads : reads.map (fun r => (r.motorId, r.count.toNat)) = answers.map fun a => (a.id, a.value.length))
    (hs : ∀ a ∈ answers, a.IsSent b.readBuffer.length) (hv : ∀ a ∈ answers, a.error.toNat % 128 = 0 → a.params = a.value)
    (hon : OnTime b' [] (answers.map fun a => (responseWait b.baudRate a.value.length, a.garbage ++ a.packet))) :
    ∃ s', callTimes (BulkIter.next (ε := ReadError)) (answers.length + 1) ⟨b', reads, 0⟩ =
      (s', .ok (answers.map (fun a => some a.item) ++ [none])) := by
  unfold Client.bulkReadBytes at h
  split at h
  · cases h
  · obtain ⟨params, wire, -, -, -, k⟩ := afterSend hb.wInv h
    refine answers_delivered (bulk_iterator ReadError) (count := fun a => a.value.length) (s := ⟨b', reads, 0⟩)
      (by simpa [bulkTodo] using hreads) k.rinv (by rw [k.baudRate]; exact hbaud) (by rw [k.baudRate]; exact h0)
      (by rw [k.readBuffer]; exact hs) (fun a ha he => ?_) (by rw [k.baudRate]; exact hon)
    exact ⟨by rw [hv a ha he], fun v hv' => by rw [show v = a.params from hv', hv a ha he]⟩

/-- **C59** `scan` and devices that answer the ping in time, with nothing else on the line: exactly one item per answer, with
the model number and firmware version that the device sent or the error that it reported, and then the end, as often as it is asked for. -/
theorem c59_scan {answers : List (DeviceAnswer Client.Ping)} {b b' : Bus} (hb : b.Inv) (hbaud : b.baudRate < 2 ^ 32)
    (h0 : b.baudRate ≠ 0) (hN : 10 ≤ b.readBuffer.length) (h : Client.scan b = (b', .ok ()))
    (hs : ∀ a ∈ answers, a.IsSent b.readBuffer.length)
    (hv : ∀ a ∈ answers, a.error.toNat % 128 = 0 → a.params = le16 a.value.model ++ [a.value.firmware])
    (hon : OnTime b' [] (answers.map fun a => (scanWait b.baudRate, a.garbage ++ a.packet)))
    (hcalm : Port.Calm b'.serialPort) (hall : allBytes (newInput b.serialPort) = answers.flatMap fun a => a.garbage ++ a.packet)
    (k : Nat) : ∃ c, callTimes (Client.scanNext (ε := ReadError)) (answers.length + k) b' =
      (c, .ok (answers.map (fun a => some a.item) ++ List.replicate k none)) := by
  obtain ⟨params, h1, h2, h3, h4, hb'⟩ := Bus.writeInstruction_ok hb.wInv h
  obtain ⟨params, wire, -, -, -, after⟩ := afterSend hb.wInv h
  obtain ⟨replies, r1, r2, r3⟩ : ∃ replies : List Reply, (∀ r ∈ replies, r.Ok b.readBuffer.length) ∧
      replies.map Reply.bytes = answers.map (fun a => a.garbage ++ a.packet) ∧
      Pairwise₂ RepliesTo (answers.map fun (a : DeviceAnswer Client.Ping) => (a.id, a.error, a.value)) replies := by
    clear h hon hall
    induction answers with
    | nil => exact ⟨[], by simp, rfl, .nil⟩
    | cons a l ih =>
      obtain ⟨replies, r1, r2, r3⟩ := ih (fun a ha => hs a (by simp [ha])) (fun a ha => hv a (by simp [ha]))
      obtain ⟨r, k1, k2, k3, k4, k5⟩ := (hs a (by simp)).reply
      refine ⟨r :: replies, ?_, by simp [k2, r2], .cons ⟨k3, k4, fun he => ?_⟩ r3⟩
      · intro x hx
        rcases List.mem_cons.mp hx with rfl | hx
        · exact k1
        · exact r1 x hx
      · rw [k5, hv a (by simp) he]
  have hmap : replies.map (fun r => (scanWait b.baudRate, r.bytes)) =
      answers.map fun a => (scanWait b.baudRate, a.garbage ++ a.packet) := by
    have := congrArg (List.map fun x => (scanWait b.baudRate, x)) r2
    simpa [Function.comp_def] using this
  have hflat : replies.flatMap Reply.bytes = answers.flatMap fun a => a.garbage ++ a.packet := by
    rw [List.flatMap_def, r2, List.flatMap_def]
  obtain ⟨c, hc⟩ := c42_scan_exact (answers.map fun (a : DeviceAnswer Client.Ping) => (a.id, a.error, a.value)) after.rinv
    (by rw [after.baudRate]; exact hbaud) (by rw [after.baudRate]; exact h0) (by rw [after.readBuffer]; exact hN) replies r3
    (by rw [after.readBuffer]; exact r1) (by rw [after.baudRate, hmap]; exact hon) hcalm (by
      rw [hflat, ← hall, hb', newInput_eq]
      simp [Bus.pending, Port.wrote, Port.discarded]) k
  refine ⟨c, ?_⟩
  rw [List.length_map] at hc
  rw [hc, List.map_map]
  rfl

/-! ## A concrete case: three devices, the second with an alert and bytes that are stuffed on the way, the third with an error -/

def groupAnswer (id e : Byte) (v : BitVec (8 * 4)) (data garbage packet : List Byte) : DeviceAnswer (BitVec (8 * 4)) :=
  ⟨id, e, v, data, quietBus true 40, (Device.writeStatus id e data.length (bytesEncoder data) (quietBus true 40)).1, garbage, packet⟩

def groupAnswers : List (DeviceAnswer (BitVec (8 * 4))) :=
  [groupAnswer 1#8 0#8 0x12345678#32 [0x78#8, 0x56#8, 0x34#8, 0x12#8] sampleGarbage
      (frame 1#8 [0x55#8, 0#8, 0x78#8, 0x56#8, 0x34#8, 0x12#8]),
   groupAnswer 2#8 0x80#8 0x00FDFFFF#32 [0xFF#8, 0xFF#8, 0xFD#8, 0x00#8] []
      (frame 2#8 [0x55#8, 0x80#8, 0xFF#8, 0xFF#8, 0xFD#8, 0xFD#8, 0x00#8]),
   groupAnswer 9#8 0x07#8 0#32 [] [] (frame 9#8 [0x55#8, 0x07#8])]

/-- The client; the answers come with up to 34 ms between them, and bytes that came before are discarded. -/
def groupClient : Bus :=
  { lineBus [] with
    serialPort :=
      { quietPort with
        rx := .data 0 [1#8, 2#8] ::
          (groupAnswers.zip [3000000, 37000000, 71000000]).map fun a => .data a.2 (a.1.garbage ++ a.1.packet) } }

set_option maxRecDepth 10000 in
/-- C59: the two values, in order, and the error of the third device. -/
example : ∃ s', callTimes (SyncIter.next (DataTy.unsigned 4) (ε := ReadError)) 4
      ⟨(Client.syncRead (DataTy.unsigned 4) [1#8, 2#8, 9#8] 132#16 groupClient).1, 4#16, [1#8, 2#8, 9#8], 0⟩ =
    (s', .ok [some (.ok ⟨1#8, false, 0x12345678#32⟩), some (.ok ⟨2#8, true, 0x00FDFFFF#32⟩), some (.error (.motorError ⟨0x07#8⟩)),
      none]) := by
  have hd : ImplData (DataTy.unsigned 4) (fun _ => True) (fun v => toLeBytes 4 v.toNat) :=
    .unsigned (by decide) _ fun v => littleEndian_iff.mpr rfl
  refine c59_sync_read hd (answers := groupAnswers) (address := 132#16) (b := groupClient) ?_ (by decide) (by decide)
    (Prod.ext rfl (by decide +kernel)) ?_ ?_ ?_
  · refine ⟨?_, ?_⟩
    · constructor <;> simp [groupClient, lineBus]
    · constructor <;> simp [groupClient, lineBus, headerPrefix]
  · have key : ∀ (id e : Byte) (v : BitVec (8 * 4)) (data garbage packet : List Byte),
        (Device.writeStatus id e data.length (bytesEncoder data) (quietBus true 40)).2 = .ok () →
        Sent (quietBus true 40) (Device.writeStatus id e data.length (bytesEncoder data) (quietBus true 40)).1 packet →
        ¬ header <:+: garbage → packet.length ≤ 128 → ¬ [0xFF#8, 0xFF#8, 0xFF#8, 0xFD#8] <:+: 0x55#8 :: e :: data →
        (groupAnswer id e v data garbage packet).IsSent 128 := fun id e v data garbage packet h1 h2 h3 h4 h5 =>
      ⟨quietBus_wInv _ _ (by decide), ⟨data.length, bytesEncoder data, fills_copyFromSlice data, Prod.ext rfl h1⟩, h2, h3,
        Nat.le_trans h4 (by decide), h4, survives_of_runsOk (runsOk_of_no_infix h5)⟩
    have hN : groupClient.readBuffer.length = 128 := by decide +kernel
    rw [hN]
    intro a ha
    simp only [groupAnswers, List.mem_cons, List.not_mem_nil, or_false] at ha
    rcases ha with rfl | rfl | rfl <;> apply key <;> first | (unfold Sent; decide +kernel) | decide +kernel
  · intro a ha
    simp only [groupAnswers, List.mem_cons, List.not_mem_nil, or_false] at ha
    rcases ha with rfl | rfl | rfl <;> simp [groupAnswer] <;> decide +kernel
  · exact onTime_of_spaced (b := (Client.syncRead (DataTy.unsigned 4) [1#8, 2#8, 9#8] 132#16 groupClient).1) (by decide +kernel)
      ((groupAnswers.zip [3000000, 37000000, 71000000]).map fun a => (a.2, responseWait 57600 4, a.1.garbage ++ a.1.packet)) []
      (by decide +kernel) (by refine ⟨?_, ?_, ?_, ?_, ?_, ?_, ?_, ?_, ?_, trivial⟩ <;> decide +kernel)

/-- C59: the same answers as bytes, of a `sync_read_bytes` and of a `bulk_read_bytes` of different addresses. -/
example : (callTimes (SyncIter.nextBytes (ε := ReadError)) 4
      ⟨(Client.syncReadBytes [1#8, 2#8, 9#8] 132#16 4#16 groupClient).1, 4#16, [1#8, 2#8, 9#8], 0⟩).2 =
      .ok [some (.ok ⟨1#8, false, [0x78#8, 0x56#8, 0x34#8, 0x12#8]⟩), some (.ok ⟨2#8, true, [0xFF#8, 0xFF#8, 0xFD#8, 0x00#8]⟩),
        some (.error (.motorError ⟨0x07#8⟩)), none] ∧
    (callTimes (BulkIter.next (ε := ReadError)) 4
      ⟨(Client.bulkReadBytes [⟨1#8, 7#16, 4#16⟩, ⟨2#8, 9#16, 4#16⟩, ⟨9#8, 3#16, 0#16⟩] groupClient).1,
        [⟨1#8, 7#16, 4#16⟩, ⟨2#8, 9#16, 4#16⟩, ⟨9#8, 3#16, 0#16⟩], 0⟩).2 =
      .ok [some (.ok ⟨1#8, false, [0x78#8, 0x56#8, 0x34#8, 0x12#8]⟩), some (.ok ⟨2#8, true, [0xFF#8, 0xFF#8, 0xFD#8, 0x00#8]⟩),
        some (.error (.motorError ⟨0x07#8⟩)), none] := by
  refine ⟨?_, ?_⟩ <;> decide +kernel

/-- C59: a scan, and what two devices send. -/
example : let d := fun id e => (Device.writeStatus id e 3 (bytesEncoder [0x06#8, 0x04#8, id]) (quietBus true 40)).1
    let client := { groupClient with
      serialPort :=
        { quietPort with
          rx := [.data 3000000 (written (quietBus true 40) (d 1#8 0#8)).flatten,
            .data 90000000 (written (quietBus true 40) (d 7#8 0x80#8)).flatten] } }
    (callTimes (Client.scanNext (ε := ReadError)) 3 (Client.scan client).1).2 =
      .ok [some (.ok ⟨1#8, false, ⟨0x0406#16, 1#8⟩⟩), some (.ok ⟨7#8, true, ⟨0x0406#16, 7#8⟩⟩), none] := by
  decide +kernel

/-! Each theorem with hypotheses on a concrete case: the same answers, read as bytes. -/

def byteAnswers : List (DeviceAnswer (List Byte)) :=
  groupAnswers.map fun a => ⟨a.id, a.error, a.params, a.params, a.device, a.device', a.garbage, a.packet⟩

theorem groupClient_inv : groupClient.Inv := by
  refine ⟨?_, ?_⟩
  · constructor <;> simp [groupClient, lineBus]
  · constructor <;> simp [groupClient, lineBus, headerPrefix]

theorem byteAnswers_sent : ∀ a ∈ byteAnswers, a.IsSent groupClient.readBuffer.length := by
  have key : ∀ (id e : Byte) (v : BitVec (8 * 4)) (data garbage packet : List Byte),
      (Device.writeStatus id e data.length (bytesEncoder data) (quietBus true 40)).2 = .ok () →
      Sent (quietBus true 40) (Device.writeStatus id e data.length (bytesEncoder data) (quietBus true 40)).1 packet →
      ¬ header <:+: garbage → packet.length ≤ 128 → ¬ [0xFF#8, 0xFF#8, 0xFF#8, 0xFD#8] <:+: 0x55#8 :: e :: data →
      DeviceAnswer.IsSent 128 ⟨id, e, data, data, (groupAnswer id e v data garbage packet).device,
        (groupAnswer id e v data garbage packet).device', garbage, packet⟩ := fun id e v data garbage packet h1 h2 h3 h4 h5 =>
    ⟨quietBus_wInv _ _ (by decide), ⟨data.length, bytesEncoder data, fills_copyFromSlice data, pair_eq h1⟩, h2, h3,
      Nat.le_trans h4 (by decide), h4, survives_of_runsOk (runsOk_of_no_infix h5)⟩
  have hN : groupClient.readBuffer.length = 128 := by decide +kernel
  rw [hN]
  intro a ha
  simp only [byteAnswers, groupAnswers, List.map_cons, List.map_nil, List.mem_cons, List.not_mem_nil, or_false] at ha
  rcases ha with rfl | rfl | rfl <;> apply key <;> first | (unfold Sent; decide +kernel) | decide +kernel

set_option maxRecDepth 10000 in
example := c59_sync_read_bytes (answers := byteAnswers) (address := 132#16) (count := 4#16) groupClient_inv (by decide) (by decide)
  (pair_eq (by decide +kernel)) byteAnswers_sent
  (by
    intro a ha
    simp only [byteAnswers, groupAnswers, List.map_cons, List.map_nil, List.mem_cons, List.not_mem_nil, or_false] at ha
    rcases ha with rfl | rfl | rfl <;> simp [groupAnswer])
  (by
    have := onTime_of_spaced (b := (Client.syncReadBytes (byteAnswers.map (·.id)) 132#16 4#16 groupClient).1) (by decide +kernel)
      ((byteAnswers.zip [3000000, 37000000, 71000000]).map fun a => (a.2, responseWait 57600 4, a.1.garbage ++ a.1.packet)) []
      (by decide +kernel) (by refine ⟨?_, ?_, ?_, ?_, ?_, ?_, ?_, ?_, ?_, trivial⟩ <;> decide +kernel)
    exact this)

set_option maxRecDepth 10000 in
example := c59_bulk_read_bytes (answers := byteAnswers) (reads := [⟨1#8, 7#16, 4#16⟩, ⟨2#8, 9#16, 4#16⟩, ⟨9#8, 3#16, 0#16⟩])
  groupClient_inv (by decide) (by decide) (pair_eq (by decide +kernel)) (by decide +kernel) byteAnswers_sent
  (by
    intro a ha
    simp only [byteAnswers, groupAnswers, List.map_cons, List.map_nil, List.mem_cons, List.not_mem_nil, or_false] at ha
    rcases ha with rfl | rfl | rfl <;> simp [groupAnswer])
  (by
    have := onTime_of_spaced (b := (Client.bulkReadBytes [⟨1#8, 7#16, 4#16⟩, ⟨2#8, 9#16, 4#16⟩, ⟨9#8, 3#16, 0#16⟩] groupClient).1)
      (by decide +kernel)
      ((byteAnswers.zip [3000000, 37000000, 71000000]).map fun a => (a.2, responseWait 57600 a.1.value.length, a.1.garbage ++ a.1.packet))
      [] (by decide +kernel) (by refine ⟨?_, ?_, ?_, ?_, ?_, ?_, ?_, ?_, ?_, trivial⟩ <;> decide +kernel)
    exact this)

end Dxl.Props
