import Verif.Props.LineTime

/-! # C67 for group reads and scans: devices that answer one after the other -/

namespace Dxl.Props
open Dxl Spec Spec.Wire

/-- The devices take turns: each begins when the one before it is done, and is done, with the latency of the port, at most `wait` after
that. The list has `(wait, start, bytes)`; `done` is when the previous transmission ends. -/
def Turns (baud latency : Nat) : (done : Nat) → List (Nat × Nat × List Byte) → Prop
  | _, [] => True
  | done, (wait, start, bytes) :: rest =>
    done ≤ start ∧ start + duration baud bytes.length + latency ≤ done + wait ∧ bytes ≠ [] ∧
      Turns baud latency (start + duration baud bytes.length) rest

/-- Devices that take turns are in time. -/
theorem onTime_of_turns {b : Bus} {baud latency : Nat} (hp : b.pending = []) {turns : List (Nat × Nat × List Byte)}
    {events rest : List RxEvent} (hrx : b.serialPort.rx = events ++ rest)
    (hrec : Received events (turns.flatMap fun x => due baud latency x.2.1 0 x.2.2)) (ht : Turns baud latency b.serialPort.now turns) :
    OnTime b [] (turns.map fun x => (x.1, x.2.2)) := by
  suffices h : ∀ (turns : List (Nat × Nat × List Byte)) (past : List Due) (prev : Nat),
      Received events (past ++ turns.flatMap fun x => due baud latency x.2.1 0 x.2.2) →
      (∀ d ∈ past, d.latest ≤ prev + latency) → Turns baud latency prev turns →
      ((past = [] ∧ prev = b.serialPort.now) ∨ ∃ init d, past = init ++ [d] ∧ d.earliest = prev) →
      OnTime b (past.map (·.byte)) (turns.map fun x => (x.1, x.2.2)) from
    h turns [] _ hrec (by simp) ht (.inl ⟨rfl, rfl⟩)
  intro turns
  induction turns with
  | nil => intros; trivial
  | cons a l ih =>
    obtain ⟨wait, start, bytes⟩ := a
    intro past prev hrec hpast ⟨h1, h2, h3, h4⟩ hd
    have hbytes := due_bytes baud latency start bytes 0
    rw [List.flatMap_cons, ← List.append_assoc] at hrec
    have hall : ∀ d ∈ past ++ due baud latency start 0 bytes, d.latest ≤ start + duration baud bytes.length + latency := by
      intro d hd
      rcases List.mem_append.mp hd with hd | hd
      · have := hpast d hd
        omega
      · have := due_latest _ _ _ hd
        rwa [Nat.zero_add] at this
    refine ⟨?_, ?_⟩
    · intro T hT hseen
      have hprev : prev ≤ T := by
        rcases hd with ⟨-, rfl⟩ | ⟨init, d, rfl, hd⟩
        · exact hT
        · rcases Nat.lt_or_ge T d.earliest with hlt | hge
          · have k := (received_late hrec rest b.serialPort.tail init d
              (due baud latency start 0 bytes ++ l.flatMap fun x => due baud latency x.2.1 0 x.2.2) (by simp) hlt).1
            rw [← hrx] at k
            rw [stream_eq hT, hp, List.nil_append] at hseen
            have := (hseen.trans k).length_le
            simp only [List.length_map, List.length_append, List.length_singleton] at this
            omega
          · omega
      rw [stream_eq (by omega), hp, List.nil_append, hrx]
      have := received_prefix (D := T + wait) hrec rest _ _ rfl (fun d hd => by have := hall d hd; omega)
      rw [List.map_append, hbytes] at this
      exact this
    · have := ih (past ++ due baud latency start 0 bytes) (start + duration baud bytes.length) hrec hall h4 (by
        right
        obtain ⟨front, d, k1, k2⟩ := due_last (baud := baud) (latency := latency) (start := start) bytes 0 h3
        exact ⟨past ++ front, d, by rw [k1, List.append_assoc], by rw [k2, Nat.zero_add]⟩)
      rw [List.map_append, hbytes] at this
      exact this

/-- Devices that answer a group read: each begins after the one before it is done, at most 34 ms after that, less the latency of the port
and the time of the bytes that are stuffed into its answer. The list has `(exp, start, packet)`, with the number of parameters that are
expected. -/
def AnswerInTurn (baud latency : Nat) : (done : Nat) → List (Nat × Nat × List Byte) → Prop
  | _, [] => True
  | done, (exp, start, packet) :: rest =>
    done ≤ start ∧ start + latency + duration baud (packet.length - (11 + exp)) ≤ done + 34000000 ∧ packet ≠ [] ∧
      AnswerInTurn baud latency (start + duration baud packet.length) rest

theorem turns_of_inTurn {baud latency : Nat} (h0 : baud ≠ 0) : ∀ (l : List (Nat × Nat × List Byte)) (done : Nat),
    AnswerInTurn baud latency done l → Turns baud latency done (l.map fun x => (responseWait baud x.1, x.2.1, x.2.2)) := by
  intro l
  induction l with
  | nil => intro _ _; trivial
  | cons a l ih =>
    obtain ⟨exp, start, packet⟩ := a
    intro done ⟨h1, h2, h3, h4⟩
    refine ⟨h1, ?_, h3, ih _ h4⟩
    have k1 := duration_add h0 (11 + exp) (packet.length - (11 + exp))
    have k2 := duration_mono baud (n := packet.length) (m := 11 + exp + (packet.length - (11 + exp))) (by omega)
    have k3 : responseWait baud exp = duration baud (11 + exp) + 34000000 := rfl
    dsimp only at *
    omega

/-- What these devices send is handed over by the port, with this latency, and anything may follow. -/
def HandedOver {α : Type} (b : Bus) (latency : Nat) (answers : List (Nat × DeviceAnswer α)) : Prop :=
  (∀ a ∈ answers, a.2.garbage = []) ∧ ∃ events rest, newInput b.serialPort = events ++ rest ∧
    Received events (answers.flatMap fun a => due b.baudRate latency a.1 0 a.2.packet)

theorem inTurn_onTime {α : Type} {b b' : Bus} {id instr : Byte} {n : Nat} {enc : Encoder} (hb : b.Inv)
    (h : Bus.writeInstruction id instr n enc b = (b', .ok ())) {latency : Nat} {answers : List (Nat × DeviceAnswer α)}
    {wait : DeviceAnswer α → Nat} (hc : HandedOver b latency answers)
    (ht : Turns b.baudRate latency (b.serialPort.now + b.serialPort.writeTime) (answers.map fun a => (wait a.2, a.1, a.2.packet))) :
    OnTime b' [] ((answers.map (·.2)).map fun a => (wait a, a.garbage ++ a.packet)) := by
  obtain ⟨hg, events, rest, h1, h2⟩ := hc
  obtain ⟨_, _, _, _, _, hb'⟩ := Bus.writeInstruction_ok hb.wInv h
  have hmap : (answers.map (·.2)).map (fun a => (wait a, a.garbage ++ a.packet)) =
      (answers.map fun a => (wait a.2, a.1, a.2.packet)).map fun x => (x.1, x.2.2) := by
    rw [List.map_map, List.map_map]
    refine List.map_congr_left fun a ha => ?_
    simp [hg a ha]
  rw [hmap]
  refine onTime_of_turns (baud := b.baudRate) (latency := latency) (events := events) (rest := rest) ?_ ?_ ?_ ?_
  · rw [hb']; simp [Bus.pending]
  · rw [← h1, newInput_eq, hb']; rfl
  · rw [List.flatMap_map]; exact h2
  · rw [hb']; exact ht

section
variable {b b' : Bus} (hb : b.Inv) (hbaud : b.baudRate < 2 ^ 32) (h0 : b.baudRate ≠ 0) {latency : Nat}
include hb hbaud h0

/-- **C67** for `sync_read`: every device has 34 ms from the end of the answer before, less the time of the bytes that are
stuffed into its answer. -/
theorem c67_sync_read_partial {α : Type} {d : DataTy α} {valid : α → Prop} {f : α → List Byte} (hd : ImplData d valid f)
    {answers : List (Nat × DeviceAnswer α)} {address : U16}
    (h : Client.syncRead d (answers.map (·.2.id)) address b = (b', .ok ())) (hs : ∀ a ∈ answers, a.2.IsSent b.readBuffer.length)
    (hv : ∀ a ∈ answers, a.2.error.toNat % 128 = 0 → valid a.2.value ∧ a.2.params = f a.2.value) (hc : HandedOver b latency answers)
    (ht : AnswerInTurn b.baudRate latency (b.serialPort.now + b.serialPort.writeTime)
      (answers.map fun a => (d.size.toNat, a.1, a.2.packet))) :
    ∃ s', callTimes (SyncIter.next d (ε := ReadError)) (answers.length + 1) ⟨b', d.size, answers.map (·.2.id), 0⟩ =
      (s', .ok (answers.map (fun a => some a.2.item) ++ [none])) := by
  have ht := turns_of_inTurn h0 _ _ ht
  rw [List.map_map, Function.comp_def] at ht
  have := c59_sync_read hd (answers := answers.map (·.2)) (address := address) (b' := b') hb hbaud h0 (by rw [List.map_map]; exact h)
    (List.forall_mem_map.mpr hs) (List.forall_mem_map.mpr hv) (inTurn_onTime hb h hc ht)
  simpa [Function.comp_def] using this

/-- **C67** for `sync_read_bytes`. -/
theorem c67_sync_read_bytes_partial {answers : List (Nat × DeviceAnswer (List Byte))} {address count : U16}
    (h : Client.syncReadBytes (answers.map (·.2.id)) address count b = (b', .ok ()))
    (hs : ∀ a ∈ answers, a.2.IsSent b.readBuffer.length)
    (hv : ∀ a ∈ answers, a.2.error.toNat % 128 = 0 → a.2.value.length = count.toNat ∧ a.2.params = a.2.value)
    (hc : HandedOver b latency answers)
    (ht : AnswerInTurn b.baudRate latency (b.serialPort.now + b.serialPort.writeTime)
      (answers.map fun a => (count.toNat, a.1, a.2.packet))) :
    ∃ s', callTimes (SyncIter.nextBytes (ε := ReadError)) (answers.length + 1) ⟨b', count, answers.map (·.2.id), 0⟩ =
      (s', .ok (answers.map (fun a => some a.2.item) ++ [none])) := by
  have ht := turns_of_inTurn h0 _ _ ht
  rw [List.map_map, Function.comp_def] at ht
  have := c59_sync_read_bytes (answers := answers.map (·.2)) (address := address) (count := count) (b' := b') hb hbaud h0
    (by rw [List.map_map]; exact h) (List.forall_mem_map.mpr hs) (List.forall_mem_map.mpr hv) (inTurn_onTime hb h hc ht)
  simpa [Function.comp_def] using this

/-- **C67** for `bulk_read_bytes`. -/
theorem c67_bulk_read_bytes_partial {answers : List (Nat × DeviceAnswer (List Byte))} {reads : List BulkReadData}
    (h : Client.bulkReadBytes reads b = (b', .ok ()))
    (hreads : reads.map (fun r => (r.motorId, r.count.toNat)) = answers.map fun a => (a.2.id, a.2.value.length))
    (hs : ∀ a ∈ answers, a.2.IsSent b.readBuffer.length)
    (hv : ∀ a ∈ answers, a.2.error.toNat % 128 = 0 → a.2.params = a.2.value) (hc : HandedOver b latency answers)
    (ht : AnswerInTurn b.baudRate latency (b.serialPort.now + b.serialPort.writeTime)
      (answers.map fun a => (a.2.value.length, a.1, a.2.packet))) :
    ∃ s', callTimes (BulkIter.next (ε := ReadError)) (answers.length + 1) ⟨b', reads, 0⟩ =
      (s', .ok (answers.map (fun a => some a.2.item) ++ [none])) := by
  have ht := turns_of_inTurn h0 _ _ ht
  rw [List.map_map, Function.comp_def] at ht
  have hon : OnTime b' [] ((answers.map (·.2)).map fun a => (responseWait b.baudRate a.value.length, a.garbage ++ a.packet)) := by
    have hw := h
    unfold Client.bulkReadBytes at hw
    split at hw
    · cases hw
    · have h1 := inTurn_onTime (α := List Byte) (answers := answers) (wait := fun a => responseWait b.baudRate a.value.length) hb hw hc
      have h2 := h1 ht
      exact h2
  have hr : reads.map (fun r => (r.motorId, r.count.toNat)) = (answers.map (·.2)).map fun a => (a.id, a.value.length) := by
    rw [hreads, List.map_map, Function.comp_def]
  have := c59_bulk_read_bytes hb hbaud h0 h hr (List.forall_mem_map.mpr hs) (List.forall_mem_map.mpr hv) hon
  rw [List.length_map, List.map_map, Function.comp_def] at this
  exact this

/-- **C67** for `scan`: every answer is found that is complete at most 34 ms and the time for 253 answers after the end of the one before
it, or of `write_all`. -/
theorem c67_scan {answers : List (Nat × DeviceAnswer Client.Ping)} (hN : 10 ≤ b.readBuffer.length) (h : Client.scan b = (b', .ok ()))
    (hs : ∀ a ∈ answers, a.2.IsSent b.readBuffer.length)
    (hv : ∀ a ∈ answers, a.2.error.toNat % 128 = 0 → a.2.params = le16 a.2.value.model ++ [a.2.value.firmware])
    (hg : ∀ a ∈ answers, a.2.garbage = [])
    (hc : Received (newInput b.serialPort) (answers.flatMap fun a => due b.baudRate latency a.1 0 a.2.packet))
    (htail : b.serialPort.tail = .silent)
    (ht : Turns b.baudRate latency (b.serialPort.now + b.serialPort.writeTime)
      (answers.map fun a => (duration b.baudRate 14 * 253 + 34000000, a.1, a.2.packet))) (k : Nat) :
    ∃ c, callTimes (Client.scanNext (ε := ReadError)) (answers.length + k) b' =
      (c, .ok (answers.map (fun a => some a.2.item) ++ List.replicate k none)) := by
  obtain ⟨_, _, _, _, _, hb'⟩ := Bus.writeInstruction_ok hb.wInv h
  have := c59_scan (answers := answers.map (·.2)) (b' := b') hb hbaud h0 hN h (List.forall_mem_map.mpr hs) (List.forall_mem_map.mpr hv)
    (inTurn_onTime (wait := fun _ => scanWait b.baudRate) hb h ⟨hg, _, [], (List.append_nil _).symm, hc⟩ ht) ?_ ?_ k
  · simpa [Function.comp_def] using this
  · refine ⟨by rw [hb']; exact htail, ?_⟩
    rw [hb']
    intro e he
    exact received_data hc e (by rw [newInput_eq]; exact he)
  · rw [received_all hc, List.map_flatMap, List.flatMap_map]
    simp only [due_bytes]
    rw [List.flatMap_def, List.flatMap_def]
    congr 1
    refine List.map_congr_left fun a ha => ?_
    rw [hg a ha, List.nil_append]

end

/-! ## A concrete case: two devices at 9600 baud, with a stuffed byte in the first answer and an error in the second -/

/-- What a device sends, and that it begins at `start`. -/
def turnAnswer (start : Nat) (id e : Byte) (data packet : List Byte) : Nat × DeviceAnswer (List Byte) :=
  (start, ⟨id, e, data, data, quietBus true 40, (Device.writeStatus id e data.length (bytesEncoder data) (quietBus true 40)).1, [], packet⟩)

/-- The instruction has 16 bytes. The first device begins 16 ms after it, and the second one 18 ms after the first; the latency is 16 ms. -/
def turnAnswers : List (Nat × DeviceAnswer (List Byte)) :=
  [turnAnswer (duration 9600 16 + 16000000) 1#8 0#8 [0xFF#8, 0xFF#8, 0xFD#8, 0x00#8]
      (frame 1#8 [0x55#8, 0#8, 0xFF#8, 0xFF#8, 0xFD#8, 0xFD#8, 0x00#8]),
   turnAnswer (duration 9600 16 + 16000000 + duration 9600 16 + 18000000) 2#8 0x07#8 [] (frame 2#8 [0x55#8, 0x07#8])]

def turnClient : Bus :=
  slowBus (duration 9600 16) (singly (turnAnswers.flatMap fun a => due 9600 16000000 a.1 0 a.2.packet))

theorem turnClient_input : newInput turnClient.serialPort =
    singly (turnAnswers.flatMap fun a => due 9600 16000000 a.1 0 a.2.packet) ++ [] := by decide +kernel

set_option maxRecDepth 10000 in
example : ∃ s', callTimes (SyncIter.nextBytes (ε := ReadError)) 3
      ⟨(Client.syncReadBytes [1#8, 2#8] 132#16 4#16 turnClient).1, 4#16, [1#8, 2#8], 0⟩ =
    (s', .ok [some (.ok ⟨1#8, false, [0xFF#8, 0xFF#8, 0xFD#8, 0x00#8]⟩), some (.error (.motorError ⟨0x07#8⟩)), none]) := by
  refine c67_sync_read_bytes_partial (b := turnClient) (answers := turnAnswers) (address := 132#16) (count := 4#16)
    (latency := 16000000) ⟨?_, slowBus_wInv _ _⟩ (by decide) (by decide) (Prod.ext rfl (by decide +kernel)) ?_ ?_ ⟨?_, _, _, turnClient_input, ?_⟩ ?_
  · constructor <;> simp [turnClient, slowBus]
  · have key : ∀ (start : Nat) (id e : Byte) (data packet : List Byte),
        (Device.writeStatus id e data.length (bytesEncoder data) (quietBus true 40)).2 = .ok () →
        Sent (quietBus true 40) (Device.writeStatus id e data.length (bytesEncoder data) (quietBus true 40)).1 packet →
        packet.length ≤ 128 → ¬ [0xFF#8, 0xFF#8, 0xFF#8, 0xFD#8] <:+: 0x55#8 :: e :: data →
        (turnAnswer start id e data packet).2.IsSent 128 := fun start id e data packet h1 h2 h4 h5 =>
      ⟨quietBus_wInv _ _ (by decide), ⟨data.length, bytesEncoder data, fills_copyFromSlice data, Prod.ext rfl h1⟩, h2, (by decide : ¬ header <:+: []),
        Nat.le_trans h4 (by decide), h4, survives_of_runsOk (runsOk_of_no_infix h5)⟩
    have hN : turnClient.readBuffer.length = 128 := by decide +kernel
    rw [hN]
    intro a ha
    simp only [turnAnswers, List.mem_cons, List.not_mem_nil, or_false] at ha
    rcases ha with rfl | rfl <;> apply key <;> first | (unfold Sent; decide +kernel) | decide +kernel
  · intro a ha
    simp only [turnAnswers, List.mem_cons, List.not_mem_nil, or_false] at ha
    rcases ha with rfl | rfl <;> simp [turnAnswer]
  · intro a ha
    simp only [turnAnswers, List.mem_cons, List.not_mem_nil, or_false] at ha
    rcases ha with rfl | rfl <;> rfl
  · refine received_singly _ fun d hd => ?_
    obtain ⟨a, -, hd⟩ := List.mem_flatMap.mp hd
    exact due_singly _ _ _ _ _ d hd
  · refine ⟨?_, ?_, ?_, ?_, ?_, ?_, trivial⟩ <;> decide +kernel

/-- C67: a scan, and two motors; the second begins 390 ms after the first. -/
example : (callTimes (Client.scanNext (ε := ReadError)) 3 (Client.scan (slowBus (duration 9600 10)
      (singly (due 9600 16000000 (duration 9600 10 + 500000) 0 (frame 1#8 [0x55#8, 0#8, 0x06#8, 0x04#8, 0x26#8]) ++
        due 9600 16000000 400000000 0 (frame 7#8 [0x55#8, 0x80#8, 0x06#8, 0x04#8, 0x27#8]))))).1).2 =
    .ok [some (.ok ⟨1#8, false, ⟨0x0406#16, 0x26#8⟩⟩), some (.ok ⟨7#8, true, ⟨0x0406#16, 0x27#8⟩⟩), none] := by
  decide +kernel

/-! ## The other theorems on these answers -/

theorem turnAnswer_sent (start : Nat) (id e : Byte) (data packet : List Byte)
    (h1 : (Device.writeStatus id e data.length (bytesEncoder data) (quietBus true 40)).2 = .ok ())
    (h2 : Sent (quietBus true 40) (Device.writeStatus id e data.length (bytesEncoder data) (quietBus true 40)).1 packet)
    (h4 : packet.length ≤ 128) (h5 : ¬ [0xFF#8, 0xFF#8, 0xFF#8, 0xFD#8] <:+: 0x55#8 :: e :: data) :
    (turnAnswer start id e data packet).2.IsSent 128 :=
  ⟨quietBus_wInv _ _ (by decide), ⟨data.length, bytesEncoder data, fills_copyFromSlice data, Prod.ext rfl h1⟩, h2, (by decide : ¬ header <:+: []),
    Nat.le_trans h4 (by decide), h4, survives_of_runsOk (runsOk_of_no_infix h5)⟩

theorem turnAnswers_sent : ∀ a ∈ turnAnswers, a.2.IsSent 128 := by
  intro a ha
  simp only [turnAnswers, List.mem_cons, List.not_mem_nil, or_false] at ha
  rcases ha with rfl | rfl <;> apply turnAnswer_sent <;> first | (unfold Sent; decide +kernel) | decide +kernel

theorem turnClient_inv : turnClient.Inv := ⟨by constructor <;> simp [turnClient, slowBus], slowBus_wInv _ _⟩

theorem turnAnswers_handed : HandedOver turnClient 16000000 turnAnswers := by
  refine ⟨?_, _, _, turnClient_input, ?_⟩
  · intro a ha
    simp only [turnAnswers, List.mem_cons, List.not_mem_nil, or_false] at ha
    rcases ha with rfl | rfl <;> rfl
  · refine received_singly _ fun d hd => ?_
    obtain ⟨a, -, hd⟩ := List.mem_flatMap.mp hd
    exact due_singly _ _ _ _ _ d hd

theorem turnClient_size : turnClient.readBuffer.length = 128 := by decide +kernel

example := c67_bulk_read_bytes_partial (b := turnClient) (answers := turnAnswers) (reads := [⟨1#8, 132#16, 4#16⟩, ⟨2#8, 132#16, 0#16⟩])
  (latency := 16000000) turnClient_inv (by decide) (by decide) (pair_eq (by decide +kernel)) (by decide) (by rw [turnClient_size]; exact turnAnswers_sent)
  (by
    intro a ha
    simp only [turnAnswers, List.mem_cons, List.not_mem_nil, or_false] at ha
    rcases ha with rfl | rfl <;> simp [turnAnswer])
  turnAnswers_handed (by refine ⟨?_, ?_, ?_, ?_, ?_, ?_, trivial⟩ <;> decide +kernel)

/-- The same answers as 32-bit numbers. -/
def asNumber (v : BitVec 32) (a : Nat × DeviceAnswer (List Byte)) : Nat × DeviceAnswer (BitVec 32) :=
  (a.1, ⟨a.2.id, a.2.error, v, a.2.params, a.2.device, a.2.device', a.2.garbage, a.2.packet⟩)

theorem asNumber_sent {v : BitVec 32} {a : Nat × DeviceAnswer (List Byte)} {size : Nat} (h : a.2.IsSent size) : (asNumber v a).2.IsSent size :=
  ⟨h.1, h.2, h.3, h.4, h.5, h.6, h.7⟩

theorem asNumber_handed : HandedOver turnClient 16000000 (turnAnswers.map (asNumber 0x00FDFFFF#32)) := by
  obtain ⟨h1, events, rest, h2, h3⟩ := turnAnswers_handed
  refine ⟨fun a ha => ?_, events, rest, h2, h3⟩
  obtain ⟨a', ha', rfl⟩ := List.mem_map.mp ha
  exact h1 a' ha'

example := c67_sync_read_partial (b := turnClient) (answers := turnAnswers.map (asNumber 0x00FDFFFF#32)) (address := 132#16)
  (latency := 16000000) turnClient_inv (by decide) (by decide) (implUnsigned (n := 4) (by decide)) (pair_eq (by decide +kernel))
  (by
    intro a ha
    obtain ⟨a', ha', rfl⟩ := List.mem_map.mp ha
    rw [turnClient_size]
    exact asNumber_sent (turnAnswers_sent a' ha'))
  (by
    intro a ha h
    simp only [turnAnswers, List.map_cons, List.map_nil, List.mem_cons, List.not_mem_nil, or_false] at ha
    rcases ha with rfl | rfl
    · exact ⟨trivial, by decide +kernel⟩
    · exact absurd h (by decide))
  asNumber_handed (by refine ⟨?_, ?_, ?_, ?_, ?_, ?_, trivial⟩ <;> decide +kernel)

end Dxl.Props
