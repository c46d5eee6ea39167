import Verif.Props.Shifted

/-! # C99: asking all motors with a call for one motor

"This function will not work correctly if the motor ID is set to `packet_id::BROADCAST`", `src/instructions/ping.rs:43`,
`src/instructions/read.rs:24, 38`. -/

namespace Dxl.Props
open Spec

/-- A ping or a read of the broadcast ID. -/
inductive AsksAll : LateCall → Prop
  | ping (writing : Nat) : AsksAll ⟨_, _, _, _, writing, .ping 0xFE#8⟩
  | readBytes (address count : U16) (writing : Nat) : AsksAll ⟨_, _, _, _, writing, .readBytes 0xFE#8 address count⟩
  | read {α : Type} {d : DataTy α} {valid : α → Prop} {f : α → List Byte} (hd : ImplData d valid f) (address : U16) (writing : Nat) :
      AsksAll ⟨_, _, _, _, writing, .read hd 0xFE#8 address⟩

/-- What is said of an answer of a motor to all. -/
def notForAll (a : LateAnswer) : ReadError :=
  if a.error.toNat % 128 ≠ 0 then .motorError ⟨a.error⟩ else .invalidMessage (.packetId a.sender 0xFE#8)

theorem AsksAll.takes {c : LateCall} (hc : AsksAll c) {a : LateAnswer} (ha : a.sender ≠ 0xFE#8) {o : Outcome TransferError c.Result}
    (h : c.Takes a o) : o = .err (.readError (notForAll a)) := by
  unfold LateCall.Takes at h
  unfold notForAll
  by_cases he : a.error.toNat % 128 ≠ 0
  · rw [if_pos he] at h ⊢
    exact h
  · rw [if_neg he] at h ⊢
    cases hc with
    | ping =>
      obtain ⟨v, -, rfl⟩ := h
      unfold answer
      rw [if_neg he, if_pos ha]
    | readBytes =>
      rw [show o = _ from h]
      unfold answer
      rw [if_neg he, if_pos ha]
    | read =>
      obtain ⟨v, -, rfl⟩ := h
      unfold answer
      rw [if_neg he, if_pos ha]

/-- **C99** A ping or read of the broadcast ID which motors answer one after the other: it ends with an error as soon as the first
answer is complete. The other answers stay on the line. -/
theorem c99_first {c : LateCall} (hc : AsksAll c) {durations : List Nat} {a : LateAnswer} {answers : List LateAnswer} {b : Bus}
    (h : Between (c.writing :: durations) ((a :: answers).flatMap LateAnswer.events) b) (hroom : Room b (c.body.length - 1))
    (ha : a.Valid b.readBuffer.length) (hs : a.sender ≠ 0xFE#8)
    (hin : ∀ p ∈ a.pieces, p.1 ≤ b.serialPort.now + c.writing + responseWait b.baudRate c.expected)
    (hlater : ∀ a' ∈ answers, ∀ p ∈ a'.pieces, a.complete (b.serialPort.now + c.writing) < p.1) :
    (c.run b).2 = .err (.readError (notForAll a)) ∧
      (c.run b).1.serialPort.now = a.complete (b.serialPort.now + c.writing) ∧
      Between durations (answers.flatMap LateAnswer.events) (c.run b).1 := by
  obtain ⟨h1, h2, -, -, -, h6⟩ := c95_call h hroom ha hin hlater
  exact ⟨hc.takes hs h1, h2, h6⟩

/-- **C99** Calls made right after it take the answers of the other motors for their own, one each, whatever they ask for. -/
theorem c99_follow {c : LateCall} (hc : AsksAll c) {calls : List LateCall} {a : LateAnswer} {answers : List LateAnswer} {b : Bus}
    (h : Between (c.writing :: calls.map LateCall.writing) ((a :: answers).flatMap LateAnswer.events) b)
    (hroom : ∀ c' ∈ c :: calls, Room b (c'.body.length - 1)) (hv : ∀ a' ∈ a :: answers, a'.Valid b.readBuffer.length)
    (hs : a.sender ≠ 0xFE#8)
    (ho : OneBehind b.serialPort.now ((c :: calls).map (LateCall.times b.baudRate)) (a :: answers)) :
    (c.run b).2 = .err (.readError (notForAll a)) ∧ Take (c.run b).1 calls answers := by
  obtain ⟨h1, -, h3⟩ := c95_follow (calls := c :: calls) h hroom hv ho
  exact ⟨hc.takes hs h1, h3⟩

/-- **C99** After a pause until the other answers have come, they do no harm: the next call takes the next answer, as soon as it is
complete. -/
theorem c99_pause {c next : LateCall} (hc : AsksAll c) {durations : List Nat} {a own : LateAnswer} {answers later : List LateAnswer}
    {b : Bus} {pause : Nat}
    (h : Between (c.writing :: next.writing :: durations) ((a :: (answers ++ own :: later)).flatMap LateAnswer.events) b)
    (hroom : Room b (c.body.length - 1)) (hroom' : Room b (next.body.length - 1))
    (ha : a.Valid b.readBuffer.length) (hown : own.Valid b.readBuffer.length) (hs : a.sender ≠ 0xFE#8)
    (hin : ∀ p ∈ a.pieces, p.1 ≤ b.serialPort.now + c.writing + responseWait b.baudRate c.expected)
    (hothers : ∀ a' ∈ answers, ∀ p ∈ a'.pieces, a.complete (b.serialPort.now + c.writing) < p.1 ∧
      p.1 ≤ a.complete (b.serialPort.now + c.writing) + pause)
    (hnext : ∀ p ∈ own.pieces, a.complete (b.serialPort.now + c.writing) + pause < p.1 ∧
      p.1 ≤ a.complete (b.serialPort.now + c.writing) + pause + next.writing + responseWait b.baudRate next.expected)
    (hlater : ∀ a' ∈ later, ∀ p ∈ a'.pieces, own.complete (a.complete (b.serialPort.now + c.writing) + pause + next.writing) < p.1) :
    (c.run b).2 = .err (.readError (notForAll a)) ∧
      next.Takes own (next.run (paused pause (c.run b).1)).2 ∧
      (next.run (paused pause (c.run b).1)).1.serialPort.now =
        own.complete (a.complete (b.serialPort.now + c.writing) + pause + next.writing) := by
  have hge := complete_ge own (a.complete (b.serialPort.now + c.writing) + pause + next.writing)
  have hafter : ∀ a' ∈ own :: later, ∀ p ∈ a'.pieces, a.complete (b.serialPort.now + c.writing) + pause < p.1 := by
    intro a' ha' p hp
    rcases List.mem_cons.mp ha' with rfl | ha'
    · exact (hnext p hp).1
    · have := hlater a' ha' p hp
      omega
  obtain ⟨h1, h2, h3, h4, h5, h6⟩ := c95_call h hroom ha hin fun a' ha' p hp => by
    rcases List.mem_append.mp ha' with ha' | ha'
    · exact (hothers a' ha' p hp).1
    · have := hafter a' ha' p hp
      omega
  have hpa := h6.paused (pause := pause) (fun a' ha' p hp => by rw [h2]; exact (hothers a' ha' p hp).2)
    (fun a' ha' p hp => by rw [h2]; exact hafter a' ha' p hp)
  have e1 : (paused pause (c.run b).1).serialPort.now = a.complete (b.serialPort.now + c.writing) + pause := by
    show (c.run b).1.serialPort.now + pause = _
    rw [h2]
  have e2 : (paused pause (c.run b).1).baudRate = b.baudRate := h5
  have e3 : (paused pause (c.run b).1).readBuffer.length = b.readBuffer.length := h4
  obtain ⟨k1, k2, -⟩ := c95_call (c := next) (a := own) (answers := later) hpa
    (by unfold Room at hroom' ⊢; rwa [show (paused pause (c.run b).1).writeBuffer.length = b.writeBuffer.length from h3])
    (by rw [e3]; exact hown) (by rw [e1, e2]; exact fun p hp => (hnext p hp).2) (by rw [e1]; exact hlater)
  rw [e1] at k2
  exact ⟨hc.takes hs h1, k1, k2⟩

/-- **C99** In particular, a read of three bytes of the motor whose answer comes next returns what that said to the ping, as if it
was in its memory. -/
theorem c99_wrong_value {c : LateCall} (hc : AsksAll c) {durations : List Nat} {a a' : LateAnswer} {answers : List LateAnswer} {b : Bus}
    {address count : U16} {writing : Nat}
    (h : Between (c.writing :: writing :: durations) ((a :: a' :: answers).flatMap LateAnswer.events) b)
    (hroom : Room b (c.body.length - 1)) (hroom' : Room b 4)
    (hv : ∀ x ∈ a :: a' :: answers, x.Valid b.readBuffer.length) (hs : a.sender ≠ 0xFE#8)
    (hin : ∀ p ∈ a.pieces, p.1 ≤ b.serialPort.now + c.writing + responseWait b.baudRate c.expected)
    (hin' : ∀ p ∈ a'.pieces, a.complete (b.serialPort.now + c.writing) < p.1 ∧
      p.1 ≤ a.complete (b.serialPort.now + c.writing) + writing + responseWait b.baudRate count.toNat)
    (hlater : ∀ x ∈ answers, ∀ p ∈ x.pieces, a'.complete (a.complete (b.serialPort.now + c.writing) + writing) < p.1)
    (he : a'.error.toNat % 128 = 0) (hl : a'.params.length = count.toNat) :
    (c.run b).2 = .err (.readError (notForAll a)) ∧
      (Client.readBytes a'.sender address count (c.run b).1).2 = .ok ⟨a'.sender, decide (128 ≤ a'.error.toNat), a'.params⟩ := by
  have hge := complete_ge a' (a.complete (b.serialPort.now + c.writing) + writing)
  obtain ⟨h1, h2, h3, h4, h5, h6⟩ := c95_call h hroom (hv a List.mem_cons_self) hin fun x hx p hp => by
    rcases List.mem_cons.mp hx with rfl | hx
    · exact (hin' p hp).1
    · have := hlater x hx p hp
      omega
  obtain ⟨k1, -⟩ := c95_call (c := ⟨_, _, _, _, writing, .readBytes a'.sender address count⟩) h6
    (by rw [show (Request.read address count).body.length - 1 = 4 from rfl]; unfold Room at hroom' ⊢; rw [h3]; exact hroom')
    (by rw [h4]; exact hv a' (by simp))
    (by rw [h2, h5]; exact fun p hp => (hin' p hp).2) (by rw [h2]; exact hlater)
  refine ⟨hc.takes hs h1, ?_⟩
  unfold LateCall.Takes at k1
  rw [if_neg (by omega)] at k1
  have k1 : (Client.readBytes a'.sender address count (c.run b).1).2 = _ := k1
  rw [k1]
  unfold answer
  rw [if_neg (by omega), if_neg (by simp), if_neg (by omega)]

/-! ## Examples -/

/-- Three motors answer a ping; later one answers a read. -/
def allAnswers : List LateAnswer :=
  [whole 1000000 1#8 0#8 [6#8, 4#8, 38#8], whole 2000000 2#8 0#8 [6#8, 4#8, 38#8], whole 3000000 3#8 0x84#8 [6#8, 4#8, 38#8]]

theorem all_valid : ∀ a ∈ allAnswers ++ [whole 9000000 2#8 0#8 [5#8, 6#8]], a.Valid 20 := by
  intro a ha
  simp only [allAnswers, List.cons_append, List.nil_append, List.mem_cons, List.not_mem_nil, or_false] at ha
  rcases ha with rfl | rfl | rfl | rfl <;> exact whole_valid (by decide +kernel) (by decide) (by decide)

/-- The calls after the ping. -/
def allCalls : List LateCall :=
  [lateRead 2#8 100#16 3#16, ⟨_, _, _, _, 0, .write (w := .reboot) .reboot (id := 3#8) (by decide)⟩, lateRead 2#8 100#16 2#16]

example : (Client.ping 0xFE#8 (lateBus allAnswers)).2 = .err (.readError (.invalidMessage (.packetId 1#8 0xFE#8))) ∧
    (Client.readBytes 2#8 100#16 3#16 (Client.ping 0xFE#8 (lateBus allAnswers)).1).2 = .ok ⟨2#8, false, [6#8, 4#8, 38#8]⟩ := by
  decide +kernel
example := c99_first (.ping 0) (b := lateBus allAnswers) (durations := [0, 0, 0]) (a := allAnswers[0]) (answers := allAnswers.tail)
  (lateBus_between (by decide +kernel)) ⟨by decide, by decide⟩ (all_valid _ (by simp [allAnswers])) (by decide) (by decide +kernel)
  (by decide +kernel)
example := c99_first (.readBytes 100#16 3#16 0) (b := lateBus allAnswers) (durations := [0, 0, 0]) (a := allAnswers[0])
  (answers := allAnswers.tail) (lateBus_between (by decide +kernel)) ⟨by decide, by decide⟩ (all_valid _ (by simp [allAnswers])) (by decide)
  (by decide +kernel) (by decide +kernel)
example := c99_follow (.ping 0) (b := lateBus (allAnswers ++ [whole 9000000 2#8 0#8 [5#8, 6#8]])) (calls := allCalls) (a := allAnswers[0])
  (answers := allAnswers.tail ++ [whole 9000000 2#8 0#8 [5#8, 6#8]]) (lateBus_between (by decide +kernel)) (by
    intro c hc
    simp only [allCalls, List.mem_cons, List.not_mem_nil, or_false] at hc
    rcases hc with rfl | rfl | rfl | rfl <;> exact ⟨by decide, by decide⟩) all_valid (by decide)
  ⟨by decide +kernel, by decide +kernel, by decide +kernel, by decide +kernel, fun a ha => nomatch ha⟩
example := c99_wrong_value (.ping 0) (b := lateBus (allAnswers ++ [])) (durations := [0, 0]) (a := allAnswers[0]) (a' := allAnswers[1])
  (answers := [allAnswers[2]]) (address := 100#16) (count := 3#16) (lateBus_between (by decide +kernel)) ⟨by decide, by decide⟩
  ⟨by decide, by decide⟩ (fun x hx => all_valid x (List.mem_append_left _ hx)) (by decide) (by decide +kernel) (by decide +kernel)
  (by decide +kernel) (by decide) (by decide)
example := c99_pause (.ping 0) (b := lateBus (allAnswers ++ [whole 9000000 2#8 0#8 [5#8, 6#8]])) (next := lateRead 2#8 100#16 2#16)
  (pause := 4000000) (durations := [0, 0]) (a := allAnswers[0]) (own := whole 9000000 2#8 0#8 [5#8, 6#8]) (answers := allAnswers.tail)
  (later := []) (lateBus_between (by decide +kernel)) ⟨by decide, by decide⟩ ⟨by decide, by decide⟩ (all_valid _ (by simp [allAnswers]))
  (all_valid _ (by simp)) (by decide) (by decide +kernel) (by decide +kernel) (by decide +kernel) (by decide)

end Dxl.Props
