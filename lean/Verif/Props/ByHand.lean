import Verif.Lemmas.ByHand

/-! # C98: using the serial port by hand

`serial_port()` gives access to the port. "In general, it should be safe to read and write to the bus manually in between
instructions, if the response from the motors has already been received", `src/client.rs:109-117`, `src/device.rs:111-120`. -/

namespace Dxl.Props
open Spec

/-! ## What is left on the line -/

theorem byHand_future {p p' : Port} (h : ByHand p p') (hd : ∀ e ∈ p.rx, ∃ t bs, e = .data t bs) :
    SameFuture p.rx p' ∧ p'.discardIsNoop = p.discardIsNoop ∧ p.now ≤ p'.now := by
  induction h with
  | nothing => exact ⟨⟨hd, fun _ _ => rfl⟩, rfl, Nat.le_refl _⟩
  | wait _ d ih =>
    obtain ⟨h1, h2, h3⟩ := ih
    exact ⟨⟨h1.1, fun T hT => h1.2 T (by dsimp only at hT; omega)⟩, h2, by dsimp only; omega⟩
  | @read q _ cap D ih =>
    obtain ⟨h1, h2, h3⟩ := ih
    rcases e : Port.read cap D q with ⟨q', o⟩
    have hk := kept_sameFuture p.rx e h1
    refine ⟨hk, ?_⟩
    unfold Port.read at e
    dsimp only at e
    split at e
    · cases e; exact ⟨h2, h3⟩
    · rename_i hD
      have hD : q.now ≤ D := Nat.le_of_not_lt hD
      split at e
      · split at e <;> cases e
        · exact ⟨h2, Nat.le_trans h3 hD⟩
        · exact ⟨h2, h3⟩
      · split at e
        · split at e <;> cases e <;> exact ⟨h2, Nat.le_trans h3 (Nat.le_max_left _ _)⟩
        · cases e; exact ⟨h2, Nat.le_trans h3 hD⟩
      · split at e <;> cases e
        · exact ⟨h2, Nat.le_trans h3 (Nat.le_max_left _ _)⟩
        · exact ⟨h2, Nat.le_trans h3 hD⟩
  | @write q _ bytes ih =>
    obtain ⟨h1, h2, h3⟩ := ih
    unfold Port.writeAll
    split
    · exact ⟨⟨h1.1, fun T hT => h1.2 T (by dsimp only at hT; omega)⟩, h2, by dsimp only; omega⟩
    · exact ⟨⟨h1.1, fun T hT => h1.2 T (by dsimp only at hT; omega)⟩, h2, by dsimp only; omega⟩
    · exact ⟨h1, h2, h3⟩
  | @discard q _ ih =>
    obtain ⟨h1, h2, h3⟩ := ih
    have key : (∀ e ∈ q.dropArrived, ∃ t bs, e = .data t bs) ∧ ∀ T, q.now ≤ T → notYetArrived T q.dropArrived = notYetArrived T p.rx := by
      rw [← newInput_eq]
      unfold newInput
      split
      · exact h1
      · exact ⟨fun e he => h1.1 e (List.mem_filter.mp he).1, fun T hT => by rw [notYetArrived_twice hT]; exact h1.2 T hT⟩
    unfold Port.discardInputBuffer
    split
    · exact ⟨h1, h2, h3⟩
    · exact ⟨key, h2, h3⟩
    · exact ⟨key, h2, h3⟩

theorem filter_notYet {T : Nat} {rx : List RxEvent} {keep : RxEvent → Bool}
    (h : ∀ e ∈ rx, keep e = false → ∃ t bs, e = .data t bs ∧ t ≤ T) : notYetArrived T (rx.filter keep) = notYetArrived T rx := by
  unfold notYetArrived
  rw [List.filter_filter]
  refine List.filter_congr fun e he => ?_
  cases hk : keep e with
  | true => simp
  | false =>
    obtain ⟨t, bs, rfl, ht⟩ := h e he hk
    simp
    omega

theorem byHand_alike {b : Bus} {p' : Port} (h : ByHand b.serialPort p') (hd : ∀ e ∈ b.serialPort.rx, ∃ t bs, e = .data t bs)
    (hn : b.serialPort.discardIsNoop = false) {keep : RxEvent → Bool}
    (hk : ∀ t bs, .data t bs ∈ b.serialPort.rx → keep (.data t bs) = false → t ≤ p'.now) :
    Alike { b with serialPort := p' } ({ b with serialPort := p' }.receiving (b.serialPort.rx.filter keep)) := by
  obtain ⟨h1, h2, -⟩ := byHand_future h hd
  refine ⟨_, rfl, ?_⟩
  have e1 : p'.discardIsNoop = false := h2.trans hn
  unfold newInput Bus.receiving
  dsimp only
  rw [e1, if_neg (by decide), if_neg (by decide), filter_notYet fun e he hke => ?_, h1.2 _ (Nat.le_refl _)]
  obtain ⟨t, bs, rfl⟩ := hd e he
  exact ⟨t, bs, rfl, hk t bs he hke⟩

/-! ## The theorems -/

/-- **C98** Somebody used the port by hand. A call that sends an instruction first does the same as if nothing had been read by
hand, and as if any part of what arrived until then (such as answers to instructions that were sent by hand) had never been
received: the outcome is the same, and when it has sent something everything is the same. -/
theorem c98_by_hand {ε α : Type} {m : SO Bus ε α} (hm : Instructs m) {b : Bus} {p' : Port} (h : ByHand b.serialPort p')
    (hd : ∀ e ∈ b.serialPort.rx, ∃ t bs, e = .data t bs) (hn : b.serialPort.discardIsNoop = false) (keep : RxEvent → Bool)
    (hk : ∀ t bs, .data t bs ∈ b.serialPort.rx → keep (.data t bs) = false → t ≤ p'.now) :
    let used : Bus := { b with serialPort := p' }
    let unused := used.receiving (b.serialPort.rx.filter keep)
    (m unused).2 = (m used).2 ∧ (m unused = m used ∨ Unsent used (m used).1) := by
  intro used unused
  rcases instructs_sends hm _ _ (byHand_alike h hd hn hk) with e | ⟨h1, -, h3⟩
  · exact ⟨congrArg Prod.snd e, .inl e⟩
  · exact ⟨h1, .inr h3⟩

/-- **C98** For any encoder: a packet that is sent makes the two clients the same, so that they are the same from then on. -/
theorem c98_sent {b : Bus} {p' : Port} (h : ByHand b.serialPort p') (hd : ∀ e ∈ b.serialPort.rx, ∃ t bs, e = .data t bs)
    (hn : b.serialPort.discardIsNoop = false) (keep : RxEvent → Bool)
    (hk : ∀ t bs, .data t bs ∈ b.serialPort.rx → keep (.data t bs) = false → t ≤ p'.now)
    (id instr : Byte) (n : Nat) (enc : Encoder) :
    let used : Bus := { b with serialPort := p' }
    let unused := used.receiving (b.serialPort.rx.filter keep)
    (Bus.writePacket id instr n enc unused).2 = (Bus.writePacket id instr n enc used).2 ∧
    ((Bus.writePacket id instr n enc used).2 = .ok () → Bus.writePacket id instr n enc unused = Bus.writePacket id instr n enc used) := by
  intro used unused
  rcases opens_writePacket id instr n enc _ _ (byHand_alike h hd hn hk) with e | ⟨h1, -, -, h4⟩
  · exact ⟨congrArg Prod.snd e, fun _ => e⟩
  · exact ⟨h1, fun ho => absurd ho (h4 ())⟩

/-- Any number of calls with the same outcomes, and the same calls of the port. -/
def SameOutcomes (b c : Bus) : List BusCall → Prop
  | [] => c.serialPort.log = b.serialPort.log
  | m :: rest => (m.run c).2 = (m.run b).2 ∧ SameOutcomes (m.run b).1 (m.run c).1 rest

/-- **C98** Any number of such calls. -/
theorem c98_session {b : Bus} {p' : Port} (h : ByHand b.serialPort p') (hd : ∀ e ∈ b.serialPort.rx, ∃ t bs, e = .data t bs)
    (hn : b.serialPort.discardIsNoop = false) (keep : RxEvent → Bool)
    (hk : ∀ t bs, .data t bs ∈ b.serialPort.rx → keep (.data t bs) = false → t ≤ p'.now)
    (calls : List BusCall) (hm : ∀ m ∈ calls, Instructs m.run) :
    SameOutcomes { b with serialPort := p' } ({ b with serialPort := p' }.receiving (b.serialPort.rx.filter keep)) calls := by
  have key : ∀ (calls : List BusCall) (b c : Bus), (∀ m ∈ calls, Instructs m.run) → Alike b c → SameOutcomes b c calls := by
    intro calls
    induction calls with
    | nil => rintro b c - ⟨r, rfl, -⟩; rfl
    | cons m rest ih =>
      intro b c hm hbc
      rcases instructs_sends (hm m List.mem_cons_self) b c hbc with e | ⟨h1, h2, -⟩
      · exact ⟨by rw [e], ih _ _ (fun x hx => hm x (List.mem_cons_of_mem _ hx)) ⟨_, by rw [e]; rfl, by rw [e]⟩⟩
      · exact ⟨h1, ih _ _ (fun x hx => hm x (List.mem_cons_of_mem _ hx)) h2⟩
  exact key calls _ _ hm (byHand_alike h hd hn hk)

/-- **C98** What a call that only listens gets after `bs` were read by hand: the bytes in the read buffer are not skipped, so that
`bs` are missing behind them. -/
theorem c98_lost {b : Bus} {p' : Port} {cap D : Nat} {bs : List Byte} (h : Port.read cap D b.serialPort = (p', .ok bs))
    {T : Nat} (hT : p'.now ≤ T) :
    stream T b = b.pending ++ bs ++ arriving T p'.rx ∧
    stream T { b with serialPort := p' } = b.pending ++ arriving T p'.rx := by
  have h0 : b.serialPort.now ≤ p'.now := by
    simp only [Port.read] at h
    split at h
    · cases h
    · split at h
      · split at h <;> cases h
      · split at h
        · split at h <;> cases h <;> exact Nat.le_max_left _ _
        · cases h
      · split at h <;> cases h
  rw [stream_eq (Nat.le_trans h0 hT), stream_eq (show ({ b with serialPort := p' } : Bus).serialPort.now ≤ T from hT),
    Port.read_arriving h hT, List.append_assoc]
  exact ⟨rfl, rfl⟩

/-! ## Examples

A ping of motor 3 is sent by hand, and its answer comes at time 5; at time 20 the answer of motor 7 to a ping arrives. -/

/-- The client before the port is used. -/
def handBus : Bus :=
  { quietBus true 16 with serialPort := { quietPort with rx :=
      [.data 5 (frame 3#8 [0x55#8, 0#8, 0x06#8, 0x04#8, 0x26#8]), .data 20 (frame 7#8 [0x55#8, 0#8, 0x06#8, 0x04#8, 0x26#8])] } }

/-- The ping is written by hand, 6 bytes of the answer are read by hand. -/
def handPort : Port := (Port.read 6 30 (Port.writeAll (frame 3#8 [1#8]) handBus.serialPort).1).1

theorem handPort_used : ByHand handBus.serialPort handPort := .read (.write .nothing _) 6 30

theorem hand_data : ∀ e ∈ handBus.serialPort.rx, ∃ t bs, e = .data t bs := by
  intro e he
  simp only [handBus, List.mem_cons, List.not_mem_nil, or_false] at he
  rcases he with rfl | rfl <;> exact ⟨_, _, rfl⟩

/-- Without the answer to the ping. -/
def notThree : RxEvent → Bool
  | .data t _ => t != 5
  | .fail _ _ => true

theorem hand_kept : ∀ t bs, .data t bs ∈ handBus.serialPort.rx → notThree (.data t bs) = false → t ≤ handPort.now := by
  intro t bs _ h
  have : t = 5 := by simpa [notThree] using h
  subst this
  decide +kernel

/-- The rest of the answer to the ping by hand is on the line; the client does not take it for its own. -/
example : handPort.now = 5 ∧ handPort.rx.length = 2 ∧
    (Client.ping 7#8 { handBus with serialPort := handPort }).2 = .ok ⟨7#8, false, ⟨0x0406#16, 0x26#8⟩⟩ ∧
    (Client.ping 7#8 ({ handBus with serialPort := handPort }.receiving (handBus.serialPort.rx.filter notThree))).2 =
      .ok ⟨7#8, false, ⟨0x0406#16, 0x26#8⟩⟩ := by decide +kernel
/-- When the answer to the ping by hand is not received before the call, it is taken for the answer to the call. -/
example : (Client.ping 7#8 { handBus with serialPort := (Port.writeAll (frame 3#8 [1#8]) handBus.serialPort).1 }).2 =
    .err (.readError (.invalidMessage (.packetId 3#8 7#8))) := by decide +kernel

example := c98_by_hand (.ping 7#8) handPort_used hand_data rfl notThree hand_kept
example := c98_by_hand (.ping 7#8) handPort_used hand_data rfl (fun _ => true) (by simp)
example := c98_sent handPort_used hand_data rfl notThree hand_kept 7#8 1#8 0 .nothing
example : (Bus.writePacket 7#8 1#8 0 .nothing { handBus with serialPort := handPort }).2 = .ok () := by decide +kernel
example := c98_session handPort_used hand_data rfl notThree hand_kept [⟨Client.ping 7#8⟩, ⟨Client.setBaudRate 9600⟩, ⟨Client.ping 3#8⟩] (by
  intro m hm
  simp only [List.mem_cons, List.not_mem_nil, or_false] at hm
  rcases hm with rfl | rfl | rfl
  · exact .ping _
  · exact .setBaudRate _
  · exact .ping _)
/-- A client with three unread bytes. -/
def handBuffered : Bus := { handBus with readBuffer := [1#8, 2#8, 3#8] ++ List.replicate 17 0#8, readLen := 3 }
example := c98_lost (b := handBuffered) (cap := 6) (D := 30) (p' := (Port.read 6 30 handBuffered.serialPort).1)
  (bs := [0xFF#8, 0xFF#8, 0xFD#8, 0#8, 3#8, 7#8]) (by decide +kernel) (T := 30) (by decide +kernel)

end Dxl.Props
