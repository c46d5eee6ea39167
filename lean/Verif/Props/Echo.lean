import Verif.Props.Shifted
import Verif.Props.DeviceCalls
import Verif.Lemmas.MotorThread

/-! # C97: a line on which everything that is sent comes back

Many adapters for half-duplex lines receive what they send. -/

namespace Dxl.Props
open Dxl Spec

/-! ## Definitions -/

/-- Between `b` and `c` the input was discarded, `f` was written, and after that there were only reads. -/
def Puts (b c : Bus) (f : List Byte) : Prop :=
  ∃ reads, c.serialPort.log = b.serialPort.log ++ [.discard true, .write f true] ++ reads ∧ ∀ call ∈ reads, ∃ cap D, call = .read cap D

/-- When the pieces of something come out of the serial port. -/
abbrev Pieces := List (Nat × List Byte)

/-- The bytes. -/
def Pieces.bytes (e : Pieces) : List Byte := e.flatMap (·.2)

def Pieces.events (e : Pieces) : List RxEvent := e.map fun p => .data p.1 p.2

/-- When all pieces are there. -/
def Pieces.complete (start : Nat) (e : Pieces) : Nat := e.foldl (fun t p => max t p.1) start

/-- A call that is made after a pause, when the pieces of what it sends come back, and what comes after that. -/
structure EchoCall where
  pause : Nat
  call : LateCall
  echo : Pieces
  answers : List LateAnswer

/-- Everything that comes, in order; of a `LateAnswer` only the pieces matter here. -/
def EchoCall.comes (e : EchoCall) : List LateAnswer := ⟨0#8, 0#8, [], [], e.echo⟩ :: e.answers

/-- When things come, from `now` on: what is `left` of earlier calls in the pause, then the echo in the time of the call, and the
answers only after it. -/
def EchoTimes (baud : Nat) : (now : Nat) → (left : List LateAnswer) → List EchoCall → Prop
  | _, _, [] => True
  | now, left, e :: es =>
    (∀ a ∈ left, ∀ p ∈ a.pieces, p.1 ≤ now + e.pause) ∧
    (∀ p ∈ e.echo, now + e.pause < p.1 ∧ p.1 ≤ now + e.pause + e.call.writing + responseWait baud e.call.expected) ∧
    (∀ a ∈ e.answers, ∀ p ∈ a.pieces, e.echo.complete (now + e.pause + e.call.writing) < p.1) ∧
    EchoTimes baud (e.echo.complete (now + e.pause + e.call.writing)) e.answers es

/-- What comes back of each call is what it sends; and the packets fit into the buffers. -/
def Echoed : Bus → List EchoCall → Prop
  | _, [] => True
  | b, e :: es => Puts (paused e.pause b) (e.call.run (paused e.pause b)).1 e.echo.bytes ∧ (∀ p ∈ e.echo, p.2 ≠ []) ∧
      e.echo.bytes.length ≤ b.readBuffer.length ∧ Room b (e.call.body.length - 1) ∧ Echoed (e.call.run (paused e.pause b)).1 es

/-- Each of the calls fails: it takes its own instruction for the answer. -/
def AllFail : Bus → List EchoCall → Prop
  | _, [] => True
  | b, e :: es => (∃ instr, e.call.body.head? = some instr ∧
      (e.call.run (paused e.pause b)).2 = .err (.readError (.invalidMessage (.instruction instr 0x55#8)))) ∧
      AllFail (e.call.run (paused e.pause b)).1 es

/-! ## Lemmas -/

/-- A packet with this instruction, in pieces. -/
structure Framed (cap : Nat) (instr : Byte) (params : List Byte) (a : LateAnswer) : Prop where
  whole : a.pieces.flatMap (·.2) = frame a.sender a.wire
  pieces : ∀ p ∈ a.pieces, p.2 ≠ []
  means : Unstuffs a.wire (instr :: params)
  short : a.wire.length + 2 < 2 ^ 16
  fits : (frame a.sender a.wire).length ≤ cap

/-- Waiting for a packet, while this one comes: it is taken, and nothing else. -/
theorem read_takes_packet {durations : List Nat} {a : LateAnswer} {more : List RxEvent} {b : Bus} {D : Nat} {instr : Byte} {params : List Byte}
    (hi : InLoop durations (a.events ++ more) b) (ha : Framed b.readBuffer.length instr params a) (hnow : b.serialPort.now ≤ D)
    (hin : ∀ p ∈ a.pieces, p.1 ≤ D) :
    (Bus.readPacketDeadline D b).1.serialPort.now = a.complete b.serialPort.now ∧ Bus.Like b (Bus.readPacketDeadline D b).1 ∧
      InLoop durations more (Bus.readPacketDeadline D b).1 ∧ stream D b = frame a.sender a.wire ++ arriving D more := by
  obtain ⟨g1, g2⟩ := complete_ge a b.serialPort.now
  have g3 := complete_le a hnow hin
  have hsD : stream D b = frame a.sender a.wire ++ arriving D more := by
    rw [hi.comes D hnow, arriving_pieces hin, ha.whole]
  have hwait := waited_read hi.rinv hnow
  have hcons := fun T => read_consumes (T := T) (g := []) hi.rinv hnow (by decide) ha.short ha.fits ha.means (by rw [hsD]; rfl)
  have hends := c85_packet hi.rinv hi.room hnow
  have hk1 := Bus.read_kept (kept_smoothly durations) D hi.rinv hi.smooth
  have hk2 := Bus.read_kept (kept_sameFuture (a.events ++ more)) D hi.rinv ⟨hi.smooth.calm.2, hi.later⟩
  generalize (Bus.readPacketDeadline D b).1 = c at hwait hcons hends hk1 hk2
  have hset : ∀ T, b.serialPort.now ≤ T → (Settled b.readBuffer.length b.pending b.serialPort.rx b.serialPort.tail T ↔
      parse b.readBuffer.length (arriving T (a.events ++ more)) ≠ .more) := by
    intro T hT
    unfold Settled
    rw [← stream_eq hT, hi.comes T hT]
    refine or_iff_left ?_
    rw [hi.smooth.calm.1]
    exact calm_not_fails hi.smooth.calm.2 T
  have hdone : c.serialPort.now = a.complete b.serialPort.now := by
    have hcomp : parse b.readBuffer.length (arriving (a.complete b.serialPort.now) (a.events ++ more)) ≠ .more := by
      rw [arriving_pieces g2, ha.whole]
      have := parse_good_frame (g := []) (rest := arriving (a.complete b.serialPort.now) more) a.sender (by decide) ha.short ha.fits
      rw [List.nil_append] at this
      rw [this]
      simp
    generalize c.serialPort.now = t at hends
    cases hends with
    | timeout k => exact absurd ((hset _ g1).mpr hcomp) (k _ g1 g3)
    | settled k1 k2 k3 k4 =>
      refine Nat.le_antisymm (k4 _ g1 ((hset _ g1).mpr hcomp)) (complete_le a k1 fun p hp => ?_)
      refine Nat.not_lt.mp fun hlt => ?_
      obtain ⟨⟨u, hu, he⟩, -⟩ := arriving_missing (T := t) ⟨p, hp, hlt⟩ ha.pieces more .silent
      exact (hset t k1).mp k3 (parse_missing hu (he.trans ha.whole) ha.short ha.fits)
  refine ⟨hdone, hwait.like, ⟨⟨?_, ?_⟩, hwait.rinv, ?_, ?_, ?_, hk1, fun T hT => ?_, fun T hT => ?_⟩, hsD⟩
  · rw [hwait.like.writeBuffer]; exact hi.winv.size
  · rw [hwait.like.writeBuffer]; exact hi.winv.prefix_eq
  · rw [hwait.like.baudRate]; exact hi.baud
  · rw [hwait.like.baudRate]; exact hi.baud0
  · rw [hwait.like.readSize]; exact hi.room
  · have e1 := hcons T hT
    have hp : ∀ p ∈ a.pieces, p.1 ≤ T := fun p hp => by have := g2 p hp; omega
    rw [hi.comes T (by have := hwait.now_le; omega), arriving_pieces hp, ha.whole, List.nil_append] at e1
    exact (List.append_cancel_left e1).symm
  · rw [hk2.2 T hT, notYetArrived_append, notYetArrived_none fun p hp => by have := g2 p hp; omega]
    rfl

theorem parse_framed {cap : Nat} {a : LateAnswer} {instr : Byte} {params : List Byte} (ha : Framed cap instr params a) (rest : List Byte) :
    parse cap (frame a.sender a.wire ++ rest) = .packet (frame a.sender a.wire) rest := by
  have := parse_good_frame (g := []) (rest := rest) a.sender (by decide) ha.short ha.fits
  rwa [List.nil_append] at this

/-- A stream that begins with an instruction does not make the code panic. -/
theorem instruction_not_deadly {b : Bus} {D : Nat} {a : LateAnswer} {instr : Byte} {params rest : List Byte} (hN : 10 ≤ b.readBuffer.length)
    (ha : Framed b.readBuffer.length instr params a) (hi : instr ≠ 0x55#8) (hs : stream D b = frame a.sender a.wire ++ rest) : ¬ Deadly b D := by
  rintro ⟨-, g, id, rest', hg, h⟩
  have hv : Verdict b.readBuffer.length (stream D b) .timedOut (.err (.invalidMessage (.instruction instr 0x55#8))) rest :=
    .instruction hN (by rw [hs]; exact parse_framed ha rest) ha.means hi
  rcases h with h | h
  · have hp := parse_good_frame (rest := rest') (wire := []) id hg (by decide) (cap := b.readBuffer.length) (by rw [Bus.frame_length]; simp; omega)
    rw [← List.append_assoc, ← h] at hp
    have := (c62_verdict_unique hv (.noInstruction hN hp)).1
    simp at this
  · have hp := parse_good_frame (rest := rest') (wire := [0x55#8]) id hg (by decide) (cap := b.readBuffer.length)
      (by rw [Bus.frame_length]; simp; omega)
    rw [← List.append_assoc, ← h] at hp
    have := (c62_verdict_unique hv (.noError hN hp ((unstuffs_iff _ _).2 (by decide +kernel)))).1
    simp at this

/-- A turn during which an instruction comes. -/
theorem Turn.instruction {α : Type} {b c : Bus} {D : Nat} {want : Option Byte} {count : Nat} {Value : α → List Byte → Prop}
    {x : Except ReadError (Response α)} (h : Turn b c D want count Value x) {a : LateAnswer} {instr : Byte} {params rest : List Byte}
    (hN : 10 ≤ b.readBuffer.length) (ha : Framed b.readBuffer.length instr params a) (hi : instr ≠ 0x55#8)
    (hs : stream D b = frame a.sender a.wire ++ rest) : x = .error (.invalidMessage (.instruction instr 0x55#8)) := by
  obtain ⟨v, left, hv, -, hx⟩ := h.decided
  have := (c62_verdict_unique hv (.instruction hN (by rw [hs]; exact parse_framed ha rest) ha.means hi)).1
  subst this
  exact hx

/-- Sending an instruction. -/
theorem sent_inLoop {id instr : Byte} {n writing : Nat} {enc : Encoder} {params : List Byte} {durations : List Nat} {future : List RxEvent}
    {b : Bus} (h : Between (writing :: durations) future b) (hroom : Room b n) (hp : Fills enc.run n params) :
    ∃ b₁ wire, Bus.writeInstruction id instr n enc b = (b₁, .ok ()) ∧ StuffedForm (instr :: params) wire ∧ wire.length + 2 < 2 ^ 16 ∧
      Sent b b₁ (frame id wire) ∧ InLoop durations future b₁ ∧ b₁.serialPort.now = b.serialPort.now + writing ∧
      b₁.writeBuffer.length = b.writeBuffer.length ∧ b₁.readBuffer.length = b.readBuffer.length ∧ b₁.baudRate = b.baudRate := by
  have hok : b.serialPort.SendOk := ⟨by rw [h.smooth.discard]; simp, by rw [h.smooth.writes]; simp⟩
  have hwt : b.serialPort.writeTime = writing := by unfold Port.writeTime; rw [h.smooth.writes]; rfl
  obtain ⟨b₁, hw⟩ := write_room (id := id) (instr := instr) h.winv hp hok hroom
  obtain ⟨params', wire, he, hl, hform, h3⟩ := afterSend h.winv hw
  obtain ⟨_, _, _, _, _, hb₁⟩ := Bus.writeInstruction_ok h.winv hw
  obtain rfl : params' = params := by
    have := hp _ hl
    rw [he] at this
    simpa using this
  have hkept : Bus.Kept b b₁ := by
    have := Bus.writePacket_kept id instr n enc h.winv
    rwa [show Bus.writePacket id instr n enc b = (b₁, .ok ()) from hw] at this
  have hrx : b₁.serialPort.rx = future := by rw [← h.future, newInput_eq, hb₁]; rfl
  have hlen : wire.length + 2 < 2 ^ 16 := by
    have h1 := codeStuff_length (instr :: params')
    have h2 := ncount_le_third (instr :: params').reverse
    have h4 := hp.length
    rw [stuffedForm_iff.mp hform]
    simp only [List.length_cons, List.length_reverse] at h1 h2
    obtain ⟨hr1, hr2⟩ := hroom
    omega
  refine ⟨b₁, wire, hw, hform, hlen, h3.sent, ?_, by rw [h3.now, hwt], hkept.writeLength, by rw [h3.readBuffer], h3.baudRate⟩
  refine ⟨hkept.wInv h.winv, h3.rinv, h3.baudRate ▸ h.baud, h3.baudRate ▸ h.baud0, h3.readBuffer ▸ h.room, ?_, ?_, ?_⟩
  · refine ⟨?_, ?_, ?_, ?_, ?_⟩
    · rw [hb₁]; show b.serialPort.discardRes.tail = []; rw [h.smooth.discard]; rfl
    · rw [hb₁]; exact h.smooth.noop
    · rw [hb₁]; show b.serialPort.writeRes.tail = _; rw [h.smooth.writes]; rfl
    · rw [← h.smooth.calm.1, hb₁]; rfl
    · intro e he
      exact h.smooth.calm.2 e (newInput_subset _ e (by rw [h.future, ← hrx]; exact he))
  · intro T hT
    rw [h3.stream T hT, h.future]
  · intro T _
    rw [hrx]

/-- What comes back is a packet with the instruction that was sent. -/
theorem framed_of_sent {instr id : Byte} {params wire : List Byte} {e : Pieces} {cap : Nat} (hform : StuffedForm (instr :: params) wire)
    (hlen : wire.length + 2 < 2 ^ 16) (hb : e.bytes = frame id wire) (hne : ∀ p ∈ e, p.2 ≠ []) (hfit : e.bytes.length ≤ cap) :
    ∃ params', Framed cap instr params' ⟨id, 0#8, [], wire, e⟩ := by
  obtain ⟨t, ht⟩ : ∃ t, wire = instr :: t := by
    rw [stuffedForm_iff.mp hform]
    exact codeStuff_cons instr params
  obtain ⟨params', hp⟩ := codeUnstuff_cons instr t
  exact ⟨params', hb, hne, (unstuffs_iff _ _).mpr (by rw [ht, hp]), hlen, hb ▸ hfit⟩

/-- None of the calls sends a status packet. -/
theorem SingleCall.instruction {α : Type} {m : SO Bus TransferError α} {body : List Byte} {exp : Nat}
    {means : Byte → Byte → List Byte → Outcome TransferError α → Prop} (h : SingleCall m body exp means) {instr : Byte} {params : List Byte}
    (hb : body = instr :: params) : instr ≠ 0x55#8 := by
  have key : ∀ q : Request, q.number ≠ 0x55#8 := fun q => by cases q <;> simp [Request.number]
  cases h with
  | readBytes | read | ping => obtain ⟨rfl, -⟩ := List.cons.inj hb; first | decide | exact key _
  | write hw hid => cases hw <;> (obtain ⟨rfl, -⟩ := List.cons.inj hb; first | decide | exact key _)

/-- What a call writes. -/
theorem call_puts {c : LateCall} {durations : List Nat} {future : List RxEvent} {b : Bus}
    (h : Between (c.writing :: durations) future b) (hroom : Room b (c.body.length - 1)) :
    ∃ id instr params wire b₁, c.body = instr :: params ∧ StuffedForm (instr :: params) wire ∧ wire.length + 2 < 2 ^ 16 ∧
      Puts b (c.run b).1 (frame id wire) ∧ InLoop durations future b₁ ∧ b₁.serialPort.now = b.serialPort.now + c.writing ∧
      b₁.readBuffer.length = b.readBuffer.length ∧
      (c.run b).1 = (Bus.readPacketDeadline (b.serialPort.now + c.writing + responseWait b.baudRate c.expected) b₁).1 := by
  obtain ⟨id, instr, params, n, enc, exp, hbody, hp, hexp, hst⟩ := c.is.shape
  have hn : c.body.length - 1 = n := by rw [hbody, ← hp.length]; rfl
  rw [hn] at hroom
  obtain ⟨b₁, wire, hw, hform, hlen, hsent, hi, hnow, h1, h2, h3⟩ := sent_inLoop (id := id) (instr := instr) h hroom hp
  have hstate := hst b b₁ hw
  rw [readStatusResponse_client hi.baud0 hi.baud, hnow, h3, hexp] at hstate
  refine ⟨id, instr, params, wire, b₁, hbody, hform, hlen, ?_, hi, hnow, h2, hstate⟩
  obtain ⟨calls, hc1, hc2⟩ := (waited_read hi.rinv (D := b.serialPort.now + c.writing + responseWait b.baudRate c.expected)
    (by rw [hnow]; omega)).calls
  rw [← hstate] at hc1
  exact ⟨calls, by rw [hc1, hsent], fun call hcall => by obtain ⟨cap, -, h⟩ := hc2 call hcall; exact ⟨cap, _, h⟩⟩

theorem puts_unique {b c : Bus} {f f' : List Byte} (h : Puts b c f) (h' : Puts b c f') : f = f' := by
  obtain ⟨r, h1, -⟩ := h
  obtain ⟨r', h2, -⟩ := h'
  rw [h1, List.append_assoc, List.append_assoc] at h2
  have := List.append_cancel_left h2
  simpa using And.left (List.cons.inj (List.cons.inj this).2)

/-- A packet that is too large. -/
theorem parse_large {id : Byte} {wire : List Byte} {cap : Nat} (hlen : wire.length + 2 < 2 ^ 16) (hfit : cap < (frame id wire).length)
    (rest : List Byte) : parse cap (frame id wire ++ rest) = .tooBig (frame id wire).length ((frame id wire).drop 7 ++ rest) := by
  have hl := Bus.frame_length id wire
  have h7 : ((frame id wire).take 7).length = 7 := by rw [List.length_take]; omega
  have hlf : Spec.lengthField ((frame id wire).take 7) = wire.length + 2 := by
    have := lengthField_append (t := (frame id wire).take 7) (u := (frame id wire).drop 7) (by omega)
    rw [List.take_append_drop, lengthField_frame] at this
    omega
  have := parse_big (cap := cap) (g := []) (hd := (frame id wire).take 7) (rest := (frame id wire).drop 7 ++ rest)
    (by decide) (by simp [frame, frameHead, header]) h7 (by rw [hlf]; omega)
    (by intro hn; have := congrArg List.length hn; simp at this; omega)
  rw [hlf, List.nil_append, ← List.append_assoc, List.take_append_drop] at this
  rw [this, hl]
  congr 1
  omega

/-! ## The claims -/

/-- **C97** A call for one motor on a line that echoes: it takes its own instruction for the answer, and fails as soon as that has
come back. The answer is not read. -/
theorem c97_call {c : LateCall} {durations : List Nat} {echo : Pieces} {answers : List LateAnswer} {b : Bus}
    (h : Between (c.writing :: durations) (echo.events ++ answers.flatMap LateAnswer.events) b) (hroom : Room b (c.body.length - 1))
    (hback : Puts b (c.run b).1 echo.bytes) (hne : ∀ p ∈ echo, p.2 ≠ []) (hfit : echo.bytes.length ≤ b.readBuffer.length)
    (hin : ∀ p ∈ echo, p.1 ≤ b.serialPort.now + c.writing + responseWait b.baudRate c.expected)
    (hlater : ∀ a ∈ answers, ∀ p ∈ a.pieces, echo.complete (b.serialPort.now + c.writing) < p.1) :
    (∃ instr, c.body.head? = some instr ∧ (c.run b).2 = .err (.readError (.invalidMessage (.instruction instr 0x55#8)))) ∧
      (c.run b).1.serialPort.now = echo.complete (b.serialPort.now + c.writing) ∧
      (c.run b).1.writeBuffer.length = b.writeBuffer.length ∧ (c.run b).1.readBuffer.length = b.readBuffer.length ∧
      (c.run b).1.baudRate = b.baudRate ∧ Between durations (answers.flatMap LateAnswer.events) (c.run b).1 := by
  obtain ⟨id, instr, params, wire, b₁, hbody, hform, hlen, hputs, hi, hnow, hcap, hstate⟩ := call_puts h hroom
  obtain ⟨params', ha⟩ := framed_of_sent hform hlen (puts_unique hback hputs) hne hfit
  have hne55 := c.is.instruction hbody
  obtain ⟨t, -, -, ⟨v, left, hv, ho⟩, h1, h2, h3, -⟩ := single_step h hroom
  obtain ⟨k1, k2, k3, k4⟩ := read_takes_packet (a := ⟨id, 0#8, [], wire, echo⟩) (more := answers.flatMap LateAnswer.events)
    (D := b.serialPort.now + c.writing + responseWait b.baudRate c.expected) hi (hcap ▸ ha) (by rw [hnow]; omega) hin
  rw [← hstate] at k1 k2 k3
  rw [hnow] at k1
  refine ⟨⟨instr, by rw [hbody]; rfl, ?_⟩, k1, h1, h2, h3, k3.between (by rw [k1]; exact hlater)⟩
  have hs : arriving (b.serialPort.now + c.writing + responseWait b.baudRate c.expected) (echo.events ++ answers.flatMap LateAnswer.events) =
      frame id wire ++ arriving (b.serialPort.now + c.writing + responseWait b.baudRate c.expected) (answers.flatMap LateAnswer.events) := by
    have := arriving_pieces (a := ⟨id, 0#8, [], wire, echo⟩) hin (answers.flatMap LateAnswer.events)
    rw [ha.whole] at this
    exact this
  have := (c62_verdict_unique hv (.instruction h.room (by rw [hs]; exact parse_framed ha _) ha.means hne55)).1
  subst this
  exact ho

/-- **C97** The same if the packet is too large for the read buffer: that is reported then. -/
theorem c97_call_large {c : LateCall} {durations : List Nat} {echo : Pieces} {later : List RxEvent} {b : Bus}
    (h : Between (c.writing :: durations) (echo.events ++ later) b) (hroom : Room b (c.body.length - 1))
    (hback : Puts b (c.run b).1 echo.bytes) (hfit : b.readBuffer.length < echo.bytes.length)
    (hin : ∀ p ∈ echo, p.1 ≤ b.serialPort.now + c.writing + responseWait b.baudRate c.expected) :
    (c.run b).2 = .err (.readError (.bufferFull ⟨echo.bytes.length, b.readBuffer.length⟩)) := by
  obtain ⟨id, instr, params, wire, b₁, hbody, hform, hlen, hputs, hi, hnow, hcap, hstate⟩ := call_puts h hroom
  have hb := puts_unique hback hputs
  obtain ⟨t, -, -, ⟨v, left, hv, ho⟩, h1, h2, h3, -⟩ := single_step h hroom
  have hs : arriving (b.serialPort.now + c.writing + responseWait b.baudRate c.expected) (echo.events ++ later) =
      frame id wire ++ arriving (b.serialPort.now + c.writing + responseWait b.baudRate c.expected) later := by
    have := arriving_pieces (a := ⟨id, 0#8, [], wire, echo⟩) hin later
    rw [show List.flatMap (fun p => p.2) echo = frame id wire from hb] at this
    exact this
  have hl := Bus.frame_length id wire
  rw [hb] at hfit
  have hbig := parse_large (id := id) (cap := b.readBuffer.length) hlen hfit
    (arriving (b.serialPort.now + c.writing + responseWait b.baudRate c.expected) later)
  have := (c62_verdict_unique hv (.tooBig h.room (by rw [hs]; exact hbig))).1
  subst this
  rw [ho, hb]

theorem echoTimes_later {baud : Nat} : ∀ {es : List EchoCall} {now : Nat} {left : List LateAnswer}, EchoTimes baud now left es →
    ∀ a ∈ es.flatMap EchoCall.comes, ∀ p ∈ a.pieces, (es.head?.map fun e => now + e.pause).getD now < p.1 := by
  intro es
  induction es with
  | nil => intro now left _ a ha; simp at ha
  | cons e es ih =>
    intro now left ht a ha p hp
    obtain ⟨-, h1, h2, h3⟩ := ht
    show now + e.pause < p.1
    have hge := (complete_ge ⟨0#8, 0#8, [], [], e.echo⟩ (now + e.pause + e.call.writing)).1
    rw [show LateAnswer.complete _ _ = e.echo.complete (now + e.pause + e.call.writing) from rfl] at hge
    rw [List.flatMap_cons, List.mem_append] at ha
    rcases ha with ha | ha
    · rcases List.mem_cons.mp ha with rfl | ha
      · exact (h1 p hp).1
      · have := h2 a ha p hp; omega
    · have := ih h3 a ha p hp
      cases es with
      | nil => simp at ha
      | cons e' es => 
        have : e.echo.complete (now + e.pause + e.call.writing) + e'.pause < p.1 := this
        omega

/-- **C97** Any number of calls, with pauses in which the answers come that are not read: all of them fail, although the motors get
every instruction and answer it. -/
theorem c97_session : ∀ {es : List EchoCall} {left : List LateAnswer} {b : Bus},
    Between (es.map fun e => e.call.writing) ((left ++ es.flatMap EchoCall.comes).flatMap LateAnswer.events) b →
    EchoTimes b.baudRate b.serialPort.now left es → Echoed b es → AllFail b es := by
  intro es
  induction es with
  | nil => intro left b _ _ _; trivial
  | cons e es ih =>
    intro left b h ht ⟨hputs, hne, hfit, hroom, hrest⟩
    have hl := echoTimes_later ht
    obtain ⟨t1, t2, t3, t4⟩ := ht
    have hp := h.paused (pause := e.pause) t1 (fun a ha p hp => hl a ha p hp)
    rw [List.flatMap_cons, EchoCall.comes, List.cons_append, List.flatMap_cons] at hp
    obtain ⟨k1, k2, k3, k4, k5, k6⟩ := c97_call (c := e.call) (echo := e.echo) hp hroom hputs hne hfit (fun p hp => (t2 p hp).2)
      (fun a ha p hp => by
        rcases List.mem_append.mp ha with ha | ha
        · exact t3 a ha p hp
        · have := echoTimes_later t4 a ha p hp
          cases es with
          | nil => simp at ha
          | cons e' es =>
            have : e.echo.complete (b.serialPort.now + e.pause + e.call.writing) + e'.pause < p.1 := this
            show e.echo.complete (b.serialPort.now + e.pause + e.call.writing) < p.1
            omega)
    refine ⟨k1, ih k6 ?_ hrest⟩
    rw [k2, k5]
    exact t4

/-- None of the group reads sends a status packet. -/
theorem GroupRead.instruction {σ α : Type} {send : SO Bus WriteError Unit} {start : Bus → σ}
    {next : SO σ ReadError (Option (Except ReadError (Response α)))} {client : σ → Bus} {asked : List (Byte × Nat)}
    {Value : α → List Byte → Prop} {n : Nat} (g : GroupRead send start next client asked Value n) :
    ∃ todo : σ → List (Byte × Nat), IsIterator next client todo Value ∧ OnlyReads next client todo ∧
      (∀ b, client (start b) = b ∧ todo (start b) = asked) ∧
      ∃ instr params enc, Fills enc.run n params ∧ instr ≠ 0x55#8 ∧ send = Bus.writeInstruction 0xFE#8 instr n enc := by
  obtain ⟨todo, h1, h2, h3, -⟩ := g.iterates
  refine ⟨todo, h1, h2, h3, ?_⟩
  clear h1 h2 h3
  cases g with
  | syncReadBytes ids address count =>
    exact ⟨InstructionId.syncRead, _, _, Client.syncReadEncoder_fills address count ids, by decide, rfl⟩
  | syncRead hd ids address =>
    exact ⟨InstructionId.syncRead, _, _, Client.syncReadEncoder_fills address _ ids, by decide, rfl⟩
  | bulkReadBytes reads hn =>
    refine ⟨InstructionId.bulkRead, _, ⟨Client.bulkReadEncodeLoop 0 reads, Client.bulkReadEncodeLoop_length reads 0⟩,
      Client.bulkRead_fills reads, by decide, ?_⟩
    unfold Client.bulkReadBytes
    rw [if_neg fun h => (hasDuplicateId_iff _).mp h hn]
    rfl

theorem seventh_byte {id instr : Byte} {wire t : List Byte} (h : wire = instr :: t) : (frame id wire)[7]? = some instr := by
  subst h
  simp [frame, frameHead, header, le16]

section
variable {σ α : Type} {send : SO Bus WriteError Unit} {start : Bus → σ} {next : SO σ ReadError (Option (Except ReadError (Response α)))}
  {client : σ → Bus} {asked : List (Byte × Nat)} {Value : α → List Byte → Prop} {n : Nat}

/-- **C97** A loop over the responses to a group read, on a line that echoes: the turn of the first motor takes the instruction for
the answer, and each turn after that gets the answer of the motor before. No value is returned, and the last answer is not read. -/
theorem c97_group (g : GroupRead send start next client asked Value n) {q : Byte × Nat} {later : List (Byte × Nat)} (ha : asked = q :: later)
    {echo : Pieces} {answers more : List LateAnswer} (hs : answers.map (·.sender) = asked.map (·.1)) (hn : (asked.map (·.1)).Nodup)
    {writing : Nat} {durations : List Nat} {b : Bus}
    (h : Between (writing :: durations) (echo.events ++ (answers ++ more).flatMap LateAnswer.events) b) (hroom : Room b n)
    (hback : Sent b (send b).1 echo.bytes) (hne : ∀ p ∈ echo, p.2 ≠ []) (hfit : echo.bytes.length ≤ b.readBuffer.length)
    (hv : ∀ a ∈ answers, a.Valid b.readBuffer.length)
    (hin : ∀ p ∈ echo, p.1 ≤ b.serialPort.now + writing + responseWait b.baudRate q.2)
    (hturns : InTurn (echo.complete (b.serialPort.now + writing)) (later.map fun q => responseWait b.baudRate q.2) answers.dropLast)
    (hlast : ∀ a ∈ answers.drop later.length ++ more, ∀ p ∈ a.pieces,
      takenAll (echo.complete (b.serialPort.now + writing)) answers.dropLast < p.1) :
    ∃ instr c, echo.bytes[7]? = some instr ∧
      Loops send start next client b (.error (.invalidMessage (.instruction instr 0x55#8)) ::
        (later.zip answers).map fun p => mistaken p.1.1 p.2) c ∧
      c.serialPort.now = takenAll (echo.complete (b.serialPort.now + writing)) answers.dropLast ∧
      c.writeBuffer.length = b.writeBuffer.length ∧ c.readBuffer.length = b.readBuffer.length ∧ c.baudRate = b.baudRate ∧
      Between durations ((answers.drop later.length ++ more).flatMap LateAnswer.events) c := by
  obtain ⟨todo, hit, ho, hst, instr, params, enc, hp, hi55, rfl⟩ := g.instruction
  obtain ⟨b₁, wire, hw, hform, hlen, hsent, hi, hnow, h1, h2, h3⟩ := sent_inLoop (id := 0xFE#8) (instr := instr) h hroom hp
  rw [hw] at hback
  have hb : echo.bytes = frame 0xFE#8 wire := by
    unfold Sent at hback hsent
    rw [hsent] at hback
    have := List.append_cancel_left hback
    simpa using this.symm
  obtain ⟨params', hf⟩ := framed_of_sent hform hlen hb hne hfit
  obtain ⟨e1, e2⟩ := hst b₁
  have hlenA : answers.length = later.length + 1 := by
    have := congrArg List.length hs
    simpa [ha] using this
  -- the first turn
  obtain ⟨r1, r2, r3, r4⟩ := read_takes_packet (a := ⟨0xFE#8, 0#8, [], wire, echo⟩) (more := (answers ++ more).flatMap LateAnswer.events)
    (D := b₁.serialPort.now + responseWait b₁.baudRate q.2) hi (h2 ▸ hf) (by omega) (by rw [hnow, h3]; exact hin)
  have hnd := instruction_not_deadly (h2 ▸ h.room) (h2 ▸ hf) hi55 r4
  obtain ⟨s₁, k1, k2, k3⟩ : ∃ s₁, next (start b₁) = (s₁, .ok (some (.error (.invalidMessage (.instruction instr 0x55#8))))) ∧
      todo s₁ = later ∧ client s₁ = (Bus.readPacketDeadline (b₁.serialPort.now + responseWait b₁.baudRate q.2) b₁).1 := by
    rcases hit.step (start b₁) q.1 q.2 later (by rw [e2, ha]) (by rw [e1]; exact hi.rinv) (by rw [e1]; exact hi.baud) with
      ⟨k, -⟩ | ⟨-, s', x, k1, k2, k3⟩
    · rw [e1] at k
      rcases k with k | k
      · exact absurd k hi.baud0
      · exact absurd k hnd
    · rw [e1] at k3
      have := k3.instruction (h2 ▸ h.room) (h2 ▸ hf) hi55 r4
      subst this
      have hc := ho (start b₁) s' q later _ (by rw [e2, ha]) (by rw [e1]; exact hi.baud0) (by rw [e1]; exact hi.baud) k1
      rw [e1] at hc
      exact ⟨s', k1, k2, hc⟩
  rw [← k3] at r1 r2 r3
  rw [hnow] at r1
  -- the others
  have hcut : answers ++ more = answers.dropLast ++ (answers.drop later.length ++ more) := by
    rw [← List.append_assoc, List.dropLast_eq_take, hlenA, Nat.add_sub_cancel, List.take_append_drop]
  rw [hcut] at r3
  obtain ⟨s₂, xs, l1, l2, l3, l4, l5, l6⟩ := turns_take hit ho (s := s₁) k2 r3
    (fun a ha => by rw [r2.readSize, h2]; exact hv a (List.dropLast_subset _ ha))
    (by rw [r1, r2.baudRate, h3]; exact hturns)
  rw [r1] at l4
  have hxs : xs = (later.zip answers).map fun p => mistaken p.1.1 p.2 := by
    cases answers with
    | nil => simp at hlenA
    | cons a' as =>
      rw [ha] at hs hn
      obtain ⟨hs1, hs2⟩ := List.cons.inj hs
      have hd := behind_differ (asked := later) (answers := as) (extra := a') (by simpa using hs2) (List.nodup_cons.mp hn).2 (by
        intro hh
        have h2 : q.1 ∉ later.map (·.1) := (List.nodup_cons.mp hn).1
        rw [show q.1 = a'.sender from hs1.symm] at h2
        exact h2 (List.mem_of_mem_head? (by rw [hh]; rfl)))
      rw [all_mistaken l3 hd, zip_dropLast (by omega)]
  have hcount : xs.length = later.length := by rw [hxs, List.length_map, List.length_zip, hlenA]; omega
  obtain ⟨t, ht⟩ : ∃ t, wire = instr :: t := by
    rw [stuffedForm_iff.mp hform]
    exact codeStuff_cons instr params
  refine ⟨instr, client s₂, by rw [hb]; exact seventh_byte ht, ⟨b₁, s₂, hw, ?_, rfl⟩, l4, ?_, ?_, ?_, l6.between (by rw [l4]; exact hlast)⟩
  · rw [← hxs, List.length_cons, hcount, callTimes_succ_ok k1, callTimes_snoc _ l1 (hit.finished s₂ l2)]
    rfl
  · rw [l5.writeBuffer, r2.writeBuffer, h1]
  · rw [l5.readSize, r2.readSize, h2]
  · rw [l5.baudRate, r2.baudRate, h3]

end

/-- What a scan makes of the packets that come. -/
theorem scan_takes {ε : Type} {durations : List Nat} {more : List LateAnswer} : ∀ {answers : List LateAnswer} {b : Bus},
    InLoop durations ((answers ++ more).flatMap LateAnswer.events) b → (∀ a ∈ answers, a.Valid b.readBuffer.length) →
    InTurn b.serialPort.now (answers.map fun _ => scanWait b.baudRate) answers →
    ∃ c xs, callTimes (Client.scanNext (ε := ε)) answers.length b = (c, .ok (xs.map some)) ∧
      Pairwise₂ (fun a x => Judged none 3 IsPing a.sender a.error a.params x) answers xs ∧
      c.serialPort.now = takenAll b.serialPort.now answers ∧ Bus.Like b c ∧ InLoop durations (more.flatMap LateAnswer.events) c := by
  intro answers
  induction answers with
  | nil => intro b hi _ _; exact ⟨b, [], rfl, .nil, rfl, .refl _, hi⟩
  | cons a answers ih =>
    intro b hi hv hin
    obtain ⟨hin1, hin2⟩ := hin
    rw [List.cons_append, List.flatMap_cons] at hi
    have ha := hv a List.mem_cons_self
    obtain ⟨r1, r2, r3, r4⟩ := read_takes_packet (D := b.serialPort.now + scanWait b.baudRate) hi
      (⟨ha.whole, ha.pieces, ha.means, ha.short, ha.fits⟩ : Framed _ 0x55#8 (a.error :: a.params) a) (by omega) hin1
    have hsf : StatusFirst b.readBuffer.length (stream (b.serialPort.now + scanWait b.baudRate) b) a.sender a.error a.params
        (arriving (b.serialPort.now + scanWait b.baudRate) ((answers ++ more).flatMap LateAnswer.events)) :=
      ⟨[], a.wire, by rw [r4]; rfl, by decide, ha.short, ha.fits, ha.means⟩
    obtain ⟨c₁, hc⟩ := scanNext_turn (ε := ε) hi.rinv hi.baud0 hi.baud
    rcases hc with ⟨hd, -⟩ | ⟨-, x, hx, ht⟩
    · exact absurd hd (statusFirst_not_deadly hi.rinv rfl hsf)
    · obtain rfl : c₁ = (Bus.readPacketDeadline (b.serialPort.now + scanWait b.baudRate) b).1 := by
        have e := (scanNext_fst (ε := ε) hi.baud0 hi.baud).1
        rw [hx] at e
        exact e
      have hj := (ht.answered _ _ _ _ hsf).1
      have hitem : scanItem x = some x := by
        have := judged_not_io hj .timedOut
        unfold scanItem
        split
        · exact absurd rfl this
        · rfl
      rw [hitem] at hx
      obtain ⟨c, xs, k1, k2, k3, k4, k5⟩ := ih r3 (fun a' ha => by rw [r2.readSize]; exact hv a' (List.mem_cons_of_mem _ ha))
        (by rw [r1, r2.baudRate]; exact hin2)
      refine ⟨c, x :: xs, ?_, .cons hj k2, ?_, r2.trans k4, k5⟩
      · rw [List.length_cons, callTimes_succ_ok hx, k1]; rfl
      · rw [k3, r1]; rfl

/-- **C97** A scan on a line that echoes: the first result is an error, because of the instruction; after that there is one for each
motor that answers, as always. -/
theorem c97_scan {ε : Type} {echo : Pieces} {answers more : List LateAnswer} {writing : Nat} {durations : List Nat} {b : Bus}
    (h : Between (writing :: durations) (echo.events ++ (answers ++ more).flatMap LateAnswer.events) b) (hroom : Room b 0)
    (hback : Sent b (Client.scan b).1 echo.bytes) (hne : ∀ p ∈ echo, p.2 ≠ []) (hv : ∀ a ∈ answers, a.Valid b.readBuffer.length)
    (hin : ∀ p ∈ echo, p.1 ≤ b.serialPort.now + writing + scanWait b.baudRate)
    (hturns : InTurn (echo.complete (b.serialPort.now + writing)) (answers.map fun _ => scanWait b.baudRate) answers)
    (hlast : ∀ a ∈ more, ∀ p ∈ a.pieces,
      takenAll (echo.complete (b.serialPort.now + writing)) answers + scanWait b.baudRate < p.1) :
    ∃ b' c xs, Client.scan b = (b', .ok ()) ∧
      callTimes (Client.scanNext (ε := ε)) (answers.length + 2) b' =
        (c, .ok (some (.error (.invalidMessage (.instruction 0x01#8 0x55#8))) :: xs.map some ++ [none])) ∧
      Pairwise₂ (fun a x => Judged none 3 IsPing a.sender a.error a.params x) answers xs := by
  obtain ⟨b₁, wire, hw, hform, hlen, hsent, hi, hnow, h1, h2, h3⟩ := sent_inLoop (id := 0xFE#8) (instr := 0x01#8) h hroom Client.nothing_fills
  have hw' : Client.scan b = (b₁, .ok ()) := hw
  rw [hw'] at hback
  have hb : echo.bytes = frame 0xFE#8 wire := by
    unfold Sent at hback hsent
    rw [hsent] at hback
    have := List.append_cancel_left hback
    simpa using this.symm
  have hwire : wire.length = 1 := by rw [stuffedForm_iff.mp hform]; decide
  obtain ⟨params', hf⟩ := framed_of_sent (cap := b.readBuffer.length) hform hlen hb hne
    (by rw [hb, Bus.frame_length, hwire]; exact h.room)
  obtain ⟨r1, r2, r3, r4⟩ := read_takes_packet (a := ⟨0xFE#8, 0#8, [], wire, echo⟩) (more := (answers ++ more).flatMap LateAnswer.events)
    (D := b₁.serialPort.now + scanWait b₁.baudRate) hi (h2 ▸ hf) (by omega) (by rw [hnow, h3]; exact hin)
  have hnd := instruction_not_deadly (h2 ▸ h.room) (h2 ▸ hf) (by decide) r4
  have hfirst : Client.scanNext (ε := ε) b₁ = ((Bus.readPacketDeadline (b₁.serialPort.now + scanWait b₁.baudRate) b₁).1,
      .ok (some (.error (.invalidMessage (.instruction 0x01#8 0x55#8))))) := by
    obtain ⟨c₁, hc⟩ := scanNext_turn (ε := ε) hi.rinv hi.baud0 hi.baud
    rcases hc with ⟨hd, -⟩ | ⟨-, x, hx, ht⟩
    · exact absurd hd hnd
    · have := ht.instruction (h2 ▸ h.room) (h2 ▸ hf) (by decide) r4
      subst this
      have e := (scanNext_fst (ε := ε) hi.baud0 hi.baud).1
      rw [hx] at e ⊢
      rw [← e]
      rfl
  generalize (Bus.readPacketDeadline (b₁.serialPort.now + scanWait b₁.baudRate) b₁).1 = b₂ at r1 r2 r3 hfirst
  rw [hnow] at r1
  obtain ⟨c, xs, k1, k2, k3, k4, k5⟩ := scan_takes (ε := ε) r3 (fun a ha => by rw [r2.readSize, h2]; exact hv a ha)
    (by rw [r1, r2.baudRate, h3]; exact hturns)
  have hbaud : c.baudRate = b.baudRate := by rw [k4.baudRate, r2.baudRate, h3]
  have hnone : stream (c.serialPort.now + scanWait c.baudRate) c = [] := by
    rw [k5.comes _ (by omega), hbaud, k3, r1]
    exact (arriving_later hlast).1
  obtain ⟨d, hd⟩ := scanNext_turn (ε := ε) k5.rinv k5.baud0 k5.baud
  rcases hd with ⟨⟨-, g, id, rest, -, hd⟩, -⟩ | ⟨-, x, hx, ht⟩
  · rw [hnone] at hd
    rcases hd with hd | hd <;> (have := congrArg List.length hd; simp only [List.length_append, Bus.frame_length, List.length_nil] at this; omega)
  · have : x = .error (.io .timedOut) := (ht.io k5.room .timedOut).mpr
      ⟨by rw [hnone]; simp [parse, skip], (Port.calm_readEnd k5.smooth.calm _).symm⟩
    subst this
    refine ⟨b₁, d, xs, hw', ?_, k2⟩
    rw [callTimes_succ_ok hfirst, callTimes_snoc _ k1 hx]
    rfl

/-- **C97** A device on a line that echoes: when it has sent a status packet, it gets the next instruction as if nothing had come
back. -/
theorem c97_device (timeout : Nat) {id error : Byte} {n : Nat} {enc : Encoder} {b b' : Bus} {f s : List Byte} (hb : b.WInv)
    (hN : 10 ≤ b.readBuffer.length) (hw : Device.writeStatus id error n enc b = (b', .ok ())) (hback : Sent b b' f)
    (hfit : f.length ≤ b.readBuffer.length) (hshort : f.length < 2 ^ 16 + 7)
    (hs : arriving (b'.serialPort.now + timeout) (newInput b.serialPort) = f ++ s) :
    ∃ c o v left, Device.read timeout b' = (c, o) ∧ c.RInv ∧ c.serialPort.now ≤ b'.serialPort.now + timeout ∧
      Hears b.readBuffer.length (readEnd (b'.serialPort.now + timeout) b'.serialPort) s v left ∧
      Leaves (b'.serialPort.now + timeout) c v left ∧
      match v with
      | .err x => o = .err x
      | .panic => o = .panic
      | .hang => False
      | .ok (id, instr, params) =>
        (Obeys params.length (lengthRule instr) ∧ ∃ i, o = .ok ⟨id, i⟩ ∧ Says instr params i) ∨
        (¬ Obeys params.length (lengthRule instr) ∧
          ∃ m, lengthRule instr = some m ∧ o = .err (.invalidMessage (.parameterCount params.length m))) := by
  have hw' : Bus.writeInstruction id 0x55#8 (n + 1) (Bus.statusEncoder error enc) b = (b', .ok ()) := by
    rw [← writeStatus_eq]; exact hw
  obtain ⟨params, wire, -, -, hform, h3⟩ := afterSend hb hw'
  have hf : f = frame id wire := by
    have hsent := h3.sent
    unfold Sent at hback hsent
    rw [hsent] at hback
    have := List.append_cancel_left hback
    simpa using this.symm
  have hst : stream (b'.serialPort.now + timeout) b' = f ++ s := by rw [h3.stream _ (by omega), hs]
  obtain ⟨c, o, v, left, k1, k2, k3, k4, k5⟩ := c64_read timeout h3.rinv
  refine ⟨c, o, v, left, k1, k2, k3, ?_, k5⟩
  rw [h3.readBuffer, hst] at k4
  obtain ⟨t, ht⟩ : ∃ t, wire = 0x55#8 :: t := by
    rw [stuffedForm_iff.mp hform]
    exact codeStuff_cons _ _
  obtain ⟨params', hp⟩ := codeUnstuff_cons 0x55#8 t
  have hu : Unstuffs wire (0x55#8 :: params') := (unstuffs_iff _ _).mpr (by rw [ht, hp])
  have hparse : parse b.readBuffer.length (f ++ s) = .packet (frame id wire) s := by
    have hl := Bus.frame_length id wire
    rw [hf] at hfit hshort ⊢
    have := parse_good_frame (g := []) (rest := s) id (by decide) (wire := wire) (by omega) hfit
    rwa [List.nil_append] at this
  obtain ⟨pkt, ho, -⟩ := frameOutcome_carries (id := id) hu
  cases k4 with
  | small h => omega
  | nothing _ hp' | tooBig _ hp' => rw [hparse] at hp'; cases hp'
  | corrupt _ hp' hv' =>
    rw [hparse] at hp'
    rw [(Parsed.packet.inj hp').1, frameOutcome_corrupt hv'] at ho
    cases ho
  | noInstruction _ hp' =>
    rw [hparse] at hp'
    rw [(Parsed.packet.inj hp').1, frameOutcome_empty] at ho
    cases ho
  | status _ hp' _ hrest =>
    rw [hparse] at hp'
    rw [(Parsed.packet.inj hp').2]
    exact hrest
  | instruction _ hp' hu' hne =>
    rw [hparse] at hp'
    obtain ⟨-, hw⟩ := frame_inj (Parsed.packet.inj hp').1
    rw [hw] at hu
    have := (unstuffs_iff _ _).mp hu
    rw [(unstuffs_iff _ _).mp hu'] at this
    exact absurd (List.cons.inj this).1 hne

/-- **C97** If the status packet is too large for the read buffer of the device, the next instruction is not read. -/
theorem c97_device_large (timeout : Nat) {id error : Byte} {n : Nat} {enc : Encoder} {b b' : Bus} {f s : List Byte} (hb : b.WInv)
    (hN : 10 ≤ b.readBuffer.length) (hw : Device.writeStatus id error n enc b = (b', .ok ())) (hback : Sent b b' f)
    (hfit : b.readBuffer.length < f.length) (hshort : f.length < 2 ^ 16 + 7)
    (hs : arriving (b'.serialPort.now + timeout) (newInput b.serialPort) = f ++ s) :
    (Device.read timeout b').2 = .err (.bufferFull ⟨f.length, b.readBuffer.length⟩) := by
  have hw' : Bus.writeInstruction id 0x55#8 (n + 1) (Bus.statusEncoder error enc) b = (b', .ok ()) := by
    rw [← writeStatus_eq]; exact hw
  obtain ⟨params, wire, -, -, -, h3⟩ := afterSend hb hw'
  have hf : f = frame id wire := by
    have hsent := h3.sent
    unfold Sent at hback hsent
    rw [hsent] at hback
    have := List.append_cancel_left hback
    simpa using this.symm
  have hst : stream (b'.serialPort.now + timeout) b' = f ++ s := by rw [h3.stream _ (by omega), hs]
  obtain ⟨c, o, v, left, k1, -, -, k4, -, k6⟩ := c64_read timeout h3.rinv
  rw [h3.readBuffer, hst] at k4
  have hl := Bus.frame_length id wire
  have := (c64_heard_unique k4 (.tooBig hN (by subst hf; exact parse_large (by omega) hfit s))).1
  subst this
  rw [k1, show o = _ from k6, hf]

/-! ## Cases -/

/-- The reading of two bytes comes back in two pieces. -/
def readEcho (t : Nat) : Pieces :=
  [(t, (frame 1#8 [0x02#8, 100#8, 0#8, 2#8, 0#8]).take 4), (t + 1000000, (frame 1#8 [0x02#8, 100#8, 0#8, 2#8, 0#8]).drop 4)]

def echoBus (echo : Pieces) (answers : List LateAnswer) : Bus := lateBus (⟨0#8, 0#8, [], [], echo⟩ :: answers)

theorem echoBus_between {echo : Pieces} {answers : List LateAnswer} (he : ∀ p ∈ echo, 0 < p.1) (h : ∀ a ∈ answers, ∀ p ∈ a.pieces, 0 < p.1) :
    Between [0, 0, 0, 0] (echo.events ++ answers.flatMap LateAnswer.events) (echoBus echo answers) :=
  lateBus_between (answers := ⟨0#8, 0#8, [], [], echo⟩ :: answers) fun a ha => by
    rcases List.mem_cons.mp ha with rfl | ha
    · exact he
    · exact h a ha

theorem puts_of {b c : Bus} {f : List Byte} (reads : List Call) (h : c.serialPort.log = b.serialPort.log ++ [.discard true, .write f true] ++ reads)
    (hr : reads.all fun call => match call with | .read _ _ => true | _ => false) : Puts b c f := by
  refine ⟨reads, h, fun call hc => ?_⟩
  have := List.all_eq_true.mp hr call hc
  cases call with
  | read cap D => exact ⟨cap, D, rfl⟩
  | _ => simp at this

/-- The motor answers after 5 ms. -/
def echoOnce : Bus := echoBus (readEcho 1000000) [whole 5000000 1#8 0#8 [7#8, 8#8]]

example : (Client.readBytes 1#8 100#16 2#16 echoOnce).2 = .err (.readError (.invalidMessage (.instruction 0x02#8 0x55#8))) := by decide +kernel

example := c97_call (c := lateRead 1#8 100#16 2#16) (durations := [0, 0, 0]) (echo := readEcho 1000000)
  (answers := [whole 5000000 1#8 0#8 [7#8, 8#8]]) (b := echoOnce)
  (echoBus_between (by decide +kernel) (by decide +kernel)) ⟨by decide, by decide⟩
  (puts_of (((lateRead 1#8 100#16 2#16).run echoOnce).1.serialPort.log.drop 2) (by decide +kernel) (by decide +kernel))
  (by decide +kernel) (by decide +kernel) (by decide +kernel) (by decide +kernel)

/-- 12 bytes are written to motor 1; the packet has 24 bytes, and the read buffer 20. -/
def longWrite : LateCall := ⟨_, _, _, _, 0, .write (.writeBytes 100#16 (List.replicate 12 7#8)) (id := 1#8) (by decide)⟩

def longEcho : Pieces := [(1000000, frame 1#8 (0x03#8 :: 100#8 :: 0#8 :: List.replicate 12 7#8))]

example := c97_call_large (c := longWrite) (durations := [0, 0, 0]) (echo := longEcho) (later := []) (b := echoBus longEcho [])
  (echoBus_between (echo := longEcho) (answers := []) (by decide +kernel) (by decide +kernel)) ⟨by decide, by decide⟩
  (puts_of ((longWrite.run (echoBus longEcho [])).1.serialPort.log.drop 2) (by decide +kernel) (by decide +kernel))
  (by decide +kernel) (by decide +kernel)

example : (Client.writeBytes 1#8 100#16 (List.replicate 12 7#8) (echoBus longEcho [])).2 = .err (.readError (.bufferFull ⟨24, 20⟩)) := by
  decide +kernel

/-- Two readings, 10 ms apart. -/
def echoCalls : List EchoCall :=
  [⟨0, lateRead 1#8 100#16 2#16, readEcho 1000000, [whole 5000000 1#8 0#8 [7#8, 8#8]]⟩,
   ⟨10000000, lateRead 1#8 100#16 2#16, readEcho 13000000, [whole 17000000 1#8 0#8 [7#8, 8#8]]⟩]

def echoTwice : Bus :=
  { quietBus true 40 with serialPort :=
    { quietPort with rx := (echoCalls.flatMap EchoCall.comes).flatMap LateAnswer.events, writeRes := [(0, none), (0, none)] } }

theorem echoTwice_between : Between [0, 0] ((echoCalls.flatMap EchoCall.comes).flatMap LateAnswer.events) echoTwice := by
  have h := lateBus_between (answers := echoCalls.flatMap EchoCall.comes) (by decide +kernel)
  exact ⟨⟨h.winv.1, h.winv.2⟩, h.baud, h.baud0, h.room, ⟨h.smooth.discard, h.smooth.noop, rfl, h.smooth.calm⟩, h.future⟩

example := c97_session (es := echoCalls) (left := []) echoTwice_between
  ⟨by decide +kernel, by decide +kernel, by decide +kernel, by decide +kernel, by decide +kernel, by decide +kernel, trivial⟩
  ⟨puts_of (((lateRead 1#8 100#16 2#16).run echoTwice).1.serialPort.log.drop 2) (by decide +kernel) (by decide +kernel),
    by decide +kernel, by decide +kernel, ⟨by decide, by decide⟩,
    puts_of (((lateRead 1#8 100#16 2#16).run (paused 10000000 ((lateRead 1#8 100#16 2#16).run echoTwice).1)).1.serialPort.log.drop
      (((lateRead 1#8 100#16 2#16).run echoTwice).1.serialPort.log.length + 2)) (by decide +kernel) (by decide +kernel),
    by decide +kernel, by decide +kernel, ⟨by decide +kernel, by decide +kernel⟩, trivial⟩

/-- Three motors are asked for two bytes each. Motor 2 reports an error. -/
def syncEcho : Pieces := [(1000000, frame 0xFE#8 [0x82#8, 132#8, 0#8, 2#8, 0#8, 1#8, 2#8, 3#8])]

def syncAnswers : List LateAnswer :=
  [whole 5000000 1#8 0#8 [1#8, 1#8], whole 7000000 2#8 4#8 [], whole 9000000 3#8 0#8 [3#8, 3#8]]

theorem syncAnswers_valid : ∀ a ∈ syncAnswers, a.Valid (echoBus syncEcho syncAnswers).readBuffer.length := by
  intro a ha
  simp only [syncAnswers, List.mem_cons, List.not_mem_nil, or_false] at ha
  rcases ha with rfl | rfl | rfl <;> exact whole_valid (by decide +kernel) (by decide) (by decide)

example := c97_group threeMotors (q := (1#8, 2)) (later := [(2#8, 2), (3#8, 2)]) rfl (echo := syncEcho) (answers := syncAnswers) (more := [])
  rfl (by decide) (durations := [0, 0, 0]) (b := echoBus syncEcho syncAnswers)
  (echoBus_between (answers := syncAnswers) (by decide +kernel) (by decide +kernel)) ⟨by decide, by decide⟩
  (by decide +kernel : _ = _) (by decide +kernel) (by decide +kernel) syncAnswers_valid (by decide +kernel)
  ⟨by decide +kernel, by decide +kernel, trivial⟩ (by decide +kernel)

example : (callTimes (ε := Empty) SyncIter.nextBytes 4
      ⟨(Client.syncReadBytes [1#8, 2#8, 3#8] 132#16 2#16 (echoBus syncEcho syncAnswers)).1, 2#16, [1#8, 2#8, 3#8], 0⟩).2 =
    .ok [some (.error (.invalidMessage (.instruction 0x82#8 0x55#8))), some (.error (.invalidMessage (.packetId 1#8 2#8))),
      some (.error (.motorError ⟨4#8⟩)), none] := by
  decide +kernel

/-- Motors 1 and 2 answer a scan. -/
def scanEcho : Pieces := [(1000000, frame 0xFE#8 [0x01#8])]

def scanned : List LateAnswer := [whole 5000000 1#8 0#8 [6#8, 4#8, 38#8], whole 7000000 2#8 128#8 [6#8, 4#8, 38#8]]

theorem scanned_valid : ∀ a ∈ scanned, a.Valid (echoBus scanEcho scanned).readBuffer.length := by
  intro a ha
  simp only [scanned, List.mem_cons, List.not_mem_nil, or_false] at ha
  rcases ha with rfl | rfl <;> exact whole_valid (by decide +kernel) (by decide) (by decide)

example := c97_scan (ε := Empty) (echo := scanEcho) (answers := scanned) (more := []) (writing := 0) (durations := [0, 0, 0]) (b := echoBus scanEcho scanned)
  (echoBus_between (answers := scanned) (by decide +kernel) (by decide +kernel)) ⟨by decide, by decide⟩
  (by decide +kernel : _ = _) (by decide +kernel) scanned_valid (by decide +kernel)
  ⟨by decide +kernel, by decide +kernel, trivial⟩ (by decide +kernel)

example : (callTimes (ε := Empty) Client.scanNext 4 (Client.scan (echoBus scanEcho scanned)).1).2 =
    .ok [some (.error (.invalidMessage (.instruction 0x01#8 0x55#8))), some (.ok ⟨1#8, false, ⟨0x0406#16, 38#8⟩⟩),
      some (.ok ⟨2#8, true, ⟨0x0406#16, 38#8⟩⟩), none] := by
  decide +kernel

/-- A device answers, and gets a ping after that. -/
def deviceEcho : Bus := echoBus [(1000000, frame 1#8 [0x55#8, 0#8, 7#8, 8#8])] [⟨1#8, 0#8, [], [], [(2000000, frame 1#8 [0x01#8])]⟩]

example := c97_device 5000000 (id := 1#8) (error := 0#8) (enc := bytesEncoder [7#8, 8#8]) (n := 2) (b := deviceEcho)
  (b' := (Device.writeStatus 1#8 0#8 2 (bytesEncoder [7#8, 8#8]) deviceEcho).1)
  (f := frame 1#8 [0x55#8, 0#8, 7#8, 8#8]) (s := frame 1#8 [0x01#8]) (echoBus_between (by decide +kernel) (by decide +kernel)).winv (by decide) (by decide +kernel)
  (by decide +kernel : _ = _) (by decide +kernel) (by decide +kernel) (by decide +kernel)

example : (Device.read 5000000 (Device.writeStatus 1#8 0#8 2 (bytesEncoder [7#8, 8#8]) deviceEcho).1).2 = .ok ⟨1#8, .ping⟩ := by decide +kernel

/-- A status packet with 12 parameters. -/
def longStatus : Bus := echoBus [(1000000, frame 1#8 (0x55#8 :: 0#8 :: List.replicate 12 7#8))] [⟨1#8, 0#8, [], [], [(2000000, frame 1#8 [0x01#8])]⟩]

example := c97_device_large 5000000 (id := 1#8) (error := 0#8) (enc := bytesEncoder (List.replicate 12 7#8)) (n := 12) (b := longStatus)
  (b' := (Device.writeStatus 1#8 0#8 12 (bytesEncoder (List.replicate 12 7#8)) longStatus).1)
  (f := frame 1#8 (0x55#8 :: 0#8 :: List.replicate 12 7#8)) (s := frame 1#8 [0x01#8])
  (echoBus_between (by decide +kernel) (by decide +kernel)).winv (by decide) (by decide +kernel)
  (by decide +kernel : _ = _) (by decide +kernel) (by decide +kernel) (by decide +kernel)

end Dxl.Props
