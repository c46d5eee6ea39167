import Verif.Spec.ByHand
import Verif.Props.Forget
import Verif.Props.Late

/-! # Clients that differ in what a discard would remove (C98) -/

namespace Dxl
open Spec Props

/-- The two buses differ at most in received bytes that would be discarded now. -/
def Alike (b c : Bus) : Prop := ∃ r, c = b.receiving r ∧ newInput c.serialPort = newInput b.serialPort

section generic
variable {ε ε' α β : Type}

/-- Alike buses stay alike, with the same outcome; when something is sent they become the same. -/
def Sends (m : SO Bus ε α) : Prop :=
  ∀ b c, Alike b c → m c = m b ∨ ((m c).2 = (m b).2 ∧ Alike (m b).1 (m c).1 ∧ Unsent b (m b).1)

/-- As `Sends`; and when it succeeds the buses are the same. -/
def Opens (m : SO Bus ε α) : Prop :=
  ∀ b c, Alike b c →
    m c = m b ∨ ((m c).2 = (m b).2 ∧ Alike (m b).1 (m c).1 ∧ Unsent b (m b).1 ∧ ∀ a, (m b).2 ≠ .ok a)

theorem Opens.sends {m : SO Bus ε α} (h : Opens m) : Sends m := by
  intro b c hbc
  rcases h b c hbc with h | ⟨h1, h2, h3, -⟩
  · exact .inl h
  · exact .inr ⟨h1, h2, h3⟩

theorem unsent_refl (b : Bus) : Unsent b b := ⟨[], by simp, by simp⟩

theorem unsent_of_port {b b' : Bus} (h : b'.serialPort = b.serialPort) : Unsent b b' := ⟨[], by simp [h], by simp⟩

theorem Unsent.trans {a b c : Bus} (h : Unsent a b) (h' : Unsent b c) : Unsent a c := by
  obtain ⟨l, h1, h2⟩ := h
  obtain ⟨l', h3, h4⟩ := h'
  refine ⟨l ++ l', by rw [h3, h1, List.append_assoc], fun bs ok hm => ?_⟩
  rcases List.mem_append.mp hm with hm | hm
  · exact h2 _ _ hm
  · exact h4 _ _ hm

theorem sends_lift (o : Outcome ε α) : Sends (SO.lift o) := fun b _ h => .inr ⟨rfl, h, unsent_refl b⟩

theorem sends_get {k : Bus → SO Bus ε α} (h : ∀ b r, k (b.receiving r) = k b) (hk : ∀ b, Opens (k b)) : Opens (SO.get >>= k) := by
  intro b c hbc
  rw [SO.get_bind, SO.get_bind]
  have : k c = k b := by
    obtain ⟨r, rfl, -⟩ := hbc
    exact h b r
  rw [this]
  exact hk b b c hbc

theorem Sends.opens {m : SO Bus ε α} (h : Sends m) {k : α → SO Bus ε β} (hk : ∀ a, Opens (k a)) : Opens (m >>= k) := by
  intro b c hbc
  rw [SO.bind_def, SO.bind_def]
  rcases h b c hbc with e | ⟨h1, h2, h3⟩
  · rw [e]; exact .inl rfl
  · rcases eb : m b with ⟨b', o⟩
    rcases ec : m c with ⟨c', o'⟩
    rw [eb] at h1 h2 h3
    rw [ec] at h1 h2
    dsimp only at h1 h2 h3
    subst h1
    cases o' with
    | ok a =>
      dsimp only
      rcases hk a b' c' h2 with e | ⟨h4, h5, h6, h7⟩
      · exact .inl e
      · exact .inr ⟨h4, h5, h3.trans h6, h7⟩
    | _ => exact .inr ⟨rfl, h2, h3, by simp⟩

/-- Whatever follows after something was sent. -/
theorem Opens.andThen {m : SO Bus ε α} (h : Opens m) (k : α → SO Bus ε β) : Opens (m >>= k) := by
  intro b c hbc
  rw [SO.bind_def, SO.bind_def]
  rcases h b c hbc with e | ⟨h1, h2, h3, h4⟩
  · rw [e]; exact .inl rfl
  · rcases eb : m b with ⟨b', o⟩
    rcases ec : m c with ⟨c', o'⟩
    rw [eb] at h1 h2 h3 h4
    rw [ec] at h1 h2
    dsimp only at h1 h2 h3 h4
    subst h1
    cases o' with
    | ok a => exact absurd rfl (h4 a)
    | _ => exact .inr ⟨rfl, h2, h3, by simp⟩

theorem Opens.mapErr {m : SO Bus ε α} (h : Opens m) (f : ε → ε') : Opens (m.mapErr f) := by
  intro b c hbc
  rw [SO.mapErr_apply, SO.mapErr_apply]
  rcases h b c hbc with e | ⟨h1, h2, h3, h4⟩
  · rw [e]; exact .inl rfl
  · refine .inr ⟨by dsimp only; rw [h1], h2, h3, fun a ha => ?_⟩
    dsimp only at ha
    rcases eo : (m b).2 with x | x | _ | _
    · exact h4 x eo
    all_goals rw [eo] at ha; simp [Outcome.mapErr] at ha

theorem sends_onWriteBuffer (m : SO (List Byte) ε α) : Sends (Bus.onWriteBuffer m) := by
  rintro b c ⟨r, rfl, h⟩
  exact .inr ⟨rfl, ⟨r, rfl, h⟩, unsent_of_port rfl⟩

theorem sends_clear : Sends (ε := ε) (SO.modify fun b : Bus => { b with readLen := 0, usedBytes := 0 }) := by
  rintro b c ⟨r, rfl, h⟩
  exact .inr ⟨rfl, ⟨r, rfl, h⟩, unsent_of_port rfl⟩

theorem opens_discard (f : IoErr → ε) : Opens (Bus.onPort (Port.discardInputBuffer.mapErr f)) := by
  rintro b c ⟨r, rfl, h⟩
  rw [Bus.onPort_apply, Bus.onPort_apply, SO.mapErr_apply, SO.mapErr_apply]
  have hd : (b.receiving r).serialPort.dropArrived = b.serialPort.dropArrived := by rw [← newInput_eq, ← newInput_eq, h]
  unfold Port.discardInputBuffer
  have e : (b.receiving r).serialPort.discardRes = b.serialPort.discardRes := rfl
  rw [e]
  split
  · refine .inr ⟨rfl, ⟨r, rfl, h⟩, ⟨[.discard false], rfl, by simp⟩, by simp [Outcome.mapErr]⟩
  · rw [hd]; exact .inl rfl
  · rw [hd]; exact .inl rfl

theorem opens_writePacket (id instr : Byte) (n : Nat) (enc : Encoder) : Opens (Bus.writePacket id instr n enc) := by
  unfold Bus.writePacket
  refine sends_get (fun b r => rfl) fun b => ?_
  refine (sends_lift _).opens fun _ => ?_
  refine (sends_onWriteBuffer _).opens fun _ => ?_
  refine (sends_onWriteBuffer _).opens fun _ => ?_
  refine (sends_onWriteBuffer _).opens fun _ => ?_
  refine (sends_onWriteBuffer _).opens fun _ => ?_
  refine (sends_onWriteBuffer _).opens fun _ => ?_
  refine (sends_onWriteBuffer _).opens fun _ => ?_
  refine (sends_lift _).opens fun _ => ?_
  refine (sends_onWriteBuffer _).opens fun _ => ?_
  refine sends_get (fun b r => rfl) fun b => ?_
  refine (sends_lift _).opens fun _ => ?_
  refine (sends_lift _).opens fun _ => ?_
  refine (sends_onWriteBuffer _).opens fun _ => ?_
  refine sends_clear.opens fun _ => ?_
  exact (opens_discard _).andThen _

theorem opens_send (id instr : Byte) (n : Nat) (enc : Encoder) (f : WriteError → ε) (k : Unit → SO Bus ε α) :
    Opens ((Bus.writePacket id instr n enc).mapErr f >>= k) := ((opens_writePacket id instr n enc).mapErr f).andThen k

theorem opens_writeStatus (id error : Byte) (n : Nat) (enc : Encoder) : Opens (Bus.writeStatus id error n enc) :=
  sends_get (fun _ _ => rfl) fun _ => (sends_lift _).opens fun _ => opens_writePacket _ _ _ _

theorem sends_setBaudRate (rate : Nat) : Sends (Bus.setBaudRate rate) := by
  rintro b c ⟨r, rfl, h⟩
  unfold Bus.setBaudRate
  rw [SO.bind_def, SO.bind_def, Bus.onPort_apply, Bus.onPort_apply]
  unfold Port.setBaudRate
  have e : (b.receiving r).serialPort.baudRes = b.serialPort.baudRes := rfl
  rw [e]
  rcases b.serialPort.baudRes with - | ⟨x, rest⟩
  · exact .inr ⟨rfl, ⟨r, rfl, h⟩, [.setBaud rate true], rfl, by simp⟩
  · cases x with
    | none => exact .inr ⟨rfl, ⟨r, rfl, h⟩, [.setBaud rate true], rfl, by simp⟩
    | some x => exact .inr ⟨rfl, ⟨r, rfl, h⟩, [.setBaud rate false], rfl, by simp⟩

open Client in
/-- The methods; here the encoders may do what they want. -/
theorem instructs_sends {m : SO Bus ε α} (h : Instructs m) : Sends m := by
  cases h with
  | setBaudRate | deviceSetBaudRate => exact sends_setBaudRate _
  | writeInstruction => exact (opens_writePacket _ _ _ _).sends
  | transferSingle => exact (opens_send _ _ _ _ _ _).sends
  | action | reboot | clearRevolutionCounter | clearError | factoryReset | write | regWrite | writeBytes | regWriteBytes =>
    exact (opens_send _ _ _ _ _ _).sends
  | broadcastAction | broadcastReboot | scan | broadcastClearRevolutionCounter | broadcastClearError | broadcastFactoryReset
  | syncReadBytes | syncRead | syncWriteBytes | syncWrite => exact (opens_writePacket _ _ _ _).sends
  | readRaw => exact ((opens_send _ _ _ _ _ _).andThen _).sends
  | readBytes | read => exact (((opens_send _ _ _ _ _ _).andThen _).andThen _).sends
  | ping => exact ((opens_send _ _ _ _ _ _).andThen _).sends
  | bulkReadBytes reads =>
    unfold bulkReadBytes
    split
    · exact sends_lift .panic
    · exact (opens_writePacket _ _ _ _).sends
  | bulkWrite writes => exact ((sends_lift _).opens fun _ => opens_writePacket _ _ _ _).sends
  | deviceWriteStatus | deviceWriteStatusError | deviceWriteStatusOk => exact (opens_writeStatus _ _ _ _).sends

end generic
end Dxl
