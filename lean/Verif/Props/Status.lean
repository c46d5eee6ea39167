import Verif.Props.Device
import Verif.Lemmas.JustReads

/-! # C51: status packets of a device as seen by a client -/

namespace Dxl.Props
open Dxl Spec

/-- What a client makes of a status packet with this content: it is returned, or its error is. -/
def ReceivedAs (o : Outcome ReadError StatusPacket) (id e : Byte) (params : List Byte) : Prop :=
  (e.toNat % 128 = 0 → ∃ s, o = .ok s ∧ Carries s.packet id 0x55#8 (e :: params)) ∧
  (e.toNat % 128 ≠ 0 → o = .err (.motorError ⟨e⟩))

/-- C51 in full: what a device sends with `write_status` is received with the same ID, error and parameters. -/
def C51_statement : Prop :=
  ∀ (d d' c : Bus) (id e : Byte) (n timeout : Nat) (enc : Encoder) (params g f rest : List Byte), d.WInv → c.RInv →
    Fills enc.run n params → Device.writeStatus id e n enc d = (d', .ok ()) → Sent d d' f → ¬ header <:+: g →
    f.length ≤ 65542 → f.length ≤ c.readBuffer.length →
    stream (c.serialPort.now + timeout) c = g ++ f ++ rest →
    ReceivedAs (Client.readStatusResponseTimeout timeout c).2 id e params ∧
      stream (c.serialPort.now + timeout) (Client.readStatusResponseTimeout timeout c).1 = rest

/-- **C51** (partial: the English claim says that the parameters are always the same) What a device sends is received with the
same ID and error, and nothing else is lost. The parameters are the same exactly if the body survives stuffing and unstuffing
(`Spec.Survives`). -/
theorem c51_received_exact_partial {d d' c : Bus} {id e : Byte} {n timeout : Nat} {enc : Encoder}
    {params g f rest : List Byte} (hd : d.WInv) (hc : c.RInv) (he : Fills enc.run n params)
    (hw : Device.writeStatus id e n enc d = (d', .ok ())) (hs : Sent d d' f) (hg : ¬ header <:+: g) (hlen : f.length ≤ 65542)
    (hfit : f.length ≤ c.readBuffer.length) (hst : stream (c.serialPort.now + timeout) c = g ++ f ++ rest) :
    ∃ params', ReceivedAs (Client.readStatusResponseTimeout timeout c).2 id e params' ∧
      stream (c.serialPort.now + timeout) (Client.readStatusResponseTimeout timeout c).1 = rest ∧
      (params' = params ↔ Survives (0x55#8 :: e :: params)) := by
  obtain ⟨params₁, wire, ⟨old, hold, hrun⟩, hform, hsent⟩ := c08_status_layout hd hw
  rw [he old hold] at hrun
  simp only [Prod.mk.injEq, and_true] at hrun
  subst hrun
  have hf : f = frame id wire := by
    unfold Sent at hs hsent
    rw [hs] at hsent
    simpa using hsent
  subst hf
  have hl := Bus.frame_length id wire
  obtain ⟨params', hp⟩ : ∃ params', codeUnstuff wire = 0x55#8 :: e :: params' := by
    obtain ⟨t, ht⟩ : ∃ t, wire = 0x55#8 :: e :: t := by
      rw [stuffedForm_iff.mp hform]
      exact codeStuff_cons_cons _ _ _
    rw [ht]
    exact codeUnstuff_cons_cons _ _ _
  obtain ⟨c', pkt, h1, h2, h3⟩ := status_complete (timeout := timeout) (b := c) (id := id) (e := e) (ps := params') (rest := rest) hc
    ⟨g, wire, hst, hg, by omega, hfit, (unstuffs_iff _ _).mpr hp⟩
  rw [h1]
  refine ⟨params', ⟨fun h => ⟨⟨pkt⟩, by simp only; rw [if_pos h], h2⟩, fun h => by simp only; rw [if_neg h]⟩, h3, ?_⟩
  rw [← unstuffs_iff_survives hform, unstuffs_iff, hp]
  simp

/-- **C51** (partial: the English claim is without the hypothesis on the body) What a device sends is received. -/
theorem c51_received_partial {d d' c : Bus} {id e : Byte} {n timeout : Nat} {enc : Encoder} {params g f rest : List Byte}
    (hd : d.WInv) (hc : c.RInv) (he : Fills enc.run n params) (hw : Device.writeStatus id e n enc d = (d', .ok ()))
    (hs : Sent d d' f) (hg : ¬ header <:+: g) (hlen : f.length ≤ 65542) (hfit : f.length ≤ c.readBuffer.length)
    (hst : stream (c.serialPort.now + timeout) c = g ++ f ++ rest) (hbody : Survives (0x55#8 :: e :: params)) :
    ReceivedAs (Client.readStatusResponseTimeout timeout c).2 id e params ∧
      stream (c.serialPort.now + timeout) (Client.readStatusResponseTimeout timeout c).1 = rest := by
  obtain ⟨params', h1, h2, h3⟩ := c51_received_exact_partial hd hc he hw hs hg hlen hfit hst
  exact ⟨h3.mpr hbody ▸ h1, h2⟩

/-- There is room for every status packet with `n` parameters. -/
theorem status_room {b : Bus} {id e : Byte} {n : Nat} {enc : Encoder} {params : List Byte} (hb : b.WInv)
    (he : Fills enc.run n params) (hp : b.serialPort.SendOk) (hroom : Room b (n + 1)) :
    ∃ b', Device.writeStatus id e n enc b = (b', .ok ()) := by
  have hfill : Fills (Bus.statusEncoder e enc).run (n + 1) (e :: params) := by
    intro s hs
    match s, hs with
    | a :: t, hs =>
      change Bus.statusRun e enc (a :: t) = _
      unfold Bus.statusRun
      rw [SO.bind_ok (setIdx_ok _ (by simp)), onSliceFrom_ok _ (by simp)]
      simp only [List.length_cons, Nat.add_right_cancel_iff] at hs
      have := he t hs
      simp [this]
  obtain ⟨b', h⟩ := write_room (id := id) (instr := InstructionId.status) hb hfill hp hroom
  refine ⟨b', ?_⟩
  have hr := hroom.1
  unfold Device.writeStatus Bus.writeStatus
  rw [SO.get_bind]
  have : BufferTooSmall.check (StatusPacket.messageLen n) b.writeBuffer.length = .ok () := by
    unfold BufferTooSmall.check StatusPacket.messageLen
    rw [if_pos (by simp only [headerSize]; omega)]
  rw [this, Outcome.mapErr_ok, SO.lift_ok_bind]
  exact h

/-- **C51** A device with room for the packet (at most a third more than its bytes) sends it, if the port does. -/
theorem c51_sent {d : Bus} {id e : Byte} {n : Nat} {enc : Encoder} {params : List Byte} (hd : d.WInv)
    (he : Fills enc.run n params) (hp : d.serialPort.SendOk) (hroom : Room d (n + 1)) :
    ∃ d' wire, Device.writeStatus id e n enc d = (d', .ok ()) ∧ StuffedForm (0x55#8 :: e :: params) wire ∧
      Sent d d' (frame id wire) := by
  obtain ⟨d', h⟩ := status_room (id := id) (e := e) hd he hp hroom
  obtain ⟨params', wire, ⟨old, hold, hrun⟩, hform, hsent⟩ := c08_status_layout hd h
  rw [he old hold] at hrun
  simp only [Prod.mk.injEq, and_true] at hrun
  subst hrun
  exact ⟨d', wire, h, hform, hsent⟩

/-- The status packet for the bytes that the two sides disagree about. -/
def trickyStatus : List Byte := frame 1#8 (codeStuff (0x55#8 :: 0#8 :: trickyParams))

/-- **C51** is false as stated, because of the stuffing (C23). -/
theorem c51_refuted : ¬ C51_statement := by
  intro h
  obtain ⟨⟨h1, -⟩, -⟩ := h (quietBus true 40) (Device.writeStatus 1#8 0#8 8 (bytesEncoder trickyParams) (quietBus true 40)).1
    (busWith trickyStatus) 1#8 0#8 8 5 (bytesEncoder trickyParams) trickyParams [] trickyStatus []
    (quietBus_wInv _ _ (by decide)) (busWith_rInv _) (fills_copyFromSlice trickyParams) (Prod.ext rfl (by decide +kernel))
    (by unfold Sent; decide +kernel) (by decide) (by decide +kernel) (by decide +kernel) (by decide +kernel)
  obtain ⟨s, h2, x, y, h3⟩ := h1 (by decide)
  have h4 : (match (Client.readStatusResponseTimeout 5 (busWith trickyStatus)).2 with
    | .ok p => decide (p.packet.data.drop 9 = trickyParams)
    | _ => true) = false := by decide +kernel
  rw [h2] at h4
  simp [header, h3] at h4

/-- C51: an alert, and data that are stuffed on the way. -/
example : let d' := (Device.writeStatus 7#8 0x80#8 3 (bytesEncoder [0xFF#8, 0xFF#8, 0xFD#8]) (quietBus true 40)).1
    d'.serialPort.log = [.discard true, .write (frame 7#8 [0x55#8, 0x80#8, 0xFF#8, 0xFF#8, 0xFD#8, 0xFD#8]) true] ∧
    (Client.readStatusResponseTimeout 5 (busWith (sampleGarbage ++ frame 7#8 [0x55#8, 0x80#8, 0xFF#8, 0xFF#8, 0xFD#8, 0xFD#8]))).2 =
      .ok ⟨⟨header ++ [7#8, 8#8, 0#8] ++ [0x55#8, 0x80#8, 0xFF#8, 0xFF#8, 0xFD#8]⟩⟩ ∧
    (Client.readStatusResponseTimeout 5 (busWith (frame 7#8 [0x55#8, 0x87#8]))).2 = .err (.motorError ⟨0x87#8⟩) := by
  decide +kernel

/-! Each theorem with hypotheses on a concrete case. -/

example := c51_received_exact_partial (d := quietBus true 40) (id := 7#8) (e := 0x80#8) (timeout := 5) (g := sampleGarbage) (rest := [1#8])
  (f := frame 7#8 [0x55#8, 0x80#8, 0xFF#8, 0xFF#8, 0xFD#8, 0xFD#8]) (quietBus_wInv true 40 (by decide))
  (busWith_rInv (sampleGarbage ++ frame 7#8 [0x55#8, 0x80#8, 0xFF#8, 0xFF#8, 0xFD#8, 0xFD#8] ++ [1#8]))
  (bytesEncoder_fills [0xFF#8, 0xFF#8, 0xFD#8]) (pair_eq (by decide +kernel)) (by unfold Sent; decide +kernel) (by decide +kernel)
  (by decide +kernel) (by decide +kernel) (by decide +kernel)

/-- Error number 4. -/
example := c51_received_partial (d := quietBus true 40) (id := 7#8) (e := 0x04#8) (timeout := 5) (g := sampleGarbage) (rest := [1#8])
  (f := frame 7#8 [0x55#8, 0x04#8, 0xFF#8, 0xFF#8, 0xFD#8, 0xFD#8]) (quietBus_wInv true 40 (by decide))
  (busWith_rInv (sampleGarbage ++ frame 7#8 [0x55#8, 0x04#8, 0xFF#8, 0xFF#8, 0xFD#8, 0xFD#8] ++ [1#8]))
  (bytesEncoder_fills [0xFF#8, 0xFF#8, 0xFD#8]) (pair_eq (by decide +kernel)) (by unfold Sent; decide +kernel) (by decide +kernel)
  (by decide +kernel) (by decide +kernel) (by decide +kernel) (c23_survives_partial (by decide))

example := c51_sent (d := quietBus true 40) (id := 7#8) (e := 0x80#8) (quietBus_wInv true 40 (by decide))
  (bytesEncoder_fills [0xFF#8, 0xFF#8, 0xFD#8]) ⟨by simp [quietBus, quietPort], by simp [quietBus, quietPort]⟩ ⟨by decide, by decide⟩

end Dxl.Props
