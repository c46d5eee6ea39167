import Verif.Lemmas.Saw

/-! # All code of a simulated motor uses its port by the calls of `Saw` -/

namespace Dxl

/-- What `m` does to the port of the bus (part `g` of its state) can be listed. -/
def WatchedOn {σ ε α : Type} (g : σ → Bus) (m : SO σ ε α) : Prop :=
  ∀ s, (g s).Inv → Step (g s) (g (m s).1) ∧ ∃ es, Saw (g s).serialPort es (g (m s).1).serialPort

/-- The same for code that works on the bus itself. -/
abbrev Watched {ε α : Type} (m : SO Bus ε α) : Prop := WatchedOn (fun b => b) m

namespace WatchedOn
variable {σ ε ε' α β : Type} {g : σ → Bus}

theorem bind {m : SO σ ε α} {f : α → SO σ ε β} (hm : WatchedOn g m) (hf : ∀ a, WatchedOn g (f a)) : WatchedOn g (m >>= f) := by
  intro s hs
  have h := hm s hs
  rw [SO.bind_def]
  rcases hm' : m s with ⟨s', o⟩
  rw [hm'] at h
  cases o with
  | ok a =>
    obtain ⟨h1, es, h2⟩ := h
    obtain ⟨h3, es', h4⟩ := hf a s' h1.inv
    exact ⟨h1.trans h3, es ++ es', h2.trans h4⟩
  | err e => exact h
  | panic => exact h
  | hang => exact h

theorem same {m : SO σ ε α} (h : ∀ s, g (m s).1 = g s) : WatchedOn g m := by
  intro s hs
  rw [h]
  exact ⟨.refl hs, [], .nil _⟩

theorem pure (a : α) : WatchedOn g (Pure.pure a : SO σ ε α) := same fun _ => rfl
theorem lift (o : Outcome ε α) : WatchedOn g (SO.lift o : SO σ ε α) := same fun _ => rfl
theorem get : WatchedOn g (SO.get : SO σ ε σ) := same fun _ => rfl
theorem panic : WatchedOn g (SO.panic : SO σ ε α) := same fun _ => rfl
theorem hang : WatchedOn g (SO.hang : SO σ ε α) := same fun _ => rfl

theorem mapErr {m : SO σ ε α} (f : ε → ε') (h : WatchedOn g m) : WatchedOn g (m.mapErr f) := fun s hs => h s hs

theorem attempt {m : SO σ ε α} (h : WatchedOn g m) : WatchedOn g (m.attempt : SO σ ε' (Except ε α)) := by
  intro s hs
  have := h s hs
  unfold SO.attempt
  rcases hm : m s with ⟨s', o⟩
  rw [hm] at this
  cases o <;> exact this

/-- What is seen of `m` and then `f`. -/
theorem split {m : SO σ ε α} {f : α → SO σ ε β} (hm : WatchedOn g m) (hf : ∀ a, WatchedOn g (f a)) {s : σ} (hs : (g s).Inv)
    {es : List Seen} (h : Saw (g s).serialPort es (g ((m >>= f) s).1).serialPort) :
    ∃ es₁ es₂, es = es₁ ++ es₂ ∧ Saw (g s).serialPort es₁ (g (m s).1).serialPort ∧
      Saw (g (m s).1).serialPort es₂ (g ((m >>= f) s).1).serialPort := by
  obtain ⟨h1, es₁, h2⟩ := hm s hs
  have h3 : ∃ es₂, Saw (g (m s).1).serialPort es₂ (g ((m >>= f) s).1).serialPort := by
    rw [SO.bind_def]
    rcases hm' : m s with ⟨s', o⟩
    rw [hm'] at h1
    cases o with
    | ok a => exact (hf a s' h1.inv).2
    | _ => exact ⟨[], .nil _⟩
  obtain ⟨es₂, h3⟩ := h3
  exact ⟨es₁, es₂, saw_unique h (h2.trans h3), h2, h3⟩

end WatchedOn

open WatchedOn

theorem Bus.writePacket_watched (id instr : Byte) (n : Nat) (enc : Encoder) : Watched (Bus.writePacket id instr n enc) := by
  intro b hb
  refine ⟨Bus.writePacket_sound id instr n enc b hb, ?_⟩
  rcases Bus.writePacket_split id instr n enc hb.wInv with ⟨w, o, h, _⟩ | ⟨params, _, _, h⟩
  · rw [h]; exact ⟨[], .nil _⟩
  · rw [h]
    rcases Bus.sendFrame_saw (Spec.frame id (codeStuff (instr :: params))) { b with
              writeBuffer := Spec.frame id (codeStuff (instr :: params)) ++
                b.writeBuffer.drop (Spec.frame id (codeStuff (instr :: params))).length
              readLen := 0
              usedBytes := 0 } with ⟨h, _⟩ | h
    · exact ⟨_, h⟩
    · exact ⟨_, h⟩

theorem Bus.writeStatus_watched (id error : Byte) (n : Nat) (enc : Encoder) : Watched (Bus.writeStatus id error n enc) :=
  bind get fun _ => bind (lift _) fun _ => Bus.writePacket_watched _ _ _ _

theorem Bus.readPacketDeadline_watched (D : Nat) : Watched (Bus.readPacketDeadline D) := by
  intro b hb
  refine ⟨Bus.readPacketDeadline_sound D b hb, ?_⟩
  by_cases hN : 10 ≤ b.readBuffer.length
  · obtain ⟨es, h, _⟩ := Bus.readPacketDeadline_sees D hb.rInv hN
    exact ⟨es, h⟩
  · rw [Bus.readPacketDeadline_small D (by omega)]
    exact ⟨[], .nil _⟩

namespace Device

theorem readRawLoop_watched (D fuel : Nat) : Watched (readRawLoop D fuel) := by
  induction fuel with
  | zero => exact hang
  | succ fuel ih =>
    refine bind (Bus.readPacketDeadline_watched D) fun pkt => bind (lift _) fun o => ?_
    cases o with
    | some i => exact pure _
    | none => exact ih

theorem readRaw_watched (t : Nat) : Watched (readRawInstructionTimeout t) := bind get fun _ => readRawLoop_watched _ _

theorem read_watched (t : Nat) : Watched (read t) := bind (readRaw_watched _) fun _ => lift _

end Device

namespace MockDevice

/-- The code of a simulated motor. -/
abbrev Seen {ε α : Type} (m : SO MockDevice ε α) : Prop := WatchedOn MockDevice.device m

theorem onDevice_seen {ε α : Type} {m : SO Bus ε α} (h : Watched m) : Seen (onDevice m) := fun d hd => h d.device hd
theorem onTable_seen {ε α : Type} (m : SO (List Byte) ε α) : Seen (onTable m) := same fun _ => rfl

theorem assertOk_seen {ε ε' : Type} {m : SO MockDevice ε Unit} (h : Seen m) : Seen (assertOk (ε' := ε') m) := by
  refine bind (attempt h) fun o => ?_
  cases o with
  | ok u => exact pure _
  | error e => exact panic

theorem status_seen {ε : Type} (id e : Byte) (n : Nat) (enc : Encoder) :
    Seen (assertOk (ε' := ε) (onDevice (Device.writeStatus id e n enc))) :=
  assertOk_seen (onDevice_seen (Bus.writeStatus_watched _ _ _ _))

theorem reply_seen {ε : Type} (a n : U16) : Seen (reply (ε := ε) a n) := by
  refine bind get fun d => bind (lift _) fun o => ?_
  cases o with
  | some data => exact status_seen _ _ _ _
  | none => exact status_seen _ _ _ _

theorem awaitReply_seen {ε : Type} (id : Byte) (fuel : Nat) : Seen (awaitReply (ε := ε) id fuel) := by
  induction fuel with
  | zero => exact hang
  | succ fuel ih =>
    refine bind (attempt (onDevice_seen (Device.read_watched _))) fun o => ?_
    split
    · split <;> exact pure _
    · exact pure _
    · split
      · exact ih
      · exact pure _
    · exact pure _

theorem handleSyncBulkRead_seen {ε : Type} (fuel : Nat) (a n : U16) (ids : List Byte) :
    Seen (handleSyncBulkRead (ε := ε) fuel a n ids) := by
  induction ids with
  | nil => exact pure _
  | cons id ids ih =>
    refine bind get fun d => ?_
    split
    · exact reply_seen _ _
    · refine bind (awaitReply_seen _ _) fun o => ?_
      split
      · exact ih
      · exact pure _

theorem writeAndAnswer_seen {ε : Type} (a : U16) (ps : List Byte) : Seen (writeAndAnswer (ε := ε) a ps) := by
  refine bind get fun d => bind (onTable_seen _) fun o => ?_
  split <;> exact status_seen _ _ _ _

theorem handle_seen {ε : Type} (fuel : Nat) (i : Instructions) : Seen (handle (ε := ε) fuel i) := by
  cases i with
  | ping => exact bind get fun d => status_seen _ _ _ _
  | read a n => exact reply_seen _ _
  | write a ps => exact writeAndAnswer_seen _ _
  | syncRead a n ids =>
    refine bind get fun d => ?_
    split
    · exact handleSyncBulkRead_seen _ _ _ _
    · exact pure _
  | syncWrite a n ps =>
    refine bind get fun d => ?_
    split
    · exact pure _
    · exact bind (lift _) fun _ => bind (onTable_seen _) fun _ => pure _
  | bulkRead ps =>
    refine bind get fun d => ?_
    dsimp only
    split
    · exact pure _
    · exact bind (lift _) fun _ => bind (lift _) fun _ => handleSyncBulkRead_seen _ _ _ _
  | bulkWrite ps =>
    exact bind get fun d => bind (lift _) fun _ => bind (lift _) fun _ => bind (lift _) fun _ => bind (lift _) fun _ =>
      bind (onTable_seen _) fun _ => pure _
  | regWrite a ps => exact bind (same fun _ => rfl) fun _ => bind get fun d => status_seen _ _ _ _
  | action =>
    refine bind get fun d => ?_
    split
    · exact bind (same fun _ => rfl) fun _ => writeAndAnswer_seen _ _
    · exact status_seen _ _ _ _
  | factoryReset _ => exact panic
  | reboot => exact panic
  | clear _ => exact panic
  | unknown _ _ => exact pure _

theorem step_seen {ε : Type} (fuel : Nat) : Seen (step (ε := ε) fuel) := by
  refine bind (attempt (onDevice_seen (Device.read_watched _))) fun o => ?_
  split
  · split
    · exact pure _
    · exact panic
  · exact panic
  · refine bind get fun d => ?_
    split
    · exact pure _
    · exact handle_seen _ _

theorem run_seen {ε : Type} (fuel n : Nat) : Seen (run (ε := ε) fuel n) := by
  induction n with
  | zero => exact pure _
  | succ n ih => exact bind (step_seen fuel) fun _ => ih

end MockDevice

/-! ## Reading -/

theorem Port.redoAll_reads {p : Port} {cs : List Call} (h : ∀ c ∈ cs, ∃ cap D, c = .read cap D) (data : List Byte) :
    .wrote data ∉ (p.redoAll cs).2 := by
  induction cs generalizing p with
  | nil => simp [Port.redoAll]
  | cons c cs ih =>
    obtain ⟨cap, D, rfl⟩ := h c (by simp)
    simp only [Port.redoAll, List.mem_append, not_or]
    refine ⟨?_, ih fun c hc => h c (by simp [hc])⟩
    simp only [Port.redo]
    split <;> simp

/-- Code that only reads does not write. -/
theorem saw_quiet {b c : Bus} {es : List Seen} (h : Saw b.serialPort es c.serialPort) (hr : ReadsOnly b c) (data : List Byte) :
    .wrote data ∉ es := by
  obtain ⟨cs, h1, h2⟩ := h.redo
  obtain ⟨cs', h3, h4⟩ := hr.calls
  rw [h3] at h1
  rw [← List.append_cancel_left h1] at h2
  have := Port.redoAll_reads (p := b.serialPort) h4 data
  rwa [h2] at this

end Dxl
