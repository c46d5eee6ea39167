import Verif.Lemmas.History
import Verif.Lemmas.Exchange

/-! # Reading only reads

What reading leaves alone, in every outcome and for every state. -/

namespace Dxl

/-- Between the two states the port was only read from, and nothing changed that reading has nothing to do with. -/
structure ReadsOnly (b b' : Bus) : Prop where
  calls : ∃ calls, b'.serialPort.log = b.serialPort.log ++ calls ∧ ∀ call ∈ calls, ∃ cap D, call = .read cap D
  discardRes : b'.serialPort.discardRes = b.serialPort.discardRes
  discardIsNoop : b'.serialPort.discardIsNoop = b.serialPort.discardIsNoop
  writeRes : b'.serialPort.writeRes = b.serialPort.writeRes
  writeBuffer : b'.writeBuffer = b.writeBuffer
  baudRate : b'.baudRate = b.baudRate
  debug : b'.debug = b.debug
  tail : b'.serialPort.tail = b.serialPort.tail

theorem ReadsOnly.refl (b : Bus) : ReadsOnly b b := ⟨⟨[], by simp, by simp⟩, rfl, rfl, rfl, rfl, rfl, rfl, rfl⟩

theorem ReadsOnly.trans {a b c : Bus} (h : ReadsOnly a b) (h' : ReadsOnly b c) : ReadsOnly a c := by
  obtain ⟨x, x1, x2⟩ := h.calls
  obtain ⟨y, y1, y2⟩ := h'.calls
  refine ⟨⟨x ++ y, by rw [y1, x1, List.append_assoc], fun call hc => ?_⟩, h'.2.trans h.2, h'.3.trans h.3, h'.4.trans h.4,
    h'.5.trans h.5, h'.6.trans h.6, h'.7.trans h.7, h'.8.trans h.8⟩
  rcases List.mem_append.mp hc with hc | hc
  · exact x2 _ hc
  · exact y2 _ hc

/-- `m` only reads, whatever the outcome. `g` is the bus in its state. -/
def OnlyReadsOn {σ ε α : Type} (g : σ → Bus) (m : SO σ ε α) : Prop := ∀ s, ReadsOnly (g s) (g (m s).1)

/-- The same for code that works on the bus itself. -/
abbrev JustReads {ε α : Type} (m : SO Bus ε α) : Prop := OnlyReadsOn (fun b => b) m

namespace OnlyReadsOn
variable {σ ε ε' α β : Type} {g : σ → Bus}

theorem bind {m : SO σ ε α} {k : α → SO σ ε β} (hm : OnlyReadsOn g m) (hk : ∀ a, OnlyReadsOn g (k a)) :
    OnlyReadsOn g (m >>= k) := by
  intro s
  have h := hm s
  rw [SO.bind_def]
  rcases hm' : m s with ⟨s', o⟩
  rw [hm'] at h
  cases o with
  | ok a => exact h.trans (hk a s')
  | _ => exact h

theorem same {m : SO σ ε α} (h : ∀ s, g (m s).1 = g s) : OnlyReadsOn g m := fun s => by rw [h]; exact .refl _
theorem pure (a : α) : OnlyReadsOn g (Pure.pure a : SO σ ε α) := same fun _ => rfl
theorem lift (o : Outcome ε α) : OnlyReadsOn g (SO.lift o : SO σ ε α) := same fun _ => rfl
theorem get : OnlyReadsOn g (SO.get : SO σ ε σ) := same fun _ => rfl
theorem panic : OnlyReadsOn g (SO.panic : SO σ ε α) := same fun _ => rfl
theorem hang : OnlyReadsOn g (SO.hang : SO σ ε α) := same fun _ => rfl
theorem throw (e : ε) : OnlyReadsOn g (SO.throw e : SO σ ε α) := same fun _ => rfl
theorem mapErr {m : SO σ ε α} (f : ε → ε') (h : OnlyReadsOn g m) : OnlyReadsOn g (m.mapErr f) := h

theorem attempt {m : SO σ ε α} (h : OnlyReadsOn g m) : OnlyReadsOn g (m.attempt : SO σ ε' (Except ε α)) := by
  intro s
  have := h s
  unfold SO.attempt
  rcases hm : m s with ⟨s', o⟩
  rw [hm] at this
  cases o <;> exact this

end OnlyReadsOn

open OnlyReadsOn

namespace Bus

theorem onPort_read_just (cap D : Nat) : JustReads (onPort ((Port.read cap D).mapErr ReadError.io)) := by
  intro b
  change ReadsOnly b { b with serialPort := (Port.read cap D b.serialPort).1 }
  have key : (Port.read cap D b.serialPort).1.log = b.serialPort.log ++ [.read cap D] ∧
      (Port.read cap D b.serialPort).1.discardRes = b.serialPort.discardRes ∧
      (Port.read cap D b.serialPort).1.discardIsNoop = b.serialPort.discardIsNoop ∧
      (Port.read cap D b.serialPort).1.writeRes = b.serialPort.writeRes ∧
      (Port.read cap D b.serialPort).1.tail = b.serialPort.tail := by
    unfold Port.read
    dsimp only
    split
    · exact ⟨rfl, rfl, rfl, rfl, rfl⟩
    · split
      · split <;> exact ⟨rfl, rfl, rfl, rfl, rfl⟩
      · split
        · split <;> exact ⟨rfl, rfl, rfl, rfl, rfl⟩
        · exact ⟨rfl, rfl, rfl, rfl, rfl⟩
      · split <;> exact ⟨rfl, rfl, rfl, rfl, rfl⟩
  obtain ⟨k1, k2, k3, k4, k5⟩ := key
  exact ⟨⟨_, k1, by simp⟩, k2, k3, k4, rfl, rfl, rfl, k5⟩

theorem modify_just {ε : Type} {f : Bus → Bus} (h : ∀ b, (f b).serialPort = b.serialPort ∧ (f b).writeBuffer = b.writeBuffer ∧
    (f b).baudRate = b.baudRate ∧ (f b).debug = b.debug) : JustReads (SO.modify f : SO Bus ε Unit) := by
  intro b
  obtain ⟨h1, h2, h3, h4⟩ := h b
  change ReadsOnly b (f b)
  exact ⟨⟨[], by rw [h1]; simp, by simp⟩, by rw [h1], by rw [h1], by rw [h1], h2, h3, h4, by rw [h1]⟩

theorem onReadBuffer_just {ε α : Type} (m : SO (List Byte) ε α) : JustReads (onReadBuffer m) := fun b =>
  ⟨⟨[], by simp [onReadBuffer, SO.zoom], by simp⟩, rfl, rfl, rfl, rfl, rfl, rfl, rfl⟩

theorem debugAssert_just {ε : Type} (c : Bool) : JustReads (debugAssert (ε := ε) c) := by
  refine .bind .get fun b => ?_
  unfold SO.assert
  split
  · exact .pure _
  · exact .panic

theorem consumeReadBytes_just {ε : Type} (n : Nat) : JustReads (consumeReadBytes (ε := ε) n) := by
  refine .bind .get fun b => .bind (debugAssert_just _) fun _ => ?_
  split
  · exact modify_just fun _ => ⟨rfl, rfl, rfl, rfl⟩
  · exact .panic

theorem removeGarbage_just {ε : Type} : JustReads (removeGarbage (ε := ε)) :=
  .bind .get fun _ => .bind (.lift _) fun _ => .bind (.lift _) fun _ => .bind (consumeReadBytes_just _) fun _ =>
    .bind .get fun _ => debugAssert_just _

theorem messageReady_just : JustReads messageReady := by
  refine .bind .get fun b => ?_
  split
  · refine .bind (.lift _) fun _ => .bind (.lift _) fun _ => .bind (.lift _) fun _ => ?_
    split
    · exact .bind (consumeReadBytes_just _) fun _ => .throw _
    · split <;> exact .pure _
  · exact .pure _

theorem readMore_just (D : Nat) : JustReads (readMore D) := by
  refine .bind .get fun b => ?_
  split
  · exact .bind (onPort_read_just _ _) fun _ => modify_just fun _ => ⟨rfl, rfl, rfl, rfl⟩
  · exact .panic

theorem readLoop_just (D fuel : Nat) : JustReads (readLoop D fuel) := by
  induction fuel with
  | zero => exact .hang
  | succ fuel ih =>
    refine .bind removeGarbage_just fun _ => .bind messageReady_just fun o => ?_
    cases o with
    | some n => exact .pure _
    | none => exact .bind (readMore_just D) fun _ => ih

theorem finishPacket_just (n : Nat) : JustReads (finishPacket n) := by
  refine .bind .get fun _ => .bind (.lift _) fun _ => .bind (.lift _) fun _ => .bind (.lift _) fun _ => .bind (.lift _) fun _ => ?_
  split
  · exact .bind (consumeReadBytes_just _) fun _ => .throw _
  · refine .bind (modify_just fun _ => ⟨rfl, rfl, rfl, rfl⟩) fun _ => .bind (onReadBuffer_just _) fun _ => .bind .get fun _ =>
      .bind (.lift _) fun _ => .bind (.lift _) fun _ => ?_
    split
    · exact .throw _
    · exact .pure _

theorem readPacketDeadline_just (D : Nat) : JustReads (readPacketDeadline D) :=
  .bind .get fun _ => .bind (.lift _) fun _ => .bind (readLoop_just _ _) fun _ => finishPacket_just _

end Bus

theorem Device.readRawLoop_just (D fuel : Nat) : JustReads (Device.readRawLoop D fuel) := by
  induction fuel with
  | zero => exact .hang
  | succ fuel ih =>
    refine .bind (Bus.readPacketDeadline_just D) fun pkt => .bind (.lift _) fun o => ?_
    cases o with
    | some i => exact .pure _
    | none => exact ih

theorem Device.read_just (t : Nat) : JustReads (Device.read t) :=
  .bind (.bind .get fun _ => Device.readRawLoop_just _ _) fun _ => .lift _

theorem ReadsOnly.sendOk {b c : Bus} (h : ReadsOnly b c) (hp : b.serialPort.SendOk) : c.serialPort.SendOk :=
  ⟨by rw [h.discardRes]; exact hp.discard, by rw [h.writeRes]; exact hp.write⟩

theorem ReadsOnly.wInv {b c : Bus} (h : ReadsOnly b c) (hb : b.WInv) : c.WInv :=
  ⟨by rw [h.writeBuffer]; exact hb.size, by rw [h.writeBuffer]; exact hb.prefix_eq⟩

end Dxl
