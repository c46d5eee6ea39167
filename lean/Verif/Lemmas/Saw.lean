import Verif.Model.RunMock
import Verif.Lemmas.JustReads
import Verif.Props.Device

/-! # What code sees of its port -/

namespace Dxl
open Spec

/-! ## The list of what was seen is unique -/

theorem Port.read_log (cap D : Nat) (p : Port) : (Port.read cap D p).1.log = p.log ++ [.read cap D] := by
  unfold Port.read
  dsimp only
  split
  · rfl
  · split
    · split <;> rfl
    · split
      · split <;> rfl
      · rfl
    · split <;> rfl

theorem Port.writeAll_log (bs : List Byte) (p : Port) : ∃ ok, (Port.writeAll bs p).1.log = p.log ++ [.write bs ok] := by
  unfold Port.writeAll
  split <;> exact ⟨_, rfl⟩

theorem Port.discard_log (p : Port) : ∃ ok, (Port.discardInputBuffer p).1.log = p.log ++ [.discard ok] := by
  unfold Port.discardInputBuffer
  split <;> exact ⟨_, rfl⟩

theorem Port.setBaud_log (rate : Nat) (p : Port) : ∃ ok, (Port.setBaudRate rate p).1.log = p.log ++ [.setBaud rate ok] := by
  unfold Port.setBaudRate
  split <;> exact ⟨_, rfl⟩

/-- The state after a call of the port with this entry in the log, and what was seen. -/
def Port.redo (p : Port) : Call → Port × List Seen
  | .read cap D =>
    match Port.read cap D p with
    | (q, .ok bs) => (q, [.got bs])
    | (q, .err e) => (q, [.failed e])
    | (q, _) => (q, [])
  | .write bs _ => ((Port.writeAll bs p).1, [.wrote bs])
  | .discard _ => ((Port.discardInputBuffer p).1, [])
  | .setBaud rate _ => ((Port.setBaudRate rate p).1, [])

/-- The same for several calls. -/
def Port.redoAll : Port → List Call → Port × List Seen
  | p, [] => (p, [])
  | p, c :: cs => (((p.redo c).1.redoAll cs).1, (p.redo c).2 ++ ((p.redo c).1.redoAll cs).2)

theorem Saw.redo {p q : Port} {es : List Seen} (h : Saw p es q) : ∃ cs, q.log = p.log ++ cs ∧ p.redoAll cs = (q, es) := by
  have key : ∀ {p p₁ q : Port} {c : Call} {e es : List Seen}, p₁.log = p.log ++ [c] → p.redo c = (p₁, e) →
      (∃ cs, q.log = p₁.log ++ cs ∧ p₁.redoAll cs = (q, es)) → ∃ cs, q.log = p.log ++ cs ∧ p.redoAll cs = (q, e ++ es) := by
    rintro p p₁ q c e es h1 h2 ⟨cs, h3, h4⟩
    refine ⟨c :: cs, by rw [h3, h1]; simp, ?_⟩
    simp only [Port.redoAll, h2, h4]
  induction h with
  | nil => exact ⟨[], by simp, rfl⟩
  | @got p p₁ _ cap D bs es h _ ih =>
    have := Port.read_log cap D p
    rw [h] at this
    exact key (e := [.got bs]) this (by simp only [Port.redo, h]) ih
  | @failed p p₁ _ cap D e es h _ ih =>
    have := Port.read_log cap D p
    rw [h] at this
    exact key (e := [.failed e]) this (by simp only [Port.redo, h]) ih
  | @wrote p p₁ _ bs _ _ h _ ih =>
    obtain ⟨ok, this⟩ := Port.writeAll_log bs p
    rw [h] at this
    exact key (e := [.wrote bs]) this (by simp only [Port.redo, h]) ih
  | @discarded p p₁ _ _ _ h _ ih =>
    obtain ⟨ok, this⟩ := Port.discard_log p
    rw [h] at this
    exact key (e := []) this (by simp only [Port.redo, h]) ih
  | @baud p p₁ _ r _ _ h _ ih =>
    obtain ⟨ok, this⟩ := Port.setBaud_log r p
    rw [h] at this
    exact key (e := []) this (by simp only [Port.redo, h]) ih

/-- What was seen between two states of a port is unique. -/
theorem saw_unique {p q : Port} {es es' : List Seen} (h : Saw p es q) (h' : Saw p es' q) : es = es' := by
  obtain ⟨cs, h1, h2⟩ := h.redo
  obtain ⟨cs', h3, h4⟩ := h'.redo
  rw [h1] at h3
  rw [List.append_cancel_left h3] at h2
  rw [h2] at h4
  exact (Prod.mk.inj h4).2

theorem Saw.trans {p q r : Port} {es es' : List Seen} (h : Saw p es q) (h' : Saw q es' r) : Saw p (es ++ es') r := by
  induction h with
  | nil => exact h'
  | got h _ ih => exact .got h (ih h')
  | failed h _ ih => exact .failed h (ih h')
  | wrote h _ ih => exact .wrote h (ih h')
  | discarded h _ ih => exact .discarded h (ih h')
  | baud h _ ih => exact .baud h (ih h')

/-! ## Reading -/

/-- What a series of successful reads sees. -/
theorem Port.Reads.saw {D : Nat} {p q : Port} {bs : List Byte} (h : Port.Reads D p bs q) :
    ∃ gs : List (List Byte), Saw p (gs.map .got) q ∧ gs.flatten = bs := by
  induction h with
  | nil p => exact ⟨[], .nil p, rfl⟩
  | @step p _ _ cap bs _ _ h _ ih =>
    obtain ⟨gs, h1, h2⟩ := ih
    exact ⟨bs :: gs, .got h h1, by simp [h2]⟩

/-- What `read_packet_deadline` sees and does. -/
inductive Bus.ReadSees (b : Bus) : List Seen → Bus × Outcome ReadError Packet → Prop
  | packet {gs : List (List Byte)} {f rest : List Byte} {c : Bus}
      (hp : parse b.readBuffer.length (b.pending ++ gs.flatten) = .packet f rest) (hr : c.RInv) (hc : c.pending = rest)
      (hs : c.readBuffer.length = b.readBuffer.length) : ReadSees b (gs.map .got) (c, Bus.frameOutcome f)
  | tooBig {gs : List (List Byte)} {req : Nat} {rest : List Byte} {c : Bus}
      (hp : parse b.readBuffer.length (b.pending ++ gs.flatten) = .tooBig req rest) :
      ReadSees b (gs.map .got) (c, .err (.bufferFull ⟨req, b.readBuffer.length⟩))
  | ended {gs : List (List Byte)} {e : IoErr} {c : Bus}
      (hp : parse b.readBuffer.length (b.pending ++ gs.flatten) = .more) (hr : c.RInv)
      (hc : c.pending = skip (b.pending ++ gs.flatten)) (hs : c.readBuffer.length = b.readBuffer.length) :
      ReadSees b (gs.map .got ++ [.failed e]) (c, .err (.io e))

theorem Bus.readPacketDeadline_sees (D : Nat) {b : Bus} (hr : b.RInv) (hN : 10 ≤ b.readBuffer.length) :
    ∃ es, Saw b.serialPort es (Bus.readPacketDeadline D b).1.serialPort ∧ Bus.ReadSees b es (Bus.readPacketDeadline D b) := by
  have h := Bus.readPacketDeadline_result D hr hN
  generalize Bus.readPacketDeadline D b = r at h
  cases h with
  | packet h1 h2 h3 =>
    obtain ⟨gs, h4, rfl⟩ := h1.saw
    exact ⟨_, h3.port ▸ h4, .packet h2 h3.rInv h3.pending h3.like.readSize⟩
  | tooBig h1 h2 h3 =>
    obtain ⟨gs, h4, rfl⟩ := h1.saw
    exact ⟨_, h3.port ▸ h4, .tooBig h2⟩
  | ended h1 h2 h3 h4 h5 =>
    obtain ⟨gs, h6, rfl⟩ := h1.saw
    exact ⟨_, h5.port ▸ h6.trans (.failed h4 (.nil _)), .ended h2 h5.rInv h5.pending h5.like.readSize⟩

/-! ## Writing -/

theorem discard_saw (p : Port) : Saw p [] (Port.discardInputBuffer p).1 :=
  .discarded (p₁ := (Port.discardInputBuffer p).1) (o := (Port.discardInputBuffer p).2) rfl (.nil _)

theorem writeAll_saw (f : List Byte) (p : Port) : Saw p [.wrote f] (Port.writeAll f p).1 :=
  .wrote (p₁ := (Port.writeAll f p).1) (o := (Port.writeAll f p).2) rfl (.nil _)

theorem Bus.sendFrame_saw (f : List Byte) (b : Bus) :
    (Saw b.serialPort [] (Bus.sendFrame f b).1.serialPort ∧ ∃ e, (Bus.sendFrame f b).2 = .err e) ∨
      Saw b.serialPort [.wrote f] (Bus.sendFrame f b).1.serialPort := by
  unfold Bus.sendFrame
  rw [SO.bind_def, Bus.onPort_apply, SO.mapErr_apply]
  have hd := discard_saw b.serialPort
  rcases hx : Port.discardInputBuffer b.serialPort with ⟨p, o⟩
  rw [hx] at hd
  cases o with
  | ok u =>
    right
    simp only [Outcome.mapErr_ok]
    rw [Bus.onPort_apply, SO.mapErr_apply]
    have := hd.trans (writeAll_saw f p)
    exact this
  | err e => exact .inl ⟨hd, _, rfl⟩
  | panic =>
    unfold Port.discardInputBuffer at hx
    split at hx <;> simp at hx
  | hang =>
    unfold Port.discardInputBuffer at hx
    split at hx <;> simp at hx

/-- `write_packet`: either nothing is seen of the port, and it is not `Ok`; or one packet is written. -/
theorem Bus.writePacket_saw {b : Bus} (id instr : Byte) {n : Nat} {enc : Encoder} {params : List Byte} (hb : b.WInv)
    (he : Fills enc.run n params) :
    (Saw b.serialPort [] (Bus.writePacket id instr n enc b).1.serialPort ∧ (Bus.writePacket id instr n enc b).2 ≠ .ok ()) ∨
    (Saw b.serialPort [.wrote (frame id (codeStuff (instr :: params)))] (Bus.writePacket id instr n enc b).1.serialPort ∧
      (frame id (codeStuff (instr :: params))).length ≤ b.writeBuffer.length ∧
      (Bus.writePacket id instr n enc b).1.readLen = 0 ∧ (Bus.writePacket id instr n enc b).1.usedBytes = 0) := by
  have hk := (Bus.writePacket_kept id instr n enc hb).1
  rcases Bus.writePacket_split id instr n enc hb with ⟨w, o, h, ho⟩ | ⟨params', h1, h2, h⟩
  · rw [h]
    refine .inl ⟨.nil _, ?_⟩
    rintro rfl
    simp at ho
  · have hn : (b.paramSlice n).length = n := by
      have := enc.length_eq (b.paramSlice n)
      rw [h1] at this
      exact this.symm.trans h2
    have := he _ hn
    rw [h1] at this
    obtain rfl : params' = params := (Prod.mk.inj this).1
    rw [h] at hk ⊢
    have hs := Bus.sendFrame_saw (frame id (codeStuff (instr :: params'))) { b with
      writeBuffer := frame id (codeStuff (instr :: params')) ++ b.writeBuffer.drop (frame id (codeStuff (instr :: params'))).length
      readLen := 0
      usedBytes := 0 }
    rcases hs with ⟨hs, e, h3⟩ | hs
    · exact .inl ⟨hs, by rw [h3]; simp⟩
    · refine .inr ⟨hs, ?_⟩
      rcases Bus.sendFrame_cases (frame id (codeStuff (instr :: params'))) { b with
          writeBuffer := frame id (codeStuff (instr :: params')) ++
            b.writeBuffer.drop (frame id (codeStuff (instr :: params'))).length
          readLen := 0
          usedBytes := 0 } with ⟨e, h3, _⟩ | ⟨dt, e, h3, _⟩ | ⟨dt, h3, _⟩ <;>
      · rw [h3] at hk ⊢
        simp only [List.length_append, List.length_drop] at hk
        exact ⟨by omega, rfl, rfl⟩

end Dxl
