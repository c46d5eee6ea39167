import Verif.Model.RunMock
import Verif.Lemmas.Read
import Verif.Lemmas.Write

/-! # How much a read asks for

A read asks for all that fits behind what is in the read buffer; that is no more than what was received. -/

namespace Dxl

/-- Every read asks for at least `N` bytes, less those that were there at first (`n`) or were read since. -/
def Fits (N : Nat) : Nat → List PortAct → Nat → Prop
  | n, [], n' => n' ≤ n
  | n, .asked cap :: es, n' => N ≤ cap + n ∧ Fits N n es n'
  | n, .got bytes :: es, n' => Fits N (n + bytes.length) es n'
  | n, .failed _ :: es, n' => Fits N n es n'
  | n, .wrote _ :: es, n' => Fits N n es n'

namespace Fits
variable {N n m k : Nat} {es es' : List PortAct}

theorem mono (h : Fits N n es m) : ∀ {n'}, n ≤ n' → Fits N n' es m := by
  induction es generalizing n with
  | nil => intro n' hn; exact Nat.le_trans h hn
  | cons e es ih =>
    intro n' hn
    cases e with
    | asked cap => exact ⟨by have := h.1; omega, ih h.2 hn⟩
    | got bytes => exact ih h (by omega)
    | failed e => exact ih h hn
    | wrote bytes => exact ih h hn

theorem trans (h : Fits N n es m) (h' : Fits N m es' k) : Fits N n (es ++ es') k := by
  induction es generalizing n with
  | nil => exact h'.mono h
  | cons e es ih =>
    cases e with
    | asked cap => exact ⟨h.1, ih h.2⟩
    | got bytes => exact ih h
    | failed e => exact ih h
    | wrote bytes => exact ih h

end Fits

theorem Traced.trans {p q r : Port} {es es' : List PortAct} (h : Traced p es q) (h' : Traced q es' r) : Traced p (es ++ es') r := by
  induction h with
  | nil => exact h'
  | got h _ ih => exact .got h (ih h')
  | failed h _ ih => exact .failed h (ih h')
  | wrote h _ ih => exact .wrote h (ih h')
  | discarded h _ ih => exact .discarded h (ih h')
  | baud h _ ih => exact .baud h (ih h')

/-- The reads between two states of a bus ask for what fits. -/
def Roomy (b b' : Bus) : Prop :=
  b'.readBuffer.length = b.readBuffer.length ∧
    ∃ es, Traced b.serialPort es b'.serialPort ∧ Fits b.readBuffer.length b.readLen es b'.readLen

namespace Roomy

theorem refl (b : Bus) : Roomy b b := ⟨rfl, [], .nil _, Nat.le_refl _⟩

theorem trans {a b c : Bus} (h : Roomy a b) (h' : Roomy b c) : Roomy a c := by
  obtain ⟨h1, x, h2, h3⟩ := h
  obtain ⟨h4, y, h5, h6⟩ := h'
  exact ⟨h4.trans h1, x ++ y, h2.trans h5, h3.trans (h1 ▸ h6)⟩

theorem shorter {b c : Bus} (h1 : c.serialPort = b.serialPort) (h2 : c.readBuffer.length = b.readBuffer.length)
    (h3 : c.readLen ≤ b.readLen) : Roomy b c := ⟨h2, [], by rw [h1]; exact .nil _, h3⟩

end Roomy

/-- The reads of `m` ask for what fits, whatever the outcome. -/
def AsksRoom {ε α : Type} (m : SO Bus ε α) : Prop := ∀ b, Roomy b (m b).1

namespace AsksRoom
variable {ε ε' α β : Type}

theorem bind {m : SO Bus ε α} {k : α → SO Bus ε β} (hm : AsksRoom m) (hk : ∀ a, AsksRoom (k a)) : AsksRoom (m >>= k) := by
  intro s
  have h := hm s
  rw [SO.bind_def]
  rcases hm' : m s with ⟨s', o⟩
  rw [hm'] at h
  cases o with
  | ok a => exact h.trans (hk a s')
  | _ => exact h

theorem get_bind {k : Bus → SO Bus ε β} (hk : ∀ b, Roomy b (k b b).1) : AsksRoom (SO.get >>= k) := fun b => hk b

theorem same {m : SO Bus ε α} (h : ∀ s, (m s).1 = s) : AsksRoom m := fun s => by rw [h]; exact .refl _
theorem pure (a : α) : AsksRoom (Pure.pure a : SO Bus ε α) := same fun _ => rfl
theorem lift (o : Outcome ε α) : AsksRoom (SO.lift o : SO Bus ε α) := same fun _ => rfl
theorem get : AsksRoom (SO.get : SO Bus ε Bus) := same fun _ => rfl
theorem panic : AsksRoom (SO.panic : SO Bus ε α) := same fun _ => rfl
theorem hang : AsksRoom (SO.hang : SO Bus ε α) := same fun _ => rfl
theorem throw (e : ε) : AsksRoom (SO.throw e : SO Bus ε α) := same fun _ => rfl

end AsksRoom

namespace Bus
open AsksRoom

theorem debugAssert_room {ε : Type} (c : Bool) : AsksRoom (debugAssert (ε := ε) c) := by
  refine bind get fun b => ?_
  unfold SO.assert
  split
  · exact pure _
  · exact panic

theorem consumeReadBytes_room {ε : Type} (n : Nat) : AsksRoom (consumeReadBytes (ε := ε) n) := by
  intro b
  have ha := debugAssert_room (ε := ε) (decide (n ≤ b.readLen)) b
  unfold consumeReadBytes
  rw [SO.get_bind, SO.bind_def]
  rcases hx : debugAssert (ε := ε) (decide (n ≤ b.readLen)) b with ⟨c, o⟩
  have hc : c = b := by
    unfold debugAssert SO.assert at hx
    rw [SO.get_bind] at hx
    split at hx
    · exact (Prod.mk.inj hx).1.symm
    · exact (Prod.mk.inj hx).1.symm
  subst hc
  cases o with
  | ok u =>
    dsimp only
    split
    · rename_i h
      refine Roomy.shorter rfl ?_ (Nat.sub_le _ _)
      simp only [SO.modify_apply, List.length_append, List.length_drop, List.length_take]
      omega
    · exact .refl _
  | _ => exact .refl _

theorem removeGarbage_room {ε : Type} : AsksRoom (removeGarbage (ε := ε)) :=
  bind get fun _ => bind (lift _) fun _ => bind (lift _) fun _ => bind (consumeReadBytes_room _) fun _ =>
    bind get fun _ => debugAssert_room _

theorem messageReady_room : AsksRoom messageReady := by
  refine bind get fun b => ?_
  split
  · refine bind (lift _) fun _ => bind (lift _) fun _ => bind (lift _) fun _ => ?_
    split
    · exact bind (consumeReadBytes_room _) fun _ => throw _
    · split <;> exact pure _
  · exact pure _

theorem port_read_le {cap D : Nat} {p q : Port} {bs : List Byte} (h : Port.read cap D p = (q, .ok bs)) : bs.length ≤ cap := by
  unfold Port.read at h
  dsimp only at h
  split at h
  · cases h
  · split at h
    · split at h <;> cases h
    · split at h
      · split at h
        · cases h; assumption
        · cases h; simp; omega
      · cases h
    · split at h <;> cases h

theorem port_read_ends (cap D : Nat) (p : Port) : (∃ q bs, Port.read cap D p = (q, .ok bs)) ∨ ∃ q e, Port.read cap D p = (q, .err e) := by
  unfold Port.read
  dsimp only
  split
  · exact .inr ⟨_, _, rfl⟩
  · split
    · split <;> exact .inr ⟨_, _, rfl⟩
    · split
      · split <;> exact .inl ⟨_, _, rfl⟩
      · exact .inr ⟨_, _, rfl⟩
    · split <;> exact .inr ⟨_, _, rfl⟩

theorem readMore_room (D : Nat) : AsksRoom (readMore D) := by
  intro b
  unfold readMore
  rw [SO.get_bind]
  split
  · rename_i hl
    rw [SO.bind_def, Bus.onPort_apply, SO.mapErr_apply]
    rcases port_read_ends (b.readBuffer.length - b.readLen) D b.serialPort with ⟨q, bs, h⟩ | ⟨q, e, h⟩
    · have := port_read_le h
      rw [h]
      simp only [Outcome.mapErr_ok, SO.modify_apply]
      refine ⟨?_, _, .got h (.nil _), ?_, ?_⟩
      · simp only [List.length_append, List.length_drop, List.length_take]
        omega
      · omega
      · exact Nat.le_refl _
    · rw [h]
      refine ⟨rfl, _, .failed h (.nil _), ?_, Nat.le_refl _⟩
      omega
  · exact .refl _

theorem readLoop_room (D fuel : Nat) : AsksRoom (readLoop D fuel) := by
  induction fuel with
  | zero => exact hang
  | succ fuel ih =>
    refine bind removeGarbage_room fun _ => bind messageReady_room fun o => ?_
    cases o with
    | some n => exact pure _
    | none => exact bind (readMore_room D) fun _ => ih

theorem onReadBuffer_room {ε α : Type} {m : SO (List Byte) ε α} (h : ∀ l, (m l).1.length = l.length) : AsksRoom (onReadBuffer m) :=
  fun b => .shorter rfl (h b.readBuffer) (Nat.le_refl _)

theorem unstuffInplace_length {ε : Type} : KeepsLength (unstuffInplace (ε := ε)) := by
  intro d
  obtain ⟨junk, h1, h2⟩ := unstuffInplace_eq (ε := ε) d
  rw [h1, List.length_append]
  exact h2

theorem modify_room {ε : Type} {f : Bus → Bus} (h : ∀ b, (f b).serialPort = b.serialPort ∧ (f b).readBuffer = b.readBuffer ∧
    (f b).readLen = b.readLen) : AsksRoom (SO.modify f : SO Bus ε Unit) := fun b =>
  .shorter (h b).1 (by rw [SO.modify_apply, (h b).2.1]) (by rw [SO.modify_apply, (h b).2.2]; exact Nat.le_refl _)

theorem finishPacket_room (n : Nat) : AsksRoom (finishPacket n) := by
  refine bind get fun _ => bind (lift _) fun _ => bind (lift _) fun _ => bind (lift _) fun _ => bind (lift _) fun _ => ?_
  split
  · exact bind (consumeReadBytes_room _) fun _ => throw _
  · refine bind (modify_room fun _ => ⟨rfl, rfl, rfl⟩) fun _ => bind (onReadBuffer_room (KeepsLength.onSlice _ _ unstuffInplace_length)) fun _ =>
      bind get fun _ => bind (lift _) fun _ => bind (lift _) fun _ => ?_
    split
    · exact throw _
    · exact pure _

theorem readPacketDeadline_room (D : Nat) : AsksRoom (readPacketDeadline D) :=
  bind get fun _ => bind (lift _) fun _ => bind (readLoop_room _ _) fun _ => finishPacket_room _

theorem sendFrame_room (f : List Byte) : AsksRoom (sendFrame f) := by
  intro b
  unfold sendFrame
  rw [SO.bind_def, Bus.onPort_apply, SO.mapErr_apply]
  have hd : Traced b.serialPort [] (Port.discardInputBuffer b.serialPort).1 :=
    .discarded (p₁ := (Port.discardInputBuffer b.serialPort).1) (o := (Port.discardInputBuffer b.serialPort).2) rfl (.nil _)
  rcases hx : Port.discardInputBuffer b.serialPort with ⟨p, o⟩
  rw [hx] at hd
  have hw : Traced p [.wrote f] (Port.writeAll f p).1 :=
    .wrote (p₁ := (Port.writeAll f p).1) (o := (Port.writeAll f p).2) rfl (.nil _)
  cases o with
  | ok u =>
    simp only [Outcome.mapErr_ok]
    rw [Bus.onPort_apply, SO.mapErr_apply]
    exact ⟨rfl, _, hd.trans hw, Nat.le_refl _⟩
  | err e => exact ⟨rfl, _, hd, Nat.le_refl _⟩
  | panic => exact ⟨rfl, _, hd, Nat.le_refl _⟩
  | hang => exact ⟨rfl, _, hd, Nat.le_refl _⟩

theorem writePacket_room (id instr : Byte) (n : Nat) (enc : Encoder) {b : Bus} (hb : b.WInv) :
    Roomy b (writePacket id instr n enc b).1 := by
  rcases writePacket_split id instr n enc hb with ⟨w, o, h, _⟩ | ⟨params, _, _, h⟩
  · rw [h]; exact .shorter rfl rfl (Nat.le_refl _)
  · rw [h]
    refine .trans ?_ (sendFrame_room _ _)
    exact .shorter rfl rfl (Nat.zero_le _)

theorem setBaudRate_room (rate : Nat) : AsksRoom (setBaudRate rate) := by
  unfold setBaudRate
  refine bind (fun b => ?_) fun _ => modify_room fun _ => ⟨rfl, rfl, rfl⟩
  rw [Bus.onPort_apply]
  exact ⟨rfl, [], .baud (p₁ := (Port.setBaudRate rate b.serialPort).1) (o := (Port.setBaudRate rate b.serialPort).2) rfl (.nil _),
    Nat.le_refl _⟩

end Bus
end Dxl
