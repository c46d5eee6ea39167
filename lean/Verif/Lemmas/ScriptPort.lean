import Verif.Lemmas.AnyPort
import Verif.Lemmas.Room

/-! # The script port as an implementation of `SerialPort` -/

namespace Dxl

/-- What the script port does with a slice, `src/serial_port/serial2.rs:24-30`. -/
def scriptRead (deadline : Nat) (old : List Byte) (p : Port) : Port × List Byte × Outcome IoErr Nat :=
  match Port.read old.length deadline p with
  | (p, .ok bs) => (p, bs ++ old.drop bs.length, .ok bs.length)
  | (p, .err e) => (p, old, .err e)
  | (p, .panic) => (p, old, .panic)
  | (p, .hang) => (p, old, .hang)

theorem scriptRead_length (deadline : Nat) (old : List Byte) (p : Port) : (scriptRead deadline old p).2.1.length = old.length := by
  unfold scriptRead
  rcases h : Port.read old.length deadline p with ⟨p', o⟩
  cases o with
  | ok bs =>
    have := Bus.port_read_le h
    simp
    omega
  | _ => rfl

/-- The script port, as an implementation of the trait, `src/serial_port/serial2.rs:5-43`. -/
def scriptImpl : PortImpl where
  Port := Port
  Error := IoErr
  Instant := Nat
  baudRate := fun p => (p, p.baudRate)
  setBaudRate := Port.setBaudRate
  discardInputBuffer := Port.discardInputBuffer
  read := scriptRead
  read_length := scriptRead_length
  writeAll := Port.writeAll
  makeDeadline := fun timeout p => (p, .ok (p.makeDeadline timeout))
  isTimeoutError := fun e => decide (e = .timedOut)

/-- The bus of the model with the script port that is meant by one with any port. -/
def scriptBus (x : BusOf scriptImpl) : Bus := x.rest.onto x.port

def scriptReadError : ReadError → ReadErrorOf IoErr
  | .bufferFull e => .bufferFull e
  | .io e => .io e
  | .invalidMessage e => .invalidMessage e
  | .motorError e => .motorError e

def scriptWriteError : WriteError → WriteErrorOf IoErr
  | .bufferTooSmall e => .bufferTooSmall e
  | .discardBuffer e => .discardBuffer e
  | .write e => .write e

namespace BusOf

/-- The two models do the same, with read buffers of `N` bytes. -/
def Same {ε ε' α : Type} (N : Nat) (g : ε → ε') (m : SO (BusOf scriptImpl) ε' α) (m' : SO Bus ε α) : Prop :=
  ∀ x : BusOf scriptImpl, x.rest.readBuffer.length = N → scriptBus (m x).1 = (m' (scriptBus x)).1 ∧
    (m x).2 = (m' (scriptBus x)).2.mapErr g ∧ (m x).1.rest.readBuffer.length = N

variable {ε ε' α β : Type} {N : Nat} {g : ε → ε'}

theorem Same.bind {m : SO (BusOf scriptImpl) ε' α} {m' : SO Bus ε α} {f : α → SO (BusOf scriptImpl) ε' β} {f' : α → SO Bus ε β}
    (hm : Same N g m m') (hf : ∀ a, Same N g (f a) (f' a)) : Same N g (m >>= f) (m' >>= f') := by
  intro x hx
  obtain ⟨h1, h2, h3⟩ := hm x hx
  rw [SO.bind_def, SO.bind_def]
  rcases e : m x with ⟨y, o⟩
  rcases e' : m' (scriptBus x) with ⟨y', o'⟩
  rw [e, e'] at h1 h2
  rw [e] at h3
  simp only at h1 h2 h3
  subst h1 h2
  cases o' with
  | ok a => exact hf a y h3
  | _ => exact ⟨rfl, rfl, h3⟩

theorem Same.rest {m : SO Bus ε α} (h : PortFree m) (hr : AsksRoom m) : Same N g ((onRest m).mapErr g) m := by
  intro x hx
  rw [SO.mapErr_apply, onRest_apply]
  unfold scriptBus
  rw [h x.rest x.port]
  exact ⟨rfl, rfl, (hr x.rest).1.trans hx⟩

theorem Same.lift {o : Outcome ε α} : Same N g (SO.lift (o.mapErr g)) (SO.lift o) := fun _ hx => ⟨rfl, rfl, hx⟩

theorem Same.pure (a : α) : Same N g (Pure.pure a) (Pure.pure a) := fun _ hx => ⟨rfl, rfl, hx⟩

theorem Same.hang : Same (α := α) N g SO.hang SO.hang := fun _ hx => ⟨rfl, rfl, hx⟩

theorem portFree_debugAssert {ε : Type} (c : Bool) : PortFree (Bus.debugAssert (ε := ε) c) := by
  refine portFree_get (fun _ _ => rfl) fun b => ?_
  unfold SO.assert
  split
  · exact fun _ _ => rfl
  · exact fun _ _ => rfl

theorem portFree_consume {ε : Type} (n : Nat) : PortFree (Bus.consumeReadBytes (ε := ε) n) := by
  refine portFree_get (fun _ _ => rfl) fun b => ?_
  refine portFree_bind (portFree_debugAssert _) fun _ => ?_
  split
  · exact fun _ _ => rfl
  · exact fun _ _ => rfl

theorem portFree_garbage {ε : Type} : PortFree (Bus.removeGarbage (ε := ε)) := by
  refine portFree_get (fun _ _ => rfl) fun b => ?_
  refine portFree_bind (portFree_lift _) fun _ => portFree_bind (portFree_lift _) fun _ => portFree_bind (portFree_consume _) fun _ => ?_
  exact portFree_get (fun _ _ => rfl) fun b => portFree_debugAssert _

theorem portFree_ready : PortFree Bus.messageReady := by
  refine portFree_get (fun _ _ => rfl) fun b => ?_
  split
  · refine portFree_bind (portFree_lift _) fun _ => portFree_bind (portFree_lift _) fun _ => portFree_bind (portFree_lift _) fun _ => ?_
    split
    · exact portFree_bind (portFree_consume _) fun _ => fun _ _ => rfl
    · split <;> exact fun _ _ => rfl
  · exact fun _ _ => rfl

theorem portFree_finish (n : Nat) : PortFree (Bus.finishPacket n) := by
  refine portFree_get (fun _ _ => rfl) fun b => ?_
  refine portFree_bind (portFree_lift _) fun _ => portFree_bind (portFree_lift _) fun _ => portFree_bind (portFree_lift _) fun _ =>
    portFree_bind (portFree_lift _) fun _ => ?_
  split
  · exact portFree_bind (portFree_consume _) fun _ => fun _ _ => rfl
  · refine portFree_bind (fun _ _ => rfl) fun _ => portFree_bind (fun _ _ => rfl) fun _ => ?_
    refine portFree_get (fun _ _ => rfl) fun b => portFree_bind (portFree_lift _) fun _ => portFree_bind (portFree_lift _) fun _ => ?_
    split <;> exact fun _ _ => rfl

/-- The two ways to read more, side by side. -/
theorem script_readMore {w : Nat} (D : Nat) {p : Port} {r : Bus} (hl : r.readLen ≤ r.readBuffer.length)
    (hN : r.readBuffer.length < 2 ^ w) :
    match Port.read (r.readBuffer.length - r.readLen) D p with
    | (q, .ok bs) =>
      readMore (P := scriptImpl) w D ⟨p, r⟩ = (⟨q, { r with
        readBuffer := r.readBuffer.take r.readLen ++ (bs ++ r.readBuffer.drop (r.readLen + bs.length))
        readLen := r.readLen + bs.length }⟩, .ok ()) ∧
      Bus.readMore D (r.onto p) = ({ r with
        serialPort := q
        readBuffer := r.readBuffer.take r.readLen ++ bs ++ r.readBuffer.drop (r.readLen + bs.length)
        readLen := r.readLen + bs.length }, .ok ()) ∧ bs.length ≤ r.readBuffer.length - r.readLen
    | (q, .err e) => readMore (P := scriptImpl) w D ⟨p, r⟩ = (⟨q, r⟩, .err (.io e)) ∧
      Bus.readMore D (r.onto p) = (r.onto q, .err (.io e))
    | (q, .panic) => readMore (P := scriptImpl) w D ⟨p, r⟩ = (⟨q, r⟩, .panic) ∧ Bus.readMore D (r.onto p) = (r.onto q, .panic)
    | (q, .hang) => readMore (P := scriptImpl) w D ⟨p, r⟩ = (⟨q, r⟩, .hang) ∧ Bus.readMore D (r.onto p) = (r.onto q, .hang) := by
  have hlen : (r.readBuffer.drop r.readLen).length = r.readBuffer.length - r.readLen := List.length_drop
  have hB : Bus.readMore D (r.onto p) = (Bus.onPort ((Port.read (r.readBuffer.length - r.readLen) D).mapErr ReadError.io) >>= fun newData =>
      SO.modify fun b => { b with
        readBuffer := b.readBuffer.take b.readLen ++ newData ++ b.readBuffer.drop (b.readLen + newData.length)
        readLen := b.readLen + newData.length }) (r.onto p) := by
    unfold Bus.readMore
    rw [SO.get_bind, if_pos (show (r.onto p).readLen ≤ (r.onto p).readBuffer.length from hl)]
    rfl
  rw [SO.bind_def, Bus.onPort_apply, SO.mapErr_apply, show (r.onto p).serialPort = p from rfl] at hB
  have hA : readMore (P := scriptImpl) w D ⟨p, r⟩ = (do
      let newData ← SO.lift ((scriptRead D (r.readBuffer.drop r.readLen) p).2.2.mapErr ReadErrorOf.io)
      let readLen ← SO.lift (usizeAdd w r.debug r.readLen newData)
      onRest (SO.modify fun r => { r with readLen := readLen })) (⟨(scriptRead D (r.readBuffer.drop r.readLen) p).1, { r with
        readBuffer := r.readBuffer.take r.readLen ++ (scriptRead D (r.readBuffer.drop r.readLen) p).2.1 }⟩ : BusOf scriptImpl) := by
    unfold readMore
    simp only
    rw [if_pos hl]
    rfl
  unfold scriptRead at hA
  rw [hlen] at hA
  rcases h : Port.read (r.readBuffer.length - r.readLen) D p with ⟨q, o⟩
  rw [h] at hA hB
  cases o with
  | ok bs =>
    have hb := Bus.port_read_le h
    have hadd : ∀ ε : Type, usizeAdd (ε := ε) w r.debug r.readLen bs.length = .ok (r.readLen + bs.length) :=
      fun _ => if_pos (by omega)
    simp only [Outcome.mapErr_ok, SO.lift_ok_bind, hadd, List.drop_drop] at hA
    exact ⟨hA, hB, hb⟩
  | err e =>
    simp only [List.take_append_drop] at hA
    exact ⟨hA, hB⟩
  | panic =>
    simp only [List.take_append_drop] at hA
    exact ⟨hA, hB⟩
  | hang =>
    simp only [List.take_append_drop] at hA
    exact ⟨hA, hB⟩

theorem same_readMore {w N : Nat} (hN : N < 2 ^ w) (D : Nat) :
    Same N scriptReadError (readMore (P := scriptImpl) w D) (Bus.readMore D) := by
  intro x hx
  obtain ⟨p, r⟩ := x
  simp only at hx
  change scriptBus _ = (Bus.readMore D (r.onto p)).1 ∧ _ = (Bus.readMore D (r.onto p)).2.mapErr _ ∧ _
  by_cases hl : r.readLen ≤ r.readBuffer.length
  · have hm := script_readMore (w := w) D (p := p) hl (by omega)
    rcases h : Port.read (r.readBuffer.length - r.readLen) D p with ⟨q, o⟩
    rw [h] at hm
    cases o with
    | ok bs =>
      obtain ⟨h1, h2, h3⟩ := hm
      rw [h1, h2]
      refine ⟨?_, rfl, ?_⟩
      · simp only [scriptBus, Bus.onto, List.append_assoc]
      · simp
        omega
    | err e =>
      rw [hm.1, hm.2]
      exact ⟨rfl, rfl, hx⟩
    | panic =>
      rw [hm.1, hm.2]
      exact ⟨rfl, rfl, hx⟩
    | hang =>
      rw [hm.1, hm.2]
      exact ⟨rfl, rfl, hx⟩
  · have h1 : readMore (P := scriptImpl) w D ⟨p, r⟩ = (⟨p, r⟩, .panic) := by
      unfold readMore
      rw [if_neg hl]
    have h2 : Bus.readMore D (r.onto p) = (r.onto p, .panic) := by
      unfold Bus.readMore
      rw [SO.get_bind, if_neg (show ¬ (r.onto p).readLen ≤ (r.onto p).readBuffer.length from hl)]
      rfl
    rw [h1, h2]
    exact ⟨rfl, rfl, hx⟩

/-- The code does not report errors of the port. -/
def NoIo {σ α : Type} (m : SO σ ReadError α) : Prop := ∀ s e, (m s).2 ≠ .err (.io e)

theorem NoIo.bind {σ α β : Type} {m : SO σ ReadError α} {f : α → SO σ ReadError β} (hm : NoIo m) (hf : ∀ a, NoIo (f a)) :
    NoIo (m >>= f) := by
  intro s e
  have h := hm s e
  rw [SO.bind_def]
  rcases hms : m s with ⟨s', o⟩
  rw [hms] at h
  cases o with
  | ok a => exact hf a s' e
  | err e' => simpa using h
  | panic => simp
  | hang => simp

theorem NoIo.get {σ : Type} : NoIo (SO.get : SO σ ReadError σ) := fun s e => by simp [SO.get]
theorem NoIo.pure {σ α : Type} (a : α) : NoIo (Pure.pure a : SO σ ReadError α) := fun s e => by simp

theorem mapErr_assert {σ ε ε' : Type} (g : ε → ε') (c : Bool) : (SO.assert c : SO σ ε Unit).mapErr g = SO.assert c := by
  unfold SO.assert
  split <;> rfl

theorem mapErr_debugAssert {ε ε' : Type} (g : ε → ε') (c : Bool) :
    (Bus.debugAssert c : SO Bus ε Unit).mapErr g = Bus.debugAssert c := by
  unfold Bus.debugAssert
  rw [mapErr_bind, mapErr_get]
  simp only [mapErr_assert]

theorem mapErr_consume {ε ε' : Type} (g : ε → ε') (n : Nat) :
    (Bus.consumeReadBytes n : SO Bus ε Unit).mapErr g = Bus.consumeReadBytes n := by
  unfold Bus.consumeReadBytes
  simp only [mapErr_bind, mapErr_get, mapErr_debugAssert]
  congr 1; funext b; congr 1; funext _
  split <;> rfl

theorem mapErr_sliceFrom {ε ε' : Type} (g : ε → ε') (l : List Byte) (n : Nat) :
    (sliceFrom l n : Outcome ε (List Byte)).mapErr g = sliceFrom l n := by
  unfold sliceFrom slice
  split <;> rfl

theorem mapErr_garbage {ε ε' : Type} (g : ε → ε') : (Bus.removeGarbage : SO Bus ε Unit).mapErr g = Bus.removeGarbage := by
  unfold Bus.removeGarbage
  simp only [mapErr_bind, mapErr_get, mapErr_lift, mapErr_slice, mapErr_sliceFrom, mapErr_consume, mapErr_debugAssert]

theorem NoIo.lift {σ α : Type} {o : Outcome ReadError α} (h : ∀ e, o ≠ .err e) : NoIo (SO.lift o : SO σ ReadError α) :=
  fun _ _ => h _

theorem slice_no_err {ε : Type} (l : List Byte) (a b : Nat) (e : ε) : slice l a b ≠ .err e := by
  unfold slice
  split <;> simp

theorem readU16Le_no_err {ε : Type} (l : List Byte) (e : ε) : readU16Le l ≠ .err e := by
  match l with
  | [] => simp [readU16Le, idx]
  | [a] => simp [readU16Le, idx]
  | a :: b :: t => simp [readU16Le, idx]

theorem checksum_no_err {ε : Type} (i : U16) (l : List Byte) (e : ε) : calculateChecksum i l ≠ .err e := by
  rw [calculateChecksum_eq]
  simp

theorem noIo_consume (n : Nat) : NoIo (Bus.consumeReadBytes n) := by
  unfold Bus.consumeReadBytes
  refine .bind .get fun b => .bind ?_ fun _ => ?_
  · unfold Bus.debugAssert
    refine .bind .get fun b => ?_
    unfold SO.assert
    split <;> exact fun _ _ => by simp
  · split <;> exact fun _ _ => by simp

theorem noIo_ready : NoIo Bus.messageReady := by
  unfold Bus.messageReady
  refine .bind .get fun b => ?_
  split
  · refine .bind (.lift (slice_no_err _ _ _)) fun _ => .bind (.lift (slice_no_err _ _ _)) fun _ =>
      .bind (.lift (readU16Le_no_err _)) fun _ => ?_
    split
    · exact .bind (noIo_consume _) fun _ => fun _ _ => by simp
    · split <;> exact .pure _
  · exact .pure _

theorem noIo_unstuff {l : List Byte} {e : ReadError} : (unstuffInplace (ε := ReadError) l).2 ≠ .err e := by
  obtain ⟨junk, h1, h2⟩ := unstuffInplace_eq (ε := ReadError) l
  rw [h1]
  simp

theorem noIo_finish (n : Nat) : NoIo (Bus.finishPacket n) := by
  unfold Bus.finishPacket
  refine .bind .get fun b => ?_
  refine .bind (.lift (slice_no_err _ _ _)) fun _ => .bind (.lift (readU16Le_no_err _)) fun _ =>
    .bind (.lift (slice_no_err _ _ _)) fun _ => .bind (.lift (checksum_no_err _ _)) fun _ => ?_
  split
  · exact .bind (noIo_consume _) fun _ => fun _ _ => by simp
  · refine .bind (fun _ _ => by simp) fun _ => .bind (fun b e => ?_) fun _ => .bind .get fun b =>
      .bind (.lift (slice_no_err _ _ _)) fun _ => .bind (.lift ?_) fun _ => ?_
    · change (onSlice headerSize (n - 2) unstuffInplace b.readBuffer).2 ≠ _
      unfold onSlice
      split
      · exact noIo_unstuff
      · simp
    · intro e
      unfold Packet.instructionId idx
      split <;> simp
    · split
      · exact fun _ _ => by simp
      · exact .pure _

theorem Same.garbage {N : Nat} : Same N scriptReadError (onRest Bus.removeGarbage) Bus.removeGarbage := by
  have h := Same.rest (N := N) (g := scriptReadError) portFree_garbage Bus.removeGarbage_room
  rw [show (onRest (P := scriptImpl) (Bus.removeGarbage (ε := ReadError))).mapErr scriptReadError
    = onRest (Bus.removeGarbage.mapErr scriptReadError) from rfl, mapErr_garbage] at h
  exact h

theorem same_noIo {α : Type} {N : Nat} {m : SO Bus ReadError α} (hp : PortFree m) (hr : AsksRoom m) (hn : NoIo m) :
    Same N scriptReadError ((onRest m).mapErr readError) m := by
  intro x hx
  obtain ⟨h1, h2, h3⟩ := Same.rest (N := N) (g := scriptReadError) hp hr x hx
  rw [SO.mapErr_apply] at h1 h2 h3 ⊢
  refine ⟨h1, ?_, h3⟩
  rw [← h2]
  have hio := hn x.rest
  rw [onRest_apply]
  generalize (m x.rest).2 = o at hio
  cases o with
  | err e =>
    cases e with
    | io e => exact absurd rfl (hio e)
    | _ => rfl
  | _ => rfl

theorem same_readLoop {w N : Nat} (hN : N < 2 ^ w) (D fuel : Nat) :
    Same N scriptReadError (readLoop (P := scriptImpl) w D fuel) (Bus.readLoop D fuel) := by
  induction fuel with
  | zero => exact Same.hang
  | succ fuel ih =>
    simp only [readLoop, Bus.readLoop]
    refine Same.garbage.bind fun _ => (same_noIo portFree_ready Bus.messageReady_room noIo_ready).bind fun o => ?_
    cases o with
    | some n => exact Same.pure n
    | none => exact (same_readMore hN D).bind fun _ => ih

/-- More iterations do not change a result. -/
theorem readLoop_mono {P : PortImpl} (w : Nat) (D : P.Instant) (fuel : Nat) : ∀ b : BusOf P,
    (readLoop w D fuel b).2 ≠ .hang → readLoop w D (fuel + 1) b = readLoop w D fuel b := by
  induction fuel with
  | zero => intro b h; exact absurd rfl h
  | succ fuel ih =>
    intro b h
    rw [readLoop] at h
    rw [readLoop, readLoop]
    rw [SO.bind_def] at h
    rw [SO.bind_def, SO.bind_def]
    rcases hg : onRest (P := P) (Bus.removeGarbage (ε := ReadErrorOf P.Error)) b with ⟨b1, o1⟩
    rw [hg] at h
    cases o1 with
    | ok _ =>
      simp only at h ⊢
      rw [SO.bind_def] at h
      rw [SO.bind_def, SO.bind_def]
      rcases hr : (onRest (P := P) Bus.messageReady).mapErr (readError (E := P.Error)) b1 with ⟨b2, o2⟩
      rw [hr] at h
      cases o2 with
      | ok o =>
        cases o with
        | some n => rfl
        | none =>
          simp only at h ⊢
          rw [SO.bind_def] at h
          rw [SO.bind_def, SO.bind_def]
          rcases hm : readMore w D b2 with ⟨b3, o3⟩
          rw [hm] at h
          cases o3 with
          | ok _ => exact ih b3 h
          | err e => rfl
          | panic => rfl
          | hang => rfl
      | err e => rfl
      | panic => rfl
      | hang => rfl
    | err e => rfl
    | panic => rfl
    | hang => rfl

theorem readPacketDeadline_mono {P : PortImpl} (w : Nat) (D : P.Instant) {fuel fuel' : Nat} (hf : fuel ≤ fuel') {b : BusOf P}
    (h : (readPacketDeadline w D fuel b).2 ≠ .hang) : readPacketDeadline w D fuel' b = readPacketDeadline w D fuel b := by
  obtain ⟨k, rfl⟩ := Nat.le.dest hf
  induction k with
  | zero => rfl
  | succ k ih =>
    have hk := ih (by omega)
    rw [← hk] at h ⊢
    unfold readPacketDeadline at h ⊢
    rw [SO.get_bind] at h
    rw [SO.get_bind, SO.get_bind]
    cases hc : (BufferTooSmall.check (headerSize + 3) b.rest.readBuffer.length).mapErr (ReadErrorOf.bufferFull (E := P.Error)) with
    | ok _ =>
      rw [hc, SO.lift_ok_bind, SO.bind_def] at h
      rw [SO.lift_ok_bind, SO.lift_ok_bind, SO.bind_def, SO.bind_def]
      have hl : (readLoop w D (fuel + k) b).2 ≠ .hang := by
        intro hh
        rcases hl : readLoop w D (fuel + k) b with ⟨c, o⟩
        rw [hl] at h hh
        simp only at hh
        subst hh
        exact h rfl
      rw [show fuel + (k + 1) = fuel + k + 1 from rfl, readLoop_mono w D _ b hl]
    | err e => rfl
    | panic => rfl
    | hang => rfl

theorem same_packet {w D fuel : Nat} (x : BusOf scriptImpl) (hw : x.rest.readBuffer.length < 2 ^ w)
    (hf : (scriptBus x).serialPort.measure + 1 = fuel) :
    scriptBus (readPacketDeadline (P := scriptImpl) w D fuel x).1 = (Bus.readPacketDeadline D (scriptBus x)).1 ∧
    (readPacketDeadline (P := scriptImpl) w D fuel x).2 = (Bus.readPacketDeadline D (scriptBus x)).2.mapErr scriptReadError ∧
    (readPacketDeadline (P := scriptImpl) w D fuel x).1.rest.readBuffer.length = x.rest.readBuffer.length := by
  have hm : (BufferTooSmall.check (headerSize + 3) x.rest.readBuffer.length).mapErr
      (ReadErrorOf.bufferFull (E := scriptImpl.Error)) =
      ((BufferTooSmall.check (headerSize + 3) (scriptBus x).readBuffer.length).mapErr ReadError.bufferFull).mapErr
        scriptReadError := by
    change _ = ((BufferTooSmall.check (headerSize + 3) x.rest.readBuffer.length).mapErr ReadError.bufferFull).mapErr _
    cases BufferTooSmall.check (headerSize + 3) x.rest.readBuffer.length <;> rfl
  have h := (Same.lift (N := x.rest.readBuffer.length) (g := scriptReadError)
      (o := (BufferTooSmall.check (headerSize + 3) (scriptBus x).readBuffer.length).mapErr ReadError.bufferFull)).bind
    (fun _ => (same_readLoop hw D fuel).bind fun n =>
      same_noIo (portFree_finish n) (Bus.finishPacket_room n) (noIo_finish n)) x rfl
  rw [← hm] at h
  unfold readPacketDeadline Bus.readPacketDeadline
  rw [SO.get_bind, SO.get_bind, hf]
  exact h

end BusOf
end Dxl
