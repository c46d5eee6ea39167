import Verif.Lemmas.Forget
import Verif.Props.Device

/-! # A bus does not depend on the old contents of its buffers -/

namespace Dxl
open Spec

/-! ## Combining code -/

section generic
variable {σ ε ε' α β : Type} {R R' R'' : σ → σ → Prop}

theorem Forgets.bind {m : SO σ ε α} {k : α → SO σ ε β} (hm : Forgets R R' m) (hk : ∀ a, Forgets R' R'' (k a))
    (hw : ∀ s t, R' s t → R'' s t) : Forgets R R'' (m >>= k) := by
  intro s t h
  obtain ⟨h1, h2⟩ := hm s t h
  rw [SO.bind_def, SO.bind_def]
  rcases e : m s with ⟨s', o⟩
  rcases e' : m t with ⟨t', o'⟩
  rw [e] at h1 h2
  rw [e'] at h1 h2
  simp only at h1 h2
  subst h1
  cases o' with
  | ok a => exact hk a s' t' h2
  | _ => exact ⟨rfl, hw _ _ h2⟩

theorem Forgets.then {m : SO σ ε α} {k : α → SO σ ε β} (hm : Forgets R R m) (hk : ∀ a, Forgets R R (k a)) :
    Forgets R R (m >>= k) := hm.bind hk fun _ _ h => h

theorem forgets_lift (o : Outcome ε α) : Forgets R R (SO.lift o) := fun _ _ h => ⟨rfl, h⟩

theorem forgets_pure (a : α) : Forgets (ε := ε) R R (Pure.pure a) := fun _ _ h => ⟨rfl, h⟩

theorem forgets_panic : Forgets R R (SO.panic : SO σ ε α) := fun _ _ h => ⟨rfl, h⟩

theorem forgets_hang : Forgets R R (SO.hang : SO σ ε α) := fun _ _ h => ⟨rfl, h⟩

theorem Forgets.mapErr {m : SO σ ε α} (f : ε → ε') (h : Forgets R R' m) : Forgets R R' (m.mapErr f) := by
  intro s t hr
  obtain ⟨h1, h2⟩ := h s t hr
  exact ⟨by rw [SO.mapErr_apply, SO.mapErr_apply, h1], h2⟩

theorem attempt_apply (m : SO σ ε α) (s : σ) : (m.attempt (ε' := ε') s) = ((m s).1, match (m s).2 with
    | .ok a => .ok (.ok a) | .err e => .ok (.error e) | .panic => .panic | .hang => .hang) := by
  unfold SO.attempt
  rcases m s with ⟨s', o⟩
  cases o <;> rfl

theorem Forgets.attempt {m : SO σ ε α} (h : Forgets R R' m) : Forgets R R' (m.attempt (ε' := ε')) := by
  intro s t hr
  obtain ⟨h1, h2⟩ := h s t hr
  rw [attempt_apply, attempt_apply]
  exact ⟨by dsimp only; rw [h1], h2⟩

theorem forgets_get {k : σ → SO σ ε α} (h : ∀ s t, R s t → k t = k s) (hk : ∀ s, Forgets R R' (k s)) :
    Forgets R R' (SO.get >>= k) := by
  intro s t hr
  rw [SO.get_bind, SO.get_bind, h s t hr]
  exact hk s s t hr

end generic

/-! ## Reading -/

namespace Bus

theorem Kin.refl {b : Bus} (hr : b.RInv) (hw : b.WInv) : Kin b b := ⟨⟨hr, hr⟩, ⟨hw, hw⟩, rfl, rfl, rfl, rfl, rfl⟩

theorem Kin.symm {b c : Bus} (h : Kin b c) : Kin c b :=
  ⟨⟨h.read_ok.2, h.read_ok.1⟩, ⟨h.write_ok.2, h.write_ok.1⟩, h.port.symm, h.baudRate.symm, h.debug.symm, h.readSize.symm,
    h.writeSize.symm⟩

/-- Buses with the same pending bytes at the start of the read buffer, on the same port. -/
theorem twins_of_after {b c b' c' : Bus} {p : Port} {t : List Byte} (h : Kin b c) (hb : After b p t b') (hc : After c p t c') :
    Twins b' c' where
  read_ok := ⟨hb.rInv, hc.rInv⟩
  write_ok := by
    obtain ⟨h1, h2⟩ := h.write_ok
    constructor
    · exact ⟨by rw [hb.like.writeBuffer]; exact h1.size, by rw [hb.like.writeBuffer]; exact h1.prefix_eq⟩
    · exact ⟨by rw [hc.like.writeBuffer]; exact h2.size, by rw [hc.like.writeBuffer]; exact h2.prefix_eq⟩
  port := by rw [hb.port, hc.port]
  baudRate := by rw [hb.like.baudRate, hc.like.baudRate, h.baudRate]
  debug := by rw [hb.like.debug, hc.like.debug, h.debug]
  readSize := by rw [hb.like.readSize, hc.like.readSize, h.readSize]
  writeSize := by rw [hb.like.writeBuffer, hc.like.writeBuffer, h.writeSize]
  unread := by rw [hb.pending, hc.pending]

/-- The loop that waits for a packet. -/
theorem readLoop_twins (D : Nat) : ∀ (fuel : Nat) (b c : Bus), Twins b c →
    ∃ b' c' o, readLoop D fuel b = (b', o) ∧ readLoop D fuel c = (c', o) ∧ Twins b' c' ∧
      ∀ n, o = .ok n → ∃ p f rest, n = f.length ∧ header <+: f ∧ f.length = 7 + Spec.lengthField f ∧
        Holds b p (f ++ rest) b' ∧ Holds c p (f ++ rest) c'
  | 0, b, c, h => ⟨b, c, .hang, rfl, rfl, h, fun _ h => by simp at h⟩
  | fuel + 1, b, c, h => by
    obtain ⟨hb, hc⟩ := h.read_ok
    have hlb : (skip b.pending).length ≤ b.readBuffer.length :=
      Nat.le_trans (skip_suffix _).length_le (pending_length_le hb)
    have hlc : (skip b.pending).length ≤ c.readBuffer.length := by rw [h.readSize]; exact hlb
    have mb := messageReady_eq b (skip b.pending) hlb (skip_skip _)
    have mc := messageReady_eq c (skip b.pending) hlc (skip_skip _)
    rw [parse_skip] at mb mc
    rw [h.readSize] at mc
    have rc : removeGarbage (ε := ReadError) c = (c.withPending (skip b.pending), .ok ()) := by
      rw [removeGarbage_eq hc, h.unread]
    have holdb := holds_withPending b b.serialPort hlb
    have holdc := holds_withPending c c.serialPort hlc
    rw [show b.onto b.serialPort = b from rfl] at holdb
    rw [show c.onto c.serialPort = c from rfl, h.port] at holdc
    unfold readLoop
    rw [SO.bind_ok (removeGarbage_eq hb), SO.bind_ok rc]
    cases hp : parse b.readBuffer.length b.pending with
    | packet f rest =>
      rw [hp] at mb mc
      rw [SO.bind_ok mb, SO.bind_ok mc]
      refine ⟨_, _, _, rfl, rfl, twins_of_after h.toKin holdb.after holdc.after, fun n hn => ?_⟩
      rw [(parse_packet hp).1] at holdb holdc
      rw [(parse_packet hp).1]
      exact ⟨_, f, rest, by simpa using hn.symm, (parse_packet hp).2.1, (parse_packet hp).2.2.1, holdb, holdc⟩
    | tooBig req rest =>
      rw [hp] at mb mc
      rw [SO.bind_err mb, SO.bind_err mc]
      obtain ⟨hd, h1, _⟩ := parse_tooBig hp
      have hlr : rest.length ≤ b.readBuffer.length := by
        rw [h1] at hlb
        simp at hlb
        omega
      refine ⟨_, _, _, rfl, rfl, ?_, fun n hn => by simp at hn⟩
      have xb := Holds.of_like holdb.like (holds_withPending _ b.serialPort (t := rest) (by rw [holdb.like.readSize]; exact hlr))
      have xc := Holds.of_like holdc.like (holds_withPending _ b.serialPort (t := rest)
        (by rw [holdc.like.readSize, h.readSize]; exact hlr))
      have e : (c.withPending (skip b.pending)).onto b.serialPort = c.withPending (skip b.pending) := by
        rw [← h.port]; rfl
      rw [e] at xc
      exact twins_of_after h.toKin xb.after xc.after
    | more =>
      rw [hp] at mb mc
      rw [SO.bind_ok mb, SO.bind_ok mc]
      have eb := readMore_eq b (skip b.pending) D hlb
      have ec := readMore_eq c (skip b.pending) D hlc
      rw [h.readSize, h.port] at ec
      rcases Port.read_cases (b.readBuffer.length - (skip b.pending).length) D b.serialPort with ⟨p, bs, hr⟩ | ⟨p, e, hr⟩
      · have hbs := Port.read_length hr
        rw [hr] at eb ec
        dsimp only
        rw [SO.bind_ok eb, SO.bind_ok ec]
        have l1 : (skip b.pending ++ bs).length ≤ b.readBuffer.length := by simp; omega
        have l2 : (skip b.pending ++ bs).length ≤ c.readBuffer.length := by rw [h.readSize]; exact l1
        have xb := holds_withPending b p l1
        have xc := holds_withPending c p l2
        obtain ⟨b', c', o, i1, i2, i3, i4⟩ := readLoop_twins D fuel _ _ (twins_of_after h.toKin xb.after xc.after)
        refine ⟨b', c', o, i1, i2, i3, fun n hn => ?_⟩
        obtain ⟨p', f, rest, j1, j2, j3, j4, j5⟩ := i4 n hn
        exact ⟨p', f, rest, j1, j2, j3, Holds.of_like xb.like j4, Holds.of_like xc.like j5⟩
      · rw [hr] at eb ec
        dsimp only
        rw [SO.bind_err eb, SO.bind_err ec]
        exact ⟨_, _, _, rfl, rfl, twins_of_after h.toKin (holds_withPending b p hlb).after (holds_withPending c p hlc).after,
          fun n hn => by simp at hn⟩

theorem readPacket_forgets (D : Nat) : Forgets Twins Twins (readPacketDeadline D) := by
  intro b c h
  by_cases hN : b.readBuffer.length < 10
  · rw [readPacketDeadline_small D hN, readPacketDeadline_small D (by rw [h.readSize]; exact hN), h.readSize]
    exact ⟨rfl, h⟩
  · have hcb : BufferTooSmall.check (headerSize + 3) b.readBuffer.length = .ok () := if_pos (by simp [headerSize]; omega)
    unfold readPacketDeadline
    rw [SO.get_bind, SO.get_bind, h.readSize, h.port, hcb, Outcome.mapErr_ok, SO.lift_ok_bind, SO.lift_ok_bind]
    obtain ⟨b', c', o, i1, i2, i3, i4⟩ := readLoop_twins D (b.serialPort.measure + 1) b c h
    rw [SO.bind_def, SO.bind_def, i1, i2]
    cases o with
    | ok n =>
      obtain ⟨p, f, rest, rfl, j1, j2, j3, j4⟩ := i4 n rfl
      obtain ⟨b'', k1, k2⟩ := finishPacket_eq j3 j1 j2
      obtain ⟨c'', k3, k4⟩ := finishPacket_eq j4 j1 j2
      dsimp only
      rw [k1, k3]
      exact ⟨rfl, twins_of_after h.toKin k2 k4⟩
    | _ => exact ⟨rfl, i3⟩

/-! ## Writing -/

/-- Two buses after the same kind of write. -/
theorem kin_of_kept {b c b' c' : Bus} (h : Kin b c) (hb : Kept b b') (hc : Kept c c') (hp : c'.serialPort = b'.serialPort) :
    Kin b' c' where
  read_ok := by
    obtain ⟨h1, h2⟩ := h.read_ok
    constructor
    · rcases hb.received with ⟨-, e1, e2⟩ | ⟨e1, e2⟩
      · exact ⟨by rw [e1, e2]; exact h1.used_le, by rw [e1, hb.readBuffer]; exact h1.len_le⟩
      · exact ⟨by omega, by omega⟩
    · rcases hc.received with ⟨-, e1, e2⟩ | ⟨e1, e2⟩
      · exact ⟨by rw [e1, e2]; exact h2.used_le, by rw [e1, hc.readBuffer]; exact h2.len_le⟩
      · exact ⟨by omega, by omega⟩
  write_ok := ⟨hb.wInv h.write_ok.1, hc.wInv h.write_ok.2⟩
  port := hp
  baudRate := by rw [hb.baudRate, hc.baudRate, h.baudRate]
  debug := by rw [hb.debug, hc.debug, h.debug]
  readSize := by rw [hb.readBuffer, hc.readBuffer, h.readSize]
  writeSize := by rw [hb.writeLength, hc.writeLength, h.writeSize]

theorem pending_same {b b' : Bus} (h1 : b'.readBuffer = b.readBuffer) (h2 : b'.readLen = b.readLen)
    (h3 : b'.usedBytes = b.usedBytes) : b'.pending = b.pending := by
  unfold pending
  rw [h1, h2, h3]

theorem pending_zero {b : Bus} (h : b.readLen = 0) : b.pending = [] := by
  unfold pending
  rw [h]
  simp

/-- What two kin buses have in common after a write. -/
structure Wrote (b c : Bus) (rb rc : Bus × Outcome WriteError Unit) : Prop where
  outcome : rc.2 = rb.2
  kin : Kin rb.1 rc.1
  twins : Twins b c → Twins rb.1 rc.1
  sent : rb.2 = .ok () → Twins rb.1 rc.1

/-- Both failed before anything was sent. -/
theorem wrote_unsent {b c b' c' : Bus} {o : Outcome WriteError Unit} (h : Kin b c) (hb : Kept b b') (hc : Kept c c')
    (pb : b'.serialPort = b.serialPort) (pc : c'.serialPort = c.serialPort)
    (eb : b'.readLen = b.readLen ∧ b'.usedBytes = b.usedBytes) (ec : c'.readLen = c.readLen ∧ c'.usedBytes = c.usedBytes)
    (ho : o ≠ .ok ()) : Wrote b c (b', o) (c', o) where
  outcome := rfl
  kin := kin_of_kept h hb hc (by rw [pb, pc, h.port])
  twins ht := ⟨kin_of_kept h hb hc (by rw [pb, pc, h.port]), by
    rw [pending_same hb.readBuffer eb.1 eb.2, pending_same hc.readBuffer ec.1 ec.2, ht.unread]⟩
  sent h := absurd h ho

theorem sendFrame_forgets {b c : Bus} {f : List Byte} (h : Kin b c) (hf : f.take 4 = headerPrefix)
    (hl : f.length ≤ b.writeBuffer.length) :
    Wrote b c
      (sendFrame f { b with writeBuffer := f ++ b.writeBuffer.drop f.length, readLen := 0, usedBytes := 0 })
      (sendFrame f { c with writeBuffer := f ++ c.writeBuffer.drop f.length, readLen := 0, usedBytes := 0 }) := by
  have kb := sendFrame_kept h.write_ok.1 _ rfl hf hl
  have kc := sendFrame_kept h.write_ok.2 _ rfl hf (by rw [h.writeSize]; exact hl)
  have key : ∀ x y : Bus, y.serialPort = x.serialPort →
      (sendFrame f y).2 = (sendFrame f x).2 ∧ (sendFrame f y).1.serialPort = (sendFrame f x).1.serialPort ∧
      (sendFrame f x).1.readLen = x.readLen ∧ (sendFrame f y).1.readLen = y.readLen := by
    intro x y hxy
    unfold sendFrame
    rw [SO.bind_def, SO.bind_def, onPort_apply, onPort_apply, hxy]
    rcases hd : (Port.discardInputBuffer.mapErr WriteError.discardBuffer) x.serialPort with ⟨p, o⟩
    cases o with
    | ok u => exact ⟨rfl, rfl, rfl, rfl⟩
    | _ => exact ⟨rfl, rfl, rfl, rfl⟩
  obtain ⟨k1, k2, k3, k4⟩ := key { b with writeBuffer := f ++ b.writeBuffer.drop f.length, readLen := 0, usedBytes := 0 }
    { c with writeBuffer := f ++ c.writeBuffer.drop f.length, readLen := 0, usedBytes := 0 } h.port
  have kin := kin_of_kept h kb kc k2
  have tw : Twins _ _ := ⟨kin, by rw [pending_zero k3, pending_zero k4]⟩
  exact ⟨k1, kin, fun _ => tw, fun _ => tw⟩

theorem writePacket_wrote (id instr : Byte) {n : Nat} {enc : Encoder} (he : Overwrites n enc.run) {b c : Bus} (h : Kin b c) :
    Wrote b c (writePacket id instr n enc b) (writePacket id instr n enc c) := by
  obtain ⟨wb, wc⟩ := h.write_ok
  by_cases hn : n + 10 ≤ b.writeBuffer.length
  · have hn' : n + 10 ≤ c.writeBuffer.length := by rw [h.writeSize]; exact hn
    rw [writePacket_encode id instr n enc b wb hn, writePacket_encode id instr n enc c wc hn']
    obtain ⟨h1, h2⟩ := he (b.paramSlice n) (c.paramSlice n) (paramSlice_length hn) (paramSlice_length hn')
    have lb := enc.length_eq (b.paramSlice n)
    have lc := enc.length_eq (c.paramSlice n)
    rw [paramSlice_length hn] at lb
    rw [paramSlice_length hn'] at lc
    rcases eb : enc.run (b.paramSlice n) with ⟨ps, o⟩
    rcases ec : enc.run (c.paramSlice n) with ⟨qs, o'⟩
    rw [eb] at h1 h2 lb
    rw [ec] at h1 h2 lc
    simp only at h1 h2 lb lc
    subst h1
    have kb := encoded_kept (id := id) (instr := instr) wb hn lb
    have kc := encoded_kept (id := id) (instr := instr) wc hn' lc
    cases o' with
    | ok u =>
      have : qs = ps := h2 rfl
      subst this
      dsimp only
      have hd : (c.writeBuffer.drop (8 + n)).length = (b.writeBuffer.drop (8 + n)).length := by simp [h.writeSize]
      by_cases h1 : ncount (instr :: qs).reverse ≤ (b.writeBuffer.drop (8 + n)).length
      · by_cases ho : b.debug = true ∧ 2 ^ 16 ≤ (codeStuff (instr :: qs)).length % 2 ^ 16 + 2
        · obtain ⟨w, hw, i2, i3⟩ := writeStuffed_overflow (id := id) lb h1 ho
          obtain ⟨w', hw', i2', i3'⟩ := writeStuffed_overflow (b := c) (id := id) lb (by rw [hd]; exact h1) (by rw [h.debug]; exact ho)
          rw [hw, hw']
          exact wrote_unsent h ⟨i2.trans kb.1, i3, rfl, rfl, rfl, .inl ⟨rfl, rfl, rfl⟩⟩
            ⟨i2'.trans kc.1, i3', rfl, rfl, rfl, .inl ⟨rfl, rfl, rfl⟩⟩ rfl rfl ⟨rfl, rfl⟩ ⟨rfl, rfl⟩ (by simp)
        · by_cases h' : (b.writeBuffer.drop (8 + n)).length < ncount (instr :: qs).reverse + 2
          · obtain ⟨w, hw, i2, i3⟩ := writeStuffed_crc_panic (id := id) lb h1 h' ho
            obtain ⟨w', hw', i2', i3'⟩ := writeStuffed_crc_panic (b := c) (id := id) lb (by rw [hd]; exact h1) (by rw [hd]; exact h')
              (by rw [h.debug]; exact ho)
            rw [hw, hw']
            exact wrote_unsent h ⟨i2.trans kb.1, i3, rfl, rfl, rfl, .inl ⟨rfl, rfl, rfl⟩⟩
              ⟨i2'.trans kc.1, i3', rfl, rfl, rfl, .inl ⟨rfl, rfl, rfl⟩⟩ rfl rfl ⟨rfl, rfl⟩ ⟨rfl, rfl⟩ (by simp)
          · rw [writeStuffed_send lb (by omega) ho, writeStuffed_send (b := c) lb (by omega) (by rw [h.debug]; exact ho)]
            refine sendFrame_forgets h (frame_take4 _ _) ?_
            rw [frame_length, codeStuff_length]
            simp at lb h' ⊢
            omega
      · rw [writeStuffed_too_small lb (by omega), writeStuffed_too_small (b := c) lb (by omega), hd]
        exact wrote_unsent h kb kc rfl rfl ⟨rfl, rfl⟩ ⟨rfl, rfl⟩ (by simp)
    | err e => exact wrote_unsent h kb kc rfl rfl ⟨rfl, rfl⟩ ⟨rfl, rfl⟩ (by simp)
    | panic => exact wrote_unsent h kb kc rfl rfl ⟨rfl, rfl⟩ ⟨rfl, rfl⟩ (by simp)
    | hang => exact wrote_unsent h kb kc rfl rfl ⟨rfl, rfl⟩ ⟨rfl, rfl⟩ (by simp)
  · rw [writePacket_too_small _ _ _ _ _ (by omega), writePacket_too_small _ _ _ _ _ (by rw [h.writeSize]; omega), h.writeSize]
    exact ⟨rfl, h, fun h => h, fun h => by simp at h⟩

end Bus
end Dxl

namespace Dxl
open Spec

/-! ## The methods -/

section lists
variable {ε ε' α β : Type}

/-- Code that begins with an instruction: the same outcome with all kin buses; twins stay twins. -/
structure Starts (m : SO Bus ε α) : Prop where
  kin : Forgets Bus.Kin Bus.Kin m
  twins : Forgets Bus.Twins Bus.Twins m

theorem starts_lift (o : Outcome ε α) : Starts (SO.lift o) := ⟨forgets_lift o, forgets_lift o⟩

/-- Send an instruction, then do something that depends on what is received. -/
theorem starts_write (id instr : Byte) {n : Nat} {enc : Encoder} (he : Overwrites n enc.run) (f : WriteError → ε)
    {k : Unit → SO Bus ε α} (hk : ∀ u, Forgets Bus.Twins Bus.Twins (k u)) :
    Starts ((Bus.writePacket id instr n enc).mapErr f >>= k) := by
  refine ⟨fun b c h => ?_, fun b c h => ?_⟩
  · have hw := Bus.writePacket_wrote id instr he h
    rw [SO.bind_def, SO.bind_def, SO.mapErr_apply, SO.mapErr_apply]
    rcases eb : Bus.writePacket id instr n enc b with ⟨b', o⟩
    rcases ec : Bus.writePacket id instr n enc c with ⟨c', o'⟩
    rw [eb, ec] at hw
    obtain ⟨h1, h2, -, h4⟩ := hw
    dsimp only at h1 h2 h4 ⊢
    subst h1
    cases o' with
    | ok u =>
      obtain ⟨i1, i2⟩ := hk u b' c' (h4 rfl)
      exact ⟨i1, i2.toKin⟩
    | _ => exact ⟨rfl, h2⟩
  · have hw := Bus.writePacket_wrote id instr he h.toKin
    rw [SO.bind_def, SO.bind_def, SO.mapErr_apply, SO.mapErr_apply]
    rcases eb : Bus.writePacket id instr n enc b with ⟨b', o⟩
    rcases ec : Bus.writePacket id instr n enc c with ⟨c', o'⟩
    rw [eb, ec] at hw
    obtain ⟨h1, -, h3, -⟩ := hw
    dsimp only at h1 h3 ⊢
    subst h1
    cases o' with
    | ok u => exact hk u b' c' (h3 h)
    | _ => exact ⟨rfl, h3 h⟩

theorem starts_writePacket (id instr : Byte) {n : Nat} {enc : Encoder} (he : Overwrites n enc.run) :
    Starts (Bus.writePacket id instr n enc) :=
  ⟨fun _ _ h => ⟨(Bus.writePacket_wrote id instr he h).outcome, (Bus.writePacket_wrote id instr he h).kin⟩,
    fun _ _ h => ⟨(Bus.writePacket_wrote id instr he h.toKin).outcome, (Bus.writePacket_wrote id instr he h.toKin).twins h⟩⟩

theorem Starts.lift {m : SO Bus ε α} (h : Starts m) (k : α → Outcome ε β) : Starts (m >>= fun a => SO.lift (k a)) :=
  ⟨h.kin.then fun _ => forgets_lift _, h.twins.then fun _ => forgets_lift _⟩

theorem Starts.then {m : SO Bus ε α} {k : α → SO Bus ε β} (h : Starts m) (hk : ∀ a, Starts (k a)) : Starts (m >>= k) :=
  ⟨h.kin.then fun a => (hk a).kin, h.twins.then fun a => (hk a).twins⟩

theorem starts_setBaudRate (rate : Nat) : Starts (Bus.setBaudRate rate) := by
  have key : ∀ b c : Bus, c.serialPort = b.serialPort →
      (∃ p, Bus.setBaudRate rate b = ({ b with serialPort := p, baudRate := rate }, .ok ()) ∧
        Bus.setBaudRate rate c = ({ c with serialPort := p, baudRate := rate }, .ok ())) ∨
      (∃ p o, Bus.setBaudRate rate b = ({ b with serialPort := p }, o) ∧
        Bus.setBaudRate rate c = ({ c with serialPort := p }, o)) := by
    intro b c h
    unfold Bus.setBaudRate
    rw [SO.bind_def, SO.bind_def, Bus.onPort_apply, Bus.onPort_apply, h]
    rcases Port.setBaudRate rate b.serialPort with ⟨p, o⟩
    cases o with
    | ok u => exact .inl ⟨p, rfl, rfl⟩
    | _ => exact .inr ⟨p, _, rfl, rfl⟩
  have kin : ∀ b c : Bus, Bus.Kin b c → ∀ p r, Bus.Kin { b with serialPort := p, baudRate := r } { c with serialPort := p, baudRate := r } :=
    fun b c h p r => ⟨⟨⟨h.read_ok.1.1, h.read_ok.1.2⟩, ⟨h.read_ok.2.1, h.read_ok.2.2⟩⟩,
      ⟨⟨h.write_ok.1.1, h.write_ok.1.2⟩, ⟨h.write_ok.2.1, h.write_ok.2.2⟩⟩, rfl, rfl, h.debug, h.readSize, h.writeSize⟩
  have kin' : ∀ b c : Bus, Bus.Kin b c → ∀ p, Bus.Kin { b with serialPort := p } { c with serialPort := p } :=
    fun b c h p => ⟨⟨⟨h.read_ok.1.1, h.read_ok.1.2⟩, ⟨h.read_ok.2.1, h.read_ok.2.2⟩⟩,
      ⟨⟨h.write_ok.1.1, h.write_ok.1.2⟩, ⟨h.write_ok.2.1, h.write_ok.2.2⟩⟩, rfl, h.baudRate, h.debug, h.readSize, h.writeSize⟩
  refine ⟨fun b c h => ?_, fun b c h => ?_⟩
  · rcases key b c h.port with ⟨p, h1, h2⟩ | ⟨p, o, h1, h2⟩
    · rw [h1, h2]; exact ⟨rfl, kin b c h p rate⟩
    · rw [h1, h2]; exact ⟨rfl, kin' b c h p⟩
  · rcases key b c h.port with ⟨p, h1, h2⟩ | ⟨p, o, h1, h2⟩
    · rw [h1, h2]; exact ⟨rfl, ⟨kin b c h.toKin p rate, h.unread⟩⟩
    · rw [h1, h2]; exact ⟨rfl, ⟨kin' b c h.toKin p, h.unread⟩⟩

end lists

namespace Client

theorem readStatusResponseTimeout_forgets (timeout : Nat) : Forgets Bus.Twins Bus.Twins (readStatusResponseTimeout timeout) := by
  refine forgets_get (fun b c h => ?_) fun b => (Bus.readPacket_forgets _).then fun _ => forgets_lift _
  simp only [h.port]

theorem readStatusResponse_forgets (expected : U16) : Forgets Bus.Twins Bus.Twins (readStatusResponse expected) := by
  refine forgets_get (fun b c h => ?_) fun b => (forgets_lift _).then fun _ => readStatusResponseTimeout_forgets _
  simp only [h.baudRate]

theorem readResponse_forgets (id : Byte) : Forgets Bus.Twins Bus.Twins (readResponseIfNotBroadcast id) := by
  unfold readResponseIfNotBroadcast
  split
  · exact forgets_pure _
  · exact (readStatusResponse_forgets _).then fun _ => forgets_lift _

theorem instruct_starts (id instr : Byte) {n : Nat} {enc : Encoder} (he : Overwrites n enc.run) : Starts (instruct id instr n enc) :=
  starts_write id instr he _ fun _ => (readResponse_forgets id).mapErr _

theorem transferSingle_starts (id instr : Byte) {n : Nat} (expected : U16) {enc : Encoder} (he : Overwrites n enc.run) :
    Starts (transferSingle id instr n expected enc) :=
  starts_write id instr he _ fun _ => ((readStatusResponse_forgets _).mapErr _).then fun _ => (forgets_lift _).then fun _ =>
    (forgets_lift _).then fun _ => forgets_pure _

theorem readRaw_starts (id : Byte) (address count : U16) : Starts (readRaw id address count) :=
  (transferSingle_starts id _ _ (readEncoder_overwrites address count)).then fun r => (starts_lift r.parameters).then fun _ =>
    (starts_lift _).then fun _ => starts_lift (.ok r)

theorem ping_starts (id : Byte) : Starts (ping id) := (transferSingle_starts id _ _ nothing_overwrites).lift _

theorem scanNextResponse_forgets : Forgets Bus.Twins Bus.Twins scanNextResponse := by
  refine forgets_get (fun b c h => ?_) fun b => (forgets_lift _).then fun _ =>
    (readStatusResponseTimeout_forgets _).then fun _ => forgets_lift _
  simp only [h.baudRate]

theorem scanNext_forgets {ε : Type} : Forgets Bus.Twins Bus.Twins (scanNext (ε := ε)) := by
  refine scanNextResponse_forgets.attempt.then fun r => ?_
  split
  · exact forgets_pure _
  · split <;> exact forgets_pure _
  · exact forgets_pure _

theorem scanDrop_forgets {ε : Type} : ∀ fuel, Forgets Bus.Twins Bus.Twins (scanDrop (ε := ε) fuel)
  | 0 => forgets_hang
  | fuel + 1 => scanNext_forgets.then fun r => by
    split
    · exact scanDrop_forgets fuel
    · exact forgets_pure _

theorem bulkRead_starts (reads : List BulkReadData) : Starts (bulkReadBytes reads) := by
  unfold bulkReadBytes
  split
  · exact starts_lift .panic
  · exact starts_writePacket _ _ (bulkRead_overwrites reads)

theorem bulkWrite_starts (writes : List BulkWriteData) : Starts (bulkWrite writes) := by
  by_cases h : ∃ w ∈ writes, 65535 < w.data.length
  · have e : bulkWrite writes = SO.panic := by
      unfold bulkWrite
      rw [bulkWriteCount_panic writes 0 h]
      rfl
    rw [e]
    exact starts_lift .panic
  · have e := bulkWriteCount_ok (ε := WriteError) writes 0 fun w hw => Nat.le_of_not_lt fun hn => h ⟨w, hw, hn⟩
    have e' : bulkWrite writes = writeInstruction broadcast InstructionId.bulkWrite (0 + bulkWriteSize writes)
        ⟨bulkWriteLoop 0 writes, bulkWriteLoop_length writes 0⟩ := by
      unfold bulkWrite
      rw [e]
      rfl
    rw [e', Nat.zero_add]
    exact starts_writePacket _ _ (bulkWrite_overwrites writes)

end Client

/-- Iterators with twin clients. -/
structure SyncIter.Twins (s t : SyncIter) : Prop where
  client : Bus.Twins s.client t.client
  rest : t.count = s.count ∧ t.motorIds = s.motorIds ∧ t.index = s.index

namespace SyncIter

theorem onClient_forgets {ε α : Type} {m : SO Bus ε α} (h : Forgets Bus.Twins Bus.Twins m) :
    Forgets SyncIter.Twins SyncIter.Twins (onClient m) := fun _ _ hs =>
  ⟨(h _ _ hs.client).1, ⟨(h _ _ hs.client).2, hs.rest⟩⟩

theorem popMotorId_forgets {ε : Type} : Forgets SyncIter.Twins SyncIter.Twins (popMotorId (ε := ε)) := by
  intro s t h
  obtain ⟨h1, h2, h3⟩ := h.rest
  unfold popMotorId
  rw [h2, h3]
  split
  · exact ⟨rfl, h⟩
  · exact ⟨rfl, ⟨h.client, h1, rfl, rfl⟩⟩

theorem nextResponseBytes_forgets (id : Byte) : Forgets SyncIter.Twins SyncIter.Twins (nextResponseBytes id) := by
  refine forgets_get (fun s t h => ?_) fun s => (onClient_forgets (Client.readStatusResponse_forgets _)).then fun _ =>
    (forgets_lift _).then fun _ => forgets_lift _
  simp only [h.rest.1]

theorem nextBytes_forgets {ε : Type} : Forgets SyncIter.Twins SyncIter.Twins (nextBytes (ε := ε)) := by
  refine popMotorId_forgets.then fun r => ?_
  split
  · exact forgets_pure _
  · exact (nextResponseBytes_forgets _).attempt.then fun _ => forgets_pure _

theorem next_forgets {α ε : Type} (d : DataTy α) : Forgets SyncIter.Twins SyncIter.Twins (next d (ε := ε)) := by
  refine popMotorId_forgets.then fun r => ?_
  split
  · exact forgets_pure _
  · exact (Forgets.attempt ((onClient_forgets (Client.readStatusResponse_forgets _)).then fun _ =>
      (forgets_lift _).then fun _ => forgets_lift _)).then fun _ => forgets_pure _

theorem dropBytes_forgets {ε : Type} : ∀ fuel, Forgets SyncIter.Twins SyncIter.Twins (dropBytes (ε := ε) fuel)
  | 0 => forgets_hang
  | fuel + 1 => popMotorId_forgets.then fun r => by
    split
    · exact forgets_pure _
    · refine forgets_get (fun s t h => ?_) fun s => (Forgets.attempt (onClient_forgets (Client.readStatusResponse_forgets _))).then
        fun _ => dropBytes_forgets fuel
      simp only [h.rest.1]

theorem drop_forgets {α ε : Type} (d : DataTy α) : ∀ fuel, Forgets SyncIter.Twins SyncIter.Twins (drop d (ε := ε) fuel)
  | 0 => forgets_hang
  | fuel + 1 => (next_forgets d).then fun r => by
    split
    · exact forgets_pure _
    · exact drop_forgets d fuel

end SyncIter

/-- Iterators with twin clients. -/
structure BulkIter.Twins (s t : BulkIter) : Prop where
  client : Bus.Twins s.client t.client
  rest : t.reads = s.reads ∧ t.index = s.index

namespace BulkIter

theorem onClient_forgets {ε α : Type} {m : SO Bus ε α} (h : Forgets Bus.Twins Bus.Twins m) :
    Forgets BulkIter.Twins BulkIter.Twins (onClient m) := fun _ _ hs =>
  ⟨(h _ _ hs.client).1, ⟨(h _ _ hs.client).2, hs.rest⟩⟩

theorem pop_forgets {ε : Type} : Forgets BulkIter.Twins BulkIter.Twins (pop (ε := ε)) := by
  intro s t h
  obtain ⟨h1, h2⟩ := h.rest
  unfold pop
  rw [h1, h2]
  split
  · exact ⟨rfl, h⟩
  · exact ⟨rfl, ⟨h.client, rfl, rfl⟩⟩

theorem next_forgets {ε : Type} : Forgets BulkIter.Twins BulkIter.Twins (next (ε := ε)) := by
  refine pop_forgets.then fun r => ?_
  split
  · exact forgets_pure _
  · exact (Forgets.attempt ((onClient_forgets (Client.readStatusResponse_forgets _)).then fun _ =>
      (forgets_lift _).then fun _ => forgets_lift _)).then fun _ => forgets_pure _

theorem dropLoop_forgets {ε : Type} : ∀ reads, Forgets BulkIter.Twins BulkIter.Twins (dropLoop (ε := ε) reads)
  | [] => forgets_pure _
  | _ :: rest => (Forgets.attempt (onClient_forgets (Client.readStatusResponse_forgets _))).then fun _ => dropLoop_forgets rest

theorem drop_forgets {ε : Type} : Forgets BulkIter.Twins BulkIter.Twins (drop (ε := ε)) := by
  refine forgets_get (fun s t h => ?_) fun s => ?_
  · simp only [h.rest.1, h.rest.2]
  · split
    · exact dropLoop_forgets _
    · exact forgets_panic

end BulkIter

namespace Device

theorem readRawLoop_forgets (D : Nat) : ∀ fuel, Forgets Bus.Twins Bus.Twins (readRawLoop D fuel)
  | 0 => forgets_hang
  | fuel + 1 => (Bus.readPacket_forgets D).then fun p => (forgets_lift _).then fun r => by
    split
    · exact forgets_pure _
    · exact readRawLoop_forgets D fuel

theorem readRawLoop_more (D : Nat) : ∀ (fuel k : Nat) (b : Bus), (readRawLoop D fuel b).2 ≠ .hang →
    readRawLoop D (fuel + k) b = readRawLoop D fuel b
  | 0, k, b, h => absurd rfl h
  | fuel + 1, k, b, h => by
    rw [Nat.add_right_comm]
    unfold readRawLoop at h ⊢
    rw [SO.bind_def] at h
    rw [SO.bind_def, SO.bind_def]
    generalize Bus.readPacketDeadline D b = z at h ⊢
    rcases z with ⟨c, o⟩
    cases o with
    | ok p =>
      dsimp only at h ⊢
      cases hp : (p.asInstruction : Outcome ReadError (Option InstructionPacket)) with
      | ok r =>
        rw [hp] at h
        rw [SO.lift_ok_bind] at h
        rw [SO.lift_ok_bind, SO.lift_ok_bind]
        cases r with
        | some i => rfl
        | none => exact readRawLoop_more D fuel k c h
      | _ => rfl
    | _ => rfl

theorem readRaw_forgets (timeout : Nat) : Forgets Bus.Twins Bus.Twins (readRawInstructionTimeout timeout) := by
  intro b c h
  have hb := (Props.c26_terminates timeout h.read_ok.1).1
  have hc := (Props.c26_terminates timeout h.read_ok.2).1
  unfold readRawInstructionTimeout at hb hc ⊢
  rw [SO.get_bind] at hb hc
  rw [SO.get_bind, SO.get_bind]
  rw [h.port] at hc ⊢
  have e1 := readRawLoop_more _ _ c.readLen b hb
  have e2 := readRawLoop_more _ _ b.readLen c hc
  rw [← e1, ← e2]
  have e : c.readLen + b.serialPort.measure + 1 + b.readLen = b.readLen + b.serialPort.measure + 1 + c.readLen := by omega
  rw [e]
  exact readRawLoop_forgets _ _ b c h

theorem writeStatus_starts (id error : Byte) {n : Nat} {enc : Encoder} (he : Overwrites n enc.run) :
    Starts (writeStatus id error n enc) := by
  refine ⟨forgets_get (fun b c h => ?_) fun b => (forgets_lift _).then fun _ =>
      (starts_writePacket _ _ (statusEncoder_overwrites error he)).kin,
    forgets_get (fun b c h => ?_) fun b => (forgets_lift _).then fun _ =>
      (starts_writePacket _ _ (statusEncoder_overwrites error he)).twins⟩
  · simp only [h.writeSize]
  · simp only [h.writeSize]

end Device
end Dxl
