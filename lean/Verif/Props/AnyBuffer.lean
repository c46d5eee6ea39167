import Verif.Lemmas.AnyBuffer
import Verif.Props.Send
import Verif.Props.Receive
import Verif.Props.AnyPortMore

/-! # Any buffer type (C104) -/

namespace Dxl.Props
open Spec

variable {B : BufferImpl} {view : B.Buf → List Byte}

/-! ## Buffers that keep what is written to them -/

/-- **C104** With a buffer that lends the same bytes each time, a packet is sent as with a list of the same contents. -/
theorem c104_same_send (hB : B.MutLawful view) (id instr : Byte) (n : Nat) (enc : Encoder) (b : BusIn B) :
    (BusIn.writePacket id instr n enc b).1.see view = (Bus.writePacket id instr n enc (b.see view)).1 ∧
      (BusIn.writePacket id instr n enc b).2 = (Bus.writePacket id instr n enc (b.see view)).2 :=
  BusIn.sim_writePacket hB id instr n enc b

/-- **C104** The same for status packets. -/
theorem c104_same_status (hB : B.Lawful view) (id error : Byte) (n : Nat) (enc : Encoder) (b : BusIn B) :
    (BusIn.writeStatus id error n enc b).1.see view = (Bus.writeStatus id error n enc (b.see view)).1 ∧
      (BusIn.writeStatus id error n enc b).2 = (Bus.writeStatus id error n enc (b.see view)).2 :=
  BusIn.sim_writeStatus hB id error n enc b

/-- **C104** The same for receiving a packet. -/
theorem c104_same_receive (hB : B.Lawful view) (D : Nat) (b : BusIn B) :
    (BusIn.readPacketDeadline D (b.rest.serialPort.measure + 1) b).1.see view = (Bus.readPacketDeadline D (b.see view)).1 ∧
      (BusIn.readPacketDeadline D (b.rest.serialPort.measure + 1) b).2 = (Bus.readPacketDeadline D (b.see view)).2 :=
  BusIn.sim_readPacket hB D b

theorem mapErr_transferTime {ε ε' : Type} (f : ε → ε') (m r : Nat) :
    (messageTransferTime (ε := ε) m r).mapErr f = messageTransferTime m r := by
  rcases transferTime_cases m r with ⟨t, h⟩ | h
  · rw [h ε, h ε']; rfl
  · rw [h ε, h ε']; rfl

theorem transferSingle_steps (id instr : Byte) (n : Nat) (k : U16) (enc : Encoder) :
    Client.transferSingle id instr n k enc = ((Bus.writePacket id instr n enc).mapErr TransferError.writeError >>= fun _ =>
      SO.get >>= fun b => SO.lift (messageTransferTime (StatusPacket.messageLen k.toNat % 2 ^ 32) b.baudRate) >>= fun time =>
        (Bus.readPacketDeadline (b.serialPort.makeDeadline (time + Client.flatTimeout))).mapErr TransferError.readError >>=
          fun packet => SO.lift ((Client.checkStatus packet).mapErr TransferError.readError) >>= fun response =>
            SO.lift response.packetId >>= fun actual =>
              SO.lift ((checkPacketId actual id).mapErr fun e => .readError (.invalidMessage e)) >>= fun _ => pure response) := by
  unfold Client.transferSingle Client.readStatusResponse Client.readStatusResponseTimeout Client.writeInstruction
    Bus.writeInstruction
  funext b
  rw [SO.bind_def, SO.bind_def]
  rcases (Bus.writePacket id instr n enc).mapErr TransferError.writeError b with ⟨c, o⟩
  cases o with
  | ok u =>
    dsimp only
    simp only [BusOf.mapErr_bind, BusOf.so_seq_assoc, BusOf.mapErr_get, BusOf.mapErr_lift, mapErr_transferTime]
    rw [SO.get_bind, SO.get_bind, SO.bind_def, SO.bind_def, SO.lift_apply]
    cases messageTransferTime (ε := TransferError) (StatusPacket.messageLen k.toNat % 2 ^ 32) c.baudRate with
    | ok t => rfl
    | _ => rfl
  | _ => rfl

/-- **C104** The same for the calls for one motor: ping, read, write and the others are this with their own encoder. -/
theorem c104_same_call (hB : B.Lawful view) (id instr : Byte) (n : Nat) (k : U16) (enc : Encoder) (b : BusIn B) :
    (BusIn.transferSingle id instr n k enc 1 b).1.see view = (Client.transferSingle id instr n k enc (b.see view)).1 ∧
      (BusIn.transferSingle id instr n k enc 1 b).2 = (Client.transferSingle id instr n k enc (b.see view)).2 := by
  have h : BusIn.Sim view (BusIn.transferSingle id instr n k enc 1 : SO (BusIn B) _ _) (Client.transferSingle id instr n k enc) := by
    rw [transferSingle_steps]
    unfold BusIn.transferSingle
    refine .bind ((BusIn.sim_writePacket hB.toMutLawful id instr n enc).mapErr _) fun _ => fun c => ?_
    rw [SO.get_bind, SO.get_bind]
    show ((SO.lift (messageTransferTime (StatusPacket.messageLen k.toNat % 2 ^ 32) c.rest.baudRate) >>= _) c).1.see view =
      ((SO.lift (messageTransferTime (StatusPacket.messageLen k.toNat % 2 ^ 32) c.rest.baudRate) >>= _) (c.see view)).1 ∧
      ((SO.lift (messageTransferTime (StatusPacket.messageLen k.toNat % 2 ^ 32) c.rest.baudRate) >>= _) c).2 =
      ((SO.lift (messageTransferTime (StatusPacket.messageLen k.toNat % 2 ^ 32) c.rest.baudRate) >>= _) (c.see view)).2
    cases messageTransferTime (ε := TransferError) (StatusPacket.messageLen k.toNat % 2 ^ 32) c.rest.baudRate with
    | ok t =>
      rw [SO.lift_ok_bind, SO.lift_ok_bind]
      have h := BusIn.sim_readPacket hB (c.rest.serialPort.makeDeadline (t + Client.flatTimeout)) c
      refine BusIn.Sim.bind_at ⟨h.1, congrArg (Outcome.mapErr TransferError.readError) h.2⟩ fun packet =>
        .bind (.lift _) fun response => .bind (.lift _) fun actual => .bind (.lift _) fun _ => .pure _
    | _ => exact ⟨rfl, rfl⟩
  exact h b

/-- **C104** The same for making a bus: it panics for a write buffer of less than ten bytes. -/
theorem c104_same_construct {ε : Type} (hB : B.MutLawful view) (debug : Bool) (port : Port) (r w : B.Buf) (rate : Nat) :
    (10 ≤ (view w).length → ∃ b : BusIn B, BusIn.withBuffersAndBaudRate (ε := ε) debug port r w rate = .ok b ∧
      Bus.withBuffersAndBaudRate (ε := ε) debug port (view r) (view w) rate = .ok (b.see view)) ∧
    ((view w).length < 10 → BusIn.withBuffersAndBaudRate (ε := ε) debug port r w rate = .panic ∧
      Bus.withBuffersAndBaudRate (ε := ε) debug port (view r) (view w) rate = .panic) := by
  have h1 := hB.asMut w
  have h2 := hB.release w (view w) rfl
  unfold BusIn.withBuffersAndBaudRate Bus.withBuffersAndBaudRate
  rcases hx : B.asMut w with ⟨w1, o⟩
  rw [hx] at h1 h2
  simp only at h1 h2
  subst h1
  constructor
  · intro h
    have h3 := hB.asMut (B.release (view w) w1)
    have h4 := hB.release (B.release (view w) w1) (headerPrefix ++ (view w).drop 4) (by
      rw [h2]; simp [headerPrefix]; omega)
    dsimp only
    rw [if_pos (by unfold headerSize; omega), if_pos (by unfold headerSize; omega)]
    rcases hy : B.asMut (B.release (view w) w1) with ⟨w2, o⟩
    rw [hy] at h3 h4
    simp only [h2] at h3 h4
    subst h3
    dsimp only
    rw [if_pos (by omega)]
    refine ⟨_, rfl, ?_⟩
    unfold BusIn.see
    simp only [h4]
  · intro h
    dsimp only
    rw [if_neg (by unfold headerSize; omega), if_neg (by unfold headerSize; omega)]
    exact ⟨rfl, rfl⟩

/-! ## Any buffer: sending -/

theorem prepare_port {id instr : Byte} {n : Nat} {enc : Encoder} (b : Bus) :
    (BusOf.preparePacket id instr n enc b).1.serialPort = b.serialPort := by
  have h := BusOf.portFree_preparePacket id instr n enc b b.serialPort
  exact congrArg (fun x => x.1.serialPort) h

theorem prepare_end {id instr : Byte} {n m : Nat} {enc : Encoder} {b b' : Bus}
    (h : BusOf.preparePacket id instr n enc b = (b', .ok m)) : 9 ≤ m := by
  unfold BusOf.preparePacket at h
  iterate 15 (obtain ⟨_, _, _, h⟩ := SO.bind_eq_ok.1 h)
  rw [SO.pure_apply] at h
  simp only [Prod.mk.injEq, Outcome.ok.injEq] at h
  obtain ⟨_, rfl⟩ := h
  unfold headerSize
  omega

theorem write_first (id instr : Byte) (n : Nat) (enc : Encoder) (b : Bus) :
    ∃ new, (Bus.writePacket id instr n enc b).1.serialPort.log = b.serialPort.log ++ new ∧
      ∀ f ok, Call.write f ok ∈ new → f.take 4 = b.writeBuffer.take 4 := by
  rw [BusOf.writePacket_split, SO.bind_def, SO.mapErr_apply]
  have hp := prepare_port (id := id) (instr := instr) (n := n) (enc := enc) b
  have hf := (Bus.onlyWrite_preparePacket id instr n enc).first b
  rcases hx : BusOf.preparePacket id instr n enc b with ⟨c, o⟩
  rw [hx] at hp hf
  simp only at hp hf
  cases o with
  | ok m =>
    have hm := prepare_end hx
    simp only [Outcome.mapErr_ok]
    rw [SO.bind_def, Bus.onPort_apply, SO.mapErr_apply]
    have hd : ∃ ok, (Port.discardInputBuffer c.serialPort).1.log = c.serialPort.log ++ [.discard ok] := by
      unfold Port.discardInputBuffer
      split <;> exact ⟨_, rfl⟩
    obtain ⟨okd, hd⟩ := hd
    rcases hy : Port.discardInputBuffer c.serialPort with ⟨p, od⟩
    rw [hy] at hd
    simp only at hd
    cases od with
    | ok u =>
      simp only [Outcome.mapErr_ok]
      rw [SO.get_bind]
      simp only
      unfold slice
      by_cases hs : 0 ≤ m ∧ m ≤ c.writeBuffer.length
      · rw [if_pos hs, SO.lift_ok_bind, Bus.onPort_apply, SO.mapErr_apply]
        have hw : ∃ ok, (Port.writeAll (List.drop 0 (List.take m c.writeBuffer)) p).1.log = p.log ++ [.write (List.drop 0 (List.take m c.writeBuffer)) ok] := by
          unfold Port.writeAll
          split <;> exact ⟨_, rfl⟩
        obtain ⟨okw, hw⟩ := hw
        refine ⟨[.discard okd, .write (List.drop 0 (List.take m c.writeBuffer)) okw], ?_, ?_⟩
        · simp only
          rw [hw, hd, hp]
          simp
        · intro f ok hfo
          simp only [List.mem_cons, Call.write.injEq, List.not_mem_nil, or_false, reduceCtorEq, false_or] at hfo
          rw [hfo.1, List.drop_zero, List.take_take, ← hf]
          congr 1
          omega
      · rw [if_neg hs, SO.lift_panic_bind]
        exact ⟨[.discard okd], by simp only [hd, hp], by simp⟩
    | _ => exact ⟨[.discard okd], by simp only [Outcome.mapErr, hd, hp], by simp⟩
  | _ => exact ⟨[], by simp [Outcome.mapErr, hp], by simp⟩

/-- **C104** Whatever the buffer does: what is sent starts with the first four bytes that `as_mut` lends for this packet, not with a
header prefix. -/
theorem c104_first_four (id instr : Byte) (n : Nat) (enc : Encoder) (b : BusIn B) :
    ∃ new, (BusIn.writePacket id instr n enc b).1.rest.serialPort.log = b.rest.serialPort.log ++ new ∧
      ∀ f ok, Call.write f ok ∈ new → ∃ s, (B.asMut b.writeBuffer).2 = some s ∧ f.take 4 = s.take 4 := by
  unfold BusIn.writePacket BusIn.borrowWrite
  rcases B.asMut b.writeBuffer with ⟨w, o⟩
  cases o with
  | none => exact ⟨[], by simp, by simp⟩
  | some s =>
    obtain ⟨new, h1, h2⟩ := write_first id instr n enc { b.rest with writeBuffer := s }
    exact ⟨new, h1, fun f ok h => ⟨s, rfl, h2 f ok h⟩⟩

/-- **C104** So if those are not the header prefix, which is only written once, when the bus is made, then nothing that starts with
the header prefix is sent. -/
theorem c104_no_header (id instr : Byte) (n : Nat) (enc : Encoder) (b : BusIn B)
    (hs : ∀ s, (B.asMut b.writeBuffer).2 = some s → ¬ header <+: s) :
    ∃ new, (BusIn.writePacket id instr n enc b).1.rest.serialPort.log = b.rest.serialPort.log ++ new ∧
      ∀ f ok, Call.write f ok ∈ new → ¬ header <+: f := by
  obtain ⟨new, h1, h2⟩ := c104_first_four id instr n enc b
  refine ⟨new, h1, fun f ok h hf => ?_⟩
  obtain ⟨s, hs1, h3⟩ := h2 f ok h
  refine hs s hs1 ?_
  rw [List.prefix_iff_eq_take] at hf ⊢
  exact hf.trans h3

/-- **C104** If they are, and what is lent has room, what is sent is a packet: a successful call hands exactly one packet to the port. -/
theorem c104_framed {id instr : Byte} {n : Nat} {enc : Encoder} {b b' : BusIn B} {s : List Byte}
    (hs : (B.asMut b.writeBuffer).2 = some s) (hh : header <+: s) (h10 : 10 ≤ s.length)
    (h : BusIn.writePacket id instr n enc b = (b', .ok ())) :
    ∃ params wire, Encodes enc n params ∧ StuffedForm (instr :: params) wire ∧ Sent b.rest b'.rest (frame id wire) := by
  unfold BusIn.writePacket BusIn.borrowWrite at h
  rcases hx : B.asMut b.writeBuffer with ⟨w, o⟩
  rw [hx] at hs h
  simp only at hs
  subst hs
  dsimp only at h
  rcases hy : Bus.writePacket id instr n enc { b.rest with writeBuffer := s } with ⟨c, o⟩
  rw [hy] at h
  simp only [Prod.mk.injEq] at h
  obtain ⟨rfl, rfl⟩ := h
  have hw : Bus.WInv { b.rest with writeBuffer := s } := ⟨h10, (List.prefix_iff_eq_take.1 hh).symm⟩
  have h := c08_instruction_layout hw hy
  exact h

/-! ## Any buffer: receiving -/

theorem sim_run {ε α : Type} {m : SO (BusIn B) ε α} {n : SO Bus ε α} (h : BusIn.Sim view m n) {b : BusIn B} {c : Bus} {a : α}
    (hn : n (b.see view) = (c, .ok a)) : ∃ b', m b = (b', .ok a) ∧ b'.see view = c := by
  obtain ⟨h1, h2⟩ := h b
  rw [hn] at h1 h2
  exact ⟨(m b).1, Prod.ext rfl h2, h1⟩

/-- **C104** What a call returns is what `as_ref` lends, checked by nobody: if `as_mut` lends the same bytes each time and with lists
the packet `p` is returned, then as many bytes of whatever `as_ref` lends are returned. -/
theorem c104_unchecked (hB : B.MutLawful view) {D : Nat} {b : BusIn B} {c : Bus} {p : Packet}
    (h : Bus.readPacketDeadline D (b.see view) = (c, .ok p)) :
    ∃ r, view r = c.readBuffer ∧
      (BusIn.readPacketDeadline D (b.rest.serialPort.measure + 1) b).2 = match (B.asRef r).2 with
        | none => .panic
        | some s => if p.data.length ≤ s.length then .ok ⟨s.take p.data.length⟩ else .panic := by
  have hl : Bus.readPacketDeadline D = SO.get >>= fun b => Bus.readRoom >>= fun room =>
      SO.lift ((BufferTooSmall.check (headerSize + 3) room).mapErr .bufferFull) >>= fun _ =>
        Bus.readLoop D (b.serialPort.measure + 1) >>= fun n => Bus.finishPacket n := rfl
  rw [hl, SO.get_bind] at h
  obtain ⟨c0, room, h0, h⟩ := SO.bind_eq_ok.1 h
  obtain ⟨c1, u, h1, h⟩ := SO.bind_eq_ok.1 h
  obtain ⟨c2, n, h2, h⟩ := SO.bind_eq_ok.1 h
  rw [BusIn.finishPacket_steps] at h
  obtain ⟨c3, r, h3, h⟩ := SO.bind_eq_ok.1 h
  obtain ⟨b0, g0, rfl⟩ := sim_run (BusIn.sim_borrowRead hB Bus.onlyRead_readRoom) h0
  obtain ⟨b1, g1, rfl⟩ := sim_run (BusIn.Sim.lift _) h1
  obtain ⟨b2, g2, rfl⟩ := sim_run (BusIn.sim_readLoop hB _ _) h2
  obtain ⟨b3, g3, rfl⟩ := sim_run (BusIn.sim_borrowRead hB (Bus.onlyRead_checkPacket n)) h3
  unfold BusIn.readPacketDeadline
  rw [SO.bind_ok g0, SO.bind_ok g1]
  have g2' : BusIn.readLoop D (b.rest.serialPort.measure + 1) b1 = (b2, .ok n) := g2
  rw [SO.bind_ok g2']
  unfold BusIn.finishPacket
  rw [SO.bind_ok g3]
  cases r with
  | error e =>
    obtain ⟨_, _, _, h⟩ := SO.bind_eq_ok.1 h
    rw [SO.throw_apply] at h
    cases h
  | ok k =>
    dsimp only at h ⊢
    obtain ⟨c4, lent, h4, h⟩ := SO.bind_eq_ok.1 h
    rw [SO.get_bind, SO.pure_apply] at h4
    cases h4
    obtain ⟨c5, data, h5, h⟩ := SO.bind_eq_ok.1 h
    rw [SO.lift_apply] at h5
    obtain ⟨c6, ins, h6, h⟩ := SO.bind_eq_ok.1 h
    rw [SO.lift_apply] at h6
    simp only [Prod.mk.injEq] at h5 h6
    obtain ⟨rfl, h5⟩ := h5
    obtain ⟨rfl, h6⟩ := h6
    have hd : data.length = 7 + k := by
      unfold slice at h5
      split at h5
      · rename_i hc
        simp only [Outcome.ok.injEq] at h5
        rw [← h5]
        simp only [List.drop_zero, List.length_take]
        unfold headerSize at hc ⊢
        omega
      · cases h5
    have hk : 1 ≤ k := by
      rcases Nat.lt_or_ge 7 data.length with h7 | h7
      · omega
      · unfold Packet.instructionId idx at h6
        rw [List.getElem?_eq_none h7] at h6
        cases h6
    rw [if_neg (by omega), SO.pure_apply] at h
    cases h
    refine ⟨b3.readBuffer, rfl, ?_⟩
    simp only
    rw [SO.bind_def]
    unfold BusIn.readRef
    rcases hx : B.asRef b3.readBuffer with ⟨r, o⟩
    cases o with
    | none => rfl
    | some s =>
      simp only
      rw [hd]
      unfold slice
      by_cases hs : 7 + k ≤ s.length
      · rw [if_pos hs, if_pos ⟨Nat.zero_le _, hs⟩, SO.lift_ok_bind, List.drop_zero, SO.bind_def, SO.lift_apply]
        have hi : ∃ i, Packet.instructionId (ε := ReadError) ⟨s.take (7 + k)⟩ = .ok i := by
          unfold Packet.instructionId
          exact ⟨_, idx_lt (by simp only [List.length_take]; omega)⟩
        obtain ⟨i, hi⟩ := hi
        have hi' : Packet.instructionId (ε := ReadError) ⟨s.take (headerSize + k)⟩ = .ok i := hi
        rw [hi']
        simp only
        rw [if_neg (by omega)]
        rfl
      · rw [if_neg hs, if_neg (fun h => hs h.2)]
        rfl

/-- **C104** If `as_mut` lends ten bytes at first and none from then on, and there is something to read, the call reads nothing again
and again and never ends. -/
theorem c104_spins (stuck : B.Buf → Prop) (hst : ∀ r, stuck r → ∃ r', B.asMut r = (r', some []) ∧ stuck (B.release [] r'))
    {b : BusIn B} {r : B.Buf} {s : List Byte} (h1 : B.asMut b.readBuffer = (r, some s)) (h10 : 10 ≤ s.length)
    (h2 : stuck (B.release s r)) (hl : b.rest.readLen = 0) (hu : b.rest.usedBytes = 0) {t D : Nat} {bs : List Byte} {rest : List RxEvent}
    (hbs : bs ≠ []) (hrx : b.rest.serialPort.rx = .data t bs :: rest) (ht : t ≤ D) (hn : b.rest.serialPort.now ≤ D) (fuel : Nat) :
    (BusIn.readPacketDeadline D fuel b).2 = .hang := by
  have hborrow : ∀ {ε α : Type} (m : SO Bus ε α) (c : BusIn B), stuck c.readBuffer → ∃ r', stuck (B.release [] r') ∧
      BusIn.borrowRead m c = (⟨B.release (m { c.rest with readBuffer := [] }).1.readBuffer r', c.writeBuffer,
        (m { c.rest with readBuffer := [] }).1⟩, (m { c.rest with readBuffer := [] }).2) := by
    intro ε α m c hc
    obtain ⟨r', h, h'⟩ := hst _ hc
    refine ⟨r', h', ?_⟩
    unfold BusIn.borrowRead
    rw [h]
  have hloop : ∀ fuel (c : BusIn B), stuck c.readBuffer → c.rest.readLen = 0 → c.rest.usedBytes = 0 →
      c.rest.serialPort.rx = .data t bs :: rest → c.rest.serialPort.now ≤ D → (BusIn.readLoop D fuel c).2 = .hang := by
    intro fuel
    induction fuel with
    | zero => intros; rfl
    | succ fuel ih =>
      intro c hc hcl hcu hcr hcn
      have hg : ∃ c' : BusIn B, BusIn.removeGarbage (ε := ReadError) c = (c', .ok ()) ∧ stuck c'.readBuffer ∧
          c'.rest.readLen = 0 ∧ c'.rest.usedBytes = 0 ∧ c'.rest.serialPort = c.rest.serialPort := by
        obtain ⟨r1, hr1, hb1⟩ := hborrow (ε := ReadError) Bus.findGarbage c hc
        have hfg : Bus.findGarbage (ε := ReadError) { c.rest with readBuffer := [] } = ({ c.rest with readBuffer := [] }, .ok 0) := by
          unfold Bus.findGarbage
          rw [SO.get_bind]
          simp only [hcl, hcu]
          rfl
        rw [hfg] at hb1
        obtain ⟨r2, hr2, hb2⟩ := hborrow (ε := ReadError) (Bus.consumeReadBytes 0)
          ⟨B.release [] r1, c.writeBuffer, { c.rest with readBuffer := [] }⟩ hr1
        have hcb : Bus.consumeReadBytes (ε := ReadError) 0 { c.rest with readBuffer := [] } = ({ c.rest with readBuffer := [] }, .ok ()) := by
          unfold Bus.consumeReadBytes
          rw [SO.get_bind, show decide (0 ≤ c.rest.readLen) = true by simp, SO.bind_ok (Bus.debugAssert_true _),
            if_pos ⟨Nat.zero_le _, by simp [hcl]⟩, SO.modify_apply]
          simp [hcl]
        simp only [hcb] at hb2
        refine ⟨⟨B.release [] r2, c.writeBuffer, { c.rest with readBuffer := [] }⟩, ?_, ?_⟩
        · unfold BusIn.removeGarbage BusIn.consumeReadBytes
          rw [SO.get_bind, SO.bind_ok hb1]
          rw [show c.rest.usedBytes + 0 = 0 by omega]
          have hda : ∀ (x : BusIn B), BusIn.onRest (B := B) (Bus.debugAssert (ε := ReadError) true) x = (x, .ok ()) := by
            intro x
            unfold BusIn.onRest
            rw [SO.zoom_apply, Bus.debugAssert_true]
          rw [SO.bind_def, SO.get_bind, show decide (0 ≤ _) = true by simp, SO.bind_ok (hda _), hb2]
          simp only
          rw [SO.get_bind, show decide (c.rest.usedBytes = 0) = true by simp [hcu], hda]
        · exact ⟨hr2, hcl, hcu, rfl⟩
      obtain ⟨c1, e1, k1, k2, k3, k4⟩ := hg
      unfold BusIn.readLoop
      rw [SO.bind_ok e1]
      have hm : BusIn.messageReady c1 = (c1, .ok none) := by
        unfold BusIn.messageReady
        rw [SO.get_bind, if_neg (by rw [k2]; unfold headerSize; omega)]
        rfl
      rw [SO.bind_ok hm]
      obtain ⟨r3, hr3, hb3⟩ := hborrow (Bus.readMore D) c1 k1
      have hread : Port.read 0 D c1.rest.serialPort = ({ c1.rest.serialPort with now := max c1.rest.serialPort.now t, rx := .data t bs :: rest, log := c1.rest.serialPort.log ++ [.read 0 D] }, .ok []) := by
        unfold Port.read
        rw [k4, hcr]
        dsimp only
        rw [if_neg (by omega), if_pos ht, if_neg (by
          have := List.length_pos_iff.2 hbs
          omega)]
        simp
      have hmore : Bus.readMore D { c1.rest with readBuffer := [] } = ({ c1.rest with readBuffer := [], serialPort := { c1.rest.serialPort with now := max c1.rest.serialPort.now t, rx := .data t bs :: rest, log := c1.rest.serialPort.log ++ [.read 0 D] } }, .ok ()) := by
        unfold Bus.readMore
        rw [SO.get_bind]
        simp only [k2, List.length_nil, Nat.le_refl, if_true, Nat.sub_self]
        rw [SO.bind_def, Bus.onPort_apply, SO.mapErr_apply]
        simp only [hread]
        simp [k2]
      rw [hmore] at hb3
      simp only
      rw [SO.bind_ok hb3]
      refine ih _ hr3 k2 k3 rfl ?_
      show max _ _ ≤ D
      rw [k4]
      omega
  unfold BusIn.readPacketDeadline
  have h0 : BusIn.borrowRead (ε := ReadError) Bus.readRoom b = (⟨B.release s r, b.writeBuffer, { b.rest with readBuffer := s }⟩, .ok s.length) := by
    unfold BusIn.borrowRead
    rw [h1]
    rfl
  rw [SO.bind_ok h0]
  unfold BufferTooSmall.check
  rw [if_pos (by unfold headerSize; omega), Outcome.mapErr_ok, SO.lift_ok_bind, SO.bind_def]
  have h := hloop fuel ⟨B.release s r, b.writeBuffer, { b.rest with readBuffer := s }⟩ h2 hl hu hrx hn
  rcases hx : BusIn.readLoop D fuel ⟨B.release s r, b.writeBuffer, { b.rest with readBuffer := s }⟩ with ⟨c, o⟩
  rw [hx] at h
  simp only at h
  subst h
  rfl

/-! ## Examples -/

/-- A buffer that counts how often it is borrowed. -/
def countingBuffer : BufferImpl where
  Buf := Nat × List Byte
  asMut b := ((b.1 + 1, b.2), some b.2)
  release s b := (b.1, s)
  asRef b := ((b.1 + 1, b.2), some b.2)

theorem countingBuffer_lawful : countingBuffer.Lawful Prod.snd where
  asMut _ := rfl
  release _ _ _ := rfl
  asRef _ := rfl
  asRef_keeps _ := rfl

/-- A bus with such buffers. -/
def countingBus (c : Bus) : BusIn countingBuffer := ⟨(0, c.readBuffer), (0, c.writeBuffer), c⟩

/-- A buffer that always lends zeros. -/
def zeroBuffer : BufferImpl where
  Buf := Unit
  asMut _ := ((), some (List.replicate 16 0#8))
  release _ _ := ()
  asRef _ := ((), some (List.replicate 16 0#8))

/-- A buffer whose `as_ref` lends something else. -/
def otherBuffer : BufferImpl where
  Buf := List Byte
  asMut b := (b, some b)
  release s _ := s
  asRef b := (b, some (List.replicate 12 0xEE#8))

theorem otherBuffer_lawful : otherBuffer.MutLawful id where
  asMut _ := rfl
  release _ _ _ := rfl

/-- A buffer that lends ten bytes once. -/
def onceBuffer : BufferImpl where
  Buf := Bool
  asMut b := (true, some (if b then [] else List.replicate 10 0#8))
  release _ b := b
  asRef b := (b, some [])

example := c104_same_send countingBuffer_lawful.toMutLawful 1#8 1#8 0 Encoder.nothing (countingBus (quietBus true 40))
example := c104_same_status countingBuffer_lawful 1#8 0#8 0 Encoder.nothing (countingBus (quietBus true 40))
example := c104_same_receive countingBuffer_lawful 9 (countingBus (busWith (frame 1#8 [0x55#8, 0#8])))
example := c104_same_call countingBuffer_lawful 1#8 1#8 0 3#16 Encoder.nothing (countingBus (quietBus true 40))
/-- A ping borrows the write buffer once. -/
example : (BusIn.writePacket 1#8 1#8 0 Encoder.nothing (countingBus (quietBus true 40))).1.writeBuffer.1 = 1 := by decide +kernel
/-- Receiving a packet that comes at once borrows the read buffer ten times. -/
example : (BusIn.readPacketDeadline 9 9 (countingBus (busWith (frame 1#8 [0x55#8, 0#8])))).1.readBuffer.1 = 10 := by decide +kernel
example := (c104_same_construct (ε := Empty) countingBuffer_lawful.toMutLawful true (quietBus true 40).serialPort (0, [])
  (0, List.replicate 10 7#8) 57600).1 (by decide)
example := (c104_same_construct (ε := Empty) countingBuffer_lawful.toMutLawful true (quietBus true 40).serialPort (0, [])
  (0, List.replicate 9 7#8) 57600).2 (by decide)
example := c104_first_four 1#8 1#8 0 Encoder.nothing (countingBus (quietBus true 40))
/-- With a buffer that does not keep the header prefix, a ping reports success, and what is sent is no packet. -/
example : (BusIn.writePacket 1#8 1#8 0 Encoder.nothing (⟨(), (), quietBus true 40⟩ : BusIn zeroBuffer)).2 = .ok () := by decide +kernel
example := c104_no_header 1#8 1#8 0 Encoder.nothing (⟨(), (), quietBus true 40⟩ : BusIn zeroBuffer)
  (fun s hs => by cases hs; decide)
example := c104_framed (id := 1#8) (instr := 1#8) (n := 0) (enc := Encoder.nothing) (b := countingBus (quietBus true 40))
  rfl (by decide) (by decide) (Prod.ext rfl (by decide +kernel))
/-- A bus with a buffer whose `as_ref` lends something else, where a status packet arrives. -/
def otherBus : BusIn otherBuffer := ⟨List.replicate 40 0#8, [], busWith (frame 1#8 [0x55#8, 0#8])⟩

theorem otherBus_list : Bus.readPacketDeadline 9 (otherBus.see id) = ((Bus.readPacketDeadline 9 (otherBus.see id)).1,
    .ok ⟨[0xFF#8, 0xFF#8, 0xFD#8, 0#8, 1#8, 4#8, 0#8, 0x55#8, 0#8]⟩) := by
  have h : (Bus.readPacketDeadline 9 (otherBus.see id)).2 =
    .ok ⟨[0xFF#8, 0xFF#8, 0xFD#8, 0#8, 1#8, 4#8, 0#8, 0x55#8, 0#8]⟩ := by decide +kernel
  rw [← h]

/-- A packet that nobody sent is returned. -/
example : (BusIn.readPacketDeadline 9 (otherBus.rest.serialPort.measure + 1) otherBus).2 = .ok ⟨List.replicate 9 0xEE#8⟩ := by
  obtain ⟨r, _, h⟩ := c104_unchecked (b := otherBus) otherBuffer_lawful otherBus_list
  rw [h]
  rfl
example (fuel : Nat) := c104_spins (B := onceBuffer) (fun b => b = true) (fun b hb => ⟨true, by rw [hb]; rfl, rfl⟩)
  (b := ⟨false, false, busWith [1#8]⟩) (r := true) (s := List.replicate 10 0#8) rfl (by decide) rfl rfl rfl (t := 0) (D := 9) (bs := [1#8])
  (rest := []) (by decide) rfl (by decide) (by decide) fuel

end Dxl.Props
