import Verif.Lemmas.Prompt
import Verif.Lemmas.Drops
import Verif.Props.Calls
import Verif.Props.IteratorCalls
import Verif.Props.Device

/-! # C85: waiting for a response ends when there is one, and not before the time is over if there is none -/

namespace Dxl.Props
open Dxl Spec

/-! ## What is claimed of a call -/

/-- The call that found the bus in the state `b`, sent `body` and returned at `t`, waited for a response with `exp` parameters
just as long as it had to: from the end of the write until a complete packet (or too large a header, or a failure of the port)
was there in the new input, and until the end of the time for a response if that did not happen. -/
def WaitsAsNeeded (b : Bus) (body : List Byte) (exp t : Nat) : Prop :=
  ∀ wire D, StuffedForm body wire → SendSucceeds b (body.length - 1) wire → EndOfWait b exp D →
    EndsWhen (Settled b.readBuffer.length [] (newInput b.serialPort) b.serialPort.tail)
      (b.serialPort.now + b.serialPort.writeTime) D t

/-! ## The reader -/

/-- **C85** Reading a packet ends at the first moment at which one is complete, and exactly at the deadline if there is none. -/
theorem c85_packet {D : Nat} {b : Bus} (hb : b.RInv) (hN : 10 ≤ b.readBuffer.length) (hD : b.serialPort.now ≤ D) :
    EndsWhen (Settled b.readBuffer.length b.pending b.serialPort.rx b.serialPort.tail) b.serialPort.now D
      (Bus.readPacketDeadline D b).1.serialPort.now :=
  Bus.readPacketDeadline_when hb hN hD

theorem parse_mono {cap : Nat} {s u : List Byte} (h : parse cap s ≠ .more) : parse cap (s ++ u) ≠ .more := by
  cases hp : parse cap s with
  | more => exact absurd hp h
  | packet f rest => rw [parse_packet_append hp]; simp
  | tooBig r rest => rw [parse_tooBig_append hp]; simp

/-- The port does not report time-outs of its own. -/
def NoFalseTimeout (p : Port) : Prop :=
  (∀ t, RxEvent.fail t .timedOut ∉ p.rx) ∧ p.tail ≠ .broken .timedOut

theorem kept_noFalseTimeout : Port.Kept NoFalseTimeout := by
  rintro cap D p p' o h ⟨h1, h2⟩
  refine ⟨?_, ?_⟩
  · intro t ht
    have hsub : ∀ t, RxEvent.fail t .timedOut ∈ p'.rx → RxEvent.fail t .timedOut ∈ p.rx := by
      unfold Port.read at h
      dsimp only at h
      split at h
      · cases h; exact fun t h => h
      · split at h
        · split at h <;> (cases h; exact fun t h => h)
        · rename_i hrx
          split at h
          · split at h
            · cases h
              rw [hrx]
              exact fun t h => List.mem_cons_of_mem _ h
            · cases h
              rw [hrx]
              intro t h
              simp only [List.mem_cons, reduceCtorEq, false_or] at h
              exact List.mem_cons_of_mem _ h
          · cases h; exact fun t h => h
        · rename_i hrx
          split at h
          · cases h
            rw [hrx]
            exact fun t h => List.mem_cons_of_mem _ h
          · cases h; exact fun t h => h
    exact h1 t (hsub t ht)
  · rw [show p'.tail = p.tail from Port.kept_tail p.tail h rfl]
    exact h2

theorem obstacle_failed {T D : Nat} (h : T ≤ D) {rx : List RxEvent} {tail : Tail}
    (h1 : ∀ t, RxEvent.fail t .timedOut ∉ rx) (h2 : tail ≠ .broken .timedOut) (hf : failsBy T rx tail) :
    obstacle D rx tail ≠ .timedOut := by
  induction rx with
  | nil =>
    cases tail with
    | silent => exact absurd hf id
    | broken e => intro he; exact h2 (by rw [show e = .timedOut from he])
  | cons ev rest ih =>
    cases ev with
    | data t bs =>
      obtain ⟨k1, k2⟩ := hf
      have := ih (fun t h => h1 t (List.mem_cons_of_mem _ h)) k2
      simp only [obstacle, if_pos (Nat.le_trans k1 h)]
      exact this
    | fail t e =>
      have k1 : t ≤ T := hf
      simp only [obstacle, if_pos (Nat.le_trans k1 h)]
      rintro rfl
      exact h1 t List.mem_cons_self

theorem endsWhen_never {cap D start t : Nat} {old : List Byte} {rx : List RxEvent} {tail : Tail}
    (h1 : ∀ t, RxEvent.fail t .timedOut ∉ rx) (h2 : tail ≠ .broken .timedOut)
    (hp : parse cap (old ++ arriving D rx) = .more) (ho : obstacle D rx tail = .timedOut)
    (h : EndsWhen (Settled cap old rx tail) start D t) : t = D := by
  cases h with
  | timeout => rfl
  | settled k1 k2 k3 k4 =>
    rcases k3 with k3 | k3
    · obtain ⟨more, hm⟩ := arriving_mono k2 rx
      rw [← hm, ← List.append_assoc] at hp
      exact absurd hp (parse_mono k3)
    · exact absurd ho (obstacle_failed k2 h1 h2 k3)

/-- **C85** No time-out comes early: if reading a packet ends with one, the deadline has come. -/
theorem c85_packet_not_early {D : Nat} {b : Bus} (hb : b.RInv) (hD : b.serialPort.now ≤ D) (hq : NoFalseTimeout b.serialPort)
    (h : (Bus.readPacketDeadline D b).2 = .err (.io .timedOut)) :
    (Bus.readPacketDeadline D b).1.serialPort.now = D := by
  by_cases hN : 10 ≤ b.readBuffer.length
  · have hw := c85_packet hb hN hD
    obtain ⟨c, o, h1, -, -, -, h2⟩ := Bus.readPacketDeadline_stream D hb hN
    rw [h1] at h hw ⊢
    obtain rfl : o = _ := h
    have hmore : parse b.readBuffer.length (b.pending ++ readable D b.serialPort) = .more ∧ readEnd D b.serialPort = .timedOut := by
      cases hp : parse b.readBuffer.length (b.pending ++ readable D b.serialPort) with
      | more =>
        rw [hp] at h2
        exact ⟨rfl, by have := h2.1; simp only [Outcome.err.injEq, ReadError.io.injEq] at this; exact this.symm⟩
      | packet f rest =>
        rw [hp] at h2
        have := h2.1
        unfold Bus.frameOutcome at this
        repeat' split at this
        all_goals simp at this
      | tooBig req rest =>
        rw [hp] at h2
        have := h2.1
        simp at this
    unfold readable readEnd at hmore
    rw [if_neg (by omega), if_neg (by omega)] at hmore
    exact endsWhen_never hq.1 hq.2 hmore.1 hmore.2 hw
  · rw [Bus.readPacketDeadline_small D (by omega)] at h
    simp at h

theorem readStatusResponse_now {b : Bus} (h0 : b.baudRate ≠ 0) (hbaud : b.baudRate < 2 ^ 32) (exp : U16) {ns : Nat}
    (hns : LeastTime (11 + exp.toNat) b.baudRate ns) :
    (Client.readStatusResponse exp b).1 = (Bus.readPacketDeadline (b.serialPort.now + (ns + 34000000)) b).1 := by
  obtain ⟨ns', h1, h2⟩ := readStatusResponse_eq h0 hbaud exp
  rw [leastTime_unique hns h1, h2, readStatusResponseTimeout_state]

/-- **C85** The same for a response with `exp` parameters: the deadline is 34 ms after the time it takes to transfer it. -/
theorem c85_response {b : Bus} (hb : b.RInv) (hN : 10 ≤ b.readBuffer.length) (h0 : b.baudRate ≠ 0) (hbaud : b.baudRate < 2 ^ 32)
    (exp : U16) {ns : Nat} (hns : LeastTime (11 + exp.toNat) b.baudRate ns) :
    EndsWhen (Settled b.readBuffer.length b.pending b.serialPort.rx b.serialPort.tail) b.serialPort.now
      (b.serialPort.now + (ns + 34000000)) (Client.readStatusResponse exp b).1.serialPort.now := by
  rw [readStatusResponse_now h0 hbaud exp hns]
  exact c85_packet hb hN (by omega)

/-! ## Calls for one motor -/

theorem waitsAsNeeded_of {α : Type} {b : Bus} {id instr : Byte} {n : Nat} {exp : U16} {enc : Encoder} {params : List Byte}
    {k : StatusPacket → Outcome TransferError α}
    (hb : b.WInv) (hN : 10 ≤ b.readBuffer.length) (h0 : b.baudRate ≠ 0) (hbaud : b.baudRate < 2 ^ 32) (hp : Fills enc.run n params) :
    WaitsAsNeeded b (instr :: params) exp.toNat
      (((Client.writeInstruction id instr n enc).mapErr TransferError.writeError >>= fun _ =>
        (Client.readStatusResponse exp).mapErr TransferError.readError >>= fun s => SO.lift (k s)) b).1.serialPort.now := by
  rintro wire D hw hs ⟨ns, hns, rfl⟩
  have hsend := c62_send (id := id) hb hp hw
  have hn : (instr :: params).length - 1 = n := by have := hp.length; simp [this]
  rw [hn] at hs
  rw [(sending_ok_iff b n wire).mpr hs] at hsend
  rw [SO.bind_def, SO.mapErr_apply]
  unfold Client.writeInstruction
  rcases hm : Bus.writeInstruction id instr n enc b with ⟨b₁, o⟩
  rw [hm] at hsend
  obtain rfl : o = .ok () := hsend
  simp only [Outcome.mapErr_ok]
  obtain ⟨_, _, -, -, -, h3⟩ := afterSend hb hm
  obtain ⟨_, _, _, _, _, hb₁⟩ := Bus.writeInstruction_ok hb hm
  have hst : (((Client.readStatusResponse exp).mapErr TransferError.readError >>= fun s => SO.lift (k s)) b₁).1 =
      (Client.readStatusResponse exp b₁).1 := by
    rw [SO.bind_def, SO.mapErr_apply]
    rcases Client.readStatusResponse exp b₁ with ⟨c, o⟩
    cases o <;> rfl
  rw [hst]
  have hr := c85_response h3.rinv (h3.readBuffer ▸ hN) (h3.baudRate ▸ h0) (h3.baudRate ▸ hbaud) exp (h3.baudRate ▸ hns)
  have hpend : b₁.pending = [] := by rw [hb₁]; simp [Bus.pending]
  have hrx : b₁.serialPort.rx = newInput b.serialPort := by rw [newInput_eq, hb₁]; rfl
  have htl : b₁.serialPort.tail = b.serialPort.tail := by rw [hb₁]; rfl
  rw [hpend, hrx, htl, h3.readBuffer, h3.now] at hr
  exact hr

/-- **C85** `read_bytes` waits no longer and no shorter than it has to. -/
theorem c85_read_bytes {b : Bus} (hb : b.WInv) (hN : 10 ≤ b.readBuffer.length) (h0 : b.baudRate ≠ 0) (hbaud : b.baudRate < 2 ^ 32)
    (id : Byte) (address count : U16) :
    WaitsAsNeeded b (Request.read address count).body count.toNat (Client.readBytes id address count b).1.serialPort.now := by
  unfold Client.readBytes
  simp only [readRaw_shape, SO.bind_assoc', SO.lift_bind_lift]
  exact waitsAsNeeded_of hb hN h0 hbaud (Client.readEncoder_fills address count)

/-- **C85** `read` -/
theorem c85_read {α : Type} (d : DataTy α) {b : Bus} (hb : b.WInv) (hN : 10 ≤ b.readBuffer.length) (h0 : b.baudRate ≠ 0)
    (hbaud : b.baudRate < 2 ^ 32) (id : Byte) (address : U16) :
    WaitsAsNeeded b (Request.read address d.size).body d.size.toNat (Client.read d id address b).1.serialPort.now := by
  unfold Client.read
  simp only [readRaw_shape, SO.bind_assoc', SO.lift_bind_lift]
  exact waitsAsNeeded_of hb hN h0 hbaud (Client.readEncoder_fills address d.size)

/-- **C85** `ping` -/
theorem c85_ping {b : Bus} (hb : b.WInv) (hN : 10 ≤ b.readBuffer.length) (h0 : b.baudRate ≠ 0) (hbaud : b.baudRate < 2 ^ 32)
    (id : Byte) : WaitsAsNeeded b Request.ping.body 3 (Client.ping id b).1.serialPort.now := by
  unfold Client.ping
  simp only [transferSingle_shape, SO.bind_assoc', SO.lift_bind_lift]
  exact waitsAsNeeded_of (exp := 3#16) hb hN h0 hbaud Client.nothing_fills

theorem instruct_shape {id : Byte} (hid : id ≠ 0xFE#8) (instr : Byte) (n : Nat) (enc : Encoder) :
    Client.instruct id instr n enc =
      ((Client.writeInstruction id instr n enc).mapErr TransferError.writeError >>= fun _ =>
        (Client.readStatusResponse 0#16).mapErr TransferError.readError >>= fun s =>
          SO.lift ((s.toEmptyResponse.mapErr ReadError.invalidMessage).mapErr TransferError.readError)) := by
  unfold Client.instruct Client.readResponseIfNotBroadcast
  congr 1
  funext _ s
  rw [if_neg (by exact hid)]
  simp only [SO.mapErr_apply, SO.bind_def]
  rcases Client.readStatusResponse 0#16 s with ⟨s₁, o⟩
  cases o <;> rfl

/-- **C85** The calls that are confirmed by an empty response. -/
theorem c85_write {w : WriteCall} {body : List Byte} (hw : w.Orders body) {b : Bus} (hb : b.WInv) (hN : 10 ≤ b.readBuffer.length)
    (h0 : b.baudRate ≠ 0) (hbaud : b.baudRate < 2 ^ 32) {id : Byte} (hid : id ≠ 0xFE#8) :
    WaitsAsNeeded b body 0 (w.run id b).1.serialPort.now := by
  obtain ⟨instr, params, n, enc, rfl, hp, h⟩ := hw.instruct
  rw [h, instruct_shape hid]
  exact waitsAsNeeded_of (exp := 0#16) hb hN h0 hbaud hp

/-- **C85** A call for all motors does not wait at all. -/
theorem c85_write_all {w : WriteCall} {body : List Byte} (hw : w.Orders body) {b : Bus} (hb : b.WInv)
    {wire : List Byte} (hs : StuffedForm body wire) (hok : SendSucceeds b (body.length - 1) wire) :
    (w.run 0xFE#8 b).1.serialPort.now = b.serialPort.now + b.serialPort.writeTime := by
  obtain ⟨instr, params, n, enc, rfl, hp, h⟩ := hw.instruct
  have hsend := c62_send (id := 0xFE#8) hb hp hs
  have hn : (instr :: params).length - 1 = n := by have := hp.length; simp [this]
  rw [hn] at hok
  rw [(sending_ok_iff b n wire).mpr hok] at hsend
  rw [h]
  unfold Client.instruct Client.readResponseIfNotBroadcast Client.writeInstruction
  rw [if_pos (by rfl), SO.bind_def, SO.mapErr_apply]
  rcases hm : Bus.writeInstruction 0xFE#8 instr n enc b with ⟨b₁, o⟩
  rw [hm] at hsend
  obtain rfl : o = .ok () := hsend
  obtain ⟨_, _, -, -, -, h3⟩ := afterSend hb hm
  exact h3.now

/-- **C85** So a call returns at the latest when the bytes that arrived by then are a complete packet, whatever comes before
it without a header. -/
theorem c85_no_later {b : Bus} {body wire : List Byte} {exp t D T : Nat} (h : WaitsAsNeeded b body exp t)
    (hw : StuffedForm body wire) (hs : SendSucceeds b (body.length - 1) wire) (hD : EndOfWait b exp D)
    (hT : b.serialPort.now + b.serialPort.writeTime ≤ T)
    {g inner rest : List Byte} {rid : Byte} (hg : ¬ header <:+: g) (hlen : inner.length + 2 < 2 ^ 16)
    (hfit : (frame rid inner).length ≤ b.readBuffer.length)
    (ha : arriving T (newInput b.serialPort) = g ++ frame rid inner ++ rest) : t ≤ T := by
  have := h wire D hw hs hD
  by_cases hTD : T ≤ D
  · have hset : Settled b.readBuffer.length [] (newInput b.serialPort) b.serialPort.tail T := by
      refine .inl ?_
      rw [List.nil_append, ha, List.append_assoc, parse_good_frame rid hg hlen hfit]
      simp
    cases this with
    | settled k1 k2 k3 k4 => exact k4 T hT hset
    | timeout k1 => exact absurd hset (k1 T hT hTD)
  · cases this with
    | settled k1 k2 k3 k4 => omega
    | timeout k1 => omega

/-- **C85** And it does not return before the end of the time for a response as long as neither a complete packet, nor the
header of one too large, nor a failure of the port is there. -/
theorem c85_no_earlier {b : Bus} {body wire : List Byte} {exp t D : Nat} (h : WaitsAsNeeded b body exp t)
    (hw : StuffedForm body wire) (hs : SendSucceeds b (body.length - 1) wire) (hD : EndOfWait b exp D) (htD : t < D) :
    parse b.readBuffer.length (arriving t (newInput b.serialPort)) ≠ .more ∨
      failsBy t (newInput b.serialPort) b.serialPort.tail := by
  have := h wire D hw hs hD
  cases this with
  | settled k1 k2 k3 k4 => exact k3
  | timeout k1 => omega

theorem newInput_subset (p : Port) : ∀ e ∈ newInput p, e ∈ p.rx := by
  intro e he
  unfold newInput at he
  split at he
  · exact he
  · exact (List.mem_filter.mp he).1

theorem not_early {α : Type} {b : Bus} {body : List Byte} {exp : Nat}
    {Means : Byte → Byte → List Byte → Outcome TransferError α → Prop} {r : Bus × Outcome TransferError α}
    (hM : ∀ rid e ps o, Means rid e ps o → o ≠ .err (.readError (.io .timedOut)))
    (h : WaitsAsNeeded b body exp r.1.serialPort.now) (hc : Comes b body exp Means r) (hq : NoFalseTimeout b.serialPort)
    (ht : r.2 = .err (.readError (.io .timedOut))) : EndOfWait b exp r.1.serialPort.now := by
  obtain ⟨wire, hw, hc⟩ := hc
  cases hs : sending b (body.length - 1) wire with
  | err w => rw [hs] at hc; dsimp only at hc; rw [hc] at ht; simp at ht
  | panic => rw [hs] at hc; dsimp only at hc; rw [hc] at ht; simp at ht
  | hang => rw [hs] at hc; exact hc.elim
  | ok u =>
    rw [hs] at hc
    dsimp only at hc
    by_cases h0 : b.baudRate = 0
    · rw [if_pos h0] at hc; rw [hc] at ht; simp at ht
    · rw [if_neg h0] at hc
      obtain ⟨D, v, left, h1, -, h2, -, h3⟩ := hc
      have hwhen := h wire D hw ((sending_ok_iff _ _ _).mp hs) h1
      have hv : v = .err (.io .timedOut) := by
        cases v with
        | ok x => exact absurd ht (hM _ _ _ _ h3)
        | err x =>
          dsimp only at h3
          rw [ht] at h3
          simp only [Outcome.err.injEq, TransferError.readError.injEq] at h3
          rw [h3]
        | panic => dsimp only at h3; rw [ht] at h3; simp at h3
        | hang => exact h3.elim
      subst hv
      have : parse b.readBuffer.length (arriving D (newInput b.serialPort)) = .more ∧
          obstacle D (newInput b.serialPort) b.serialPort.tail = .timedOut := by
        generalize hob : obstacle D (newInput b.serialPort) b.serialPort.tail = ob at h2
        cases h2 with
        | nothing _ hp => exact ⟨hp, rfl⟩
      rw [endsWhen_never (fun t ht => hq.1 t (newInput_subset _ _ ht)) hq.2 (by rw [List.nil_append]; exact this.1) this.2 hwhen]
      exact h1

/-- **C85** A call for one motor that returns a time-out does so exactly at the end of the time for the response. -/
theorem c85_read_bytes_not_early {b : Bus} (hb : b.WInv) (hN : 10 ≤ b.readBuffer.length) (h0 : b.baudRate ≠ 0)
    (hbaud : b.baudRate < 2 ^ 32) (id : Byte) (address count : U16) (hq : NoFalseTimeout b.serialPort)
    (ht : (Client.readBytes id address count b).2 = .err (.readError (.io .timedOut))) :
    EndOfWait b count.toNat (Client.readBytes id address count b).1.serialPort.now :=
  not_early (fun rid e ps o h => by rw [h]; unfold answer; repeat' split
                                    all_goals simp)
    (c85_read_bytes hb hN h0 hbaud id address count) (c62_read_bytes hb hbaud id address count) hq ht

/-- **C85** `read` -/
theorem c85_read_not_early {α : Type} {d : DataTy α} {valid : α → Prop} {f : α → List Byte} (hd : ImplData d valid f) {b : Bus}
    (hb : b.WInv) (hN : 10 ≤ b.readBuffer.length) (h0 : b.baudRate ≠ 0)
    (hbaud : b.baudRate < 2 ^ 32) (id : Byte) (address : U16) (hq : NoFalseTimeout b.serialPort)
    (ht : (Client.read d id address b).2 = .err (.readError (.io .timedOut))) :
    EndOfWait b d.size.toNat (Client.read d id address b).1.serialPort.now :=
  not_early (fun rid e ps o h => by obtain ⟨v, -, rfl⟩ := h; unfold answer; repeat' split
                                    all_goals simp)
    (c85_read d hb hN h0 hbaud id address) (c62_read hd hb hbaud id address) hq ht

/-- **C85** `ping` -/
theorem c85_ping_not_early {b : Bus} (hb : b.WInv) (hN : 10 ≤ b.readBuffer.length) (h0 : b.baudRate ≠ 0)
    (hbaud : b.baudRate < 2 ^ 32) (id : Byte) (hq : NoFalseTimeout b.serialPort)
    (ht : (Client.ping id b).2 = .err (.readError (.io .timedOut))) :
    EndOfWait b 3 (Client.ping id b).1.serialPort.now :=
  not_early (fun rid e ps o h => by obtain ⟨v, -, rfl⟩ := h; unfold answer; repeat' split
                                    all_goals simp)
    (c85_ping hb hN h0 hbaud id) (c62_ping hb hbaud id) hq ht

/-- **C85** The calls that are confirmed. -/
theorem c85_write_not_early {w : WriteCall} {body : List Byte} (hw : w.Orders body) {b : Bus} (hb : b.WInv)
    (hN : 10 ≤ b.readBuffer.length) (h0 : b.baudRate ≠ 0) (hbaud : b.baudRate < 2 ^ 32) {id : Byte} (hid : id ≠ 0xFE#8)
    (hq : NoFalseTimeout b.serialPort) (ht : (w.run id b).2 = .err (.readError (.io .timedOut))) :
    EndOfWait b 0 (w.run id b).1.serialPort.now :=
  not_early (fun rid e ps o h => by rw [h]; unfold emptyAnswer; repeat' split
                                    all_goals simp)
    (c85_write hw hb hN h0 hbaud hid) (c62_write hw hb hbaud hid) hq ht

/-! ## Scans, synchronous and bulk reads -/

/-- **C85** The wait for the next response to a scan: 34 ms and the time to transfer 253 answers, from the call of `next`. -/
theorem c85_scan_next {ε : Type} {b : Bus} (hb : b.RInv) (hN : 10 ≤ b.readBuffer.length) (h0 : b.baudRate ≠ 0)
    (hbaud : b.baudRate < 2 ^ 32) {ns : Nat} (hns : LeastTime 14 b.baudRate ns) :
    EndsWhen (Settled b.readBuffer.length b.pending b.serialPort.rx b.serialPort.tail) b.serialPort.now
      (b.serialPort.now + (ns * 253 + 34000000)) (Client.scanNext (ε := ε) b).1.serialPort.now := by
  rw [(scanNext_fst (ε := ε) h0 hbaud).1]
  have : scanWait b.baudRate = ns * 253 + 34000000 := by
    rw [leastTime_unique hns (leastTime_transferNs 14 h0)]; rfl
  rw [this]
  exact c85_packet hb hN (by omega)

/-- **C85** The end of a scan is not announced early. -/
theorem c85_scan_end {b : Bus} (hb : b.RInv) (h0 : b.baudRate ≠ 0)
    (hbaud : b.baudRate < 2 ^ 32) {ns : Nat} (hns : LeastTime 14 b.baudRate ns) (hq : NoFalseTimeout b.serialPort)
    (h : (Client.scanNext (ε := ReadError) b).2 = .ok none) :
    (Client.scanNext (ε := ReadError) b).1.serialPort.now = b.serialPort.now + (ns * 253 + 34000000) := by
  have hw : scanWait b.baudRate = ns * 253 + 34000000 := by
    rw [leastTime_unique hns (leastTime_transferNs 14 h0)]; rfl
  obtain ⟨-, hN, hp, ho⟩ := (c42_none_iff hb hbaud).mp h
  have hwhen := c85_packet (D := b.serialPort.now + scanWait b.baudRate) hb hN (by omega)
  rw [(scanNext_fst (ε := ReadError) h0 hbaud).1, ← hw]
  unfold stream readable at hp
  unfold readEnd at ho
  rw [if_neg (by omega)] at hp ho
  exact endsWhen_never hq.1 hq.2 hp ho hwhen

theorem syncNextBytes_client {ε : Type} {s : SyncIter} (h : s.index < s.motorIds.length) :
    (SyncIter.nextBytes (ε := ε) s).1.client = (Client.readStatusResponse s.count s.client).1 := by
  have hpop : SyncIter.popMotorId (ε := ε) s = ({ s with index := s.index + 1 }, .ok (some s.motorIds[s.index])) := by
    unfold SyncIter.popMotorId
    rw [List.getElem?_eq_getElem h]
  unfold SyncIter.nextBytes
  rw [SO.bind_ok hpop]
  dsimp only
  rw [SO.bind_def]
  unfold SO.attempt SyncIter.nextResponseBytes
  rw [SO.get_bind, SO.bind_def]
  unfold SyncIter.onClient
  rw [SO.zoom_apply]
  rcases Client.readStatusResponse s.count s.client with ⟨c, o⟩
  cases o with
  | ok r =>
    simp only [SO.bind_def, SO.lift_apply]
    cases SyncIter.checkResponse r s.motorIds[s.index] s.count with
    | ok u => simp only []; cases (decodeStatusPacketBytes r).mapErr ReadError.motorError <;> rfl
    | _ => rfl
  | _ => rfl

theorem syncNext_client {ε α : Type} (d : DataTy α) {s : SyncIter} (h : s.index < s.motorIds.length) :
    (SyncIter.next d (ε := ε) s).1.client = (Client.readStatusResponse d.size s.client).1 := by
  have hpop : SyncIter.popMotorId (ε := ε) s = ({ s with index := s.index + 1 }, .ok (some s.motorIds[s.index])) := by
    unfold SyncIter.popMotorId
    rw [List.getElem?_eq_getElem h]
  unfold SyncIter.next
  rw [SO.bind_ok hpop]
  dsimp only
  rw [SO.bind_def]
  unfold SO.attempt SyncIter.nextResponse
  rw [SO.bind_def]
  unfold SyncIter.onClient
  rw [SO.zoom_apply]
  rcases Client.readStatusResponse d.size s.client with ⟨c, o⟩
  cases o with
  | ok r =>
    simp only [SO.bind_def, SO.lift_apply]
    cases SyncIter.checkResponse r s.motorIds[s.index] d.size with
    | ok u => simp only []; cases decodeStatusPacket d r <;> rfl
    | _ => rfl
  | _ => rfl

theorem bulkNext_client {ε : Type} {s : BulkIter} (h : s.index < s.reads.length) :
    (BulkIter.next (ε := ε) s).1.client = (Client.readStatusResponse s.reads[s.index].count s.client).1 := by
  have hpop : BulkIter.pop (ε := ε) s = ({ s with index := s.index + 1 }, .ok (some s.reads[s.index])) := by
    unfold BulkIter.pop
    rw [List.getElem?_eq_getElem h]
  unfold BulkIter.next
  rw [SO.bind_ok hpop]
  dsimp only
  rw [SO.bind_def]
  unfold SO.attempt BulkIter.nextResponse
  rw [SO.bind_def]
  unfold BulkIter.onClient
  rw [SO.zoom_apply]
  dsimp only
  rcases Client.readStatusResponse s.reads[s.index].count s.client with ⟨c, o⟩
  cases o with
  | ok r =>
    simp only [SO.bind_def, SO.lift_apply]
    cases SyncIter.checkResponse r s.reads[s.index].motorId s.reads[s.index].count with
    | ok u => simp only []; cases (decodeStatusPacketBytes r).mapErr ReadError.motorError <;> rfl
    | _ => rfl
  | _ => rfl

/-- **C85** The wait for the next response to a synchronous read, of bytes -/
theorem c85_sync_next_bytes {ε : Type} {s : SyncIter} (h : s.index < s.motorIds.length) (hb : s.client.RInv)
    (hN : 10 ≤ s.client.readBuffer.length) (h0 : s.client.baudRate ≠ 0) (hbaud : s.client.baudRate < 2 ^ 32) {ns : Nat}
    (hns : LeastTime (11 + s.count.toNat) s.client.baudRate ns) :
    EndsWhen (Settled s.client.readBuffer.length s.client.pending s.client.serialPort.rx s.client.serialPort.tail)
      s.client.serialPort.now (s.client.serialPort.now + (ns + 34000000))
      (SyncIter.nextBytes (ε := ε) s).1.client.serialPort.now := by
  rw [syncNextBytes_client h]
  exact c85_response hb hN h0 hbaud _ hns

/-- **C85** The wait for the next response to a synchronous read, of a data type -/
theorem c85_sync_next {ε α : Type} (d : DataTy α) {s : SyncIter} (h : s.index < s.motorIds.length) (hb : s.client.RInv)
    (hN : 10 ≤ s.client.readBuffer.length) (h0 : s.client.baudRate ≠ 0) (hbaud : s.client.baudRate < 2 ^ 32) {ns : Nat}
    (hns : LeastTime (11 + d.size.toNat) s.client.baudRate ns) :
    EndsWhen (Settled s.client.readBuffer.length s.client.pending s.client.serialPort.rx s.client.serialPort.tail)
      s.client.serialPort.now (s.client.serialPort.now + (ns + 34000000))
      (SyncIter.next d (ε := ε) s).1.client.serialPort.now := by
  rw [syncNext_client d h]
  exact c85_response hb hN h0 hbaud _ hns

/-- **C85** The wait for the next response to a bulk read -/
theorem c85_bulk_next {ε : Type} {s : BulkIter} (h : s.index < s.reads.length) (hb : s.client.RInv)
    (hN : 10 ≤ s.client.readBuffer.length) (h0 : s.client.baudRate ≠ 0) (hbaud : s.client.baudRate < 2 ^ 32) {ns : Nat}
    (hns : LeastTime (11 + s.reads[s.index].count.toNat) s.client.baudRate ns) :
    EndsWhen (Settled s.client.readBuffer.length s.client.pending s.client.serialPort.rx s.client.serialPort.tail)
      s.client.serialPort.now (s.client.serialPort.now + (ns + 34000000))
      (BulkIter.next (ε := ε) s).1.client.serialPort.now := by
  rw [bulkNext_client h]
  exact c85_response hb hN h0 hbaud _ hns

theorem steps_not_early {σ ε α : Type} {next : SO σ ε (Option (Except ReadError (Response α)))} {client : σ → Bus} {s s' : σ}
    {wait count : Nat} {want : Option Byte} {Value : α → List Byte → Prop}
    (h : Steps next client s ((client s).serialPort.now + wait) want count Value some)
    (hw : 10 ≤ (client s).readBuffer.length → EndsWhen
      (Settled (client s).readBuffer.length (client s).pending (client s).serialPort.rx (client s).serialPort.tail)
      (client s).serialPort.now ((client s).serialPort.now + wait) (client (next s).1).serialPort.now)
    (hq : NoFalseTimeout (client s).serialPort) (hn : next s = (s', .ok (some (.error (.io .timedOut))))) :
    (client s').serialPort.now = (client s).serialPort.now + wait := by
  obtain ⟨s₁, v, left, h1, h2⟩ := h
  rw [hn] at hw h2
  have hv : v = .err (.io .timedOut) := by
    cases v with
    | ok x =>
      obtain ⟨rid, e, ps⟩ := x
      obtain ⟨x, h3, h4, -⟩ := h2
      simp only [Prod.mk.injEq, Outcome.ok.injEq, Option.some.injEq] at h3
      exact absurd h3.2.symm (judged_not_io h4 .timedOut)
    | err r =>
      have h3 := h2.1
      simp only [Prod.mk.injEq, Outcome.ok.injEq, Option.some.injEq, Except.error.injEq] at h3
      rw [h3.2]
    | panic => simp at h2
    | hang => exact h2.elim
  subst hv
  generalize ho : readEnd ((client s).serialPort.now + wait) (client s).serialPort = e at h1
  cases h1 with
  | nothing hN hp =>
    unfold readEnd at ho
    unfold stream readable at hp
    rw [if_neg (by omega)] at ho hp
    exact endsWhen_never hq.1 hq.2 hp ho (hw hN)

theorem responseWait_eq {count baud ns : Nat} (h0 : baud ≠ 0) (hns : LeastTime (11 + count) baud ns) :
    responseWait baud count = ns + 34000000 := by
  rw [leastTime_unique hns (leastTime_transferNs _ h0)]; rfl

/-- **C85** A time-out for a motor in a synchronous read comes exactly at the end of its time. -/
theorem c85_sync_bytes_not_early {ε : Type} {s s' : SyncIter} (hb : s.client.RInv) (h0 : s.client.baudRate ≠ 0)
    (hbaud : s.client.baudRate < 2 ^ 32) {ns : Nat} (hns : LeastTime (11 + s.count.toNat) s.client.baudRate ns)
    (hq : NoFalseTimeout s.client.serialPort)
    (hn : SyncIter.nextBytes (ε := ε) s = (s', .ok (some (.error (.io .timedOut))))) :
    s'.client.serialPort.now = s.client.serialPort.now + (ns + 34000000) := by
  by_cases h : s.index < s.motorIds.length
  · have hs := (c65_sync_bytes ε (List.getElem?_eq_getElem h) hb hbaud).2 h0
    rw [responseWait_eq h0 hns] at hs
    exact steps_not_early hs (fun hN => c85_sync_next_bytes h hb hN h0 hbaud hns) hq hn
  · rw [(c65_finished ε (DataTy.unsigned 1)).1 s (by omega)] at hn
    simp at hn

/-- **C85** The same for a data type. -/
theorem c85_sync_not_early {ε α : Type} {d : DataTy α} {valid : α → Prop} {f : α → List Byte} (hd : ImplData d valid f)
    {s s' : SyncIter} (hb : s.client.RInv) (h0 : s.client.baudRate ≠ 0)
    (hbaud : s.client.baudRate < 2 ^ 32) {ns : Nat} (hns : LeastTime (11 + d.size.toNat) s.client.baudRate ns)
    (hq : NoFalseTimeout s.client.serialPort)
    (hn : SyncIter.next d (ε := ε) s = (s', .ok (some (.error (.io .timedOut))))) :
    s'.client.serialPort.now = s.client.serialPort.now + (ns + 34000000) := by
  by_cases h : s.index < s.motorIds.length
  · have hs := (c65_sync_data hd ε (List.getElem?_eq_getElem h) hb hbaud).2 h0
    rw [responseWait_eq h0 hns] at hs
    exact steps_not_early hs (fun hN => c85_sync_next d h hb hN h0 hbaud hns) hq hn
  · rw [(c65_finished ε d).2.1 s (by omega)] at hn
    simp at hn

/-- **C85** The same in a bulk read. -/
theorem c85_bulk_not_early {ε : Type} {s s' : BulkIter} (h : s.index < s.reads.length) (hb : s.client.RInv)
    (h0 : s.client.baudRate ≠ 0) (hbaud : s.client.baudRate < 2 ^ 32) {ns : Nat}
    (hns : LeastTime (11 + s.reads[s.index].count.toNat) s.client.baudRate ns)
    (hq : NoFalseTimeout s.client.serialPort)
    (hn : BulkIter.next (ε := ε) s = (s', .ok (some (.error (.io .timedOut))))) :
    s'.client.serialPort.now = s.client.serialPort.now + (ns + 34000000) := by
  have hs := (c65_bulk ε (List.getElem?_eq_getElem h) hb hbaud).2 h0
  rw [responseWait_eq h0 hns] at hs
  exact steps_not_early hs (fun hN => c85_bulk_next h hb hN h0 hbaud hns) hq hn

/-! ## The device -/

theorem packet_no_later {D T : Nat} {b : Bus} (hb : b.RInv) (hT : b.serialPort.now ≤ T) (hTD : T ≤ D) {i : Item}
    (hi : i.Ok b.readBuffer.length) {rest : List Byte} (hs : stream T b = i.garbage ++ frame i.id i.wire ++ rest) :
    (Bus.readPacketDeadline D b).1.serialPort.now ≤ T := by
  have hN : 10 ≤ b.readBuffer.length := by
    have := List.length_pos_iff.mpr (unstuffs_ne_nil hi.body)
    have := hi.fits
    rw [Bus.frame_length] at this
    omega
  have hw := c85_packet (D := D) hb hN (by omega)
  have hset : Settled b.readBuffer.length b.pending b.serialPort.rx b.serialPort.tail T := by
    refine .inl ?_
    unfold stream readable at hs
    rw [if_neg (by omega)] at hs
    rw [hs, List.append_assoc, parse_good_frame i.id hi.garbage hi.length hi.fits]
    simp
  generalize (Bus.readPacketDeadline D b).1.serialPort.now = t at hw
  cases hw with
  | settled k1 k2 k3 k4 => exact k4 T hT hset
  | timeout k1 => exact absurd hset (k1 T hT hTD)

/-- **C85** A device that waits for an instruction has it as soon as it has arrived, whatever status packets of other devices
come before. -/
theorem c85_device_no_later {timeout T : Nat} {b : Bus} (hb : b.RInv) {statuses : List Item}
    (hst : Statuses b.readBuffer.length statuses) {i : Item} (hi : i.Ok b.readBuffer.length) (hn : i.instr ≠ 0x55#8)
    (hT : b.serialPort.now ≤ T) (hTD : T ≤ b.serialPort.now + timeout)
    {rest : List Byte} (hs : stream T b = itemBytes (statuses ++ [i]) ++ rest) :
    (Device.read timeout b).1.serialPort.now ≤ T := by
  have hread : (Device.read timeout b).1 = (Device.readRawInstructionTimeout timeout b).1 := by
    unfold Device.read
    rw [SO.bind_def]
    rcases Device.readRawInstructionTimeout timeout b with ⟨c, o⟩
    cases o <;> rfl
  rw [hread, readRaw_eq]
  clear hread
  have hf := work_fuel hb
  generalize b.readLen + b.serialPort.measure + 1 = fuel at hf
  generalize b.serialPort.now + timeout = D at hTD
  induction statuses generalizing b fuel with
  | nil =>
    have hs' : stream T b = i.garbage ++ frame i.id i.wire ++ rest := by rw [hs]; simp [itemBytes]
    obtain ⟨more, hm⟩ := stream_mono hT hTD
    have hlate := packet_no_later hb hT hTD hi hs'
    rcases e : Bus.readPacketDeadline D b with ⟨c, o⟩
    cases fuel with
    | zero => omega
    | succ fuel =>
      obtain ⟨pkt, rfl, hc, hr⟩ := c14_packet_after_garbage hb hi.garbage hi.length hi.fits hi.body
        (rest := rest ++ more) (by rw [← hm, hs']; simp) e
      rw [(readRawLoop_succ e).2.1 _ _ _ _ rfl hc hn]
      rw [e] at hlate
      exact hlate
  | cons j js ih =>
    have hj := hst j (by simp)
    have hs' : stream T b = j.garbage ++ frame j.id j.wire ++ (itemBytes (js ++ [i]) ++ rest) := by rw [hs]; simp [itemBytes]
    obtain ⟨more, hm⟩ := stream_mono hT hTD
    have hlate := packet_no_later hb hT hTD hj.1 hs'
    have hcons := read_consumes (D := D) (rest := itemBytes (js ++ [i]) ++ rest ++ more) hb (by omega) hj.1.garbage hj.1.length hj.1.fits
      hj.1.body (by rw [← hm, hs']; simp) hlate
    rcases e : Bus.readPacketDeadline D b with ⟨c, o⟩
    cases fuel with
    | zero => omega
    | succ fuel =>
      obtain ⟨pkt, rfl, hc, hr⟩ := c14_packet_after_garbage hb hj.1.garbage hj.1.length hj.1.fits hj.1.body
        (rest := itemBytes (js ++ [i]) ++ rest ++ more) (by rw [← hm, hs']; simp) e
      have hl := read_like D hb
      rw [e] at hl hlate hcons
      dsimp only at hl hlate hcons
      have hw := read_ok_work hb e
      rw [hj.2] at hc
      rw [(readRawLoop_succ e).1 _ _ _ rfl hc]
      rw [hs', List.append_cancel_left_eq] at hcons
      exact ih hl.1 (fun k hk => by rw [hl.2]; exact hst k (by simp [hk])) (by rw [hl.2]; exact hi) hlate hcons.symm fuel (by omega)

/-- **C85** And no time-out comes early at a device. -/
theorem c85_device_not_early {timeout : Nat} {b c : Bus} (hb : b.RInv) (hq : NoFalseTimeout b.serialPort)
    (h : Device.readRawInstructionTimeout timeout b = (c, .err (.io .timedOut))) :
    c.serialPort.now = b.serialPort.now + timeout := by
  rw [readRaw_eq] at h
  have hD : b.serialPort.now ≤ b.serialPort.now + timeout := by omega
  generalize b.readLen + b.serialPort.measure + 1 = fuel at h
  generalize b.serialPort.now + timeout = D at h hD
  induction fuel generalizing b with
  | zero => rw [Device.readRawLoop] at h; simp [SO.hang] at h
  | succ fuel ih =>
    have hwait := waited_read hb hD
    have hk := Bus.read_kept kept_noFalseTimeout D hb hq
    have hne := c85_packet_not_early hb hD hq
    rcases e : Bus.readPacketDeadline D b with ⟨c₁, o⟩
    rw [e] at hwait hk hne
    rw [Device.readRawLoop, SO.bind_def, e] at h
    cases o with
    | ok pkt =>
      obtain ⟨g, id, wire, instr, params, rest, -, -, -, -, -, h6, -⟩ := c16_returned_is_valid hb e
      dsimp only at h
      rw [asInstruction_carries h6, SO.lift_ok_bind] at h
      by_cases hi : instr = 0x55#8
      · rw [if_pos hi] at h
        exact ih hwait.rinv hk h hwait.deadline
      · rw [if_neg hi] at h
        simp [pure] at h
    | err r =>
      simp only [Prod.mk.injEq, Outcome.err.injEq] at h
      obtain ⟨rfl, rfl⟩ := h
      exact hne rfl
    | panic => simp at h
    | hang => simp at h

/-! ## A silent line -/

/-- Nothing will ever arrive, and what has arrived is no complete packet. -/
structure SilentLine (b : Bus) : Prop where
  rinv : b.RInv
  room : 10 ≤ b.readBuffer.length
  none : parse b.readBuffer.length b.pending = .more
  rx : b.serialPort.rx = []
  tail : b.serialPort.tail = .silent

theorem kept_silent : Port.Kept fun p => p.rx = [] ∧ p.tail = .silent := by
  rintro cap D p p' o h ⟨h1, h2⟩
  unfold Port.read at h
  dsimp only at h
  split at h
  · cases h; exact ⟨h1, h2⟩
  · rw [h1, h2] at h
    cases h
    exact ⟨rfl, rfl⟩

theorem silent_read {b : Bus} (h : SilentLine b) {D : Nat} (hD : b.serialPort.now ≤ D) :
    ∃ c, Bus.readPacketDeadline D b = (c, .err (.io .timedOut)) ∧ SilentLine c ∧ Bus.Like b c ∧ c.serialPort.now = D := by
  have hst : b.pending ++ readable D b.serialPort = b.pending := by
    unfold readable
    rw [if_neg (by omega), h.rx]
    simp [arriving]
  have he : readEnd D b.serialPort = .timedOut := by
    unfold readEnd
    rw [if_neg (by omega), h.rx, h.tail]
    rfl
  have hk := Bus.read_kept kept_silent D h.rinv ⟨h.rx, h.tail⟩
  have hq : NoFalseTimeout b.serialPort := by
    constructor
    · rw [h.rx]; simp
    · rw [h.tail]; simp
  have hne := c85_packet_not_early h.rinv hD hq
  obtain ⟨c, o, h1, h2, h3, -, h4⟩ := Bus.readPacketDeadline_stream D h.rinv h.room
  rw [hst, h.none] at h4
  obtain ⟨rfl, h5, -⟩ := h4
  rw [he] at h1
  rw [h1] at hk hne
  refine ⟨c, h1, ⟨h3, h2.readSize ▸ h.room, ?_, hk.1, hk.2⟩, h2, hne rfl⟩
  rw [h5, h2.readSize, parse_skip]
  exact h.none

theorem silent_response {b : Bus} (h : SilentLine b) (h0 : b.baudRate ≠ 0) (hbaud : b.baudRate < 2 ^ 32) (exp : U16) {ns : Nat}
    (hns : LeastTime (11 + exp.toNat) b.baudRate ns) :
    ∃ c, Client.readStatusResponse exp b = (c, .err (.io .timedOut)) ∧ SilentLine c ∧ Bus.Like b c ∧
      c.serialPort.now = b.serialPort.now + (ns + 34000000) := by
  obtain ⟨ns', h1, h2⟩ := readStatusResponse_eq h0 hbaud exp
  obtain ⟨c, h3, h4⟩ := silent_read h (D := b.serialPort.now + (ns + 34000000)) (by omega)
  refine ⟨c, ?_, h4⟩
  rw [h2, leastTime_unique h1 hns]
  unfold Client.readStatusResponseTimeout
  rw [SO.get_bind]
  dsimp only [Port.makeDeadline]
  rw [SO.bind_err h3]

theorem syncNextBytes_err {ε : Type} {s : SyncIter} (h : s.index < s.motorIds.length) {c : Bus} {e : ReadError}
    (hc : Client.readStatusResponse s.count s.client = (c, .err e)) :
    SyncIter.nextBytes (ε := ε) s = ({ s with client := c, index := s.index + 1 }, .ok (some (.error e))) := by
  have hpop : SyncIter.popMotorId (ε := ε) s = ({ s with index := s.index + 1 }, .ok (some s.motorIds[s.index])) := by
    unfold SyncIter.popMotorId
    rw [List.getElem?_eq_getElem h]
  unfold SyncIter.nextBytes
  rw [SO.bind_ok hpop]
  dsimp only
  rw [SO.bind_def]
  unfold SO.attempt SyncIter.nextResponseBytes
  rw [SO.get_bind, SO.bind_def]
  unfold SyncIter.onClient
  rw [SO.zoom_apply]
  dsimp only
  rw [hc]
  rfl

theorem syncNext_err {ε α : Type} (d : DataTy α) {s : SyncIter} (h : s.index < s.motorIds.length) {c : Bus} {e : ReadError}
    (hc : Client.readStatusResponse d.size s.client = (c, .err e)) :
    SyncIter.next d (ε := ε) s = ({ s with client := c, index := s.index + 1 }, .ok (some (.error e))) := by
  have hpop : SyncIter.popMotorId (ε := ε) s = ({ s with index := s.index + 1 }, .ok (some s.motorIds[s.index])) := by
    unfold SyncIter.popMotorId
    rw [List.getElem?_eq_getElem h]
  unfold SyncIter.next
  rw [SO.bind_ok hpop]
  dsimp only
  rw [SO.bind_def]
  unfold SO.attempt SyncIter.nextResponse
  rw [SO.bind_def]
  unfold SyncIter.onClient
  rw [SO.zoom_apply]
  dsimp only
  rw [hc]
  rfl

theorem bulkNext_err {ε : Type} {s : BulkIter} (h : s.index < s.reads.length) {c : Bus} {e : ReadError}
    (hc : Client.readStatusResponse s.reads[s.index].count s.client = (c, .err e)) :
    BulkIter.next (ε := ε) s = ({ s with client := c, index := s.index + 1 }, .ok (some (.error e))) := by
  have hpop : BulkIter.pop (ε := ε) s = ({ s with index := s.index + 1 }, .ok (some s.reads[s.index])) := by
    unfold BulkIter.pop
    rw [List.getElem?_eq_getElem h]
  unfold BulkIter.next
  rw [SO.bind_ok hpop]
  dsimp only
  rw [SO.bind_def]
  unfold SO.attempt BulkIter.nextResponse
  rw [SO.bind_def]
  unfold BulkIter.onClient
  rw [SO.zoom_apply]
  dsimp only
  rw [hc]
  rfl

/-- **C85** On a silent line each of the motors in a synchronous read is given exactly its time, one after the other. -/
theorem c85_sync_bytes_silent {ε : Type} (k : Nat) {s : SyncIter} (hk : s.index + k ≤ s.motorIds.length) (hl : SilentLine s.client)
    (h0 : s.client.baudRate ≠ 0) (hbaud : s.client.baudRate < 2 ^ 32) {ns : Nat}
    (hns : LeastTime (11 + s.count.toNat) s.client.baudRate ns) :
    ∃ s', callTimes (SyncIter.nextBytes (ε := ε)) k s = (s', .ok (List.replicate k (some (.error (.io .timedOut))))) ∧
      s'.client.serialPort.now = s.client.serialPort.now + k * (ns + 34000000) := by
  induction k generalizing s with
  | zero => exact ⟨s, rfl, by simp⟩
  | succ k ih =>
    obtain ⟨c, h1, h2, h3, h4⟩ := silent_response hl h0 hbaud s.count hns
    have hn := syncNextBytes_err (ε := ε) (by omega) h1
    obtain ⟨s', h5, h6⟩ := ih (s := { s with client := c, index := s.index + 1 }) (by dsimp only; omega) h2
      (by dsimp only; rw [h3.baudRate]; exact h0) (by dsimp only; rw [h3.baudRate]; exact hbaud) (by dsimp only; rw [h3.baudRate]; exact hns)
    refine ⟨s', ?_, ?_⟩
    · rw [callTimes_succ_ok hn, h5]
      rfl
    · rw [h6]
      dsimp only
      rw [h4, Nat.succ_mul]
      omega

/-- **C85** The same for a data type. -/
theorem c85_sync_silent {ε α : Type} (d : DataTy α) (k : Nat) {s : SyncIter} (hk : s.index + k ≤ s.motorIds.length)
    (hl : SilentLine s.client) (h0 : s.client.baudRate ≠ 0) (hbaud : s.client.baudRate < 2 ^ 32) {ns : Nat}
    (hns : LeastTime (11 + d.size.toNat) s.client.baudRate ns) :
    ∃ s', callTimes (SyncIter.next d (ε := ε)) k s = (s', .ok (List.replicate k (some (.error (.io .timedOut))))) ∧
      s'.client.serialPort.now = s.client.serialPort.now + k * (ns + 34000000) := by
  induction k generalizing s with
  | zero => exact ⟨s, rfl, by simp⟩
  | succ k ih =>
    obtain ⟨c, h1, h2, h3, h4⟩ := silent_response hl h0 hbaud d.size hns
    have hn := syncNext_err (ε := ε) d (by omega) h1
    obtain ⟨s', h5, h6⟩ := ih (s := { s with client := c, index := s.index + 1 }) (by dsimp only; omega) h2
      (by dsimp only; rw [h3.baudRate]; exact h0) (by dsimp only; rw [h3.baudRate]; exact hbaud) (by dsimp only; rw [h3.baudRate]; exact hns)
    refine ⟨s', ?_, ?_⟩
    · rw [callTimes_succ_ok hn, h5]
      rfl
    · rw [h6]
      dsimp only
      rw [h4, Nat.succ_mul]
      omega

/-- **C85** In a bulk read the times of the motors add up. -/
theorem c85_bulk_silent {ε : Type} {s : BulkIter} (hl : SilentLine s.client)
    (h0 : s.client.baudRate ≠ 0) (hbaud : s.client.baudRate < 2 ^ 32) (times : List Nat)
    (hns : Pairwise₂ (fun (r : BulkReadData) ns => LeastTime (11 + r.count.toNat) s.client.baudRate ns)
      (s.reads.drop s.index) times) :
    ∃ s', callTimes (BulkIter.next (ε := ε)) times.length s = (s', .ok (List.replicate times.length (some (.error (.io .timedOut))))) ∧
      s'.client.serialPort.now = s.client.serialPort.now + (times.map fun ns => ns + 34000000).sum := by
  induction times generalizing s with
  | nil => exact ⟨s, rfl, by simp⟩
  | cons ns times ih =>
    have hi : s.index < s.reads.length := by
      by_cases h : s.index < s.reads.length
      · exact h
      · rw [List.drop_eq_nil_of_le (by omega)] at hns
        cases hns
    rw [List.drop_eq_getElem_cons hi] at hns
    cases hns with
    | cons k1 k2 =>
      obtain ⟨c, h1, h2, h3, h4⟩ := silent_response hl h0 hbaud _ k1
      have hn := bulkNext_err (ε := ε) hi h1
      obtain ⟨s', h5, h6⟩ := ih (s := { s with client := c, index := s.index + 1 }) h2
        (by dsimp only; rw [h3.baudRate]; exact h0) (by dsimp only; rw [h3.baudRate]; exact hbaud) (by dsimp only; rw [h3.baudRate]; exact k2)
      refine ⟨s', ?_, ?_⟩
      · rw [List.length_cons, callTimes_succ_ok hn, h5]
        rfl
      · rw [h6]
        dsimp only
        rw [h4, List.map_cons, List.sum_cons]
        omega

theorem silent_scanNext {ε : Type} {b : Bus} (h : SilentLine b) (h0 : b.baudRate ≠ 0) (hbaud : b.baudRate < 2 ^ 32) {ns : Nat}
    (hns : LeastTime 14 b.baudRate ns) :
    ∃ c, Client.scanNext (ε := ε) b = (c, .ok none) ∧ SilentLine c ∧ Bus.Like b c ∧
      c.serialPort.now = b.serialPort.now + (ns * 253 + 34000000) := by
  have hw : scanWait b.baudRate = ns * 253 + 34000000 := by
    rw [leastTime_unique hns (leastTime_transferNs 14 h0)]; rfl
  obtain ⟨c, h3, h4⟩ := silent_read h (D := b.serialPort.now + (ns * 253 + 34000000)) (by omega)
  refine ⟨c, ?_, h4⟩
  have e : Client.scanNextResponse b = (c, .err (.io .timedOut)) := by
    rw [scanNextResponse_eq h0 hbaud, hw]
    unfold awaitStatus Client.readStatusResponseTimeout
    rw [SO.bind_def, SO.get_bind]
    dsimp only [Port.makeDeadline]
    rw [SO.bind_err h3]
  unfold Client.scanNext
  rw [SO.bind_ok (attempt_ofExcept (x := .error (.io .timedOut)) e)]
  rfl

/-- **C85** On a silent line every call of `next` of a scan waits the whole time again. -/
theorem c85_scan_silent {ε : Type} (k : Nat) {b : Bus} (hl : SilentLine b) (h0 : b.baudRate ≠ 0) (hbaud : b.baudRate < 2 ^ 32)
    {ns : Nat} (hns : LeastTime 14 b.baudRate ns) :
    ∃ c, callTimes (Client.scanNext (ε := ε)) k b = (c, .ok (List.replicate k none)) ∧ SilentLine c ∧ Bus.Like b c ∧
      c.serialPort.now = b.serialPort.now + k * (ns * 253 + 34000000) := by
  induction k generalizing b with
  | zero => exact ⟨b, rfl, hl, .refl b, by simp⟩
  | succ k ih =>
    obtain ⟨c, h1, h2, h3, h4⟩ := silent_scanNext (ε := ε) hl h0 hbaud hns
    obtain ⟨c', h5, h6, h7, h8⟩ := ih h2 (by rw [h3.baudRate]; exact h0) (by rw [h3.baudRate]; exact hbaud) (by rw [h3.baudRate]; exact hns)
    refine ⟨c', ?_, h6, h3.trans h7, ?_⟩
    · rw [callTimes_succ_ok h1, h5]
      rfl
    · rw [h8, h4, Nat.succ_mul]
      omega

/-- **C85** A scan that ends is waited for once more when it is dropped: a loop over a scan of a silent line takes exactly twice
the time of one wait. -/
theorem c85_scan_loop_silent {ε : Type} {b : Bus} (hl : SilentLine b) (h0 : b.baudRate ≠ 0) (hbaud : b.baudRate < 2 ^ 32)
    {ns : Nat} (hns : LeastTime 14 b.baudRate ns) (fuel : Nat) :
    ∃ c c', Client.scanNext (ε := ε) b = (c, .ok none) ∧ Client.scanDrop (ε := ε) (fuel + 1) c = (c', .ok ()) ∧
      c'.serialPort.now = b.serialPort.now + 2 * (ns * 253 + 34000000) := by
  obtain ⟨c, h1, h2, h3, h4⟩ := silent_scanNext (ε := ε) hl h0 hbaud hns
  obtain ⟨c', k1, k2, k3, k4⟩ := silent_scanNext (ε := ε) h2 (by rw [h3.baudRate]; exact h0) (by rw [h3.baudRate]; exact hbaud)
    (by rw [h3.baudRate]; exact hns)
  refine ⟨c, c', h1, ?_, by rw [k4, h4]; omega⟩
  rw [Client.scanDrop, SO.bind_ok k1]
  rfl

/-! ## Cases -/

/-- A status packet of another device, then a ping. -/
def pingAfterStatus : Bus := busWithChunks [(3, frame 7#8 [0x55#8, 0x00#8]), (9, frame 2#8 [0x01#8])]

example : (Device.read 50 pingAfterStatus).1.serialPort.now = 9 := by decide +kernel

example := c85_device_no_later (timeout := 50) (T := 9) (b := pingAfterStatus) ⟨by decide, by decide⟩
  (statuses := [⟨[], 7#8, [0x55#8, 0x00#8], 0x55#8, [0x00#8]⟩])
  (by intro i hi; obtain rfl := List.mem_singleton.mp hi
      exact ⟨⟨by decide, by decide, by decide, (unstuffs_iff _ _).mpr (by decide)⟩, rfl⟩)
  (i := ⟨[], 2#8, [0x01#8], 0x01#8, []⟩) ⟨by decide, by decide, by decide, (unstuffs_iff _ _).mpr (by decide)⟩ (by decide) (by decide) (by decide)
  (rest := []) (by decide +kernel)

theorem from_outcome {α β : Type} {x : α × β} {o : β} (h : x.2 = o) : x = (x.1, o) := by rw [← h]

/-- The answer to a ping comes in two pieces at 5 ms and at 7 ms; the call returns at 7 ms, not after 36 ms. -/
def inPieces : Bus := busWithChunks [(5000000, (frame 2#8 [0x55#8, 0x00#8, 0x06#8, 0x04#8, 0x26#8]).take 6),
  (7000000, (frame 2#8 [0x55#8, 0x00#8, 0x06#8, 0x04#8, 0x26#8]).drop 6)]

example : (Client.ping 2#8 inPieces).1.serialPort.now = 7000000 ∧
    (Client.ping 2#8 inPieces).2 = .ok ⟨2#8, false, ⟨0x0406#16, 0x26#8⟩⟩ := by decide +kernel

/-- With the first piece only, the call returns at 36.4 ms. -/
def onePiece : Bus := busWithChunks [(5000000, (frame 2#8 [0x55#8, 0x00#8, 0x06#8, 0x04#8, 0x26#8]).take 6)]

example : (Client.ping 2#8 onePiece).1.serialPort.now = 36430556 ∧
    (Client.ping 2#8 onePiece).2 = .err (.readError (.io .timedOut)) := by decide +kernel

theorem inPieces_wInv : inPieces.WInv := ⟨by decide, by decide⟩
theorem onePiece_wInv : onePiece.WInv := ⟨by decide, by decide⟩

theorem onePiece_noFalseTimeout : NoFalseTimeout onePiece.serialPort :=
  ⟨by simp [onePiece, busWithChunks, quietPort], by simp [onePiece, busWithChunks, quietPort]⟩

theorem inPieces_sends : SendSucceeds inPieces (Request.ping.body.length - 1) [0x01#8] :=
  ⟨by decide, by decide, by decide, fun _ h => (nomatch h), fun _ _ h => (nomatch h)⟩

theorem ping_form : StuffedForm Request.ping.body [0x01#8] := stuffedForm_iff.mpr (by decide)

theorem inPieces_wait : EndOfWait inPieces 3 36430556 := ⟨_, leastTime_57600 _, by decide⟩

example := c85_packet (D := 9000000) (b := inPieces) ⟨by decide, by decide⟩ (by decide) (by decide)

example := c85_packet_not_early (D := 9000000) (b := onePiece) ⟨by decide, by decide⟩ (by decide) onePiece_noFalseTimeout
  (by decide +kernel)

theorem onePiece_device : (Device.readRawInstructionTimeout 9000000 onePiece).2 = .err (.io .timedOut) := by decide +kernel

example := c85_device_not_early (b := onePiece) ⟨by decide, by decide⟩ onePiece_noFalseTimeout (from_outcome onePiece_device)

example := c85_response (b := inPieces) ⟨by decide, by decide⟩ (by decide) (by decide) (by decide) 3#16 (leastTime_57600 _)

example := c85_read_bytes inPieces_wInv (by decide) (by decide) (by decide) 2#8 132#16 4#16

example := c85_read (DataTy.unsigned 2) inPieces_wInv (by decide) (by decide) (by decide) 2#8 132#16

example := c85_ping inPieces_wInv (by decide) (by decide) (by decide) 2#8

example := c85_write (.writeBytes 116#16 [1#8, 2#8]) inPieces_wInv (by decide) (by decide) (by decide) (id := 2#8) (by decide)

example := c85_write_all .reboot inPieces_wInv (wire := [0x08#8]) (stuffedForm_iff.mpr (by decide))
  ⟨by decide, by decide, by decide, fun _ h => (nomatch h), fun _ _ h => (nomatch h)⟩

/-- The whole packet is there at 7 ms. -/
example := c85_no_later (c85_ping inPieces_wInv (by decide) (by decide) (by decide) 2#8) ping_form inPieces_sends inPieces_wait
  (T := 7000000) (by decide) (g := []) (inner := [0x55#8, 0x00#8, 0x06#8, 0x04#8, 0x26#8]) (rest := []) (rid := 2#8) (by decide)
  (by decide) (by decide) (by decide +kernel)

example := c85_no_earlier (c85_ping inPieces_wInv (by decide) (by decide) (by decide) 2#8) ping_form inPieces_sends inPieces_wait
  (by decide +kernel)

example := c85_read_bytes_not_early onePiece_wInv (by decide) (by decide) (by decide) 2#8 132#16 4#16 onePiece_noFalseTimeout
  (by decide +kernel)

example := c85_read_not_early (implUnsigned (n := 4) (by decide)) onePiece_wInv (by decide) (by decide) (by decide) 2#8 132#16
  onePiece_noFalseTimeout (by decide +kernel)

example := c85_ping_not_early onePiece_wInv (by decide) (by decide) (by decide) 2#8 onePiece_noFalseTimeout (by decide +kernel)

example := c85_write_not_early .reboot onePiece_wInv (by decide) (by decide) (by decide) (id := 2#8) (by decide) onePiece_noFalseTimeout
  (by decide +kernel)

example := c85_scan_next (ε := Empty) (b := inPieces) ⟨by decide, by decide⟩ (by decide) (by decide) (by decide) (leastTime_57600 _)

example := c85_scan_end (b := onePiece) ⟨by decide, by decide⟩ (by decide) (by decide) (leastTime_57600 _) onePiece_noFalseTimeout
  (by decide +kernel)

example := c85_sync_next_bytes (ε := Empty) (s := ⟨inPieces, 3#16, [1#8, 2#8], 1⟩) (by decide) ⟨by decide, by decide⟩ (by decide)
  (by decide) (by decide) (leastTime_57600 _)

example := c85_sync_next (ε := Empty) (DataTy.unsigned 3) (s := ⟨inPieces, 3#16, [1#8, 2#8], 1⟩) (by decide) ⟨by decide, by decide⟩
  (by decide) (by decide) (by decide) (leastTime_57600 _)

theorem bulkPieces_time : LeastTime (11 + ([⟨1#8, 7#16, 2#16⟩, ⟨2#8, 9#16, 3#16⟩] : List BulkReadData)[1].count.toNat) 57600 2430556 :=
  leastTime_57600 14

example := c85_bulk_next (ε := Empty) (s := ⟨inPieces, [⟨1#8, 7#16, 2#16⟩, ⟨2#8, 9#16, 3#16⟩], 1⟩) (by decide) ⟨by decide, by decide⟩
  (by decide) (by decide) (by decide) bulkPieces_time

theorem onePiece_next : (SyncIter.nextBytes (ε := Empty) ⟨onePiece, 3#16, [1#8, 2#8], 1⟩).2 = .ok (some (.error (.io .timedOut))) := by
  decide +kernel

example := c85_sync_bytes_not_early (s := ⟨onePiece, 3#16, [1#8, 2#8], 1⟩) ⟨by decide, by decide⟩ (by decide) (by decide)
  (leastTime_57600 _) onePiece_noFalseTimeout (from_outcome onePiece_next)

theorem onePiece_nextData : (SyncIter.next (DataTy.unsigned 3) (ε := Empty) ⟨onePiece, 3#16, [1#8, 2#8], 1⟩).2 =
    .ok (some (.error (.io .timedOut))) := by decide +kernel

example := c85_sync_not_early (implUnsigned (n := 3) (by decide)) (s := ⟨onePiece, 3#16, [1#8, 2#8], 1⟩) ⟨by decide, by decide⟩
  (by decide) (by decide) (leastTime_57600 _) onePiece_noFalseTimeout (from_outcome onePiece_nextData)

theorem onePiece_nextBulk : (BulkIter.next (ε := Empty) ⟨onePiece, [⟨1#8, 7#16, 2#16⟩, ⟨2#8, 9#16, 3#16⟩], 1⟩).2 =
    .ok (some (.error (.io .timedOut))) := by decide +kernel

example := c85_bulk_not_early (s := ⟨onePiece, [⟨1#8, 7#16, 2#16⟩, ⟨2#8, 9#16, 3#16⟩], 1⟩) (by decide) ⟨by decide, by decide⟩
  (by decide) (by decide) bulkPieces_time onePiece_noFalseTimeout (from_outcome onePiece_nextBulk)

theorem quiet_silent : SilentLine (quietBus true 40) := ⟨⟨by decide, by decide⟩, by decide, by decide, rfl, rfl⟩

example := c85_sync_bytes_silent (ε := Empty) 3 (s := ⟨quietBus true 40, 3#16, [1#8, 2#8, 3#8, 4#8], 1⟩) (by decide) quiet_silent (by decide)
  (by decide) (leastTime_57600 _)

example := c85_sync_silent (ε := Empty) (DataTy.unsigned 4) 3 (s := ⟨quietBus true 40, 4#16, [1#8, 2#8, 3#8, 4#8], 1⟩) (by decide)
  quiet_silent (by decide) (by decide) (leastTime_57600 _)

example := c85_bulk_silent (ε := Empty) (s := ⟨quietBus true 40, [⟨1#8, 7#16, 2#16⟩, ⟨2#8, 9#16, 5#16⟩], 0⟩) quiet_silent (by decide)
  (by decide) _ (.cons (leastTime_57600 _) (.cons (leastTime_57600 _) .nil))

example := c85_scan_silent (ε := Empty) 2 quiet_silent (by decide) (by decide) (leastTime_57600 _)

/-- A loop over a scan of a silent line at 57600 baud takes 1.298 s instead of 0.649 s. -/
example := c85_scan_loop_silent (ε := Empty) quiet_silent (by decide) (by decide) (leastTime_57600 _) 0

end Dxl.Props
