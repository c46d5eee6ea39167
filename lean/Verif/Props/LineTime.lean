import Verif.Lemmas.Wire

/-! # C67: enough time is allowed for an answer

The claim is about time on the line: a byte takes ten bits, a device needs some time before it answers, and the port hands the
bytes over with some latency. The client waits 34 ms and the time that the answer takes, from the moment when `write_all`
returns. -/

namespace Dxl.Props
open Spec Spec.Wire

/-- A device sends this packet from `start` on: a status packet that the read buffer has room for. The port hands over
the bytes with a latency of at most `latency`, each when it likes, and anything may follow. -/
structure LineAnswer (b : Bus) (latency start : Nat) (id error : Byte) (ps wire : List Byte) : Prop where
  comes : ∃ events rest, newInput b.serialPort = events ++ rest ∧ Received events (due b.baudRate latency start 0 (frame id wire))
  body : Unstuffs wire (0x55#8 :: error :: ps)
  length : wire.length + 2 < 2 ^ 16
  fits : (frame id wire).length ≤ b.readBuffer.length

/-- The last byte of a packet that is sent now is on the line: `write_all` may return before that, but the bytes take their time. -/
def transmitted (b : Bus) (packet : List Byte) : Nat :=
  b.serialPort.now + max b.serialPort.writeTime (duration b.baudRate packet.length)

/-! ## For every call -/

theorem LineAnswer.room {b : Bus} {latency start : Nat} {id error : Byte} {ps wire : List Byte}
    (h : LineAnswer b latency start id error ps wire) : 11 ≤ b.readBuffer.length := by
  have h1 := unstuffs_length h.body
  have h2 := h.fits
  rw [Bus.frame_length] at h2
  simp only [List.length_cons] at h1
  omega

/-- What the call gets, when it waits until `D`. -/
theorem comes_sent {α : Type} {b : Bus} {body wire : List Byte} {exp : Nat}
    {Means : Byte → Byte → List Byte → Outcome TransferError α → Prop} {r : Bus × Outcome TransferError α}
    (h : Comes b body exp Means r) (hw : StuffedForm body wire) (hs : SendSucceeds b (body.length - 1) wire) (h0 : b.baudRate ≠ 0) :
    ∃ D v left, D = b.serialPort.now + b.serialPort.writeTime + (duration b.baudRate (11 + exp) + 34000000) ∧
      Verdict b.readBuffer.length (arriving D (newInput b.serialPort)) (obstacle D (newInput b.serialPort) b.serialPort.tail) v left ∧
        match v with
        | .err x => r.2 = .err (.readError x)
        | .panic => r.2 = .panic
        | .hang => False
        | .ok (rid, error, ps) => Means rid error ps r.2 := by
  obtain ⟨wire', hw', h⟩ := h
  obtain rfl := stuffedForm_unique hw hw'
  rw [(sending_ok_iff _ _ _).mpr hs] at h
  dsimp only at h
  rw [if_neg h0] at h
  obtain ⟨D, v, left, ⟨ns, k1, k2⟩, -, h2, -, h3⟩ := h
  rw [leastTime_unique k1 (leastTime_duration (11 + exp) h0)] at k2
  exact ⟨D, v, left, k2, h2, h3⟩

/-- The answer that comes in time. -/
theorem comes_in_time {α : Type} {b : Bus} {body req : List Byte} {exp : Nat}
    {Means : Byte → Byte → List Byte → Outcome TransferError α → Prop} {r : Bus × Outcome TransferError α}
    (h : Comes b body exp Means r) (hw : StuffedForm body req) (hs : SendSucceeds b (body.length - 1) req) (h0 : b.baudRate ≠ 0)
    {latency start : Nat} {id error : Byte} {ps wire : List Byte} (ha : LineAnswer b latency start id error ps wire)
    (ht : start + duration b.baudRate (frame id wire).length + latency ≤
      b.serialPort.now + b.serialPort.writeTime + (duration b.baudRate (11 + exp) + 34000000)) :
    (error.toNat % 128 ≠ 0 → r.2 = .err (.readError (.motorError ⟨error⟩))) ∧ (error.toNat % 128 = 0 → Means id error ps r.2) := by
  obtain ⟨D, v, left, hD, hv, hr⟩ := comes_sent h hw hs h0
  obtain ⟨events, rest, h1, h2⟩ := ha.comes
  have hp : frame id wire <+: arriving D (newInput b.serialPort) := by
    have := received_prefix (D := D) h2 rest _ [] (List.append_nil _).symm fun d hd => by
      have := due_latest _ _ _ hd
      rw [Nat.zero_add] at this
      omega
    rw [due_bytes] at this
    rw [h1]
    exact this
  obtain ⟨more, hm⟩ := hp
  have hparse := parse_good_frame (cap := b.readBuffer.length) (g := []) (rest := more) id (by decide) ha.length ha.fits
  rw [List.nil_append, hm] at hparse
  have hN : 10 ≤ b.readBuffer.length := by have := ha.room; omega
  refine ⟨fun he => ?_, fun he => ?_⟩
  · rw [(c62_verdict_unique hv (.motorError hN hparse ha.body he)).1] at hr
    exact hr
  · rw [(c62_verdict_unique hv (.status hN hparse ha.body he)).1] at hr
    exact hr

/-- The answer whose last byte is not on the line in time. -/
theorem comes_late {α : Type} {b : Bus} {body req : List Byte} {exp : Nat}
    {Means : Byte → Byte → List Byte → Outcome TransferError α → Prop} {r : Bus × Outcome TransferError α}
    (h : Comes b body exp Means r) (hw : StuffedForm body req) (hs : SendSucceeds b (body.length - 1) req) (h0 : b.baudRate ≠ 0)
    {latency start : Nat} {id error : Byte} {ps wire : List Byte} (ha : LineAnswer b latency start id error ps wire)
    (ht : b.serialPort.now + b.serialPort.writeTime + (duration b.baudRate (11 + exp) + 34000000) <
      start + duration b.baudRate (frame id wire).length) :
    r.2 = .err (.readError (.io .timedOut)) := by
  obtain ⟨D, v, left, hD, hv, hr⟩ := comes_sent h hw hs h0
  obtain ⟨events, rest, h1, h2⟩ := ha.comes
  have hne : frame id wire ≠ [] := by simp [frame, frameHead, header]
  obtain ⟨front, d, k1, k2⟩ := due_last (baud := b.baudRate) (latency := latency) (start := start) (frame id wire) 0 hne
  rw [Nat.zero_add] at k2
  obtain ⟨k3, k4⟩ := received_late (D := D) h2 rest b.serialPort.tail front d [] k1 (by omega)
  have hb := due_bytes b.baudRate latency start (frame id wire) 0
  rw [k1, List.map_append, List.map_singleton] at hb
  have hlen := congrArg List.length hb
  simp only [List.length_append, List.length_map, List.length_singleton] at hlen
  rw [h1] at hv
  have hparse := parse_part (cap := b.readBuffer.length) ha.length ha.fits
    (k3.trans ⟨[d.byte], hb⟩) (by have := k3.length_le; rw [List.length_map] at this; omega)
  have hN : 10 ≤ b.readBuffer.length := by have := ha.room; omega
  rw [(c62_verdict_unique hv (.nothing hN hparse)).1, k4] at hr
  exact hr

/-! ## The calls -/

section
variable {b : Bus} (hb : b.WInv) (hbaud : b.baudRate < 2 ^ 32) (h0 : b.baudRate ≠ 0) {id : Byte} {latency start : Nat} {error : Byte}
  {ps req wire : List Byte}
include hb hbaud h0

/-- **C67** `read_bytes` returns the answer that is handed over before the time is over. -/
theorem c67_read_bytes_in_time {address count : U16} (hw : StuffedForm (Request.read address count).body req)
    (hs : SendSucceeds b 4 req) (ha : LineAnswer b latency start id error ps wire)
    (ht : start + duration b.baudRate (frame id wire).length + latency ≤
      b.serialPort.now + b.serialPort.writeTime + (duration b.baudRate (11 + count.toNat) + 34000000)) :
    (Client.readBytes id address count b).2 = answer id count.toNat id error ps ps := by
  obtain ⟨h1, h2⟩ := comes_in_time (c62_read_bytes hb hbaud id address count) hw hs h0 ha ht
  by_cases he : error.toNat % 128 = 0
  · exact h2 he
  · rw [h1 he, answer, if_pos he]

/-- **C67** … and times out if its last byte cannot come before that. -/
theorem c67_read_bytes_late {address count : U16} (hw : StuffedForm (Request.read address count).body req)
    (hs : SendSucceeds b 4 req) (ha : LineAnswer b latency start id error ps wire)
    (ht : b.serialPort.now + b.serialPort.writeTime + (duration b.baudRate (11 + count.toNat) + 34000000) <
      start + duration b.baudRate (frame id wire).length) :
    (Client.readBytes id address count b).2 = .err (.readError (.io .timedOut)) :=
  comes_late (c62_read_bytes hb hbaud id address count) hw hs h0 ha ht

/-- **C67** `read`, for the types the crate implements `Data` for. -/
theorem c67_read_in_time {α : Type} {d : DataTy α} {valid : α → Prop} {f : α → List Byte} (hd : ImplData d valid f) {address : U16}
    (hw : StuffedForm (Request.read address d.size).body req) (hs : SendSucceeds b 4 req) {v : α} (hv : valid v)
    (ha : LineAnswer b latency start id error (f v) wire)
    (ht : start + duration b.baudRate (frame id wire).length + latency ≤
      b.serialPort.now + b.serialPort.writeTime + (duration b.baudRate (11 + d.size.toNat) + 34000000)) :
    (Client.read d id address b).2 = answer id d.size.toNat id error (f v) v := by
  obtain ⟨h1, h2⟩ := comes_in_time (c62_read hd hb hbaud id address) hw hs h0 ha ht
  by_cases he : error.toNat % 128 = 0
  · obtain ⟨v', h3, h4⟩ := h2 he
    have hc := c28_round_trip_partial d valid f hd
    obtain ⟨h5, h6⟩ := h3 (hc.length v hv)
    have hdec := hc.decode v' h5
    rw [h6, hc.decode v hv] at hdec
    rw [h4, Outcome.ok.inj hdec]
  · rw [h1 he, answer, if_pos he]

/-- **C67** … -/
theorem c67_read_late {α : Type} {d : DataTy α} {valid : α → Prop} {f : α → List Byte} (hd : ImplData d valid f) {address : U16}
    (hw : StuffedForm (Request.read address d.size).body req) (hs : SendSucceeds b 4 req)
    (ha : LineAnswer b latency start id error ps wire)
    (ht : b.serialPort.now + b.serialPort.writeTime + (duration b.baudRate (11 + d.size.toNat) + 34000000) <
      start + duration b.baudRate (frame id wire).length) :
    (Client.read d id address b).2 = .err (.readError (.io .timedOut)) :=
  comes_late (c62_read hd hb hbaud id address) hw hs h0 ha ht

/-- **C67** `ping` -/
theorem c67_ping_in_time (hs : SendSucceeds b 0 [0x01#8]) {v : Client.Ping}
    (ha : LineAnswer b latency start id error (le16 v.model ++ [v.firmware]) wire)
    (ht : start + duration b.baudRate (frame id wire).length + latency ≤
      b.serialPort.now + b.serialPort.writeTime + (duration b.baudRate 14 + 34000000)) :
    (Client.ping id b).2 = answer id 3 id error (le16 v.model ++ [v.firmware]) v := by
  have hw : StuffedForm Request.ping.body [0x01#8] := stuffedForm_iff.mpr (by decide)
  obtain ⟨h1, h2⟩ := comes_in_time (c62_ping hb hbaud id) hw hs h0 ha ht
  by_cases he : error.toNat % 128 = 0
  · obtain ⟨v', h3, h4⟩ := h2 he
    have h5 := h3 (by simp [le16])
    have h6 := List.append_inj h5 (by simp [le16])
    have h7 : v.model = v'.model := le16_inj h6.1
    have h8 : v.firmware = v'.firmware := by simpa using h6.2
    have : v' = v := by cases v; cases v'; simp_all
    rw [h4, this]
  · rw [h1 he, answer, if_pos he]

/-- **C67** … -/
theorem c67_ping_late (hs : SendSucceeds b 0 [0x01#8]) (ha : LineAnswer b latency start id error ps wire)
    (ht : b.serialPort.now + b.serialPort.writeTime + (duration b.baudRate 14 + 34000000) <
      start + duration b.baudRate (frame id wire).length) :
    (Client.ping id b).2 = .err (.readError (.io .timedOut)) :=
  comes_late (c62_ping hb hbaud id) (stuffedForm_iff.mpr (by decide)) hs h0 ha ht

/-- **C67** The write-like calls. -/
theorem c67_write_in_time {w : WriteCall} {body : List Byte} (ho : w.Orders body) (hid : id ≠ 0xFE#8) (hw : StuffedForm body req)
    (hs : SendSucceeds b (body.length - 1) req) (ha : LineAnswer b latency start id error ps wire)
    (ht : start + duration b.baudRate (frame id wire).length + latency ≤
      b.serialPort.now + b.serialPort.writeTime + (duration b.baudRate 11 + 34000000)) :
    (w.run id b).2 = emptyAnswer id error ps := by
  obtain ⟨h1, h2⟩ := comes_in_time (c62_write ho hb hbaud hid) hw hs h0 ha ht
  by_cases he : error.toNat % 128 = 0
  · exact h2 he
  · rw [h1 he, emptyAnswer, if_pos he]

/-- **C67** … -/
theorem c67_write_late {w : WriteCall} {body : List Byte} (ho : w.Orders body) (hid : id ≠ 0xFE#8) (hw : StuffedForm body req)
    (hs : SendSucceeds b (body.length - 1) req) (ha : LineAnswer b latency start id error ps wire)
    (ht : b.serialPort.now + b.serialPort.writeTime + (duration b.baudRate 11 + 34000000) <
      start + duration b.baudRate (frame id wire).length) :
    (w.run id b).2 = .err (.readError (.io .timedOut)) :=
  comes_late (c62_write ho hb hbaud hid) hw hs h0 ha ht

end

/-! ## The claim -/

/-- **C67**, the full claim: a device has 34 ms. If the time it lets pass after the instruction is transmitted, together with the
latency of the port, is no more than that, then the call returns its answer. -/
def C67_statement : Prop :=
  (∀ (b : Bus) (id error : Byte) (address count : U16) (latency start : Nat) (ps req wire : List Byte), b.WInv →
    b.baudRate < 2 ^ 32 → b.baudRate ≠ 0 → StuffedForm (Request.read address count).body req → SendSucceeds b 4 req →
    LineAnswer b latency start id error ps wire → ps.length = count.toNat →
    start + latency ≤ transmitted b (frame id req) + 34000000 →
    (Client.readBytes id address count b).2 = answer id count.toNat id error ps ps) ∧
  (∀ (b : Bus) (id error : Byte) (w : WriteCall) (latency start : Nat) (body req wire : List Byte), b.WInv →
    b.baudRate < 2 ^ 32 → b.baudRate ≠ 0 → id ≠ 0xFE#8 → w.Orders body → StuffedForm body req →
    SendSucceeds b (body.length - 1) req → LineAnswer b latency start id error [] wire →
    start + latency ≤ transmitted b (frame id req) + 34000000 →
    (w.run id b).2 = emptyAnswer id error []) ∧
  (∀ {α : Type} (d : DataTy α) (valid : α → Prop) (f : α → List Byte) (b : Bus) (id error : Byte) (address : U16) (v : α)
    (latency start : Nat) (req wire : List Byte), ImplData d valid f → valid v → b.WInv → b.baudRate < 2 ^ 32 → b.baudRate ≠ 0 →
    StuffedForm (Request.read address d.size).body req → SendSucceeds b 4 req → LineAnswer b latency start id error (f v) wire →
    start + latency ≤ transmitted b (frame id req) + 34000000 →
    (Client.read d id address b).2 = answer id d.size.toNat id error (f v) v) ∧
  (∀ (b : Bus) (id error : Byte) (v : Client.Ping) (latency start : Nat) (wire : List Byte), b.WInv →
    b.baudRate < 2 ^ 32 → b.baudRate ≠ 0 → SendSucceeds b 0 [0x01#8] →
    LineAnswer b latency start id error (le16 v.model ++ [v.firmware]) wire →
    start + latency ≤ transmitted b (frame id [0x01#8]) + 34000000 →
    (Client.ping id b).2 = answer id 3 id error (le16 v.model ++ [v.firmware]) v)

/-! ## When it holds -/

/-- The time that suffices: what is stuffed into the answer takes time that the client does not allow for. -/
theorem time_enough {b : Bus} (h0 : b.baudRate ≠ 0) {latency start exp : Nat} {id error : Byte} {ps wire : List Byte}
    (ha : LineAnswer b latency start id error ps wire) (hl : ps.length = exp)
    (ht : start + latency + duration b.baudRate (wire.length - (2 + ps.length)) ≤
      b.serialPort.now + b.serialPort.writeTime + 34000000) :
    start + duration b.baudRate (frame id wire).length + latency ≤
      b.serialPort.now + b.serialPort.writeTime + (duration b.baudRate (11 + exp) + 34000000) := by
  have h1 := unstuffs_length ha.body
  simp only [List.length_cons] at h1
  have h2 : (frame id wire).length = 11 + exp + (wire.length - (2 + ps.length)) := by rw [Bus.frame_length]; omega
  have h3 := duration_add h0 (11 + exp) (wire.length - (2 + ps.length))
  rw [h2]
  omega

/-- No more than a quarter of the answer is stuffing. -/
theorem LineAnswer.stuffing {b : Bus} {latency start : Nat} {id error : Byte} {ps wire : List Byte}
    (ha : LineAnswer b latency start id error ps wire) {n : Nat} (hn : b.readBuffer.length ≤ n) :
    4 * (wire.length - (2 + ps.length)) + 9 ≤ n := by
  have h1 := unstuffs_removed ha.body
  have h2 := ha.fits
  have h3 := ha.room
  rw [Bus.frame_length] at h2
  simp only [List.length_cons] at h1
  omega

/-- An answer to a write has no stuffing, and one to a ping has at most one byte of it. -/
theorem LineAnswer.short {b : Bus} {latency start : Nat} {id error : Byte} {ps wire : List Byte}
    (ha : LineAnswer b latency start id error ps wire) : 3 * (wire.length - (2 + ps.length)) ≤ 2 + ps.length := by
  have h1 := unstuffs_removed ha.body
  simp only [List.length_cons] at h1
  omega

/-- The instruction is on the line not long after `write_all` returns. -/
theorem transmitted_le (b : Bus) (packet : List Byte) :
    transmitted b packet ≤ b.serialPort.now + b.serialPort.writeTime + duration b.baudRate packet.length := by
  unfold transmitted
  omega

/-- With `write_all` that returns when the bytes are on the line, the end of the call is the end of the transmission. -/
theorem transmitted_flushed {b : Bus} {packet : List Byte} (h : duration b.baudRate packet.length ≤ b.serialPort.writeTime) :
    transmitted b packet = b.serialPort.now + b.serialPort.writeTime := by
  unfold transmitted
  omega

/-- Time for `d`, with the buffers that the crate uses by default. -/
theorem time_default {b : Bus} {latency start : Nat} {id error : Byte} {ps req wire : List Byte}
    (ha : LineAnswer b latency start id error ps wire) (hr : b.readBuffer.length ≤ 128) {n : Nat} (hs : SendSucceeds b n req)
    (hw : b.writeBuffer.length ≤ 128)
    (ht : 57600 ≤ b.baudRate ∧ start + latency ≤ transmitted b (frame id req) + 6700000 ∨
      9600 ≤ b.baudRate ∧ duration b.baudRate (frame id req).length ≤ b.serialPort.writeTime ∧
        start + latency ≤ transmitted b (frame id req) + 3700000) :
    start + latency + duration b.baudRate (wire.length - (2 + ps.length)) ≤
      b.serialPort.now + b.serialPort.writeTime + 34000000 := by
  have h1 := ha.stuffing hr
  have h2 : (frame id req).length ≤ 128 := by have := hs.stuffed; rw [Bus.frame_length]; omega
  have h3 := duration_mono b.baudRate (n := wire.length - (2 + ps.length)) (m := 29) (by omega)
  have h4 := duration_mono b.baudRate h2
  rcases ht with ⟨k1, k2⟩ | ⟨k1, k2, k3⟩
  · have h5 := duration_anti (baud' := 57600) (by decide) k1 29
    have h6 := duration_anti (baud' := 57600) (by decide) k1 128
    have h7 := transmitted_le b (frame id req)
    have h8 : duration 57600 29 = 5034723 := by decide
    have h9 : duration 57600 128 = 22222223 := by decide
    omega
  · have h5 := duration_anti (baud' := 9600) (by decide) k1 29
    have h8 : duration 9600 29 = 30208334 := by decide
    rw [transmitted_flushed k2] at k3
    omega

section
variable {b : Bus} (hb : b.WInv) (hbaud : b.baudRate < 2 ^ 32) (h0 : b.baudRate ≠ 0) {id : Byte} {latency start : Nat} {error : Byte}
  {ps req wire : List Byte}
include hb hbaud h0

/-- **C67** for `read_bytes`: the device has 34 ms from the end of `write_all`, less the time of the bytes that are stuffed into
its answer. -/
theorem c67_read_bytes_enough_partial {address count : U16} (hw : StuffedForm (Request.read address count).body req)
    (hs : SendSucceeds b 4 req) (ha : LineAnswer b latency start id error ps wire) (hl : ps.length = count.toNat)
    (ht : start + latency + duration b.baudRate (wire.length - (2 + ps.length)) ≤
      b.serialPort.now + b.serialPort.writeTime + 34000000) :
    (Client.readBytes id address count b).2 = answer id count.toNat id error ps ps :=
  c67_read_bytes_in_time hb hbaud h0 hw hs ha (time_enough h0 ha hl ht)

/-- **C67** for `read`. -/
theorem c67_read_enough_partial {α : Type} {d : DataTy α} {valid : α → Prop} {f : α → List Byte} (hd : ImplData d valid f)
    {address : U16} (hw : StuffedForm (Request.read address d.size).body req) (hs : SendSucceeds b 4 req) {v : α} (hv : valid v)
    (ha : LineAnswer b latency start id error (f v) wire)
    (ht : start + latency + duration b.baudRate (wire.length - (2 + d.size.toNat)) ≤
      b.serialPort.now + b.serialPort.writeTime + 34000000) :
    (Client.read d id address b).2 = answer id d.size.toNat id error (f v) v :=
  have hl := (c28_round_trip_partial d valid f hd).length v hv
  c67_read_in_time hb hbaud h0 hd hw hs hv ha (time_enough h0 ha hl (by rw [hl]; exact ht))

/-- **C67** for `ping`: the time of one byte less, at most. -/
theorem c67_ping_enough_partial (hs : SendSucceeds b 0 [0x01#8]) {v : Client.Ping}
    (ha : LineAnswer b latency start id error (le16 v.model ++ [v.firmware]) wire)
    (ht : start + latency + duration b.baudRate 1 ≤ b.serialPort.now + b.serialPort.writeTime + 34000000) :
    (Client.ping id b).2 = answer id 3 id error (le16 v.model ++ [v.firmware]) v := by
  refine c67_ping_in_time hb hbaud h0 hs ha (time_enough (exp := 3) h0 ha (by simp [le16]) ?_)
  have h1 := ha.short
  have h2 : (le16 v.model ++ [v.firmware]).length = 3 := by simp [le16]
  rw [h2] at h1 ⊢
  have := duration_mono b.baudRate (n := wire.length - (2 + 3)) (m := 1) (by omega)
  omega

/-- **C67** for the write-like calls: the full 34 ms, from the end of `write_all`. -/
theorem c67_write_enough_partial {w : WriteCall} {body : List Byte} (ho : w.Orders body) (hid : id ≠ 0xFE#8)
    (hw : StuffedForm body req) (hs : SendSucceeds b (body.length - 1) req) (ha : LineAnswer b latency start id error [] wire)
    (ht : start + latency ≤ b.serialPort.now + b.serialPort.writeTime + 34000000) :
    (w.run id b).2 = emptyAnswer id error [] := by
  refine c67_write_in_time hb hbaud h0 ho hid hw hs ha (time_enough (exp := 0) h0 ha rfl ?_)
  have h1 := ha.short
  rw [List.length_nil] at h1
  have h2 : wire.length - (2 + ([] : List Byte).length) = 0 := by rw [List.length_nil]; omega
  rw [h2, duration_zero h0]
  exact ht

/-- **C67** With the buffers that the crate uses by default: the device has 6.7 ms from the end of the transmission if the line has at
least 57600 baud, and 3.7 ms at 9600 baud or more if `write_all` does not return before the end of the transmission. -/
theorem c67_read_bytes_default_partial {address count : U16} (hw : StuffedForm (Request.read address count).body req)
    (hs : SendSucceeds b 4 req) (ha : LineAnswer b latency start id error ps wire) (hl : ps.length = count.toNat)
    (hrb : b.readBuffer.length ≤ 128) (hwb : b.writeBuffer.length ≤ 128)
    (ht : 57600 ≤ b.baudRate ∧ start + latency ≤ transmitted b (frame id req) + 6700000 ∨
      9600 ≤ b.baudRate ∧ duration b.baudRate (frame id req).length ≤ b.serialPort.writeTime ∧
        start + latency ≤ transmitted b (frame id req) + 3700000) :
    (Client.readBytes id address count b).2 = answer id count.toNat id error ps ps :=
  c67_read_bytes_enough_partial hb hbaud h0 hw hs ha hl (time_default ha hrb hs hwb ht)

/-- **C67** The same for `read`. -/
theorem c67_read_default_partial {α : Type} {d : DataTy α} {valid : α → Prop} {f : α → List Byte} (hd : ImplData d valid f)
    {address : U16} (hw : StuffedForm (Request.read address d.size).body req) (hs : SendSucceeds b 4 req) {v : α} (hv : valid v)
    (ha : LineAnswer b latency start id error (f v) wire) (hrb : b.readBuffer.length ≤ 128) (hwb : b.writeBuffer.length ≤ 128)
    (ht : 57600 ≤ b.baudRate ∧ start + latency ≤ transmitted b (frame id req) + 6700000 ∨
      9600 ≤ b.baudRate ∧ duration b.baudRate (frame id req).length ≤ b.serialPort.writeTime ∧
        start + latency ≤ transmitted b (frame id req) + 3700000) :
    (Client.read d id address b).2 = answer id d.size.toNat id error (f v) v :=
  c67_read_enough_partial hb hbaud h0 hd hw hs hv ha (by
    have := time_default ha hrb hs hwb ht
    rwa [(c28_round_trip_partial d valid f hd).length v hv] at this)

/-- **C67** The same for the write-like calls. -/
theorem c67_write_default_partial {w : WriteCall} {body : List Byte} (ho : w.Orders body) (hid : id ≠ 0xFE#8)
    (hw : StuffedForm body req) (hs : SendSucceeds b (body.length - 1) req) (ha : LineAnswer b latency start id error [] wire)
    (hrb : b.readBuffer.length ≤ 128) (hwb : b.writeBuffer.length ≤ 128)
    (ht : 57600 ≤ b.baudRate ∧ start + latency ≤ transmitted b (frame id req) + 6700000 ∨
      9600 ≤ b.baudRate ∧ duration b.baudRate (frame id req).length ≤ b.serialPort.writeTime ∧
        start + latency ≤ transmitted b (frame id req) + 3700000) :
    (w.run id b).2 = emptyAnswer id error [] :=
  c67_write_enough_partial hb hbaud h0 ho hid hw hs ha (by
    have := time_default ha hrb hs hwb ht
    omega)

end

/-! ## When it does not hold -/

/-- A client with buffers of the default size, at 9600 baud. Writing takes `writeTime`, and these bytes are handed over later. -/
def slowBus (writeTime : Nat) (rx : List RxEvent) : Bus :=
  { serialPort := { quietPort with rx := rx, writeRes := [(writeTime, none)], rate := 9600 },
    baudRate := 9600, readBuffer := List.replicate 128 0#8, readLen := 0, usedBytes := 0,
    writeBuffer := headerPrefix ++ List.replicate 124 0#8, debug := true }

theorem slowBus_wInv (writeTime : Nat) (rx : List RxEvent) : (slowBus writeTime rx).WInv := by
  constructor <;> simp [slowBus, headerPrefix]

theorem slowBus_sends (writeTime : Nat) (rx : List RxEvent) {n : Nat} {wire : List Byte} (hn : n ≤ 118) (hw : wire.length ≤ 119) :
    SendSucceeds (slowBus writeTime rx) n wire := by
  refine ⟨?_, ?_, ?_, ?_⟩
  · simp [slowBus, headerPrefix]; omega
  · simp [slowBus, headerPrefix]; omega
  · rintro ⟨-, h⟩
    rw [Nat.mod_eq_of_lt (by omega)] at h
    omega
  · constructor <;> simp [slowBus, quietPort]

theorem slowBus_newInput {writeTime : Nat} {rx : List RxEvent} (h : ∀ e ∈ rx, ∃ t bs, e = .data (t + 1) bs) :
    newInput (slowBus writeTime rx).serialPort = rx := by
  unfold newInput
  rw [if_neg (by simp [slowBus, quietPort])]
  unfold notYetArrived
  refine List.filter_eq_self.mpr ?_
  intro e he
  have he : e ∈ rx := he
  obtain ⟨t, bs, rfl⟩ := h e he
  simp [slowBus, quietPort]

/-- The answer as late as it may come. -/
theorem slowBus_answer {writeTime latency start : Nat} {id error : Byte} {ps wire : List Byte}
    (hu : Unstuffs wire (0x55#8 :: error :: ps)) (hw : wire.length ≤ 119) :
    LineAnswer (slowBus writeTime (singly (due 9600 latency start 0 (frame id wire)))) latency start id error ps wire := by
  refine ⟨⟨_, [], (slowBus_newInput ?_).trans (List.append_nil _).symm, received_singly _ (due_singly _ _ _ _ _)⟩, hu, by omega, ?_⟩
  · intro e he
    obtain ⟨d, hd, rfl⟩ := List.mem_map.mp he
    have hpos : ∀ (bytes : List Byte) (sent : Nat) (d : Due), d ∈ due 9600 latency start sent bytes → 0 < d.latest := by
      intro bytes
      induction bytes with
      | nil => intro _ d hd; simp [due] at hd
      | cons x rest ih =>
        intro sent d hd
        rcases List.mem_cons.mp hd with rfl | hd
        · have := duration_pos (baud := 9600) (by decide) (n := sent + 1) (by omega)
          dsimp only
          omega
        · exact ih _ d hd
    have := hpos _ _ d hd
    exact ⟨d.latest - 1, [d.byte], by rw [Nat.sub_add_cancel this]⟩
  · rw [Bus.frame_length]
    simp [slowBus]
    omega

/-- 87 bytes of data, with 29 bytes stuffed into them. -/
def stuffedData : List Byte := (List.replicate 29 [0xFF#8, 0xFF#8, 0xFD#8]).flatten

def stuffedAnswer : List Byte := [0x55#8, 0#8] ++ (List.replicate 29 [0xFF#8, 0xFF#8, 0xFD#8, 0xFD#8]).flatten

/-- `write_all` returns when the 14 bytes of the request are transmitted, the device begins half a millisecond later, and the
port has a latency of 16 ms. -/
def stuffedBus : Bus :=
  slowBus (duration 9600 14) (singly (due 9600 16000000 (duration 9600 14 + 500000) 0 (frame 1#8 stuffedAnswer)))

theorem stuffedAnswer_unstuffs : Unstuffs stuffedAnswer (0x55#8 :: 0#8 :: stuffedData) := by
  rw [unstuffs_iff]
  decide +kernel

theorem stuffedBus_times_out :
    (Client.readBytes 1#8 0#16 87#16 stuffedBus).2 = .err (.readError (.io .timedOut)) := by decide +kernel

/-- **C67** is false because of stuffing: an answer begins 0.5 ms after the instruction and has a latency of 16 ms, but the call times out. -/
theorem c67_refuted_stuffing : ¬ C67_statement := by
  intro h
  have := h.1 stuffedBus 1#8 0#8 0#16 87#16 16000000 (duration 9600 14 + 500000) stuffedData
    (Request.read 0#16 87#16).body stuffedAnswer (slowBus_wInv _ _) (by decide) (by decide) (stuffedForm_iff.mpr (by decide))
    (slowBus_sends _ _ (by decide) (by decide)) (slowBus_answer stuffedAnswer_unstuffs (by decide)) (by decide) (by decide)
  rw [stuffedBus_times_out] at this
  have h2 : answer 1#8 (87#16).toNat 1#8 0#8 stuffedData stuffedData = .ok ⟨1#8, false, stuffedData⟩ := by decide +kernel
  rw [h2] at this
  cases this

/-- A write of 40 bytes; `write_all` returns at once, and the bytes are still being transmitted. The device answers immediately. -/
def bufferedBus : Bus := slowBus 0 (singly (due 9600 0 (duration 9600 52) 0 (frame 1#8 [0x55#8, 0#8])))

/-- **C67** is false because `write_all` may return before the end of the transmission: the device lets no time pass, the port has no
latency, and nothing is stuffed. -/
theorem c67_refuted_buffered : ¬ C67_statement := by
  intro h
  have := h.2.1 bufferedBus 1#8 0#8 (.writeBytes 0#16 (List.replicate 40 0#8)) 0 (duration 9600 52)
    (Request.write 0#16 (List.replicate 40 0#8)).body (Request.write 0#16 (List.replicate 40 0#8)).body [0x55#8, 0#8]
    (slowBus_wInv _ _) (by decide) (by decide) (by decide) (.writeBytes _ _) (stuffedForm_iff.mpr (by decide))
    (slowBus_sends _ _ (by decide) (by decide)) (slowBus_answer (by rw [unstuffs_iff]; decide) (by decide)) (by decide)
  have h1 : ((WriteCall.writeBytes 0#16 (List.replicate 40 0#8)).run 1#8 bufferedBus).2 = .err (.readError (.io .timedOut)) := by
    decide +kernel
  rw [h1] at this
  cases this

/-! ## Cases -/

/-- The same read with data that needs no stuffing: it may begin 18 ms after the instruction, with a latency of 16 ms. -/
example :
    let data := List.replicate 87 7#8
    (Client.readBytes 1#8 0#16 87#16
      (slowBus (duration 9600 14) (singly (due 9600 16000000 (duration 9600 14 + 18000000) 0 (frame 1#8 ([0x55#8, 0#8] ++ data)))))).2 =
    .ok ⟨1#8, false, data⟩ := by
  intro data
  have := c67_read_bytes_enough_partial (slowBus_wInv _ _) (by decide) (by decide) (id := 1#8) (latency := 16000000)
    (address := 0#16) (count := 87#16)
    (start := duration 9600 14 + 18000000) (error := 0#8) (ps := data) (req := (Request.read 0#16 87#16).body)
    (wire := [0x55#8, 0#8] ++ data) (stuffedForm_iff.mpr (by decide)) (slowBus_sends (duration 9600 14) _ (by decide) (by decide))
    (slowBus_answer (by rw [unstuffs_iff]; decide +kernel) (by decide)) (by decide) (by decide +kernel)
  rw [this]
  decide +kernel

/-- One microsecond later is too late for the last byte. -/
example :
    (Client.readBytes 1#8 0#16 87#16
      (slowBus (duration 9600 14) (singly (due 9600 16000000 (duration 9600 14 + 18001000) 0
        (frame 1#8 ([0x55#8, 0#8] ++ List.replicate 87 7#8)))))).2 =
    .err (.readError (.io .timedOut)) := by
  decide +kernel

/-! ## Each theorem on a line of 9600 baud

The instruction takes `duration 9600 n` to send, and the answer begins at once or up to 18 ms after that (in time) or 80 ms after that (late). -/

/-- A client that is sending `n` bytes, with an answer `wire` beginning `pause` after them. -/
def answeringLine (n pause : Nat) (wire : List Byte) : Bus :=
  slowBus (duration 9600 n) (singly (due 9600 2000000 (duration 9600 n + pause) 0 (frame 1#8 wire)))

theorem answeringLine_answer {n pause : Nat} {error : Byte} {ps wire : List Byte} (h : Unstuffs wire (0x55#8 :: error :: ps))
    (hl : wire.length ≤ 100) : LineAnswer (answeringLine n pause wire) 2000000 (duration 9600 n + pause) 1#8 error ps wire :=
  slowBus_answer h (by omega)

example : (Client.readBytes 1#8 5#16 2#16
      (answeringLine 14 18000000 [0x55#8, 0#8, 0x34#8, 0x12#8])).2 = .ok ⟨1#8, false, [0x34#8, 0x12#8]⟩ :=
  (c67_read_bytes_in_time (b := answeringLine 14 18000000 [0x55#8, 0#8, 0x34#8, 0x12#8]) (slowBus_wInv _ _) (by decide) (by decide)
      (address := 5#16) (count := 2#16) (req := (Request.read 5#16 2#16).body)
    (stuffedForm_iff.mpr (by decide)) (slowBus_sends _ _ (by decide) (by decide)) (answeringLine_answer (error := 0#8)
      (ps := [0x34#8, 0x12#8]) ((unstuffs_iff _ _).2 (by decide +kernel)) (by decide))
    (by decide +kernel)).trans (by decide +kernel)

example : (Client.readBytes 1#8 5#16 2#16 (answeringLine 14 80000000 [0x55#8, 0#8, 0x34#8, 0x12#8])).2 = .err (.readError
      (.io .timedOut)) :=
  (c67_read_bytes_late (b := answeringLine 14 80000000 [0x55#8, 0#8, 0x34#8, 0x12#8]) (slowBus_wInv _ _) (by decide) (by decide)
      (address := 5#16) (count := 2#16) (req := (Request.read 5#16 2#16).body)
    (stuffedForm_iff.mpr (by decide)) (slowBus_sends _ _ (by decide) (by decide)) (answeringLine_answer (error := 0#8)
      (ps := [0x34#8, 0x12#8]) ((unstuffs_iff _ _).2 (by decide +kernel)) (by decide))
    (by decide +kernel)).trans (by decide +kernel)

example : (Client.readBytes 1#8 5#16 2#16 (answeringLine 14 0 [0x55#8, 0#8, 0x34#8, 0x12#8])).2 = .ok ⟨1#8, false, [0x34#8, 0x12#8]⟩ :=
  (c67_read_bytes_default_partial (b := answeringLine 14 0 [0x55#8, 0#8, 0x34#8, 0x12#8]) (slowBus_wInv _ _) (by decide) (by decide)
      (address := 5#16) (count := 2#16) (req := (Request.read 5#16 2#16).body)
    (stuffedForm_iff.mpr (by decide)) (slowBus_sends _ _ (by decide) (by decide)) (answeringLine_answer (error := 0#8)
      (ps := [0x34#8, 0x12#8]) ((unstuffs_iff _ _).2 (by decide +kernel)) (by decide))
    (by decide +kernel) (by decide +kernel) (by decide +kernel) (.inr (by decide +kernel))).trans (by decide +kernel)

example : (Client.read (DataTy.unsigned 2) 1#8 5#16
      (answeringLine 14 18000000 [0x55#8, 0#8, 0x34#8, 0x12#8])).2 = .ok ⟨1#8, false, 0x1234#16⟩ :=
  (c67_read_in_time (b := answeringLine 14 18000000 [0x55#8, 0#8, 0x34#8, 0x12#8]) (slowBus_wInv _ _) (by decide) (by decide)
      (implUnsigned (n := 2) (by decide)) (address := 5#16) (req := (Request.read 5#16 2#16).body)
    (stuffedForm_iff.mpr (by decide)) (slowBus_sends _ _ (by decide) (by decide)) (v := 0x1234#16) trivial (answeringLine_answer
      (error := 0#8) (ps := toLeBytes 2 (0x1234#16 : BitVec 16).toNat) ((unstuffs_iff _ _).2 (by decide +kernel)) (by decide))
    (by decide +kernel)).trans (by decide +kernel)

example : (Client.read (DataTy.unsigned 2) 1#8 5#16 (answeringLine 14 80000000 [0x55#8, 0#8, 0x34#8, 0x12#8])).2 = .err (.readError
      (.io .timedOut)) :=
  (c67_read_late (b := answeringLine 14 80000000 [0x55#8, 0#8, 0x34#8, 0x12#8]) (slowBus_wInv _ _) (by decide) (by decide) (implUnsigned
      (n := 2) (by decide)) (address := 5#16) (req := (Request.read 5#16 2#16).body)
    (stuffedForm_iff.mpr (by decide)) (slowBus_sends _ _ (by decide) (by decide)) (answeringLine_answer (error := 0#8)
      (ps := [0x34#8, 0x12#8]) ((unstuffs_iff _ _).2 (by decide +kernel)) (by decide))
    (by decide +kernel)).trans (by decide +kernel)

example : (Client.read (DataTy.unsigned 2) 1#8 5#16
      (answeringLine 14 18000000 [0x55#8, 0#8, 0x34#8, 0x12#8])).2 = .ok ⟨1#8, false, 0x1234#16⟩ :=
  (c67_read_enough_partial (b := answeringLine 14 18000000 [0x55#8, 0#8, 0x34#8, 0x12#8]) (slowBus_wInv _ _) (by decide) (by decide)
      (implUnsigned (n := 2) (by decide)) (address := 5#16) (req := (Request.read 5#16 2#16).body)
    (stuffedForm_iff.mpr (by decide)) (slowBus_sends _ _ (by decide) (by decide)) (v := 0x1234#16) trivial (answeringLine_answer
      (error := 0#8) (ps := toLeBytes 2 (0x1234#16 : BitVec 16).toNat) ((unstuffs_iff _ _).2 (by decide +kernel)) (by decide))
    (by decide +kernel)).trans (by decide +kernel)

example : (Client.read (DataTy.unsigned 2) 1#8 5#16 (answeringLine 14 0 [0x55#8, 0#8, 0x34#8, 0x12#8])).2 = .ok ⟨1#8, false, 0x1234#16⟩ :=
  (c67_read_default_partial (b := answeringLine 14 0 [0x55#8, 0#8, 0x34#8, 0x12#8]) (slowBus_wInv _ _) (by decide) (by decide)
      (implUnsigned (n := 2) (by decide)) (address := 5#16) (req := (Request.read 5#16 2#16).body)
    (stuffedForm_iff.mpr (by decide)) (slowBus_sends _ _ (by decide) (by decide)) (v := 0x1234#16) trivial (answeringLine_answer
      (error := 0#8) (ps := toLeBytes 2 (0x1234#16 : BitVec 16).toNat) ((unstuffs_iff _ _).2 (by decide +kernel)) (by decide))
    (by decide +kernel) (by decide +kernel) (.inr (by decide +kernel))).trans (by decide +kernel)

example : (Client.ping 1#8 (answeringLine 10 18000000 [0x55#8, 0#8, 0x06#8, 0x04#8, 45#8])).2 = .ok ⟨1#8, false, ⟨0x0406#16, 45#8⟩⟩ :=
  (c67_ping_in_time (b := answeringLine 10 18000000 [0x55#8, 0#8, 0x06#8, 0x04#8, 45#8]) (slowBus_wInv _ _) (by decide) (by decide) 
    (slowBus_sends _ _ (by decide) (by decide)) (v := ⟨0x0406#16, 45#8⟩) (answeringLine_answer (error := 0#8)
      (ps := le16 0x0406#16 ++ [45#8]) ((unstuffs_iff _ _).2 (by decide +kernel)) (by decide))
    (by decide +kernel)).trans (by decide +kernel)

example : (Client.ping 1#8 (answeringLine 10 80000000 [0x55#8, 0#8, 0x06#8, 0x04#8, 45#8])).2 = .err (.readError (.io .timedOut)) :=
  (c67_ping_late (b := answeringLine 10 80000000 [0x55#8, 0#8, 0x06#8, 0x04#8, 45#8]) (slowBus_wInv _ _) (by decide) (by decide) 
    (slowBus_sends _ _ (by decide) (by decide)) (answeringLine_answer (error := 0#8) (ps := [6#8, 4#8, 45#8]) ((unstuffs_iff _ _).2
      (by decide +kernel)) (by decide))
    (by decide +kernel)).trans (by decide +kernel)

example : (Client.ping 1#8 (answeringLine 10 16000000 [0x55#8, 0#8, 0x06#8, 0x04#8, 45#8])).2 = .ok ⟨1#8, false, ⟨0x0406#16, 45#8⟩⟩ :=
  (c67_ping_enough_partial (b := answeringLine 10 16000000 [0x55#8, 0#8, 0x06#8, 0x04#8, 45#8]) (slowBus_wInv _ _) (by decide) (by decide) 
    (slowBus_sends _ _ (by decide) (by decide)) (v := ⟨0x0406#16, 45#8⟩) (answeringLine_answer (error := 0#8)
      (ps := le16 0x0406#16 ++ [45#8]) ((unstuffs_iff _ _).2 (by decide +kernel)) (by decide))
    (by decide +kernel)).trans (by decide +kernel)

example : ((WriteCall.writeBytes 5#16 [7#8]).run 1#8 (answeringLine 13 18000000 [0x55#8, 0#8])).2 = .ok ⟨1#8, false, ()⟩ :=
  (c67_write_in_time (b := answeringLine 13 18000000 [0x55#8, 0#8]) (slowBus_wInv _ _) (by decide) (by decide) (.writeBytes 5#16 [7#8])
      (by decide)
    (req := (Request.write 5#16 [7#8]).body) (stuffedForm_iff.mpr (by decide)) (slowBus_sends _ _ (by decide) (by decide))
      (answeringLine_answer (error := 0#8) (ps := []) ((unstuffs_iff _ _).2 (by decide +kernel)) (by decide))
    (by decide +kernel)).trans (by decide +kernel)

example : ((WriteCall.writeBytes 5#16 [7#8]).run 1#8 (answeringLine 13 80000000 [0x55#8, 0#8])).2 = .err (.readError (.io .timedOut)) :=
  (c67_write_late (b := answeringLine 13 80000000 [0x55#8, 0#8]) (slowBus_wInv _ _) (by decide) (by decide) (.writeBytes 5#16 [7#8])
      (by decide)
    (req := (Request.write 5#16 [7#8]).body) (stuffedForm_iff.mpr (by decide)) (slowBus_sends _ _ (by decide) (by decide))
      (answeringLine_answer (error := 0#8) (ps := []) ((unstuffs_iff _ _).2 (by decide +kernel)) (by decide))
    (by decide +kernel)).trans (by decide +kernel)

example : ((WriteCall.writeBytes 5#16 [7#8]).run 1#8 (answeringLine 13 18000000 [0x55#8, 0#8])).2 = .ok ⟨1#8, false, ()⟩ :=
  (c67_write_enough_partial (b := answeringLine 13 18000000 [0x55#8, 0#8]) (slowBus_wInv _ _) (by decide) (by decide)
      (.writeBytes 5#16 [7#8]) (by decide)
    (req := (Request.write 5#16 [7#8]).body) (stuffedForm_iff.mpr (by decide)) (slowBus_sends _ _ (by decide) (by decide))
      (answeringLine_answer (error := 0#8) (ps := []) ((unstuffs_iff _ _).2 (by decide +kernel)) (by decide))
    (by decide +kernel)).trans (by decide +kernel)

example : ((WriteCall.writeBytes 5#16 [7#8]).run 1#8 (answeringLine 13 0 [0x55#8, 0#8])).2 = .ok ⟨1#8, false, ()⟩ :=
  (c67_write_default_partial (b := answeringLine 13 0 [0x55#8, 0#8]) (slowBus_wInv _ _) (by decide) (by decide) (.writeBytes 5#16 [7#8])
      (by decide)
    (req := (Request.write 5#16 [7#8]).body) (stuffedForm_iff.mpr (by decide)) (slowBus_sends _ _ (by decide) (by decide))
      (answeringLine_answer (error := 0#8) (ps := []) ((unstuffs_iff _ _).2 (by decide +kernel)) (by decide))
    (by decide +kernel) (by decide +kernel) (.inr (by decide +kernel))).trans (by decide +kernel)

end Dxl.Props
