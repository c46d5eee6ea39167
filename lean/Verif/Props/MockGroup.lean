import Verif.Props.Mock

/-! # C53: the simulated motor and instructions for several motors -/

namespace Dxl.Props
open Dxl Spec

/-- The motor deals with what it receives: it ends up as this memory, with this answer, or none. -/
def Heard (d : MockDevice) (s' : Servo) (o : Option ServoReply) : Prop :=
  ∃ fuel d', (MockDevice.step fuel : SO MockDevice Empty Unit) d = (d', .ok ()) ∧ d'.id = d.id ∧ servo d' = s' ∧
    match o with
    | none => Listened d d'
    | some r => Answers d d' r

/-- The first instruction that arrives at the simulated motor is this one, for this ID, and `rest` follows it. -/
def ReceivesThen (d : MockDevice) (to : Byte) (body rest : List Byte) : Prop :=
  ∃ statuses i, Statuses d.device.readBuffer.length statuses ∧ i.Ok d.device.readBuffer.length ∧ i.id = to ∧
    i.instr :: i.params = body ∧
    stream (d.device.serialPort.now + 10000000) d.device = itemBytes (statuses ++ [i]) ++ rest

/-- A simulated motor with default buffers, in any state, on a port that sends. -/
structure Simulated (d : MockDevice) : Prop where
  device : DefaultBus d.device
  table : d.controlTable.length = 200
  port : d.device.serialPort.SendOk

/-- C53 in full, sync writes: the motor stores its part of the data, if it has one, and does not answer. -/
def C53_sync_write_statement : Prop :=
  ∀ (d : MockDevice) (a n : U16) (writes : List (Byte × List Byte)) (s' : Servo), Simulated d →
    (∀ w ∈ writes, w.2.length = n.toNat) → Receives d 254#8 (Request.syncWrite a n writes).body → (servo d).hear d.id (.syncWrite a n writes) = some (s', none) →
    Heard d s' none

/-- C53 in full, bulk writes: the motor stores its part of the data, if it has one, and does not answer. -/
def C53_bulk_write_statement : Prop :=
  ∀ (d : MockDevice) (writes : List (Byte × U16 × List Byte)) (s' : Servo), Simulated d →
    Receives d 254#8 (Request.bulkWrite writes).body → (servo d).hear d.id (.bulkWrite writes) = some (s', none) → Heard d s' none

/-- C53 in full, reads: the motor answers if it is listed, after the motors that are listed before it have answered. -/
def C53_reads_statement : Prop :=
  ∀ (d : MockDevice) (a n : U16) (ids : List Byte) (answers : List Item) (s' : Servo) (o : Option ServoReply), Simulated d →
    n.toNat ≤ 80 → Statuses d.device.readBuffer.length answers → answers.map Item.id = ids.takeWhile (fun i => i ≠ d.id) →
    ReceivesThen d 254#8 (Request.syncRead a n ids).body (itemBytes answers) →
    (servo d).hear d.id (.syncRead a n ids) = some (s', o) → Heard d s' o

/-! ## Writes -/

theorem idxOf?_append {x : Byte} {l₁ l₂ : List Byte} (h : x ∉ l₁) : (l₁ ++ x :: l₂).idxOf? x = some l₁.length := by
  induction l₁ with
  | nil => simp [List.idxOf?_cons]
  | cons a l ih =>
    simp only [List.mem_cons, not_or] at h
    rw [List.cons_append, List.idxOf?_cons, if_neg (by simpa using fun hh : a = x => h.1 hh.symm), ih h.2]
    rfl

theorem store_put (s : Servo) (a : U16) (data : List Byte) :
    (s.put a data).1 = { s with memory := (store s.memory a.toNat data).getD s.memory } := by
  unfold Servo.put
  cases store s.memory a.toNat data <;> rfl

theorem onTable_write {ε : Type} (d : MockDevice) (a : U16) (bytes : List Byte) :
    (MockDevice.onTable (ControlTable.write a bytes) : SO MockDevice ε Bool) d =
      ({ d with controlTable := (store d.controlTable a.toNat bytes).getD d.controlTable },
        .ok (store d.controlTable a.toNat bytes).isSome) := by
  unfold MockDevice.onTable
  rw [SO.zoom_apply, controlTable_write]

/-- **C53** (partial: the English claim is without the hypothesis that the ID does not occur in the data) A sync write is
obeyed, if the ID of the motor does not occur in the data for the motors listed before. -/
theorem c53_sync_write_partial {ε : Type} {d : MockDevice} (fuel : Nat) {a n : U16} {before after : List (Byte × List Byte)}
    {data : List Byte} (hd : d.device.Inv) (hlen : data.length = n.toNat) (hbefore : ∀ w ∈ before, d.id ≠ w.1 ∧ d.id ∉ w.2)
    (hr : Receives d 254#8 (Request.syncWrite a n (before ++ (d.id, data) :: after)).body) :
    ∃ d', (MockDevice.step fuel : SO MockDevice ε Unit) d = (d', .ok ()) ∧ d'.id = d.id ∧
      servo d' = ((servo d).put a data).1 ∧ Listened d d' ∧ d'.device.Inv := by
  obtain ⟨c, h1, h2, h3⟩ := mock_receive (ε := ε) fuel hd hr
  rw [if_neg (fun h => h.2 rfl)] at h3
  have hp : (before ++ (d.id, data) :: after).flatMap (fun w => w.1 :: w.2) =
      before.flatMap (fun w => w.1 :: w.2) ++ d.id :: (data ++ after.flatMap fun w => w.1 :: w.2) := by simp
  have hx : d.id ∉ before.flatMap (fun w => w.1 :: w.2) := by
    intro hm
    obtain ⟨w, hw, hm⟩ := List.mem_flatMap.mp hm
    rcases List.mem_cons.mp hm with h | h
    · exact (hbefore w hw).1 h
    · exact (hbefore w hw).2 h
  rw [show decoded (.syncWrite a n (before ++ (d.id, data) :: after)) = .syncWrite a n
    ((before ++ (d.id, data) :: after).flatMap fun w => w.1 :: w.2) from rfl, hp, MockDevice.handle, SO.get_bind] at h3
  dsimp only at h3
  rw [idxOf?_append hx] at h3
  generalize hB : before.flatMap (fun w => w.1 :: w.2) = B at *
  have hsl : slice (ε := ε) (B ++ d.id :: (data ++ after.flatMap fun w => w.1 :: w.2)) (B.length + 1) (B.length + 1 + n.toNat) =
      .ok data := by
    rw [slice_ok (by omega) (by simp; omega)]
    refine congrArg _ ?_
    rw [show B ++ d.id :: (data ++ after.flatMap fun w => w.1 :: w.2) = (B ++ [d.id] ++ data) ++ after.flatMap fun w => w.1 :: w.2 by simp,
      List.take_left' (by simp [hlen]; omega), List.drop_left' (by simp)]
  dsimp only at h3
  rw [hsl, SO.lift_ok_bind, SO.bind_ok (onTable_write _ _ _)] at h3
  obtain ⟨reads, h10, h11⟩ := h1.calls
  exact ⟨_, h3, rfl, (store_put (servo d) a data).symm, ⟨reads, h11, h10⟩, h2.inv⟩

/-- **C53** (partial, as before) A sync write without the motor changes nothing, if its ID does not occur in the data. -/
theorem c53_sync_write_others_partial {ε : Type} {d : MockDevice} (fuel : Nat) {a n : U16} {writes : List (Byte × List Byte)}
    (hd : d.device.Inv) (hw : ∀ w ∈ writes, d.id ≠ w.1 ∧ d.id ∉ w.2) (hr : Receives d 254#8 (Request.syncWrite a n writes).body) :
    ∃ d', (MockDevice.step fuel : SO MockDevice ε Unit) d = (d', .ok ()) ∧ d'.id = d.id ∧
      servo d' = servo d ∧ Listened d d' ∧ d'.device.Inv := by
  obtain ⟨c, h1, h2, h3⟩ := mock_receive (ε := ε) fuel hd hr
  rw [if_neg (fun h => h.2 rfl)] at h3
  have hx : d.id ∉ writes.flatMap (fun w => w.1 :: w.2) := by
    intro hm
    obtain ⟨w, hw', hm⟩ := List.mem_flatMap.mp hm
    rcases List.mem_cons.mp hm with h | h
    · exact (hw w hw').1 h
    · exact (hw w hw').2 h
  rw [show decoded (.syncWrite a n writes) = .syncWrite a n (writes.flatMap fun w => w.1 :: w.2) from rfl, MockDevice.handle,
    SO.get_bind] at h3
  dsimp only at h3
  rw [List.idxOf?_eq_none_iff.mpr hx] at h3
  obtain ⟨reads, h10, h11⟩ := h1.calls
  exact ⟨_, h3, rfl, rfl, ⟨reads, h11, h10⟩, h2.inv⟩

theorem mock_u16At_le16 {ε : Type} (v : U16) (pre rest : List Byte) {a b : Nat} (ha : a = pre.length) (hb : b = a + 2) :
    MockDevice.u16At (ε := ε) (pre ++ (le16 v ++ rest)) a b = .ok v := by
  subst hb ha
  unfold MockDevice.u16At
  rw [slice_ok (by omega) (by simp [le16]),
    show ((pre ++ (le16 v ++ rest)).take (pre.length + 2)).drop pre.length = le16 v by
      rw [← List.append_assoc, List.take_left' (by simp [le16]), List.drop_left' rfl]]
  have := readU16Le_le16 (ε := ε) v []
  rwa [List.append_nil] at this

/-- **C53** (partial: in the English claim the motor can be at any place in the list) A bulk write is obeyed by the motor
that is listed first. -/
theorem c53_bulk_write_first_partial {ε : Type} {d : MockDevice} (fuel : Nat) {a : U16} {data : List Byte}
    {after : List (Byte × U16 × List Byte)} (hd : d.device.Inv) (hlen : data.length < 2 ^ 16)
    (hr : Receives d 254#8 (Request.bulkWrite ((d.id, a, data) :: after)).body) :
    ∃ d', (MockDevice.step (fuel + 1) : SO MockDevice ε Unit) d = (d', .ok ()) ∧ d'.id = d.id ∧
      servo d' = ((servo d).put a data).1 ∧ Listened d d' ∧ d'.device.Inv := by
  obtain ⟨c, h1, h2, h3⟩ := mock_receive (ε := ε) (fuel + 1) hd hr
  rw [if_neg (fun h => h.2 rfl)] at h3
  generalize hA : after.flatMap (fun w => w.1 :: (le16 w.2.1 ++ le16 (BitVec.ofNat 16 w.2.2.length) ++ w.2.2)) = A at *
  have hp : ((d.id, a, data) :: after).flatMap (fun w => w.1 :: (le16 w.2.1 ++ le16 (BitVec.ofNat 16 w.2.2.length) ++ w.2.2)) =
      d.id :: (le16 a ++ (le16 (BitVec.ofNat 16 data.length) ++ (data ++ A))) := by simp [← hA]
  rw [show decoded (.bulkWrite ((d.id, a, data) :: after)) = .bulkWrite (((d.id, a, data) :: after).flatMap
      (fun w => w.1 :: (le16 w.2.1 ++ le16 (BitVec.ofNat 16 w.2.2.length) ++ w.2.2))) from rfl, hp, MockDevice.handle, SO.get_bind] at h3
  dsimp only at h3
  have hfind : MockDevice.findBulkWrite (ε := ε) d.id (d.id :: (le16 a ++ (le16 (BitVec.ofNat 16 data.length) ++ (data ++ A)))) 0
      (fuel + 1) = .ok 0 := by
    unfold MockDevice.findBulkWrite
    simp [idx, bind, Outcome.bind, pure]
  have ha := mock_u16At_le16 (ε := ε) a [d.id] (le16 (BitVec.ofNat 16 data.length) ++ (data ++ A)) (a := 1) (b := 3) rfl rfl
  have hn := mock_u16At_le16 (ε := ε) (BitVec.ofNat 16 data.length) ([d.id] ++ le16 a) (data ++ A) (a := 3) (b := 5)
    (by simp [le16]) rfl
  rw [List.append_assoc] at hn
  simp only [List.cons_append, List.nil_append] at ha hn
  have hl : (BitVec.ofNat 16 data.length).toNat = data.length := by simp; omega
  rw [hfind, SO.lift_ok_bind, ha, SO.lift_ok_bind, hn, SO.lift_ok_bind, hl] at h3
  have hsl : slice (ε := ε) (d.id :: (le16 a ++ (le16 (BitVec.ofNat 16 data.length) ++ (data ++ A)))) (0 + 5) (0 + 5 + data.length) =
      .ok data := by
    rw [slice_ok (by omega) (by simp [le16]; omega)]
    refine congrArg _ ?_
    rw [show d.id :: (le16 a ++ (le16 (BitVec.ofNat 16 data.length) ++ (data ++ A))) =
        ((d.id :: (le16 a ++ le16 (BitVec.ofNat 16 data.length))) ++ data) ++ A by simp,
      List.take_left' (by simp [le16]; omega), List.drop_left' (by simp [le16])]
  rw [hsl, SO.lift_ok_bind, SO.bind_ok (onTable_write _ _ _)] at h3
  obtain ⟨reads, h10, h11⟩ := h1.calls
  exact ⟨_, h3, rfl, (store_put (servo d) a data).symm, ⟨reads, h11, h10⟩, h2.inv⟩

/-! ## Reads -/

/-- A device is never given a status packet. -/
theorem deviceRead_not_status {timeout : Nat} {b c : Bus} {x : Instruction} (hb : b.RInv)
    (h : Device.read timeout b = (c, .ok x)) : numberOf x.instruction ≠ 0x55#8 := by
  unfold Device.read at h
  obtain ⟨b', p, h1, h2⟩ := SO.bind_eq_ok.mp h
  obtain ⟨_, i, _, -, -, hi, -, hc, -⟩ := c26_returned_is_first hb h1
  obtain ⟨p⟩ := p
  rw [SO.lift_apply, toInstruction_carries hc] at h2
  have h4 := c47_decode_total i.instr i.params
  by_cases ha : acceptedLength i.instr i.params.length
  · obtain ⟨y, hy, -, hn, -⟩ := h4.1 ha
    rw [hy] at h2
    cases (Prod.mk.inj h2).2
    exact hn ▸ hi
  · obtain ⟨e, he⟩ := h4.2 ha
    rw [he] at h2
    cases (Prod.mk.inj h2).2

/-- Waiting for the answer of another motor does not succeed, and does nothing but read. -/
theorem awaitReply_never {ε : Type} (x : Byte) (fuel : Nat) : ∀ (d : MockDevice), d.device.Inv →
    ∃ c o, (MockDevice.awaitReply x fuel : SO MockDevice ε Bool) d = ({ d with device := c }, o) ∧ ReadsOnly d.device c ∧
      o ≠ .ok true := by
  induction fuel with
  | zero => intro d _; exact ⟨d.device, .hang, rfl, .refl _, by simp⟩
  | succ fuel ih =>
    intro d hd
    have h1 := Device.read_just MockDevice.timeout d.device
    have h2 := Device.read_sound MockDevice.timeout d.device hd
    rcases h : Device.read MockDevice.timeout d.device with ⟨c, o⟩
    rw [h] at h1 h2
    rw [MockDevice.awaitReply, SO.bind_def]
    unfold SO.attempt
    rw [onDevice_apply h]
    cases o with
    | ok y =>
      have hy := deviceRead_not_status hd.rInv h
      obtain ⟨id, y⟩ := y
      refine ⟨c, .ok false, ?_, h1, by simp⟩
      cases y with
      | unknown i ps =>
        dsimp only
        rw [if_neg (fun hh => hy hh.1)]
        rfl
      | _ => rfl
    | err e =>
      cases e with
      | io e =>
        dsimp only
        split
        · obtain ⟨c', o, i1, i2, i3⟩ := ih { d with device := c } h2.inv
          exact ⟨c', o, i1, h1.trans i2, i3⟩
        · exact ⟨c, .ok false, rfl, h1, by simp⟩
      | _ => exact ⟨c, .ok false, rfl, h1, by simp⟩
    | panic => exact ⟨c, .panic, rfl, h1, by simp⟩
    | hang => exact ⟨c, .hang, rfl, h1, by simp⟩

/-- What a motor that is not the first in the list does with a sync read or bulk read. -/
theorem bulkRead_never {ε : Type} (fuel : Nat) (a n : U16) {x : Byte} {ids : List Byte} {d : MockDevice} (hd : d.device.Inv)
    (hx : x ≠ d.id) :
    ∃ c o, (MockDevice.handleSyncBulkRead fuel a n (x :: ids) : SO MockDevice ε Unit) d = ({ d with device := c }, o) ∧
      ReadsOnly d.device c := by
  rw [MockDevice.handleSyncBulkRead, SO.get_bind, if_neg hx]
  obtain ⟨c, o, h1, h2, h3⟩ := awaitReply_never (ε := ε) x fuel d hd
  rw [SO.bind_def, h1]
  cases o with
  | ok y =>
    cases y with
    | true => exact absurd rfl h3
    | false => exact ⟨c, .ok (), rfl, h2⟩
  | err e => exact ⟨c, .err e, rfl, h2⟩
  | panic => exact ⟨c, .panic, rfl, h2⟩
  | hang => exact ⟨c, .hang, rfl, h2⟩

/-- The reads of a bulk read, as sent. -/
def readBytes' (reads : List (Byte × U16 × U16)) : List Byte := reads.flatMap fun r => r.1 :: (le16 r.2.1 ++ le16 r.2.2)

theorem everyFifth_reads (reads : List (Byte × U16 × U16)) : MockDevice.everyFifth (readBytes' reads) = reads.map (·.1) := by
  induction reads with
  | nil => simp [readBytes', MockDevice.everyFifth]
  | cons r reads ih =>
    have : readBytes' (r :: reads) = r.1 :: (le16 r.2.1 ++ le16 r.2.2 ++ readBytes' reads) := by simp [readBytes']
    rw [this, MockDevice.everyFifth, List.drop_left' (by simp [le16]), ih]
    rfl

/-- The request is a sync read or a bulk read of these motors. -/
def ReadsOf (r : Request) (ids : List Byte) : Prop :=
  (∃ a n, r = .syncRead a n ids) ∨ ∃ reads, r = .bulkRead reads ∧ ids = reads.map (·.1)

/-- **C53** A motor that is not listed in a sync read or a bulk read does nothing. -/
theorem c53_unlisted_read {ε : Type} {d : MockDevice} (fuel : Nat) {r : Request} {ids : List Byte} (hd : d.device.Inv)
    (hr : ReadsOf r ids) (hids : d.id ∉ ids) (h : Receives d 254#8 r.body) :
    ∃ d', (MockDevice.step fuel : SO MockDevice ε Unit) d = (d', .ok ()) ∧ d'.id = d.id ∧ servo d' = servo d ∧ Listened d d' ∧
      d'.device.Inv := by
  obtain ⟨c, h1, h2, h3⟩ := mock_receive (ε := ε) fuel hd h
  rw [if_neg (fun h => h.2 rfl)] at h3
  obtain ⟨reads', h10, h11⟩ := h1.calls
  refine ⟨{ d with device := c }, h3.trans ?_, rfl, rfl, ⟨reads', h11, h10⟩, h2.inv⟩
  rcases hr with ⟨a, n, rfl⟩ | ⟨reads, rfl, rfl⟩
  · rw [show decoded (.syncRead a n ids) = .syncRead a n ids from rfl, MockDevice.handle, SO.get_bind,
      if_neg (by simpa using hids)]
    rfl
  · rw [show decoded (.bulkRead reads) = .bulkRead (readBytes' reads) from rfl, MockDevice.handle, SO.get_bind]
    dsimp only
    rw [everyFifth_reads, List.idxOf?_eq_none_iff.mpr hids]
    rfl

/-- The motor that is listed first does the same as for a read. -/
theorem handle_first {ε : Type} (fuel : Nat) {d : MockDevice} {r : Request} {a n : U16}
    (hr : (∃ ids, r = .syncRead a n (d.id :: ids)) ∨ ∃ reads, r = .bulkRead ((d.id, a, n) :: reads)) :
    (MockDevice.handle fuel (decoded r) : SO MockDevice ε Unit) d = MockDevice.handle fuel (decoded (.read a n)) d := by
  have hone : ∀ ids, (MockDevice.handleSyncBulkRead fuel a n (d.id :: ids) : SO MockDevice ε Unit) d =
      MockDevice.handle fuel (decoded (.read a n)) d := by
    intro ids
    rw [MockDevice.handleSyncBulkRead, SO.get_bind, if_pos rfl, show decoded (.read a n) = .read a n from rfl, MockDevice.handle]
  rcases hr with ⟨ids, rfl⟩ | ⟨reads, rfl⟩
  · rw [show decoded (.syncRead a n (d.id :: ids)) = .syncRead a n (d.id :: ids) from rfl, MockDevice.handle, SO.get_bind,
      if_pos (by simp)]
    exact hone ids
  · rw [show decoded (.bulkRead ((d.id, a, n) :: reads)) = .bulkRead (readBytes' ((d.id, a, n) :: reads)) from rfl,
      MockDevice.handle, SO.get_bind]
    dsimp only
    have hb : readBytes' ((d.id, a, n) :: reads) = d.id :: (le16 a ++ (le16 n ++ readBytes' reads)) := by simp [readBytes']
    have h0 : (((d.id, a, n) :: reads).map (·.1)).idxOf? d.id = some 0 := by simp [List.idxOf?_cons]
    rw [everyFifth_reads, h0]
    dsimp only
    rw [hb]
    have ha := mock_u16At_le16 (ε := ε) a [d.id] (le16 n ++ readBytes' reads) (a := 1) (b := 3) rfl rfl
    have hn := mock_u16At_le16 (ε := ε) n ([d.id] ++ le16 a) (readBytes' reads) (a := 3) (b := 5) (by simp [le16]) rfl
    rw [List.append_assoc] at hn
    simp only [List.cons_append, List.nil_append] at ha hn
    rw [ha, SO.lift_ok_bind, hn, SO.lift_ok_bind]
    exact hone _

/-- **C53** (partial: in the English claim the motor can be at any place in the list) The motor that is listed first in a
sync read or a bulk read answers as to a read. -/
theorem c53_first_read_partial {ε : Type} {d : MockDevice} (fuel : Nat) {r : Request} {a n : U16} (hd : d.device.Inv)
    (hp : d.device.serialPort.SendOk) (hr : (∃ ids, r = .syncRead a n (d.id :: ids)) ∨ ∃ reads, r = .bulkRead ((d.id, a, n) :: reads))
    (h : Receives d 254#8 r.body) (hroom : Room d.device (((servo d).get a n).data.length + 1)) :
    ∃ d', (MockDevice.step fuel : SO MockDevice ε Unit) d = (d', .ok ()) ∧ d'.id = d.id ∧ servo d' = servo d ∧
      Answers d d' ((servo d).get a n) ∧ d'.device.Inv := by
  obtain ⟨c, h1, h2, h3⟩ := mock_receive (ε := ε) fuel hd h
  rw [if_neg (fun h => h.2 rfl)] at h3
  have key := handle_first (ε := ε) fuel (d := { d with device := c }) hr
  rw [key] at h3
  obtain ⟨d', wire, h4, h5, h6, h7, h8, h9⟩ := mock_handle (ε := ε) (d := { d with device := c }) (r := .read a n) (s' := servo d)
    (reply := (servo d).get a n) fuel h2.inv (h1.sendOk hp) rfl (by unfold Room; rw [h2.writeSize]; exact hroom)
  refine ⟨d', h3.trans h4, h5, h6, ?_, h9.inv⟩
  obtain ⟨reads, h10, h11⟩ := h1.calls
  refine ⟨reads, wire, h11, h7, ?_⟩
  unfold Sent at h8
  rw [h8, ← h10]

/-- **C53** The other motors in a sync read or a bulk read never answer, whatever the first one does. -/
theorem c53_later_read_unanswered {ε : Type} {d : MockDevice} (fuel : Nat) {r : Request} {x : Byte} {ids : List Byte}
    (hd : d.device.Inv) (hr : ReadsOf r (x :: ids)) (hx : x ≠ d.id) (h : Receives d 254#8 r.body) :
    Listened d ((MockDevice.step fuel : SO MockDevice ε Unit) d).1 ∧
      servo ((MockDevice.step fuel : SO MockDevice ε Unit) d).1 = servo d := by
  obtain ⟨c, h1, h2, h3⟩ := mock_receive (ε := ε) fuel hd h
  rw [if_neg (fun h => h.2 rfl)] at h3
  have key : ∃ c' o, (MockDevice.handle fuel (decoded r) : SO MockDevice ε Unit) { d with device := c } =
      ({ d with device := c' }, o) ∧ ReadsOnly c c' := by
    rcases hr with ⟨a, n, rfl⟩ | ⟨reads, rfl, hids⟩
    · rw [show decoded (.syncRead a n (x :: ids)) = .syncRead a n (x :: ids) from rfl, MockDevice.handle, SO.get_bind]
      split
      · exact bulkRead_never fuel a n (d := { d with device := c }) h2.inv hx
      · exact ⟨c, .ok (), rfl, .refl _⟩
    · rw [show decoded (.bulkRead reads) = .bulkRead (readBytes' reads) from rfl, MockDevice.handle, SO.get_bind]
      dsimp only
      rw [everyFifth_reads, ← hids]
      cases (x :: ids).idxOf? d.id with
      | none => exact ⟨c, .ok (), rfl, .refl _⟩
      | some k =>
        dsimp only
        rw [SO.bind_def, SO.lift_apply]
        cases (MockDevice.u16At (readBytes' reads) (k * 5 + 1) (k * 5 + 3) : Outcome ε U16) with
        | ok a =>
          dsimp only
          rw [SO.bind_def, SO.lift_apply]
          cases (MockDevice.u16At (readBytes' reads) (k * 5 + 3) (k * 5 + 5) : Outcome ε U16) with
          | ok n => exact bulkRead_never fuel a n (d := { d with device := c }) h2.inv hx
          | err e => exact ⟨c, .err e, rfl, .refl _⟩
          | panic => exact ⟨c, .panic, rfl, .refl _⟩
          | hang => exact ⟨c, .hang, rfl, .refl _⟩
        | err e => exact ⟨c, .err e, rfl, .refl _⟩
        | panic => exact ⟨c, .panic, rfl, .refl _⟩
        | hang => exact ⟨c, .hang, rfl, .refl _⟩
  obtain ⟨c', o, h4, h5⟩ := key
  rw [h3, h4]
  obtain ⟨reads, h10, h11⟩ := (h1.trans h5).calls
  exact ⟨⟨reads, h11, h10⟩, rfl⟩

/-! ## The refutations -/

/-- The loop that looks for the part of this motor can not move past an empty part. -/
theorem findBulkWrite_hang {ε : Type} {own x : Byte} (hx : x ≠ own) (a : U16) (rest : List Byte) (fuel : Nat) :
    MockDevice.findBulkWrite (ε := ε) own (x :: (le16 a ++ (le16 0#16 ++ rest))) 0 fuel = .hang := by
  have hn := mock_u16At_le16 (ε := ε) 0#16 ([x] ++ le16 a) rest (a := 3) (b := 5) (by simp [le16]) rfl
  rw [List.append_assoc] at hn
  simp only [List.cons_append, List.nil_append] at hn
  induction fuel with
  | zero => rfl
  | succ fuel ih =>
    have h1 : idx (ε := ε) (x :: (le16 a ++ (le16 0#16 ++ rest))) 0 = .ok x := rfl
    have h2 : MockDevice.u16At (ε := ε) (x :: (le16 a ++ (le16 0#16 ++ rest))) (0 + 3) (0 + 5) = .ok 0#16 := hn
    rw [MockDevice.findBulkWrite, h1]
    change (if x = own then _ else _) = _
    rw [if_neg hx, h2]
    exact ih

/-- **C53** A bulk write that starts with an empty part for another motor never ends. -/
theorem c53_bulk_write_hangs {ε : Type} {d : MockDevice} (fuel : Nat) {x : Byte} {a : U16} {after : List (Byte × U16 × List Byte)}
    (hd : d.device.Inv) (hx : x ≠ d.id) (hr : Receives d 254#8 (Request.bulkWrite ((x, a, []) :: after)).body) :
    ((MockDevice.step fuel : SO MockDevice ε Unit) d).2 = .hang := by
  obtain ⟨c, h1, h2, h3⟩ := mock_receive (ε := ε) fuel hd hr
  rw [if_neg (fun h => h.2 rfl)] at h3
  generalize hA : after.flatMap (fun w => w.1 :: (le16 w.2.1 ++ le16 (BitVec.ofNat 16 w.2.2.length) ++ w.2.2)) = A at *
  have hp : ((x, a, []) :: after).flatMap (fun w => w.1 :: (le16 w.2.1 ++ le16 (BitVec.ofNat 16 w.2.2.length) ++ w.2.2)) =
      x :: (le16 a ++ (le16 0#16 ++ A)) := by simp [← hA]
  rw [show decoded (.bulkWrite ((x, a, []) :: after)) = .bulkWrite (((x, a, []) :: after).flatMap
      (fun w => w.1 :: (le16 w.2.1 ++ le16 (BitVec.ofNat 16 w.2.2.length) ++ w.2.2))) from rfl, hp, MockDevice.handle, SO.get_bind,
    findBulkWrite_hang hx] at h3
  rw [h3]
  rfl

/-- The result does not depend on the fuel for instructions without loops. -/
theorem step_fuel {ε : Type} {d : MockDevice} {c : Bus} {x : Instruction} (h : Device.read 10000000 d.device = (c, .ok x))
    (hx : ∀ fuel, (MockDevice.handle fuel x.instruction : SO MockDevice ε Unit) = MockDevice.handle 0 x.instruction) (fuel : Nat) :
    (MockDevice.step fuel : SO MockDevice ε Unit) d = MockDevice.step 0 d := by
  change Device.read MockDevice.timeout _ = _ at h
  unfold MockDevice.step
  rw [SO.bind_ok (attempt_ok (onDevice_apply h)), SO.bind_ok (attempt_ok (onDevice_apply h))]
  dsimp only
  rw [SO.get_bind, SO.get_bind, hx fuel]

theorem mockWith_simulated (bytes : List Byte) : Simulated (mockWith bytes) :=
  ⟨mockWith_default _, List.length_replicate .., by simp [mockWith, MockDevice.new, quietPort],
    by simp [mockWith, MockDevice.new, quietPort]⟩

/-- Motor 2 is to store 01 05, and motor 3 is to store 00 00. -/
def syncWriteOthers : Request := .syncWrite 0#16 2#16 [(2#8, [1#8, 5#8]), (3#8, [0#8, 0#8])]

set_option maxRecDepth 10000 in
/-- **C53** is false for sync writes: data for another motor are taken for an ID. Motor 1 stores something, although the
instruction is only for motors 2 and 3. -/
theorem c53_refuted_sync_write : ¬ C53_sync_write_statement := by
  intro h
  obtain ⟨fuel, d', h1, -, h2, -⟩ := h (mockWith (frame 254#8 syncWriteOthers.body)) 0#16 2#16 [(2#8, [1#8, 5#8]), (3#8, [0#8, 0#8])]
    ⟨List.replicate 200 0#8, none⟩ (mockWith_simulated _) (by decide)
    (mockWith_receives (by decide) (by rw [unstuffs_iff]; decide +kernel)) (by decide +kernel)
  have hr : Device.read 10000000 (mockWith (frame 254#8 syncWriteOthers.body)).device =
      ((Device.read 10000000 (mockWith (frame 254#8 syncWriteOthers.body)).device).1,
        .ok ⟨254#8, .syncWrite 0#16 2#16 [2#8, 1#8, 5#8, 3#8, 0#8, 0#8]⟩) := Prod.ext rfl (by decide +kernel)
  change (MockDevice.step fuel : SO MockDevice Empty Unit) (mockWith (frame 254#8 syncWriteOthers.body)) = _ at h1
  rw [step_fuel hr (fun _ => rfl)] at h1
  have : (servo ((MockDevice.step 0 : SO MockDevice Empty Unit) (mockWith (frame 254#8 syncWriteOthers.body))).1).memory.take 2 =
      [5#8, 3#8] := by decide +kernel
  rw [h1, h2] at this
  revert this
  decide +kernel

set_option maxRecDepth 10000 in
/-- **C53** is false for bulk writes: motor 1 does not find its part, if it is not the first. -/
theorem c53_refuted_bulk_write : ¬ C53_bulk_write_statement := by
  intro h
  obtain ⟨fuel, d', h1, -⟩ := h (mockWith (frame 254#8 (Request.bulkWrite [(2#8, 5#16, [7#8]), (1#8, 6#16, [8#8])]).body))
    [(2#8, 5#16, [7#8]), (1#8, 6#16, [8#8])] _ (mockWith_simulated _)
    (mockWith_receives (by decide) (by rw [unstuffs_iff]; decide +kernel)) rfl
  obtain ⟨c, -, -, h3⟩ := mock_receive (ε := Empty) (r := .bulkWrite [(2#8, 5#16, [7#8]), (1#8, 6#16, [8#8])])
    (d := mockWith (frame 254#8 (Request.bulkWrite [(2#8, 5#16, [7#8]), (1#8, 6#16, [8#8])]).body)) fuel (to := 254#8)
    ⟨(defaultBus_sizes (mockWith_default _)).2.2.1, (defaultBus_sizes (mockWith_default _)).2.2.2⟩
    (mockWith_receives (by decide) (by rw [unstuffs_iff]; decide +kernel))
  rw [if_neg (fun h => h.2 rfl)] at h3
  rw [h3, show decoded (.bulkWrite [(2#8, 5#16, [7#8]), (1#8, 6#16, [8#8])]) =
    .bulkWrite [2#8, 5#8, 0#8, 1#8, 0#8, 7#8, 1#8, 6#8, 0#8, 1#8, 0#8, 8#8] from rfl, MockDevice.handle, SO.get_bind] at h1
  have hno : MockDevice.findBulkWrite (ε := Empty) 1#8 [2#8, 5#8, 0#8, 1#8, 0#8, 7#8, 1#8, 6#8, 0#8, 1#8, 0#8, 8#8] 0 fuel = .panic ∨
      MockDevice.findBulkWrite (ε := Empty) 1#8 [2#8, 5#8, 0#8, 1#8, 0#8, 7#8, 1#8, 6#8, 0#8, 1#8, 0#8, 8#8] 0 fuel = .hang := by
    match fuel with
    | 0 | 1 | 2 => exact .inr rfl
    | n + 3 => exact .inl rfl
  change (SO.lift (MockDevice.findBulkWrite (ε := Empty) 1#8 [2#8, 5#8, 0#8, 1#8, 0#8, 7#8, 1#8, 6#8, 0#8, 1#8, 0#8, 8#8] 0 fuel) >>= _) _ =
    _ at h1
  rcases hno with hno | hno
  · rw [hno] at h1
    cases (Prod.mk.inj h1).2
  · rw [hno] at h1
    cases (Prod.mk.inj h1).2

/-- The answer of motor 2 to the sync read. -/
def answerOfTwo : Item := ⟨[], 2#8, [0x55#8, 0#8, 9#8], 0x55#8, [0#8, 9#8]⟩

set_option maxRecDepth 10000 in
/-- **C53** is false for reads: motor 1 does not answer after motor 2 has. -/
theorem c53_refuted_read : ¬ C53_reads_statement := by
  intro h
  have hr : ReceivesThen (mockWith (frame 254#8 (Request.syncRead 0#16 1#16 [2#8, 1#8]).body ++ itemBytes [answerOfTwo])) 254#8
      (Request.syncRead 0#16 1#16 [2#8, 1#8]).body (itemBytes [answerOfTwo]) := by
    refine ⟨[], ⟨[], 254#8, (Request.syncRead 0#16 1#16 [2#8, 1#8]).body, _, _⟩, by simp [Statuses],
      ⟨(by decide : ¬ header <:+: []), by decide, by decide +kernel, by rw [unstuffs_iff]; decide +kernel⟩, rfl, rfl, by decide +kernel⟩
  obtain ⟨fuel, d', h1, -, -, h2⟩ := h _ 0#16 1#16 [2#8, 1#8] [answerOfTwo] _ _ (mockWith_simulated _) (by decide)
    (by
      intro i hi
      rw [List.mem_singleton] at hi
      subst hi
      exact ⟨⟨(by decide : ¬ header <:+: []), by decide, by decide +kernel, by rw [unstuffs_iff]; decide +kernel⟩, rfl⟩)
    (by decide +kernel) hr rfl
  obtain ⟨statuses, i, hst⟩ := hr
  obtain ⟨-, -, i1, i2⟩ := defaultBus_sizes (mockWith_default (frame 254#8 (Request.syncRead 0#16 1#16 [2#8, 1#8]).body ++ itemBytes [answerOfTwo]))
  have h3 := (c53_later_read_unanswered (ε := Empty) fuel ⟨i1, i2⟩ (.inl ⟨0#16, 1#16, rfl⟩) (by decide) ⟨statuses, i, _, hst⟩).1
  rw [h1] at h3
  change Answers _ _ _ at h2
  obtain ⟨reads, wire, -, -, h4⟩ := h2
  obtain ⟨reads', h5, h6⟩ := h3
  rw [h6, List.append_assoc, List.append_cancel_left_eq] at h4
  obtain ⟨cap, D, h7⟩ := h5 (.discard true) (by rw [h4]; simp)
  cases h7

/-- A sync write for the motor, after the data of another one: motor 1 stores 06 07 at address 3. -/
example : ((MockDevice.step 0 : SO MockDevice Empty Unit) (mockWith (frame 254#8 (Request.syncWrite 3#16 2#16
    [(2#8, [4#8, 5#8]), (1#8, [6#8, 7#8])]).body))).1.controlTable.take 6 = [0#8, 0#8, 0#8, 6#8, 7#8, 0#8] := by decide +kernel

set_option maxRecDepth 10000 in
/-- A bulk read that lists the motor first is answered. -/
example : ((MockDevice.step 0 : SO MockDevice Empty Unit) (mockWith (frame 254#8 (Request.bulkRead
    [(1#8, 0#16, 2#16), (2#8, 7#16, 1#16)]).body))).1.device.serialPort.log.getLast? =
      some (.write (frame 1#8 [0x55#8, 0#8, 0#8, 0#8]) true) := by decide +kernel

/-! ## The theorems on concrete cases -/

example := c53_sync_write_partial (ε := Empty) 0 (a := 3#16) (n := 2#16) (before := [(2#8, [4#8, 5#8])]) (after := []) (data := [6#8, 7#8])
  (d := mockWith (frame 254#8 (Request.syncWrite 3#16 2#16 [(2#8, [4#8, 5#8]), (1#8, [6#8, 7#8])]).body)) (mockWith_inv _) rfl
  (by decide) (mockWith_receives (by decide) ((unstuffs_iff _ _).2 (by decide +kernel)))
example := c53_sync_write_others_partial (ε := Empty) 0 (a := 3#16) (n := 2#16) (writes := [(2#8, [4#8, 5#8])])
  (d := mockWith (frame 254#8 (Request.syncWrite 3#16 2#16 [(2#8, [4#8, 5#8])]).body)) (mockWith_inv _)
  (by decide) (mockWith_receives (by decide) ((unstuffs_iff _ _).2 (by decide +kernel)))
example := c53_bulk_write_first_partial (ε := Empty) 0 (a := 3#16) (data := [6#8, 7#8]) (after := [(2#8, 9#16, [1#8])])
  (d := mockWith (frame 254#8 (Request.bulkWrite [(1#8, 3#16, [6#8, 7#8]), (2#8, 9#16, [1#8])]).body)) (mockWith_inv _) (by decide)
  (mockWith_receives (by decide) ((unstuffs_iff _ _).2 (by decide +kernel)))
example := c53_unlisted_read (ε := Empty) 0 (r := .syncRead 0#16 2#16 [2#8, 3#8]) (ids := [2#8, 3#8])
  (d := mockWith (frame 254#8 (Request.syncRead 0#16 2#16 [2#8, 3#8]).body)) (mockWith_inv _) (.inl ⟨_, _, rfl⟩) (by decide)
  (mockWith_receives (by decide) ((unstuffs_iff _ _).2 (by decide +kernel)))
example := c53_first_read_partial (ε := Empty) 0 (r := .syncRead 0#16 2#16 [1#8, 3#8]) (a := 0#16) (n := 2#16)
  (d := mockWith (frame 254#8 (Request.syncRead 0#16 2#16 [1#8, 3#8]).body)) (mockWith_inv _) (mockWith_sendOk _) (.inl ⟨_, rfl⟩)
  (mockWith_receives (by decide) ((unstuffs_iff _ _).2 (by decide +kernel))) (by unfold Room; decide +kernel)
example := c53_later_read_unanswered (ε := Empty) 5 (r := .bulkRead [(2#8, 7#16, 1#16), (1#8, 0#16, 2#16)]) (x := 2#8) (ids := [1#8])
  (d := mockWith (frame 254#8 (Request.bulkRead [(2#8, 7#16, 1#16), (1#8, 0#16, 2#16)]).body)) (mockWith_inv _) (.inr ⟨_, rfl, rfl⟩) (by decide)
  (mockWith_receives (by decide) ((unstuffs_iff _ _).2 (by decide +kernel)))
example := c53_bulk_write_hangs (ε := Empty) 5 (x := 2#8) (a := 9#16) (after := [(1#8, 3#16, [6#8, 7#8])])
  (d := mockWith (frame 254#8 (Request.bulkWrite [(2#8, 9#16, []), (1#8, 3#16, [6#8, 7#8])]).body)) (mockWith_inv _) (by decide)
  (mockWith_receives (by decide) ((unstuffs_iff _ _).2 (by decide +kernel)))

end Dxl.Props
