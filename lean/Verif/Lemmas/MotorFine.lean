import Verif.Props.IntegrationTests

/-! # The thread of a simulated motor does not panic on whole packets -/

namespace Dxl.Props
open Dxl Spec Spec.Line Dxl.MockSerial

/-- The instructions that the simulated motor can carry out with its buffers, whoever they are for: it reads at most 87 bytes. -/
inductive Modest : Request → Prop
  | ping : Modest .ping
  | read {a n : U16} (hn : n.toNat ≤ 87) : Modest (.read a n)
  | write {a : U16} {data : List Byte} : Modest (.write a data)
  | regWrite {a : U16} {data : List Byte} : Modest (.regWrite a data)
  | action : Modest .action
  | syncRead {a n : U16} {ids : List Byte} (hn : n.toNat ≤ 87) : Modest (.syncRead a n ids)
  | bulkRead {reads : List (Byte × U16 × U16)} (hn : ∀ r ∈ reads, r.2.2.toNat ≤ 87) : Modest (.bulkRead reads)

theorem modest_of {r : Request} (h : Served r) (hn : answerSize r ≤ 5) : Modest r := by
  obtain ⟨s', reply, h⟩ := h newServo
  cases r with
  | ping => exact .ping
  | read a n => exact .read (by unfold answerSize at hn; dsimp only at hn; omega)
  | write a data => exact .write
  | regWrite a data => exact .regWrite
  | action => exact .action
  | _ => cases h

/-- The state of a motor whose buffers have the size that the test gives them, on a port that accepts everything. -/
structure Fine (d : MockDevice) : Prop where
  inv : d.device.Inv
  readSize : d.device.readBuffer.length = 128
  writeSize : d.device.writeBuffer.length = 128
  accepts : Accepts d.device.serialPort

/-- It does not panic, it ends if `E`, and if it ends then it leaves some of the messages. -/
def Quits (E : Prop) (R : Byte → Request → Prop) (d : MockDevice) (x : MockDevice × Outcome Empty Unit) : Prop :=
  ∀ (p : List Msg) (es : List Seen) (h : List Event'), d.device.pending = bytes p → (∀ m ∈ p ++ heard h, GoodOf R m.2) →
    Saw d.device.serialPort es x.1.device.serialPort → h.map Event'.plain = es → (∀ e, Seen.failed e ∈ es → e.isTimeout = true) →
    x.2 ≠ .panic ∧ (E → x.2 ≠ .hang) ∧ (x.2 = .ok () → ∃ a q, p ++ heard h = a ++ q ∧ x.1.device.pending = bytes q)

theorem Quits.same {E : Prop} {R : Byte → Request → Prop} {d : MockDevice} : Quits E R d (d, .ok ()) := by
  intro p es h hp _ hsaw he _
  refine ⟨by simp, fun _ => by simp, fun _ => ⟨[], p ++ heard h, rfl, ?_⟩⟩
  obtain rfl := saw_unique hsaw (.nil _)
  obtain rfl := List.map_eq_nil_iff.mp he
  simpa [heard] using hp

/-- The instructions for one motor. -/
theorem served_quits {E : Prop} {R : Byte → Request → Prop} {d : MockDevice} (hd : Fine d) (fuel : Nat) {r : Request} {s' : Servo} {reply : ServoReply}
    (hs : (servo d).serve r = some (s', reply)) (hl : reply.data.length ≤ 87) :
    Quits E R d ((MockDevice.handle fuel (decoded r) : SO MockDevice Empty Unit) d) := by
  intro p es h hp _ hsaw he _
  obtain ⟨d', -, h1, -⟩ := mock_handle (ε := Empty) fuel hd.inv hd.accepts.sendOk hs (by unfold Room; rw [hd.writeSize]; omega)
  have h2 := mock_answers (ε := Empty) fuel hd.inv hs
  rw [h1] at h2 ⊢
  refine ⟨by simp, fun _ => by simp, fun _ => ⟨p ++ heard h, [], by simp, ?_⟩⟩
  rcases h2 with ⟨-, h2⟩ | ⟨-, -, h2⟩
  · exact absurd rfl h2
  · exact (h2 rfl).2.2

theorem get_short {s : Servo} {a n : U16} (h : n.toNat ≤ 87) : (s.get a n).data.length ≤ 87 := by
  unfold Servo.get
  cases hl : load s.memory a.toNat n.toNat with
  | none => simp [Servo.outside]
  | some data =>
    unfold load at hl
    split at hl
    · cases hl
      simp
      omega
    · cases hl

theorem put_short {s : Servo} {a : U16} {bytes : List Byte} : (s.put a bytes).2.data.length ≤ 87 := by
  unfold Servo.put
  split <;> simp [Servo.done, Servo.outside]

theorem awaitReply_panics {R : Byte → Request → Prop} (x : Byte) (fuel : Nat) : ∀ (d : MockDevice), d.device.Inv →
    d.device.readBuffer.length = 128 → ∀ (p : List Msg) (es : List Seen) (h : List Event'), d.device.pending = bytes p →
    (∀ m ∈ p ++ heard h, GoodOf R m.2) →
    Saw d.device.serialPort es ((MockDevice.awaitReply x fuel : SO MockDevice Empty Bool) d).1.device.serialPort →
    h.map Event'.plain = es → ((MockDevice.awaitReply x fuel : SO MockDevice Empty Bool) d).2 ≠ .panic := by
  induction fuel with
  | zero => intro d _ _ p es h _ _ _ _ hv; cases hv
  | succ fuel ih =>
    intro d hd hN p es h hp hg hsaw he hv
    have hsound := Device.read_sound MockDevice.timeout d.device hd
    obtain ⟨es₁, es₂, rfl, ht₁, ht₂⟩ := WatchedOn.split
      (WatchedOn.attempt (MockDevice.onDevice_seen (Device.read_watched MockDevice.timeout))) (fun o => by
        split
        · split <;> exact .pure _
        · exact .pure _
        · split
          · exact MockDevice.awaitReply_seen _ _
          · exact .pure _
        · exact .pure _) hd hsaw
    change Saw _ es₂ ((MockDevice.awaitReply x (fuel + 1) : SO MockDevice Empty Bool) d).1.device.serialPort at ht₂
    rw [attempt_fst] at ht₁ ht₂
    change Saw _ es₁ (Device.read MockDevice.timeout d.device).1.serialPort at ht₁
    change Saw (Device.read MockDevice.timeout d.device).1.serialPort es₂ _ at ht₂
    obtain ⟨h₁, h₂, rfl, he₁, he₂⟩ := List.map_eq_append_iff.mp he
    rw [heard_append, ← List.append_assoc] at hg
    rw [read_fst] at ht₁ ht₂ hsound
    have hpicks := readRawLoop_picks _ _ d.device p es₁ h₁ hd hN hp (fun m hm => hg m (List.mem_append_left _ hm)) ht₁ he₁
    rcases hx : Device.readRawLoop (d.device.serialPort.now + MockDevice.timeout)
      (d.device.readLen + d.device.serialPort.measure + 1) d.device with ⟨c, o⟩
    have hread : (MockDevice.onDevice (Device.read MockDevice.timeout)) d = ({ d with device := c }, _) := onDevice_apply (read_eq hx)
    rw [hx] at hpicks ht₂ hsound
    dsimp only at ht₂ hsound
    cases hpicks with
    | hangs =>
      rw [MockDevice.awaitReply, SO.bind_def] at hv
      unfold SO.attempt at hv
      rw [hread] at hv
      cases hv
    | @ended _ e hst hpend =>
      by_cases ht : e.isTimeout
      · have hloop : (MockDevice.awaitReply x (fuel + 1) : SO MockDevice Empty Bool) d =
            (MockDevice.awaitReply x fuel : SO MockDevice Empty Bool) { d with device := c } := by
          rw [MockDevice.awaitReply, SO.bind_def]
          unfold SO.attempt
          rw [hread]
          simp only [Outcome.bind]
          rw [if_pos ht]
        rw [hloop] at ht₂ hv
        exact ih { d with device := c } hsound.inv (hsound.readSize.trans hN) [] es₂ h₂ hpend
          (fun m hm => hg m (List.mem_append_right _ (by simpa using hm))) ht₂ he₂ hv
      · rw [MockDevice.awaitReply, SO.bind_def] at hv
        unfold SO.attempt at hv
        rw [hread] at hv
        simp only [Outcome.bind] at hv
        rw [if_neg ht] at hv
        cases hv
    | @request statuses rest m to r _ pkt hq hst hm hrto hsv hc hpend =>
      have hins : Device.toInstruction ⟨pkt⟩ = .ok ⟨to, decoded r⟩ := by
        rw [toInstruction_carries hc, parseInstruction_request]
        rfl
      rw [MockDevice.awaitReply, SO.bind_def] at hv
      unfold SO.attempt at hv
      rw [hread] at hv
      simp only [Outcome.bind, hins, Outcome.mapErr_ok] at hv
      clear hins
      generalize decoded r = z at hv
      cases z with
      | unknown i ps =>
        dsimp only at hv
        split at hv <;> cases hv
      | _ => cases hv

theorem syncBulkRead_quits {E : Prop} {R : Byte → Request → Prop} (hE : ¬ E) (fuel : Nat) {a n : U16} (hn : n.toNat ≤ 87) (ids : List Byte) {d : MockDevice}
    (hd : Fine d) : Quits E R d ((MockDevice.handleSyncBulkRead fuel a n ids : SO MockDevice Empty Unit) d) := by
  cases ids with
  | nil => exact .same
  | cons x ids =>
    by_cases hx : x = d.id
    · have : (MockDevice.handleSyncBulkRead fuel a n (x :: ids) : SO MockDevice Empty Unit) d =
          MockDevice.handle fuel (decoded (.read a n)) d := by
        rw [MockDevice.handleSyncBulkRead, SO.get_bind, if_pos hx, show decoded (.read a n) = .read a n from rfl, MockDevice.handle]
      rw [this]
      exact served_quits hd fuel (r := .read a n) rfl (get_short hn)
    · obtain ⟨c, o, h1, h2, h3⟩ := awaitReply_never (ε := Empty) x fuel d hd.inv
      have h4 := awaitReply_waits (R := R) x fuel d hd.inv hd.readSize
      have h5 := awaitReply_panics (R := R) x fuel d hd.inv hd.readSize
      have heq : (MockDevice.handleSyncBulkRead fuel a n (x :: ids) : SO MockDevice Empty Unit) d =
          ({ d with device := c }, o.bind fun _ => .ok ()) := by
        rw [MockDevice.handleSyncBulkRead, SO.get_bind, if_neg hx, SO.bind_def, h1]
        cases o with
        | ok y =>
          cases y with
          | true => exact absurd rfl h3
          | false => rfl
        | _ => rfl
      rw [heq]
      rw [h1] at h4 h5
      intro p es h hp hg hsaw he _
      have h5 := h5 p es h hp hg hsaw he
      dsimp only at h5 ⊢
      refine ⟨?_, fun he => absurd he hE, fun ho => ?_⟩
      · cases o with
        | panic => exact absurd rfl h5
        | _ => simp [Outcome.bind]
      · cases o with
        | ok v => exact (h4 p es h hp hg hsaw he v rfl).2.2.2
        | _ => cases ho

theorem bulk_reads {reads : List (Byte × U16 × U16)} {k : Nat} {id : Byte} {a n : U16} (hk : reads[k]? = some (id, a, n)) :
    (MockDevice.u16At (readBytes' reads) (k * 5 + 1) (k * 5 + 3) : Outcome Empty U16) = .ok a ∧
      (MockDevice.u16At (readBytes' reads) (k * 5 + 3) (k * 5 + 5) : Outcome Empty U16) = .ok n := by
  obtain ⟨hlt, he⟩ := List.getElem?_eq_some_iff.mp hk
  have hsplit : reads = reads.take k ++ (id, a, n) :: reads.drop (k + 1) := by
    rw [← he, List.getElem_cons_drop, List.take_append_drop]
  have hlen : (readBytes' (reads.take k)).length = k * 5 := by
    have : ∀ l : List (Byte × U16 × U16), (readBytes' l).length = l.length * 5 := by
      intro l
      induction l with
      | nil => rfl
      | cons r l ih =>
        have : readBytes' (r :: l) = (r.1 :: (le16 r.2.1 ++ le16 r.2.2)) ++ readBytes' l := rfl
        rw [this, List.length_append, ih]
        simp [le16]
        omega
    rw [this, List.length_take]
    omega
  have hbytes : readBytes' reads = readBytes' (reads.take k) ++ (id :: (le16 a ++ (le16 n ++ readBytes' (reads.drop (k + 1))))) := by
    conv => lhs; rw [hsplit]
    simp [readBytes']
  rw [hbytes]
  generalize readBytes' (reads.take k) = A at hlen
  generalize readBytes' (reads.drop (k + 1)) = B
  have h1 := mock_u16At_le16 (ε := Empty) a (A ++ [id]) (le16 n ++ B) (a := k * 5 + 1) (b := k * 5 + 3) (by simp [hlen]) (by omega)
  have h2 := mock_u16At_le16 (ε := Empty) n (A ++ [id] ++ le16 a) B (a := k * 5 + 3) (b := k * 5 + 5) (by simp [hlen, le16]) (by omega)
  simp only [List.append_assoc, List.cons_append, List.nil_append] at h1 h2
  exact ⟨h1, h2⟩

theorem handle_quits {E : Prop} {R : Byte → Request → Prop} (fuel : Nat) {r : Request} (hr : Modest r) (hE : E → Served r) {d : MockDevice}
    (hd : Fine d) : Quits E R d ((MockDevice.handle fuel (decoded r) : SO MockDevice Empty Unit) d) := by
  cases hr with
  | ping => exact served_quits hd fuel (r := .ping) rfl (by decide)
  | @read a n hn => exact served_quits hd fuel (r := .read a n) rfl (get_short hn)
  | @write a data => exact served_quits hd fuel (r := .write a data) (s' := ((servo d).put a data).1) rfl put_short
  | @regWrite a data => exact served_quits hd fuel (r := .regWrite a data) rfl (by simp [Servo.done])
  | action =>
    rcases hreg : d.actionRegister with _ | ⟨a, data⟩
    · refine served_quits hd fuel (r := .action) (s' := servo d) (reply := Servo.outside) ?_ (by simp [Servo.outside])
      unfold Servo.serve
      rw [show (servo d).registered = d.actionRegister from rfl, hreg]
    · refine served_quits hd fuel (r := .action) (s' := (Servo.put { servo d with registered := none } a data).1)
        (reply := (Servo.put { servo d with registered := none } a data).2) ?_ put_short
      unfold Servo.serve
      rw [show (servo d).registered = d.actionRegister from rfl, hreg]
  | @syncRead a n ids hn =>
    rw [show decoded (.syncRead a n ids) = .syncRead a n ids from rfl, MockDevice.handle, SO.get_bind]
    split
    · exact syncBulkRead_quits (fun he => by obtain ⟨s', reply, h⟩ := hE he newServo; cases h) fuel hn ids hd
    · exact .same
  | @bulkRead reads hn =>
    rw [show decoded (.bulkRead reads) = .bulkRead (readBytes' reads) from rfl, MockDevice.handle, SO.get_bind]
    dsimp only
    rw [everyFifth_reads]
    cases hk : (reads.map (·.1)).idxOf? d.id with
    | none => exact .same
    | some k =>
      have hlt : k < reads.length := by
        have := List.idxOf?_eq_some_iff.mp hk
        obtain ⟨h, -⟩ := this
        simpa using h
      obtain ⟨h1, h2⟩ := bulk_reads (List.getElem?_eq_getElem hlt)
      dsimp only
      rw [h1, SO.lift_ok_bind, h2, SO.lift_ok_bind]
      exact syncBulkRead_quits (fun he => by obtain ⟨s', reply, h⟩ := hE he newServo; cases h) fuel (hn _ (List.getElem_mem hlt)) _ hd

/-- One turn of the loop. -/
theorem step_quits {E : Prop} {R : Byte → Request → Prop} (hR : ∀ to r, R to r → Modest r ∧ (E → Served r)) (fuel : Nat) {d : MockDevice} (hd : Fine d) :
    Quits E R d ((MockDevice.step fuel : SO MockDevice Empty Unit) d) := by
  intro p es h hp hg hsaw he hf
  obtain ⟨e₁, e₂, rfl, ht₁, ht₂⟩ := WatchedOn.split
    (WatchedOn.attempt (MockDevice.onDevice_seen (Device.read_watched MockDevice.timeout))) (fun o => by
      split
      · split
        · exact .pure _
        · exact .panic
      · exact .panic
      · refine .bind .get fun d => ?_
        split
        · exact .pure _
        · exact MockDevice.handle_seen _ _) hd.inv hsaw
  change Saw _ e₂ ((MockDevice.step fuel : SO MockDevice Empty Unit) d).1.device.serialPort at ht₂
  rw [attempt_fst] at ht₁ ht₂
  change Saw _ e₁ (Device.read MockDevice.timeout d.device).1.serialPort at ht₁
  change Saw (Device.read MockDevice.timeout d.device).1.serialPort e₂ _ at ht₂
  have hsound := Device.read_sound MockDevice.timeout d.device hd.inv
  obtain ⟨h₁, h₂, rfl, he₁, he₂⟩ := List.map_eq_append_iff.mp he
  rw [heard_append, ← List.append_assoc] at hg ⊢
  rw [read_fst] at ht₁ ht₂ hsound
  have hpicks := readRawLoop_picks _ _ d.device p e₁ h₁ hd.inv hd.readSize hp (fun m hm => hg m (List.mem_append_left _ hm)) ht₁ he₁
  rcases hx : Device.readRawLoop (d.device.serialPort.now + MockDevice.timeout)
    (d.device.readLen + d.device.serialPort.measure + 1) d.device with ⟨c, o⟩
  have hread := step_read fuel hx
  rw [hx] at hpicks ht₂ hsound ht₁
  dsimp only at ht₂ hsound ht₁
  have hfine : Fine { d with device := c } :=
    ⟨hsound.inv, hsound.readSize.trans hd.readSize, hsound.writeSize.trans hd.writeSize, .saw ht₁ hd.accepts⟩
  have done : ∀ {a q : List Msg}, p ++ heard h₁ = a ++ q → c.pending = bytes q →
      (MockDevice.step fuel : SO MockDevice Empty Unit) d = ({ d with device := c }, .ok ()) →
      ((MockDevice.step fuel : SO MockDevice Empty Unit) d).2 ≠ .panic ∧
      (E → ((MockDevice.step fuel : SO MockDevice Empty Unit) d).2 ≠ .hang) ∧
      (((MockDevice.step fuel : SO MockDevice Empty Unit) d).2 = .ok () → ∃ a q, p ++ heard h₁ ++ heard h₂ = a ++ q ∧
        ((MockDevice.step fuel : SO MockDevice Empty Unit) d).1.device.pending = bytes q) := by
    intro a q h1 h2 h3
    rw [h3] at ht₂ ⊢
    obtain rfl := saw_unique ht₂ (.nil _)
    obtain rfl := List.map_eq_nil_iff.mp he₂
    exact ⟨by simp, fun _ => by simp, fun _ => ⟨a, q, by simpa [heard] using h1, h2⟩⟩
  cases hpicks with
  | hangs =>
    have := (c26_terminates MockDevice.timeout hd.inv.rInv).1
    rw [readRaw_eq, hx] at this
    exact absurd rfl this
  | @ended _ e hst hpend hfail =>
    have ht := hf e (List.mem_append_left _ hfail)
    refine done (a := p ++ heard h₁) (q := []) (by simp) hpend ?_
    have : (MockDevice.onDevice (Device.read MockDevice.timeout)) d = ({ d with device := c }, .err (.io e)) :=
      onDevice_apply (read_eq hx)
    unfold MockDevice.step
    rw [SO.bind_def]
    unfold SO.attempt
    rw [this]
    dsimp only
    rw [if_pos ht]
    rfl
  | @request statuses rest m to r _ pkt hq hst hm hrto hsv hc hpend =>
    have k := hread.2.2 pkt to r rfl hc
    by_cases hid : to ≠ d.id ∧ to ≠ 254#8
    · rw [if_pos hid] at k
      exact done (a := statuses ++ [m]) (q := rest) (by rw [hq]; simp) hpend k
    · rw [if_neg hid] at k
      rw [k] at ht₂ ⊢
      have hg₂ : ∀ x ∈ rest ++ heard h₂, GoodOf R x.2 := fun x hx => hg x (by
        rw [hq, List.append_assoc, List.cons_append]
        exact List.mem_append_right _ (List.mem_cons_of_mem _ hx))
      obtain ⟨k1, k0, k2⟩ := handle_quits fuel (hR to r hrto).1 (hR to r hrto).2 hfine rest e₂ h₂ hpend hg₂ ht₂ he₂ fun e h => hf e (List.mem_append_right _ h)
      refine ⟨k1, k0, fun ho => ?_⟩
      obtain ⟨a, q, k3, k4⟩ := k2 ho
      refine ⟨statuses ++ m :: a, q, ?_, k4⟩
      rw [hq, List.append_assoc, List.cons_append, k3]
      simp

/-- The loop. -/
theorem run_quits {E : Prop} {R : Byte → Request → Prop} (hR : ∀ to r, R to r → Modest r ∧ (E → Served r)) (fuel : Nat) : ∀ (n : Nat) (d : MockDevice), Fine d →
    ∀ (p : List Msg) (es : List Seen) (h : List Event'), d.device.pending = bytes p → (∀ m ∈ p ++ heard h, GoodOf R m.2) →
    Saw d.device.serialPort es ((MockDevice.run fuel n : SO MockDevice Empty Unit) d).1.device.serialPort → h.map Event'.plain = es →
    (∀ e, Seen.failed e ∈ es → e.isTimeout = true) → ((MockDevice.run fuel n : SO MockDevice Empty Unit) d).2 ≠ .panic ∧
    (E → ((MockDevice.run fuel n : SO MockDevice Empty Unit) d).2 ≠ .hang) := by
  intro n
  induction n with
  | zero => intro d _ p es h _ _ _ _ _; exact ⟨fun h => (by cases h), fun _ h => (by cases h)⟩
  | succ n ih =>
    intro d hd p es h hp hg hsaw he hf
    obtain ⟨es₁, es₂, rfl, hs₁, hs₂⟩ := WatchedOn.split (MockDevice.step_seen fuel) (fun _ => MockDevice.run_seen fuel n) hd.inv hsaw
    change Saw _ es₂ ((MockDevice.run fuel (n + 1) : SO MockDevice Empty Unit) d).1.device.serialPort at hs₂
    obtain ⟨h₁, h₂, rfl, he₁, he₂⟩ := List.map_eq_append_iff.mp he
    rw [heard_append, ← List.append_assoc] at hg
    have hstep := (MockDevice.step_seen (ε := Empty) fuel d hd.inv).1
    obtain ⟨k1, k0, k2⟩ := step_quits hR fuel hd p es₁ h₁ hp (fun m hm => hg m (List.mem_append_left _ hm)) hs₁ he₁
      fun e h => hf e (List.mem_append_left _ h)
    rcases hy : (MockDevice.step fuel : SO MockDevice Empty Unit) d with ⟨d', o⟩
    rw [hy] at k0 k1 k2 hstep hs₁ hs₂
    dsimp only at k0 k1 k2 hstep hs₁ hs₂
    cases o with
    | ok u =>
      obtain ⟨a, q, k3, k4⟩ := k2 rfl
      have hrun : (MockDevice.run fuel (n + 1) : SO MockDevice Empty Unit) d = (MockDevice.run fuel n : SO MockDevice Empty Unit) d' := by
        rw [MockDevice.run, SO.bind_ok hy]
      rw [hrun] at hs₂ ⊢
      refine ih d' ⟨hstep.inv, hstep.readSize.trans hd.readSize, hstep.writeSize.trans hd.writeSize, .saw hs₁ hd.accepts⟩ q es₂ h₂ k4
        (fun m hm => hg m ?_) hs₂ he₂ fun e h => hf e (List.mem_append_right _ h)
      rw [k3]
      rcases List.mem_append.mp hm with hm | hm
      · exact List.mem_append_left _ (List.mem_append_right _ hm)
      · exact List.mem_append_right _ hm
    | err e => cases e
    | panic => exact absurd rfl k1
    | hang =>
      rw [MockDevice.run, SO.bind_hang hy]
      exact ⟨by simp, fun he => absurd rfl (k0 he)⟩

/-! ## A motor that waits for another -/

/-- Only status packets. -/
abbrev NoRequest (_ : Byte) (_ : Request) : Prop := False

theorem awaitReply_forever (x : Byte) (fuel : Nat) : ∀ (d : MockDevice), d.device.Inv →
    d.device.readBuffer.length = 128 → ∀ (p : List Msg) (es : List Seen) (h : List Event'), d.device.pending = bytes p →
    (∀ m ∈ p ++ heard h, GoodOf NoRequest m.2) →
    Saw d.device.serialPort es ((MockDevice.awaitReply x fuel : SO MockDevice Empty Bool) d).1.device.serialPort →
    h.map Event'.plain = es → (∀ e, Seen.failed e ∈ es → e.isTimeout = true) →
    ((MockDevice.awaitReply x fuel : SO MockDevice Empty Bool) d).2 = .hang := by
  induction fuel with
  | zero => intro d _ _ p es h _ _ _ _ _; rfl
  | succ fuel ih =>
    intro d hd hN p es h hp hg hsaw he hf
    have hsound := Device.read_sound MockDevice.timeout d.device hd
    obtain ⟨es₁, es₂, rfl, ht₁, ht₂⟩ := WatchedOn.split
      (WatchedOn.attempt (MockDevice.onDevice_seen (Device.read_watched MockDevice.timeout))) (fun o => by
        split
        · split <;> exact .pure _
        · exact .pure _
        · split
          · exact MockDevice.awaitReply_seen _ _
          · exact .pure _
        · exact .pure _) hd hsaw
    change Saw _ es₂ ((MockDevice.awaitReply x (fuel + 1) : SO MockDevice Empty Bool) d).1.device.serialPort at ht₂
    rw [attempt_fst] at ht₁ ht₂
    change Saw _ es₁ (Device.read MockDevice.timeout d.device).1.serialPort at ht₁
    change Saw (Device.read MockDevice.timeout d.device).1.serialPort es₂ _ at ht₂
    obtain ⟨h₁, h₂, rfl, he₁, he₂⟩ := List.map_eq_append_iff.mp he
    rw [heard_append, ← List.append_assoc] at hg
    rw [read_fst] at ht₁ ht₂ hsound
    have hpicks := readRawLoop_picks _ _ d.device p es₁ h₁ hd hN hp (fun m hm => hg m (List.mem_append_left _ hm)) ht₁ he₁
    rcases hx : Device.readRawLoop (d.device.serialPort.now + MockDevice.timeout)
      (d.device.readLen + d.device.serialPort.measure + 1) d.device with ⟨c, o⟩
    have hread : (MockDevice.onDevice (Device.read MockDevice.timeout)) d = ({ d with device := c }, _) := onDevice_apply (read_eq hx)
    rw [hx] at hpicks ht₂ hsound
    dsimp only at ht₂ hsound
    cases hpicks with
    | hangs =>
      rw [MockDevice.awaitReply, SO.bind_def]
      unfold SO.attempt
      rw [hread]
      rfl
    | @ended _ e hst hpend hfail =>
      have ht := hf e (List.mem_append_left _ hfail)
      have hloop : (MockDevice.awaitReply x (fuel + 1) : SO MockDevice Empty Bool) d =
          (MockDevice.awaitReply x fuel : SO MockDevice Empty Bool) { d with device := c } := by
        rw [MockDevice.awaitReply, SO.bind_def]
        unfold SO.attempt
        rw [hread]
        simp only [Outcome.bind]
        rw [if_pos ht]
      rw [hloop] at ht₂ ⊢
      exact ih { d with device := c } hsound.inv (hsound.readSize.trans hN) [] es₂ h₂ hpend
        (fun m hm => hg m (List.mem_append_right _ (by simpa using hm))) ht₂ he₂ fun e h => hf e (List.mem_append_right _ h)
    | request _ _ _ hr => exact hr.elim

/-- The instruction reads from several motors; `x` is the first of them, and this motor is another one. -/
theorem handle_forever (fuel : Nat) {r : Request} {x : Byte} {ids : List Byte} (hr : ReadsOf r (x :: ids)) {d : MockDevice} (hx : x ≠ d.id)
    (hmem : d.id ∈ ids) (hd : d.device.Inv) (hN : d.device.readBuffer.length = 128) {p : List Msg} {es : List Seen} {h : List Event'}
    (hp : d.device.pending = bytes p) (hg : ∀ m ∈ p ++ heard h, GoodOf NoRequest m.2)
    (hsaw : Saw d.device.serialPort es ((MockDevice.handle fuel (decoded r) : SO MockDevice Empty Unit) d).1.device.serialPort)
    (he : h.map Event'.plain = es) (hf : ∀ e, Seen.failed e ∈ es → e.isTimeout = true) :
    ((MockDevice.handle fuel (decoded r) : SO MockDevice Empty Unit) d).2 = .hang := by
  have key : ∃ a n, (MockDevice.handle fuel (decoded r) : SO MockDevice Empty Unit) d =
      MockDevice.handleSyncBulkRead fuel a n (x :: ids) d := by
    rcases hr with ⟨a, n, rfl⟩ | ⟨reads, rfl, hids⟩
    · rw [show decoded (.syncRead a n (x :: ids)) = .syncRead a n (x :: ids) from rfl, MockDevice.handle, SO.get_bind,
        if_pos (by simp [hmem])]
      exact ⟨a, n, rfl⟩
    · rw [show decoded (.bulkRead reads) = .bulkRead (readBytes' reads) from rfl, MockDevice.handle, SO.get_bind]
      dsimp only
      rw [everyFifth_reads, ← hids]
      cases hk : (x :: ids).idxOf? d.id with
      | none => exact absurd (List.mem_cons_of_mem _ hmem) (List.idxOf?_eq_none_iff.mp hk)
      | some k =>
        have hlt : k < reads.length := by
          obtain ⟨h, -⟩ := List.idxOf?_eq_some_iff.mp hk
          rw [hids] at h
          simpa using h
        obtain ⟨h1, h2⟩ := bulk_reads (List.getElem?_eq_getElem hlt)
        dsimp only
        rw [h1, SO.lift_ok_bind, h2, SO.lift_ok_bind]
        exact ⟨_, _, rfl⟩
  obtain ⟨a, n, key⟩ := key
  rw [key] at hsaw ⊢
  obtain ⟨c, o, h1, -, h3⟩ := awaitReply_never (ε := Empty) x fuel d hd
  have h4 := awaitReply_forever x fuel d hd hN p es h hp hg
  have heq : (MockDevice.handleSyncBulkRead fuel a n (x :: ids) : SO MockDevice Empty Unit) d =
      ({ d with device := c }, o.bind fun _ => .ok ()) := by
    rw [MockDevice.handleSyncBulkRead, SO.get_bind, if_neg hx, SO.bind_def, h1]
    cases o with
    | ok y =>
      cases y with
      | true => exact absurd rfl h3
      | false => rfl
    | _ => rfl
  rw [heq] at hsaw ⊢
  rw [h1] at h4
  have h4 := h4 hsaw he hf
  dsimp only at h4 ⊢
  rw [h4]
  rfl

theorem not_request {r₀ : Request} {m : Msg} (h : GoodOf (ForAll r₀) m.2) (hne : m.2 ≠ requestFrame 254#8 r₀) : GoodOf NoRequest m.2 := by
  obtain ⟨k, f⟩ := m
  cases h with
  | @request to r h1 _ _ => obtain ⟨rfl, rfl⟩ := h1; exact absurd rfl hne
  | reply h1 h2 => exact .reply h1 h2

theorem times_append (W : List Byte) (a b : List Msg) : Roll.times W (a ++ b) = Roll.times W a + Roll.times W b := List.countP_append ..

theorem times_zero {W : List Byte} {ms : List Msg} (h : Roll.times W ms = 0) : ∀ m ∈ ms, m.2 ≠ W := by
  intro m hm hw
  exact List.countP_eq_zero.mp h m hm (by simp [hw])

theorem reply_ne {r : Request} {m : Msg} (h : IsReply m) : m.2 ≠ requestFrame 254#8 r := fun he => h.not_own _ ⟨r, he⟩

/-- The loop of such a motor, if the instruction is among what it hears. -/
theorem run_forever {fuel : Nat} {r : Request} {x : Byte} {ids : List Byte} (hr : ReadsOf r (x :: ids)) : ∀ (n : Nat) (d : MockDevice),
    x ≠ d.id → d.id ∈ ids → d.device.Inv → d.device.readBuffer.length = 128 → ∀ (p : List Msg) (es : List Seen) (h : List Event'),
    d.device.pending = bytes p → (∀ m ∈ p ++ heard h, GoodOf (ForAll r) m.2) → Roll.times (requestFrame 254#8 r) (p ++ heard h) = 1 →
    (Roll.times (requestFrame 254#8 r) p = 1 → 0 < n) →
    Saw d.device.serialPort es ((MockDevice.run fuel n : SO MockDevice Empty Unit) d).1.device.serialPort → h.map Event'.plain = es →
    (∀ e, Seen.failed e ∈ es → e.isTimeout = true) → ((MockDevice.run fuel n : SO MockDevice Empty Unit) d).2 = .hang := by
  intro n
  induction n with
  | zero =>
    intro d _ _ _ _ p es h _ _ ht hn hsaw he _
    obtain rfl := saw_unique hsaw (.nil _)
    obtain rfl := List.map_eq_nil_iff.mp he
    rw [show heard [] = [] from rfl, List.append_nil] at ht
    exact absurd (hn ht) (by omega)
  | succ n ih =>
    intro d hx hmem hd hN p es h hp hg htimes _ hsaw he hf
    obtain ⟨es₁, es₂, rfl, hs₁, hs₂⟩ := WatchedOn.split (MockDevice.step_seen fuel) (fun _ => MockDevice.run_seen fuel n) hd hsaw
    change Saw _ es₂ ((MockDevice.run fuel (n + 1) : SO MockDevice Empty Unit) d).1.device.serialPort at hs₂
    obtain ⟨h', h₃, rfl, he', he₃⟩ := List.map_eq_append_iff.mp he
    obtain ⟨e₁, e₂, rfl, ht₁, ht₂⟩ := WatchedOn.split
      (WatchedOn.attempt (MockDevice.onDevice_seen (Device.read_watched MockDevice.timeout))) (fun o => by
        split
        · split
          · exact .pure _
          · exact .panic
        · exact .panic
        · refine .bind .get fun d => ?_
          split
          · exact .pure _
          · exact MockDevice.handle_seen _ _) hd hs₁
    change Saw _ e₂ ((MockDevice.step fuel : SO MockDevice Empty Unit) d).1.device.serialPort at ht₂
    rw [attempt_fst] at ht₁ ht₂
    change Saw _ e₁ (Device.read MockDevice.timeout d.device).1.serialPort at ht₁
    change Saw (Device.read MockDevice.timeout d.device).1.serialPort e₂ _ at ht₂
    have hsound := Device.read_sound MockDevice.timeout d.device hd
    obtain ⟨h₁, h₂, rfl, he₁, he₂⟩ := List.map_eq_append_iff.mp he'
    rw [heard_append, heard_append, ← List.append_assoc, ← List.append_assoc] at hg htimes
    rw [read_fst] at ht₁ ht₂ hsound
    have hpicks := readRawLoop_picks _ _ d.device p e₁ h₁ hd hN hp
      (fun m hm => hg m (List.mem_append_left _ (List.mem_append_left _ hm))) ht₁ he₁
    rcases hxx : Device.readRawLoop (d.device.serialPort.now + MockDevice.timeout)
      (d.device.readLen + d.device.serialPort.measure + 1) d.device with ⟨c, o⟩
    have hread := step_read fuel hxx
    rw [hxx] at hpicks ht₂ hsound ht₁
    dsimp only at ht₂ hsound ht₁
    cases hpicks with
    | hangs => rw [MockDevice.run, SO.bind_hang (hread.2.1 rfl)]
    | @ended _ e hst hpend hfail =>
      have ht := hf e (List.mem_append_left _ (List.mem_append_left _ hfail))
      have hstep : (MockDevice.step fuel : SO MockDevice Empty Unit) d = ({ d with device := c }, .ok ()) := by
        have : (MockDevice.onDevice (Device.read MockDevice.timeout)) d = ({ d with device := c }, .err (.io e)) :=
          onDevice_apply (read_eq hxx)
        unfold MockDevice.step
        rw [SO.bind_def]
        unfold SO.attempt
        rw [this]
        dsimp only
        rw [if_pos ht]
        rfl
      rw [hstep] at ht₂
      obtain rfl := saw_unique ht₂ (.nil _)
      obtain rfl := List.map_eq_nil_iff.mp he₂
      have hrun : (MockDevice.run fuel (n + 1) : SO MockDevice Empty Unit) d =
          (MockDevice.run fuel n : SO MockDevice Empty Unit) { d with device := c } := by
        rw [MockDevice.run, SO.bind_ok hstep]
      rw [hrun, hstep] at hs₂
      rw [hrun]
      have h0 : Roll.times (requestFrame 254#8 r) (p ++ heard h₁ ++ heard []) = 0 := by
        rw [show heard [] = [] from rfl, List.append_nil]
        exact List.countP_eq_zero.mpr fun m hm => by simpa using reply_ne (hst m hm)
      rw [times_append, h0, Nat.zero_add] at htimes
      exact ih { d with device := c } hx hmem hsound.inv (hsound.readSize.trans hN) [] es₂ h₃ hpend
        (fun m hm => hg m (List.mem_append_right _ (by simpa using hm))) (by simpa using htimes)
        (fun h => by simp [Roll.times] at h) hs₂ he₃ fun e h => hf e (List.mem_append_right _ h)
    | @request statuses rest m to r' _ pkt hq hst hm hrto hsv hc hpend =>
      obtain ⟨rfl, rfl⟩ := hrto
      have k := hread.2.2 pkt 254#8 r' rfl hc
      rw [if_neg (fun h => h.2 rfl)] at k
      rw [k] at ht₂
      have hz : Roll.times (requestFrame 254#8 r') (rest ++ heard h₂) = 0 := by
        rw [times_append, times_append, hq, times_append,
          show m :: rest = [m] ++ rest from rfl, times_append] at htimes
        have : Roll.times (requestFrame 254#8 r') [m] = 1 := by simp [Roll.times, hm]
        rw [times_append]
        omega
      have hh := handle_forever fuel (d := { d with device := c }) hr hx hmem hsound.inv (hsound.readSize.trans hN) (p := rest) (h := h₂) hpend
        (fun y hy => not_request (hg y (by
          rw [hq]
          refine List.mem_append_left _ ?_
          rw [List.append_assoc, List.cons_append]
          exact List.mem_append_right _ (List.mem_cons_of_mem _ hy))) (times_zero hz y hy))
        ht₂ he₂ fun e h => hf e (List.mem_append_left _ (List.mem_append_right _ h))
      rw [← k] at hh
      rcases hy : (MockDevice.step fuel : SO MockDevice Empty Unit) d with ⟨d', o'⟩
      rw [hy] at hh
      dsimp only at hh
      subst hh
      rw [MockDevice.run, SO.bind_hang hy]

end Dxl.Props
