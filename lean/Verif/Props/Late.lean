import Verif.Props.Prompt
import Verif.Props.CliRun
import Verif.Spec.Late

/-! # C95: answers that come too late -/

namespace Dxl.Props
open Dxl Spec

/-! ## Calls -/

/-- The calls for one motor, with the body of the instruction, the number of parameters they expect, and what they make of a
status packet without error. -/
inductive SingleCall : {α : Type} → SO Bus TransferError α → List Byte → Nat →
    (Byte → Byte → List Byte → Outcome TransferError α → Prop) → Prop
  | readBytes (id : Byte) (address count : U16) : SingleCall (Client.readBytes id address count) (Request.read address count).body
      count.toNat (fun rid e ps o => o = answer id count.toNat rid e ps ps)
  | read {α : Type} {d : DataTy α} {valid : α → Prop} {f : α → List Byte} (hd : ImplData d valid f) (id : Byte) (address : U16) :
      SingleCall (Client.read d id address) (Request.read address d.size).body d.size.toNat
        (fun rid e ps o => ∃ v, (ps.length = d.size.toNat → valid v ∧ f v = ps) ∧ o = answer id d.size.toNat rid e ps v)
  | ping (id : Byte) : SingleCall (Client.ping id) Request.ping.body 3
      (fun rid e ps o => ∃ v : Client.Ping, (ps.length = 3 → ps = le16 v.model ++ [v.firmware]) ∧ o = answer id 3 rid e ps v)
  | write {w : WriteCall} {body : List Byte} (hw : w.Orders body) {id : Byte} (hid : id ≠ 0xFE#8) :
      SingleCall (w.run id) body 0 (fun rid e ps o => o = emptyAnswer rid e ps)

/-- A call for one motor, and how long the serial port takes to write its instruction. -/
structure LateCall where
  {Result : Type}
  run : SO Bus TransferError Result
  body : List Byte
  expected : Nat
  means : Byte → Byte → List Byte → Outcome TransferError Result → Prop
  writing : Nat
  is : SingleCall run body expected means

/-- The call takes this status packet for its answer. -/
def LateCall.Takes (c : LateCall) (a : LateAnswer) (o : Outcome TransferError c.Result) : Prop :=
  if a.error.toNat % 128 ≠ 0 then o = .err (.readError (.motorError ⟨a.error⟩)) else c.means a.sender a.error a.params o

/-- How long the call writes and waits. -/
def LateCall.times (baud : Nat) (c : LateCall) : Nat × Nat := (c.writing, responseWait baud c.expected)

/-- The calls are made one after the other, and each takes the next of these answers for its own, at the time at which it is
complete. -/
def Take : Bus → List LateCall → List LateAnswer → Prop
  | _, [], _ => True
  | _, _ :: _, [] => False
  | b, c :: calls, a :: answers => c.Takes a (c.run b).2 ∧
      (c.run b).1.serialPort.now = a.complete (b.serialPort.now + c.writing) ∧ Take (c.run b).1 calls answers

/-! ## Lemmas -/

theorem complete_ge (a : LateAnswer) (start : Nat) : start ≤ a.complete start ∧ ∀ p ∈ a.pieces, p.1 ≤ a.complete start := by
  unfold LateAnswer.complete
  generalize a.pieces = l
  induction l generalizing start with
  | nil => simp
  | cons p l ih =>
    obtain ⟨h1, h2⟩ := ih (max start p.1)
    simp only [List.foldl_cons]
    refine ⟨by omega, ?_⟩
    rintro q hq
    rcases List.mem_cons.mp hq with rfl | hq
    · omega
    · exact h2 q hq

theorem complete_le (a : LateAnswer) {start T : Nat} (h : start ≤ T) (hp : ∀ p ∈ a.pieces, p.1 ≤ T) : a.complete start ≤ T := by
  unfold LateAnswer.complete
  generalize a.pieces = l at hp
  induction l generalizing start with
  | nil => simpa
  | cons p l ih =>
    simp only [List.foldl_cons]
    have := hp p List.mem_cons_self
    exact ih (by omega) fun q hq => hp q (List.mem_cons_of_mem _ hq)

theorem oneBehind_later {calls : List (Nat × Nat)} : ∀ {now : Nat} {answers : List LateAnswer}, OneBehind now calls answers →
    ∀ a ∈ answers, ∀ p ∈ a.pieces, now < p.1 := by
  induction calls with
  | nil => intro now answers h; exact h
  | cons c calls ih =>
    obtain ⟨w, T⟩ := c
    intro now answers h
    cases answers with
    | nil => exact h.elim
    | cons a answers =>
      obtain ⟨h1, h2⟩ := h
      intro a' ha p hp
      rcases List.mem_cons.mp ha with rfl | ha
      · exact (h1 p hp).1
      · have := ih h2 a' ha p hp
        have := (complete_ge a (now + w)).1
        omega

theorem shape_state {α : Type} {id instr : Byte} {n : Nat} {enc : Encoder} {exp : U16} {k : StatusPacket → Outcome TransferError α}
    {b b₁ : Bus} (h : Bus.writeInstruction id instr n enc b = (b₁, .ok ())) :
    (((Client.writeInstruction id instr n enc).mapErr TransferError.writeError >>= fun _ =>
      (Client.readStatusResponse exp).mapErr TransferError.readError >>= fun s => SO.lift (k s)) b).1 =
      (Client.readStatusResponse exp b₁).1 := by
  rw [SO.bind_def, SO.mapErr_apply]
  unfold Client.writeInstruction
  rw [h]
  simp only [Outcome.mapErr_ok]
  rw [SO.bind_def, SO.mapErr_apply]
  rcases Client.readStatusResponse exp b₁ with ⟨c, o⟩
  cases o <;> rfl

/-- All these calls first write an instruction, and then wait for a response. -/
theorem SingleCall.shape {α : Type} {m : SO Bus TransferError α} {body : List Byte} {exp : Nat}
    {means : Byte → Byte → List Byte → Outcome TransferError α → Prop} (h : SingleCall m body exp means) :
    ∃ (id instr : Byte) (params : List Byte) (n : Nat) (enc : Encoder) (exp' : U16),
      body = instr :: params ∧ Fills enc.run n params ∧ exp'.toNat = exp ∧
      ∀ b b₁ : Bus, Bus.writeInstruction id instr n enc b = (b₁, .ok ()) → (m b).1 = (Client.readStatusResponse exp' b₁).1 := by
  cases h with
  | readBytes id address count =>
    refine ⟨id, _, _, _, _, count, rfl, Client.readEncoder_fills address count, rfl, fun b b₁ h => ?_⟩
    unfold Client.readBytes
    simp only [readRaw_shape, SO.bind_assoc', SO.lift_bind_lift]
    exact shape_state h
  | read hd id address =>
    refine ⟨id, _, _, _, _, _, rfl, Client.readEncoder_fills address _, rfl, fun b b₁ h => ?_⟩
    unfold Client.read
    simp only [readRaw_shape, SO.bind_assoc', SO.lift_bind_lift]
    exact shape_state h
  | ping id =>
    refine ⟨id, _, _, _, _, 3#16, rfl, Client.nothing_fills, rfl, fun b b₁ h => ?_⟩
    unfold Client.ping
    simp only [transferSingle_shape, SO.bind_assoc', SO.lift_bind_lift]
    exact shape_state h
  | @write w body hw id hid =>
    obtain ⟨instr, params, n, enc, rfl, hp, h⟩ := hw.instruct
    refine ⟨id, instr, params, n, enc, 0#16, rfl, hp, rfl, fun b b₁ hm => ?_⟩
    rw [h, instruct_shape hid]
    exact shape_state hm

theorem SingleCall.comes {α : Type} {m : SO Bus TransferError α} {body : List Byte} {exp : Nat}
    {means : Byte → Byte → List Byte → Outcome TransferError α → Prop} (h : SingleCall m body exp means) {b : Bus} (hb : b.WInv)
    (hbaud : b.baudRate < 2 ^ 32) : Comes b body exp means (m b) := by
  cases h with
  | readBytes id address count => exact c62_read_bytes hb hbaud id address count
  | read hd id address => exact c62_read hd hb hbaud id address
  | ping id => exact c62_ping hb hbaud id
  | write hw hid => exact c62_write hw hb hbaud hid

/-- What a port is like that never fails, on which input can be discarded, and with these durations of the next writes. -/
structure Smoothly (durations : List Nat) (p : Port) : Prop where
  discard : p.discardRes = []
  noop : p.discardIsNoop = false
  writes : p.writeRes = durations.map fun dt => (dt, none)
  calm : p.Calm

theorem kept_smoothly (durations : List Nat) : Port.Kept (Smoothly durations) := by
  intro cap D p p' o h hp
  refine ⟨?_, ?_, ?_, Port.kept_calm h hp.calm⟩
  · have := hp.discard
    unfold Port.read at h
    dsimp only at h
    repeat' split at h
    all_goals (cases h; exact this)
  · have := hp.noop
    unfold Port.read at h
    dsimp only at h
    repeat' split at h
    all_goals (cases h; exact this)
  · have := hp.writes
    unfold Port.read at h
    dsimp only at h
    repeat' split at h
    all_goals (cases h; exact this)

theorem notYetArrived_data {T t : Nat} (bs : List Byte) (rest : List RxEvent) :
    notYetArrived T (.data t bs :: rest) = if T < t then .data t bs :: notYetArrived T rest else notYetArrived T rest := by
  unfold notYetArrived
  rw [List.filter_cons]
  simp

theorem notYetArrived_append (T : Nat) (xs ys : List RxEvent) :
    notYetArrived T (xs ++ ys) = notYetArrived T xs ++ notYetArrived T ys := by
  unfold notYetArrived
  exact List.filter_append ..

theorem notYetArrived_twice {T U : Nat} (h : T ≤ U) (xs : List RxEvent) :
    notYetArrived U (notYetArrived T xs) = notYetArrived U xs := by
  unfold notYetArrived
  rw [List.filter_filter]
  congr 1
  funext e
  cases e with
  | data t bs => simp; omega
  | fail t e => simp

/-- Reading takes only what has arrived. -/
def SameFuture (rx : List RxEvent) (p : Port) : Prop :=
  (∀ e ∈ p.rx, ∃ t bs, e = .data t bs) ∧ ∀ T, p.now ≤ T → notYetArrived T p.rx = notYetArrived T rx

theorem kept_sameFuture (rx : List RxEvent) : Port.Kept (SameFuture rx) := by
  intro cap D p p' o h hp
  have key : ∀ {t : Nat} {bs : List Byte} {rest : List RxEvent}, p.rx = .data t bs :: rest → ∀ T, max p.now t ≤ T →
      notYetArrived T rest = notYetArrived T rx := by
    intro t bs rest hr T hT
    have := hp.2 T (by omega)
    rwa [hr, notYetArrived_data, if_neg (by omega)] at this
  unfold Port.read at h
  dsimp only at h
  split at h
  · cases h; exact hp
  · rename_i hD
    split at h
    · split at h
      · cases h
        exact ⟨hp.1, fun T hT => hp.2 T (by dsimp only at hT; omega)⟩
      · cases h; exact hp
    · rename_i t bs rest hr
      have hrest : ∀ e ∈ rest, ∃ t bs, e = RxEvent.data t bs := fun e he => hp.1 e (by rw [hr]; exact List.mem_cons_of_mem _ he)
      split at h
      · split at h
        · cases h
          exact ⟨hrest, key hr⟩
        · cases h
          refine ⟨?_, fun T hT => ?_⟩
          · intro e he
            rcases List.mem_cons.mp he with rfl | he
            · exact ⟨_, _, rfl⟩
            · exact hrest e he
          · dsimp only at hT ⊢
            rw [notYetArrived_data, if_neg (by omega)]
            exact key hr T hT
      · cases h
        exact ⟨hp.1, fun T hT => hp.2 T (by dsimp only at hT; omega)⟩
    · rename_i t e rest hr
      obtain ⟨_, _, h⟩ := hp.1 (.fail t e) (by rw [hr]; exact List.mem_cons_self ..)
      simp at h

/-- The client between two calls: what has not arrived yet is `future`. -/
structure Between (durations : List Nat) (future : List RxEvent) (b : Bus) : Prop where
  winv : b.WInv
  baud : b.baudRate < 2 ^ 32
  baud0 : b.baudRate ≠ 0
  room : 10 ≤ b.readBuffer.length
  smooth : Smoothly durations b.serialPort
  future : newInput b.serialPort = future

/-- A call: it waits as long as it has to, and what has not arrived then is not lost. -/
theorem single_step {c : LateCall} {durations : List Nat} {future : List RxEvent} {b : Bus}
    (h : Between (c.writing :: durations) future b) (hroom : Room b (c.body.length - 1)) :
    ∃ t, (c.run b).1.serialPort.now = t ∧
      EndsWhen (Settled b.readBuffer.length [] future .silent) (b.serialPort.now + c.writing)
        (b.serialPort.now + c.writing + responseWait b.baudRate c.expected) t ∧
      (∃ v left, Verdict b.readBuffer.length (arriving (b.serialPort.now + c.writing + responseWait b.baudRate c.expected) future)
          .timedOut v left ∧
        match v with
        | .err x => (c.run b).2 = .err (.readError x)
        | .panic => (c.run b).2 = .panic
        | .hang => False
        | .ok (rid, error, ps) => c.means rid error ps (c.run b).2) ∧
      (c.run b).1.writeBuffer.length = b.writeBuffer.length ∧ (c.run b).1.readBuffer.length = b.readBuffer.length ∧
      (c.run b).1.baudRate = b.baudRate ∧
      Between durations (notYetArrived t future) (c.run b).1 := by
  obtain ⟨id, instr, params, n, enc, exp, hbody, hp, hexp, hst⟩ := c.is.shape
  have hn : c.body.length - 1 = n := by rw [hbody, ← hp.length]; rfl
  have hok : b.serialPort.SendOk := ⟨by rw [h.smooth.discard]; simp, by rw [h.smooth.writes]; simp⟩
  have hwt : b.serialPort.writeTime = c.writing := by unfold Port.writeTime; rw [h.smooth.writes]; rfl
  rw [hn] at hroom
  obtain ⟨b₁, hw⟩ := write_room (id := id) (instr := instr) h.winv hp hok hroom
  have hc := c.is.comes h.winv h.baud
  obtain ⟨_, _, -, -, -, h3⟩ := afterSend h.winv hw
  obtain ⟨_, _, _, _, _, hb₁⟩ := Bus.writeInstruction_ok h.winv hw
  have hstate := hst b b₁ hw
  have hns := leastTime_transferNs (11 + c.expected) h.baud0
  rw [readStatusResponse_now (h3.baudRate ▸ h.baud0) (h3.baudRate ▸ h.baud) exp (by rw [hexp, h3.baudRate]; exact hns), h3.now, hwt] at hstate
  rw [show transferNs (11 + c.expected) b.baudRate + 34000000 = responseWait b.baudRate c.expected from rfl] at hstate
  have hpend : b₁.pending = [] := by rw [hb₁]; simp [Bus.pending]
  have hrx : b₁.serialPort.rx = future := by rw [← h.future, newInput_eq, hb₁]; rfl
  have htl : b₁.serialPort.tail = .silent := by rw [← h.smooth.calm.1, hb₁]; rfl
  have hdata : ∀ e ∈ future, ∃ t bs, e = RxEvent.data t bs := fun e he =>
    h.smooth.calm.2 e (newInput_subset _ e (by rw [h.future]; exact he))
  have hsm : Smoothly durations b₁.serialPort := by
    refine ⟨?_, ?_, ?_, htl, by rw [hrx]; exact hdata⟩
    · rw [hb₁]; show b.serialPort.discardRes.tail = []; rw [h.smooth.discard]; rfl
    · rw [hb₁]; exact h.smooth.noop
    · rw [hb₁]; show b.serialPort.writeRes.tail = _; rw [h.smooth.writes]; rfl
  have hfu : SameFuture future b₁.serialPort := ⟨by rw [hrx]; exact hdata, fun T _ => by rw [hrx]⟩
  have hD : b₁.serialPort.now ≤ b.serialPort.now + c.writing + responseWait b.baudRate c.expected := by rw [h3.now, hwt]; omega
  have hwait := waited_read h3.rinv hD
  have hends := c85_packet h3.rinv (h3.readBuffer ▸ h.room) hD
  have hk1 := Bus.read_kept (kept_smoothly durations) (b.serialPort.now + c.writing + responseWait b.baudRate c.expected) h3.rinv hsm
  have hk2 := Bus.read_kept (kept_sameFuture future) (b.serialPort.now + c.writing + responseWait b.baudRate c.expected) h3.rinv hfu
  rw [← hstate] at hwait hends hk1 hk2
  rw [hpend, hrx, htl, h3.readBuffer, h3.now, hwt] at hends
  have hkept : Bus.Kept b b₁ := by
    have := Bus.writePacket_kept id instr n enc h.winv
    rwa [show Bus.writePacket id instr n enc b = (b₁, .ok ()) from hw] at this
  have hwb := hkept.writeLength
  refine ⟨_, rfl, hends, ?_, ?_, ?_, ?_, ?_⟩
  · obtain ⟨wire, hform, hc⟩ := hc
    have hsend := c62_send (id := id) h.winv hp (hbody ▸ hform)
    rw [hw] at hsend
    rw [hn, ← hsend] at hc
    dsimp only at hc
    rw [if_neg h.baud0] at hc
    obtain ⟨D, v, left, ⟨ns, hns', rfl⟩, -, hv, -, ho⟩ := hc
    rw [leastTime_unique hns' hns, hwt, h.future, h.smooth.calm.1, Port.calm_obstacle _ _ hdata] at hv
    exact ⟨v, left, hv, ho⟩
  · rw [hwait.like.writeBuffer, hwb]
  · rw [hwait.like.readSize, h3.readBuffer]
  · rw [hwait.like.baudRate, h3.baudRate]
  · have hw₁ := hkept.wInv h.winv
    refine ⟨⟨?_, ?_⟩, ?_, ?_, ?_, hk1, ?_⟩
    · rw [hwait.like.writeBuffer]; exact hw₁.size
    · rw [hwait.like.writeBuffer]; exact hw₁.prefix_eq
    · rw [hwait.like.baudRate, h3.baudRate]; exact h.baud
    · rw [hwait.like.baudRate, h3.baudRate]; exact h.baud0
    · rw [hwait.like.readSize, h3.readBuffer]; exact h.room
    · unfold newInput
      rw [hk1.noop, if_neg (by decide)]
      exact hk2.2 _ (Nat.le_refl _)

theorem notYetArrived_all {T : Nat} {answers : List LateAnswer} (h : ∀ a ∈ answers, ∀ p ∈ a.pieces, T < p.1) :
    notYetArrived T (answers.flatMap LateAnswer.events) = answers.flatMap LateAnswer.events := by
  unfold notYetArrived
  refine List.filter_eq_self.mpr fun e he => ?_
  obtain ⟨a, ha, he⟩ := List.mem_flatMap.mp he
  obtain ⟨p, hp, rfl⟩ := List.mem_map.mp he
  simpa using h a ha p hp

theorem notYetArrived_none {T : Nat} {a : LateAnswer} (h : ∀ p ∈ a.pieces, p.1 ≤ T) : notYetArrived T a.events = [] := by
  unfold notYetArrived
  refine List.filter_eq_nil_iff.mpr fun e he => ?_
  obtain ⟨p, hp, rfl⟩ := List.mem_map.mp he
  have := h p hp
  simp; omega

theorem arriving_later {T : Nat} {answers : List LateAnswer} (h : ∀ a ∈ answers, ∀ p ∈ a.pieces, T < p.1) :
    arriving T (answers.flatMap LateAnswer.events) = [] ∧ ¬ failsBy T (answers.flatMap LateAnswer.events) .silent := by
  have : ∀ e ∈ answers.flatMap LateAnswer.events, ∃ t bs, e = .data t bs ∧ T < t := by
    intro e he
    obtain ⟨a, ha, he⟩ := List.mem_flatMap.mp he
    obtain ⟨p, hp, rfl⟩ := List.mem_map.mp he
    exact ⟨_, _, rfl, h a ha p hp⟩
  revert this
  generalize answers.flatMap LateAnswer.events = l
  intro hl
  cases l with
  | nil => exact ⟨rfl, id⟩
  | cons e l =>
    obtain ⟨t, bs, rfl, ht⟩ := hl e List.mem_cons_self
    refine ⟨by simp only [arriving]; rw [if_neg (by omega)], fun hf => ?_⟩
    have := hf.1
    omega

theorem arriving_pieces {T : Nat} {a : LateAnswer} (h : ∀ p ∈ a.pieces, p.1 ≤ T) (more : List RxEvent) :
    arriving T (a.events ++ more) = a.pieces.flatMap (·.2) ++ arriving T more := by
  unfold LateAnswer.events
  generalize a.pieces = l at h
  induction l with
  | nil => rfl
  | cons p l ih =>
    simp only [List.map_cons, List.cons_append, arriving, List.flatMap_cons, List.append_assoc]
    rw [if_pos (h p List.mem_cons_self), ih fun q hq => h q (List.mem_cons_of_mem _ hq)]

/-- Before all pieces are there, something of the packet is missing. -/
theorem arriving_missing {T : Nat} {a : LateAnswer} (h : ∃ p ∈ a.pieces, T < p.1) (hne : ∀ p ∈ a.pieces, p.2 ≠ [])
    (more : List RxEvent) (tail : Tail) :
    (∃ u, u ≠ [] ∧ arriving T (a.events ++ more) ++ u = a.pieces.flatMap (·.2)) ∧ ¬ failsBy T (a.events ++ more) tail := by
  unfold LateAnswer.events
  generalize a.pieces = l at h hne
  induction l with
  | nil => obtain ⟨p, hp, -⟩ := h; simp at hp
  | cons p l ih =>
    simp only [List.map_cons, List.cons_append, arriving, List.flatMap_cons, failsBy]
    by_cases hp : p.1 ≤ T
    · have hl : ∃ q ∈ l, T < q.1 := by
        obtain ⟨q, hq, hT⟩ := h
        rcases List.mem_cons.mp hq with rfl | hq
        · omega
        · exact ⟨q, hq, hT⟩
      obtain ⟨⟨u, hu, he⟩, hf⟩ := ih hl fun q hq => hne q (List.mem_cons_of_mem _ hq)
      rw [if_pos hp]
      exact ⟨⟨u, hu, by rw [List.append_assoc, he]⟩, fun hf' => hf hf'.2⟩
    · rw [if_neg hp]
      refine ⟨⟨p.2 ++ l.flatMap (·.2), ?_, rfl⟩, fun hf' => hp hf'.1⟩
      have := hne p List.mem_cons_self
      simp [this]

/-- A packet of which something is missing is no packet. -/
theorem parse_missing {cap : Nat} {s u wire : List Byte} {id : Byte} (hu : u ≠ []) (h : s ++ u = frame id wire)
    (hl : wire.length + 2 < 2 ^ 16) (hfit : (frame id wire).length ≤ cap) : parse cap s = .more := by
  have hg : parse cap (s ++ u) = .packet (frame id wire) [] := by
    have := parse_good_frame (g := []) (rest := []) id (by decide) hl hfit
    rw [h]
    simpa using this
  cases hp : parse cap s with
  | more => rfl
  | packet f rest =>
    rw [parse_packet_append hp] at hg
    have := (Parsed.packet.inj hg).2
    simp at this
    exact absurd this.2 hu
  | tooBig r rest =>
    rw [parse_tooBig_append hp] at hg
    simp at hg

/-! ## The claims -/

/-- **C95** One call: an answer that comes in its time is taken for its own, as soon as it is complete, whatever it was an
answer to; and what comes later is left for later calls. -/
theorem c95_call {c : LateCall} {durations : List Nat} {a : LateAnswer} {answers : List LateAnswer} {b : Bus}
    (h : Between (c.writing :: durations) ((a :: answers).flatMap LateAnswer.events) b) (hroom : Room b (c.body.length - 1))
    (ha : a.Valid b.readBuffer.length)
    (hin : ∀ p ∈ a.pieces, p.1 ≤ b.serialPort.now + c.writing + responseWait b.baudRate c.expected)
    (hlater : ∀ a' ∈ answers, ∀ p ∈ a'.pieces, a.complete (b.serialPort.now + c.writing) < p.1) :
    c.Takes a (c.run b).2 ∧ (c.run b).1.serialPort.now = a.complete (b.serialPort.now + c.writing) ∧
      (c.run b).1.writeBuffer.length = b.writeBuffer.length ∧ (c.run b).1.readBuffer.length = b.readBuffer.length ∧
      (c.run b).1.baudRate = b.baudRate ∧
      Between durations (answers.flatMap LateAnswer.events) (c.run b).1 := by
  obtain ⟨t, ht, hends, ⟨v, left, hv, ho⟩, h1, h2, h3, h4⟩ := single_step h hroom
  rw [List.flatMap_cons] at hends hv h4
  obtain ⟨g1, g2⟩ := complete_ge a (b.serialPort.now + c.writing)
  have g3 := complete_le a (start := b.serialPort.now + c.writing) (T := b.serialPort.now + c.writing + responseWait b.baudRate c.expected) (by omega) hin
  have hdone : t = a.complete (b.serialPort.now + c.writing) := by
    have hset : Settled b.readBuffer.length [] (a.events ++ answers.flatMap LateAnswer.events) .silent
        (a.complete (b.serialPort.now + c.writing)) := by
      left
      rw [List.nil_append, arriving_pieces g2, ha.whole]
      have := parse_good_frame (g := []) (rest := arriving (a.complete (b.serialPort.now + c.writing)) (answers.flatMap LateAnswer.events))
        a.sender (by decide) ha.short ha.fits
      rw [List.nil_append] at this
      rw [this]
      simp
    cases hends with
    | timeout k => exact absurd hset (k _ g1 g3)
    | settled k1 k2 k3 k4 =>
      refine Nat.le_antisymm (k4 _ g1 hset) (complete_le a k1 fun p hp => ?_)
      refine Nat.not_lt.mp fun hlt => ?_
      obtain ⟨⟨u, hu, he⟩, hf⟩ := arriving_missing (T := t) ⟨p, hp, hlt⟩ ha.pieces (answers.flatMap LateAnswer.events) .silent
      rcases k3 with k3 | k3
      · rw [List.nil_append] at k3
        exact k3 (parse_missing hu (he.trans ha.whole) ha.short ha.fits)
      · exact hf k3
  refine ⟨?_, ht.trans hdone, h1, h2, h3, ?_⟩
  · rw [arriving_pieces hin, ha.whole] at hv
    have hpk := parse_good_frame (g := []) (rest := arriving (b.serialPort.now + c.writing + responseWait b.baudRate c.expected)
      (answers.flatMap LateAnswer.events)) a.sender (by decide) ha.short ha.fits
    rw [List.nil_append] at hpk
    unfold LateCall.Takes
    split
    · rename_i he
      obtain ⟨rfl, -⟩ := c62_verdict_unique hv (.motorError h.room hpk ha.means he)
      exact ho
    · rename_i he
      obtain ⟨rfl, -⟩ := c62_verdict_unique hv (.status h.room hpk ha.means (by omega))
      exact ho
  · rw [notYetArrived_append, notYetArrived_none (by rw [hdone]; exact g2), List.nil_append,
      notYetArrived_all (by rw [hdone]; exact hlater)] at h4
    exact h4

/-- **C95** A call of which nothing comes in time ends with a time-out error at the end of its time, and what comes later is
left for later calls. -/
theorem c95_timeout {c : LateCall} {durations : List Nat} {answers : List LateAnswer} {b : Bus}
    (h : Between (c.writing :: durations) (answers.flatMap LateAnswer.events) b) (hroom : Room b (c.body.length - 1))
    (hlater : ∀ a ∈ answers, ∀ p ∈ a.pieces, b.serialPort.now + c.writing + responseWait b.baudRate c.expected < p.1) :
    (c.run b).2 = .err (.readError (.io .timedOut)) ∧
      (c.run b).1.serialPort.now = b.serialPort.now + c.writing + responseWait b.baudRate c.expected ∧
      (c.run b).1.writeBuffer.length = b.writeBuffer.length ∧ (c.run b).1.readBuffer.length = b.readBuffer.length ∧
      (c.run b).1.baudRate = b.baudRate ∧
      Between durations (answers.flatMap LateAnswer.events) (c.run b).1 := by
  obtain ⟨t, ht, hends, ⟨v, left, hv, ho⟩, h1, h2, h3, h4⟩ := single_step h hroom
  have hmore : parse b.readBuffer.length [] = .more := by simp [parse, skip]
  have hdone : t = b.serialPort.now + c.writing + responseWait b.baudRate c.expected := by
    cases hends with
    | timeout k => rfl
    | settled k1 k2 k3 k4 =>
      obtain ⟨e1, e2⟩ := arriving_later (T := t) fun a ha p hp => Nat.lt_of_le_of_lt k2 (hlater a ha p hp)
      rcases k3 with k3 | k3
      · rw [e1] at k3; exact absurd hmore k3
      · exact absurd k3 e2
  refine ⟨?_, ht.trans hdone, h1, h2, h3, ?_⟩
  · rw [(arriving_later hlater).1] at hv
    obtain ⟨rfl, -⟩ := c62_verdict_unique hv (.nothing h.room hmore)
    exact ho
  · rwa [notYetArrived_all (by rw [hdone]; exact hlater)] at h4

/-- **C95** If the answers are one call behind, each call takes the one that comes while it waits for its own. -/
theorem c95_follow {calls : List LateCall} : ∀ {answers : List LateAnswer} {b : Bus},
    Between (calls.map LateCall.writing) (answers.flatMap LateAnswer.events) b →
    (∀ c ∈ calls, Room b (c.body.length - 1)) → (∀ a ∈ answers, a.Valid b.readBuffer.length) →
    OneBehind b.serialPort.now (calls.map (LateCall.times b.baudRate)) answers → Take b calls answers := by
  induction calls with
  | nil => intro answers b _ _ _ _; exact trivial
  | cons c calls ih =>
    intro answers b h hroom hv ho
    cases answers with
    | nil => exact ho.elim
    | cons a answers =>
      obtain ⟨ho1, ho2⟩ := ho
      obtain ⟨h1, h2, h3, h4, h5, h6⟩ := c95_call h (hroom c List.mem_cons_self) (hv a List.mem_cons_self) (fun p hp => (ho1 p hp).2)
        (oneBehind_later ho2)
      refine ⟨h1, h2, ih h6 (fun c' hc => ?_) (fun a' ha => ?_) ?_⟩
      · have := hroom c' (List.mem_cons_of_mem _ hc)
        unfold Room at this ⊢
        rwa [h3]
      · rw [h4]; exact hv a' (List.mem_cons_of_mem _ ha)
      · rw [h5, h2]; exact ho2

/-- **C95** A motor that is too slow: the first call ends with a time-out error; after that each call takes the answer to the
call before it for its own. -/
theorem c95_shifted {c : LateCall} {calls : List LateCall} {answers : List LateAnswer} {b : Bus}
    (h : Between (c.writing :: calls.map LateCall.writing) (answers.flatMap LateAnswer.events) b)
    (hroom : ∀ c' ∈ c :: calls, Room b (c'.body.length - 1)) (hv : ∀ a ∈ answers, a.Valid b.readBuffer.length)
    (ho : OneBehind (b.serialPort.now + c.writing + responseWait b.baudRate c.expected) (calls.map (LateCall.times b.baudRate)) answers) :
    (c.run b).2 = .err (.readError (.io .timedOut)) ∧ Take (c.run b).1 calls answers := by
  obtain ⟨h1, h2, h3, h4, h5, h6⟩ := c95_timeout h (hroom c List.mem_cons_self) (oneBehind_later ho)
  refine ⟨h1, c95_follow h6 (fun c' hc => ?_) (fun a ha => ?_) ?_⟩
  · have := hroom c' (List.mem_cons_of_mem _ hc)
    unfold Room at this ⊢
    rwa [h3]
  · rw [h4]; exact hv a ha
  · rw [h5, h2]; exact ho

/-! ## A motor that always takes the same time, too long -/

/-- The client after `n` reads of `count` bytes from a motor, at these addresses. -/
def afterReads (id : Byte) (address : Nat → U16) (count : U16) (b : Bus) : Nat → Bus
  | 0 => b
  | n + 1 => (Client.readBytes id (address n) count (afterReads id address count b n)).1

/-- The `k`th answer (from 0) of a motor that needs the time `delay` for each, when the client waits for the time `wait` and
asks again as soon as it can. -/
def slowAnswer (id : Byte) (start wait delay : Nat) (error : Nat → Byte) (params wire : Nat → List Byte) (k : Nat) : LateAnswer :=
  ⟨id, error k, params k, wire k, [(start + ((k / 2 + 1) * delay + k % 2 * wait), frame id (wire k))]⟩

/-- `read_bytes`, as one of the calls. -/
def lateRead (id : Byte) (address count : U16) : LateCall := ⟨_, _, _, _, 0, .readBytes id address count⟩

theorem step_times (k wait delay : Nat) : (k / 2 + 1) * delay + k % 2 * wait = (k + 2) / 2 * delay + (k + 2) % 2 * wait := by
  rw [show (k + 2) / 2 = k / 2 + 1 by omega, show (k + 2) % 2 = k % 2 by omega]

theorem due_between {k wait delay : Nat} (h1 : wait < delay) (h2 : delay ≤ 2 * wait) :
    (k + 1) / 2 * delay + (k + 1) % 2 * wait < (k / 2 + 1) * delay + k % 2 * wait ∧
    (k / 2 + 1) * delay + k % 2 * wait ≤ (k + 1) / 2 * delay + (k + 1) % 2 * wait + wait ∧
    (k / 2 + 1) * delay + k % 2 * wait < ((k + 1) / 2 + 1) * delay + (k + 1) % 2 * wait := by
  rcases Nat.mod_two_eq_zero_or_one k with hk | hk
  · rw [show (k + 1) / 2 = k / 2 by omega, show (k + 1) % 2 = 1 by omega, hk, Nat.add_mul]
    omega
  · rw [show (k + 1) / 2 = k / 2 + 1 by omega, show (k + 1) % 2 = 0 by omega, hk]
    simp only [Nat.add_mul]
    omega

theorem due_mono {k j wait delay : Nat} (h1 : wait < delay) (h2 : delay ≤ 2 * wait) (h : k < j) :
    (k / 2 + 1) * delay + k % 2 * wait < (j / 2 + 1) * delay + j % 2 * wait := by
  induction j with
  | zero => omega
  | succ j ih =>
    have := (due_between (k := j) h1 h2).2.2
    rcases Nat.lt_or_eq_of_le (Nat.le_of_lt_succ h) with h | rfl
    · have := ih h; omega
    · exact this

/-- **C95** A motor that needs longer for each answer than the client waits, but not twice as long, while the client reads again
and again: the first read ends with a time-out error; every later read succeeds, with the value that was asked for by the read
before it. It never gets better. -/
theorem c95_slow_motor {id : Byte} {address : Nat → U16} {count : U16} {n delay : Nat} {error : Nat → Byte}
    {params wire : Nat → List Byte} {b : Bus} (hslow : responseWait b.baudRate count.toNat < delay)
    (hslow' : delay ≤ 2 * responseWait b.baudRate count.toNat)
    (h : Between (List.replicate (n + 1) 0) (((List.range n).map (slowAnswer id b.serialPort.now (responseWait b.baudRate count.toNat)
      delay error params wire)).flatMap LateAnswer.events) b) (hroom : Room b 4)
    (hlen : ∀ k < n, (params k).length = count.toNat) (herr : ∀ k < n, (error k).toNat % 128 = 0)
    (hwire : ∀ k < n, Unstuffs (wire k) (0x55#8 :: error k :: params k) ∧ (wire k).length + 2 < 2 ^ 16 ∧
      (frame id (wire k)).length ≤ b.readBuffer.length) :
    (Client.readBytes id (address 0) count b).2 = .err (.readError (.io .timedOut)) ∧
    (∀ k < n, (Client.readBytes id (address (k + 1)) count (afterReads id address count b (k + 1))).2 =
      .ok ⟨id, decide (128 ≤ (error k).toNat), params k⟩) ∧
    ∀ k < n, (slowAnswer id b.serialPort.now (responseWait b.baudRate count.toNat) delay error params wire k).pieces =
      [((afterReads id address count b k).serialPort.now + delay, frame id (wire k))] := by
  generalize hT : responseWait b.baudRate count.toNat = T at hslow hslow' h ⊢
  let answers (k : Nat) : List LateAnswer := ((List.range n).drop k).map (slowAnswer id b.serialPort.now T delay error params wire)
  have hlater : ∀ k T', (∀ j, k ≤ j → T' < b.serialPort.now + ((j / 2 + 1) * delay + j % 2 * T)) → ∀ a ∈ answers k, ∀ p ∈ a.pieces, T' < p.1 := by
    intro k T' hT' a ha p hp
    obtain ⟨j, hj, rfl⟩ := List.mem_map.mp ha
    obtain rfl := List.mem_singleton.mp hp
    obtain ⟨i, hi, rfl⟩ := List.mem_iff_getElem.mp hj
    simp only [List.getElem_drop, List.getElem_range]
    exact hT' _ (by omega)
  have h0 : answers 0 = (List.range n).map (slowAnswer id b.serialPort.now T delay error params wire) := rfl
  have hfirst := c95_timeout (c := lateRead id (address 0) count) (b := b) (durations := List.replicate n 0) (answers := answers 0)
    (by rw [h0]; exact h) hroom (hlater 0 _ fun j _ => by
      show b.serialPort.now + 0 + responseWait b.baudRate count.toNat < _
      rw [hT]
      have := Nat.le_mul_of_pos_left delay (show 0 < j / 2 + 1 by omega)
      omega)
  have hinv : ∀ k ≤ n, (afterReads id address count b (k + 1)).serialPort.now = b.serialPort.now + ((k + 1) / 2 * delay + (k + 1) % 2 * T) ∧
      (afterReads id address count b (k + 1)).writeBuffer.length = b.writeBuffer.length ∧
      (afterReads id address count b (k + 1)).readBuffer.length = b.readBuffer.length ∧
      (afterReads id address count b (k + 1)).baudRate = b.baudRate ∧
      Between (List.replicate (n - k) 0) ((answers k).flatMap LateAnswer.events) (afterReads id address count b (k + 1)) ∧
      ∀ j < k, (Client.readBytes id (address (j + 1)) count (afterReads id address count b (j + 1))).2 =
        .ok ⟨id, decide (128 ≤ (error j).toNat), params j⟩ := by
    intro k
    induction k with
    | zero =>
      intro _
      obtain ⟨-, g1, g2, g3, g4, g5⟩ := hfirst
      refine ⟨?_, g2, g3, g4, g5, fun j hj => by omega⟩
      refine g1.trans ?_
      show b.serialPort.now + 0 + responseWait b.baudRate count.toNat = _
      rw [hT]
      simp
    | succ k ih =>
      intro hk
      obtain ⟨g1, g2, g3, g4, g5, g6⟩ := ih (by omega)
      have hcons : answers k = slowAnswer id b.serialPort.now T delay error params wire k :: answers (k + 1) := by
        show ((List.range n).drop k).map _ = _
        rw [List.drop_eq_getElem_cons (by rw [List.length_range]; omega), List.map_cons, List.getElem_range]
      obtain ⟨t1, t2, t3⟩ := due_between (k := k) hslow hslow'
      have hcomp : (slowAnswer id b.serialPort.now T delay error params wire k).complete
          ((afterReads id address count b (k + 1)).serialPort.now + 0) = b.serialPort.now + ((k / 2 + 1) * delay + k % 2 * T) := by
        show max _ (b.serialPort.now + ((k / 2 + 1) * delay + k % 2 * T)) = _
        omega
      have hstep := c95_call (c := lateRead id (address (k + 1)) count) (b := afterReads id address count b (k + 1))
        (durations := List.replicate (n - (k + 1)) 0) (a := slowAnswer id b.serialPort.now T delay error params wire k)
        (answers := answers (k + 1)) (by
          rw [← hcons]
          have : n - k = (n - (k + 1)) + 1 := by omega
          rw [this] at g5
          exact g5) (by
          show Room _ 4
          unfold Room at hroom ⊢
          rw [g2]
          exact hroom)
        ⟨by simp [slowAnswer], by
            intro p hp
            obtain rfl := List.mem_singleton.mp hp
            simp [frame, frameHead, header], (hwire k (by omega)).1, (hwire k (by omega)).2.1,
          by rw [g3]; exact (hwire k (by omega)).2.2⟩ (by
            intro p hp
            obtain rfl := List.mem_singleton.mp hp
            show b.serialPort.now + ((k / 2 + 1) * delay + k % 2 * T) ≤ _ + 0 + responseWait _ count.toNat
            rw [g4, hT, g1]
            omega) (by
            show ∀ a' ∈ answers (k + 1), ∀ p ∈ a'.pieces, LateAnswer.complete (_ + 0) _ < p.1
            rw [hcomp]
            exact hlater _ _ fun j hj => by have := due_mono (k := k) (j := j) hslow hslow' (by omega); omega)
      obtain ⟨k1, k2, k3, k4, k5, k6⟩ := hstep
      refine ⟨?_, k3.trans g2, k4.trans g3, k5.trans g4, k6, ?_⟩
      · rw [← step_times k T delay, ← hcomp]
        exact k2
      · intro j hj
        rcases Nat.lt_or_eq_of_le (Nat.le_of_lt_succ hj) with hj | rfl
        · exact g6 j hj
        · unfold LateCall.Takes at k1
          rw [if_neg (by have := herr j (by omega); simpa [slowAnswer] using this)] at k1
          refine Eq.trans k1 ?_
          show answer id count.toNat id (error j) (params j) (params j) = _
          unfold answer
          rw [if_neg (by have := herr j (by omega); omega), if_neg (by simp), if_neg (by simpa using hlen j (by omega))]
  refine ⟨hfirst.1, (hinv n (Nat.le_refl n)).2.2.2.2.2, fun k hk => ?_⟩
  have hs : (afterReads id address count b k).serialPort.now = b.serialPort.now + (k / 2 * delay + k % 2 * T) := by
    cases k with
    | zero => simp [afterReads]
    | succ k => exact (hinv k (by omega)).1
  rw [hs]
  simp only [slowAnswer, Nat.add_mul, Nat.one_mul]
  rw [show b.serialPort.now + (k / 2 * delay + delay + k % 2 * T) = b.serialPort.now + (k / 2 * delay + k % 2 * T) + delay by omega]

/-! ## Cases -/

/-- A client with 4 calls before it, and these late answers. -/
def lateBus (answers : List LateAnswer) : Bus :=
  { quietBus true 40 with serialPort :=
    { quietPort with rx := answers.flatMap LateAnswer.events, writeRes := [(0, none), (0, none), (0, none), (0, none)] } }

theorem lateBus_between {answers : List LateAnswer} (h : ∀ a ∈ answers, ∀ p ∈ a.pieces, 0 < p.1) :
    Between [0, 0, 0, 0] (answers.flatMap LateAnswer.events) (lateBus answers) where
  winv := ⟨(by decide : 10 ≤ (quietBus true 40).writeBuffer.length), (by decide : (quietBus true 40).writeBuffer.take 4 = headerPrefix)⟩
  baud := by show 57600 < 2 ^ 32; decide
  baud0 := by show 57600 ≠ 0; decide
  room := by show 10 ≤ (quietBus true 40).readBuffer.length; decide
  smooth := by
    refine ⟨rfl, rfl, rfl, rfl, fun e he => ?_⟩
    obtain ⟨a, -, he⟩ := List.mem_flatMap.mp he
    obtain ⟨p, -, rfl⟩ := List.mem_map.mp he
    exact ⟨_, _, rfl⟩
  future := by
    show notYetArrived 0 (answers.flatMap LateAnswer.events) = _
    exact notYetArrived_all h

/-- A motor that needs 50 ms for an answer, when the client waits for 36.26 ms. It is asked for two bytes at four addresses. -/
def fiftyMs (k : Nat) : LateAnswer :=
  slowAnswer 1#8 0 36256945 50000000 (fun _ => 0#8) (fun k => [BitVec.ofNat 8 k, 7#8]) (fun k => [0x55#8, 0#8, BitVec.ofNat 8 k, 7#8]) k

theorem fiftyMs_between : Between [0, 0, 0, 0] (((List.range 3).map fiftyMs).flatMap LateAnswer.events) (lateBus ((List.range 3).map fiftyMs)) :=
  lateBus_between (by decide)

theorem fiftyMs_valid : ∀ a ∈ (List.range 3).map fiftyMs, a.Valid 20 := by
  intro a ha
  have : a = fiftyMs 0 ∨ a = fiftyMs 1 ∨ a = fiftyMs 2 := by
    simpa [List.range, List.range.loop] using ha
  rcases this with rfl | rfl | rfl <;>
    exact ⟨by decide +kernel, by decide +kernel, (unstuffs_iff _ _).2 (by decide +kernel), by decide, by decide +kernel⟩

example := c95_slow_motor (id := 1#8) (address := fun k => BitVec.ofNat 16 (100 + 2 * k)) (count := 2#16) (n := 3) (delay := 50000000)
  (error := fun _ => 0#8) (params := fun k => [BitVec.ofNat 8 k, 7#8]) (wire := fun k => [0x55#8, 0#8, BitVec.ofNat 8 k, 7#8])
  (b := lateBus ((List.range 3).map fiftyMs)) (by decide +kernel) (by decide +kernel)
  (by rw [show responseWait (lateBus ((List.range 3).map fiftyMs)).baudRate (2#16).toNat = 36256945 by decide +kernel]; exact fiftyMs_between)
  ⟨by decide, by decide⟩ (fun _ _ => rfl) (fun _ _ => rfl) (by
    intro k hk
    have hv := fiftyMs_valid (fiftyMs k) (List.mem_map.mpr ⟨k, List.mem_range.mpr hk, rfl⟩)
    exact ⟨hv.means, hv.short, hv.fits⟩)

/-- What the client sees: a time-out, and then at address 102 what is at address 100. -/
example : (Client.readBytes 1#8 100#16 2#16 (lateBus ((List.range 3).map fiftyMs))).2 = .err (.readError (.io .timedOut)) ∧
    (Client.readBytes 1#8 102#16 2#16 (Client.readBytes 1#8 100#16 2#16 (lateBus ((List.range 3).map fiftyMs))).1).2 =
      .ok ⟨1#8, false, [0#8, 7#8]⟩ := by decide +kernel

/-- Answers of motor 1 to a read of two bytes and to a write, and an answer that reports an error; the second comes in two pieces. -/
def mixedAnswers : List LateAnswer :=
  [⟨1#8, 0#8, [5#8, 6#8], [0x55#8, 0#8, 5#8, 6#8], [(40000000, frame 1#8 [0x55#8, 0#8, 5#8, 6#8])]⟩,
   ⟨1#8, 0#8, [], [0x55#8, 0#8], [(50000000, (frame 1#8 [0x55#8, 0#8]).take 4), (60000000, (frame 1#8 [0x55#8, 0#8]).drop 4)]⟩,
   ⟨2#8, 4#8, [], [0x55#8, 4#8], [(70000000, frame 2#8 [0x55#8, 4#8])]⟩]

/-- The motor 1 is read, the motor 2 is pinged, the motor 3 is rebooted, and the motor 1 is read again. -/
def mixedCalls : List LateCall :=
  [⟨_, _, _, _, 0, .ping 2#8⟩, ⟨_, _, _, _, 0, .write (w := .reboot) .reboot (id := 3#8) (by decide)⟩, lateRead 1#8 100#16 2#16]

theorem mixed_valid : ∀ a ∈ mixedAnswers, a.Valid 20 := by
  intro a ha
  simp only [mixedAnswers, List.mem_cons, List.not_mem_nil, or_false] at ha
  rcases ha with rfl | rfl | rfl <;>
    exact ⟨by decide +kernel, by decide +kernel, (unstuffs_iff _ _).2 (by decide +kernel), by decide, by decide +kernel⟩

theorem mixed_room : ∀ c ∈ lateRead 1#8 100#16 2#16 :: mixedCalls, Room (lateBus mixedAnswers) (c.body.length - 1) := by
  intro c hc
  simp only [mixedCalls, List.mem_cons, List.not_mem_nil, or_false] at hc
  rcases hc with rfl | rfl | rfl | rfl <;> exact ⟨by decide, by decide⟩

theorem mixed_behind : OneBehind 36256945 (mixedCalls.map (LateCall.times 57600)) mixedAnswers := by
  refine ⟨by decide +kernel, by decide +kernel, by decide +kernel, fun a ha => nomatch ha⟩

theorem mixed_between : Between [0, 0, 0, 0] (mixedAnswers.flatMap LateAnswer.events) (lateBus mixedAnswers) :=
  lateBus_between (by decide +kernel)

/-- The ping fails since another motor answers, the reboot is confirmed by the motor that was written to before, and the last
read fails with the error of motor 2. -/
example : ((lateRead 1#8 100#16 2#16).run (lateBus mixedAnswers)).2 = .err (.readError (.io .timedOut)) ∧
    Take ((lateRead 1#8 100#16 2#16).run (lateBus mixedAnswers)).1 mixedCalls mixedAnswers :=
  c95_shifted mixed_between mixed_room mixed_valid
    (by rw [show (lateBus mixedAnswers).serialPort.now + (lateRead 1#8 100#16 2#16).writing +
          responseWait (lateBus mixedAnswers).baudRate (lateRead 1#8 100#16 2#16).expected = 36256945 by decide +kernel]; exact mixed_behind)

example : (Client.ping 2#8 (Client.readBytes 1#8 100#16 2#16 (lateBus mixedAnswers)).1).2 =
      .err (.readError (.invalidMessage (.packetId 1#8 2#8))) ∧
    (Client.reboot 3#8 (Client.ping 2#8 (Client.readBytes 1#8 100#16 2#16 (lateBus mixedAnswers)).1).1).2 = .ok ⟨1#8, false, ()⟩ := by
  decide +kernel

example := c95_timeout (c := lateRead 1#8 100#16 2#16) (b := lateBus mixedAnswers) (durations := [0, 0, 0]) (answers := mixedAnswers)
  mixed_between ⟨by decide, by decide⟩ (by decide +kernel)

/-- An answer to a call that is over. -/
def lateOne : LateAnswer := ⟨1#8, 0x80#8, [5#8, 6#8], [0x55#8, 0x80#8, 5#8, 6#8], [(30000000, frame 1#8 [0x55#8, 0x80#8, 5#8, 6#8])]⟩

theorem lateOne_valid : lateOne.Valid 20 :=
  ⟨by decide +kernel, by decide +kernel, (unstuffs_iff _ _).2 (by decide +kernel), by decide, by decide +kernel⟩

example := c95_call (c := lateRead 1#8 100#16 2#16) (b := lateBus [lateOne]) (durations := [0, 0, 0]) (a := lateOne) (answers := [])
  (lateBus_between (by decide)) ⟨by decide, by decide⟩ lateOne_valid (by decide +kernel) (by decide)

example := c95_follow (calls := [lateRead 1#8 100#16 2#16, lateRead 1#8 102#16 2#16, lateRead 1#8 104#16 2#16, lateRead 1#8 106#16 2#16])
  (answers := [{ lateOne with pieces := [(10000000, frame 1#8 lateOne.wire)] }, { lateOne with pieces := [(40000000, frame 1#8 lateOne.wire)] },
    { lateOne with pieces := [(70000000, frame 1#8 lateOne.wire)] }, { lateOne with pieces := [(80000000, frame 1#8 lateOne.wire)] }])
  (lateBus_between (by decide +kernel)) (by
    intro c hc
    simp only [List.mem_cons, List.not_mem_nil, or_false] at hc
    rcases hc with rfl | rfl | rfl | rfl <;> exact ⟨by decide, by decide⟩) (by
    intro a ha
    simp only [List.mem_cons, List.not_mem_nil, or_false] at ha
    rcases ha with rfl | rfl | rfl | rfl <;>
      exact ⟨by decide +kernel, by decide +kernel, (unstuffs_iff _ _).2 (by decide +kernel), by decide, by decide +kernel⟩)
  ⟨by decide +kernel, by decide +kernel, by decide +kernel, by decide +kernel, fun a ha => nomatch ha⟩

end Dxl.Props
