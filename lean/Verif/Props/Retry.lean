import Verif.Props.Session
import Verif.Lemmas.MotorThread
import Verif.Spec.Again

/-! # C88: calls that are repeated on a line that loses packets -/

namespace Dxl.Props
open Dxl Spec

/-! ## The memory -/

theorem store_again {m m' data : List Byte} {a : Nat} (h : store m a data = some m') : store m' a data = some m' := by
  unfold store at h ⊢
  split at h
  · rename_i hl
    have := Option.some.inj h
    subst this
    simp only [List.length_map, List.length_range]
    rw [if_pos hl]
    refine congrArg some (List.map_congr_left fun i hi => ?_)
    have hi := List.mem_range.mp hi
    split
    · rfl
    · rename_i hn
      rw [List.getD_eq_getElem?_getD, List.getElem?_eq_getElem (by simpa using hi)]
      simp only [List.getElem_map, List.getElem_range, Option.getD_some]
      rw [if_neg hn]
  · cases h

theorem put_again (s : Servo) (a : U16) (data : List Byte) : (s.put a data).1.put a data = s.put a data := by
  unfold Servo.put
  cases h : store s.memory a.toNat data with
  | none => dsimp only; rw [h]
  | some m => dsimp only; rw [store_again h]

theorem put_registered (s : Servo) (a : U16) (data : List Byte) : (s.put a data).1.registered = s.registered := by
  unfold Servo.put
  split <;> rfl

/-- **C88** For the memory, serving a request again changes nothing; and the answer is the same, except for an action: it is
refused when it is asked for again. -/
theorem c88_again {s s' : Servo} {r : Request} {reply : ServoReply} (h : s.serve r = some (s', reply)) :
    s'.serve r = some (s', if r = .action then Servo.outside else reply) := by
  cases r with
  | ping => obtain ⟨rfl, rfl⟩ := Prod.mk.inj (Option.some.inj h); rfl
  | read a n => obtain ⟨rfl, rfl⟩ := Prod.mk.inj (Option.some.inj h); rfl
  | write a data =>
    have h := Option.some.inj h
    rw [show s' = (s.put a data).1 by rw [h], show reply = (s.put a data).2 by rw [h]]
    exact congrArg some (put_again s a data)
  | regWrite a data => obtain ⟨rfl, rfl⟩ := Prod.mk.inj (Option.some.inj h); rfl
  | action =>
    have hn : s'.registered = none := by
      change (match s.registered with
        | some (address, data) => some (Servo.put { s with registered := none } address data)
        | none => some (s, Servo.outside)) = _ at h
      split at h
      · rename_i address data _
        have h := Option.some.inj h
        rw [show s' = (Servo.put { s with registered := none } address data).1 by rw [h], put_registered]
      · rename_i hr
        obtain ⟨rfl, -⟩ := Prod.mk.inj (Option.some.inj h)
        exact hr
    change (match s'.registered with
      | some (address, data) => some (Servo.put { s' with registered := none } address data)
      | none => some (s', Servo.outside)) = _
    rw [hn]
    rfl
  | _ => cases h

/-- **C88** However often the memory serves the same request: it is as after the first time. -/
theorem c88_many {r : Request} {n : Nat} {s s₁ s₂ : Servo} {reply reply' : ServoReply} (h : Repeated r n s s₂ reply')
    (h₁ : s.serve r = some (s₁, reply)) :
    s₂ = s₁ ∧ (reply' = reply ∨ (r = .action ∧ 1 < n ∧ reply' = Servo.outside)) := by
  induction h with
  | once h =>
    rw [h] at h₁
    obtain ⟨rfl, rfl⟩ := Prod.mk.inj (Option.some.inj h₁)
    exact ⟨rfl, .inl rfl⟩
  | @again n s s₂ s₃ q q' h h' ih =>
    obtain ⟨rfl, ih⟩ := ih h₁
    rw [c88_again h₁] at h'
    obtain ⟨rfl, rfl⟩ := Prod.mk.inj (Option.some.inj h')
    have : 0 < n := by cases h <;> omega
    split
    · rename_i ha; exact ⟨rfl, .inr ⟨ha, by omega, rfl⟩⟩
    · exact ⟨rfl, .inl rfl⟩

/-! ## The motor -/

/-- The simulated motor runs its loop, any number of times, and is sent `r` by the client, any number of times: each time,
nothing for it arrives while it waits, or an instruction for another motor does, or `r` for this motor does. -/
inductive SentAgain (fuel : Nat) (r : Request) : MockDevice → MockDevice → Prop
  | rest (d) : SentAgain fuel r d d
  | idle {d d₁} {statuses : List Item} {trailing : List Byte} (h : SentAgain fuel r d d₁)
      (hst : Statuses d₁.device.readBuffer.length statuses) (ht : ¬ header <:+: trailing)
      (hs : stream (d₁.device.serialPort.now + 10000000) d₁.device = itemBytes statuses ++ trailing) :
      SentAgain fuel r d ((MockDevice.step fuel : SO MockDevice Empty Unit) d₁).1
  | other {d d₁} {to : Byte} {r' : Request} (h : SentAgain fuel r d d₁) (hto : to ≠ d₁.id) (hb : to ≠ 254#8)
      (hr : Receives d₁ to r'.body) : SentAgain fuel r d ((MockDevice.step fuel : SO MockDevice Empty Unit) d₁).1
  | own {d d₁} (h : SentAgain fuel r d d₁) (hr : Receives d₁ d₁.id r.body) (ha : CanAnswer (fun _ => True) d₁ r) :
      SentAgain fuel r d ((MockDevice.step fuel : SO MockDevice Empty Unit) d₁).1

theorem SentAgain.trans {fuel : Nat} {r : Request} {d d₁ d₂ : MockDevice} (h : SentAgain fuel r d d₁) (h' : SentAgain fuel r d₁ d₂) :
    SentAgain fuel r d d₂ := by
  induction h' with
  | rest => exact h
  | idle _ hst ht hs ih => exact .idle ih hst ht hs
  | other _ hto hb hr ih => exact .other ih hto hb hr
  | own _ hr ha ih => exact .own ih hr ha

/-- A packet of the motor with this answer. -/
def Telling (id : Byte) (reply : ServoReply) (f : List Byte) : Prop :=
  ∃ wire, StuffedForm (0x55#8 :: reply.error :: reply.data) wire ∧ f = frame id wire

/-- What holds after the motor was sent `r` a number of times. -/
structure AfterAgain (r : Request) (d d' : MockDevice) : Prop where
  id : d'.id = d.id
  step : Step d.device d'.device
  served : (servo d' = servo d ∧ ∀ f, ¬ Wrote d.device d'.device f) ∨
    ∃ n reply, Repeated r n (servo d) (servo d') reply ∧ (∃ f, Wrote d.device d'.device f) ∧
      ∀ f, Wrote d.device d'.device f → ∃ k s reply, k ≤ n ∧ Repeated r k (servo d) s reply ∧ Telling d.id reply f

theorem wrote_append {b b' c : Bus} {calls : List Call} (hs : Step b b') (hc : c.serialPort.log = b'.serialPort.log ++ calls)
    {f : List Byte} (h : Wrote b c f) : Wrote b b' f ∨ Call.write f true ∈ calls := by
  obtain ⟨l, hl, -⟩ := hs.calls
  obtain ⟨l', h1, h2⟩ := h
  rw [hc, hl, List.append_assoc] at h1
  rw [← List.append_cancel_left h1, List.mem_append] at h2
  exact h2.imp (fun h => ⟨l, hl, h⟩) id

theorem wrote_later {b b' c : Bus} (hs : Step b' c) {f : List Byte} (h : Wrote b b' f) : Wrote b c f := by
  obtain ⟨l, hl, -⟩ := hs.calls
  obtain ⟨l', h1, h2⟩ := h
  exact ⟨l' ++ l, by rw [hl, h1, List.append_assoc], List.mem_append_left _ h2⟩

theorem hears_heard {fuel : Nat} {r : Request} {d d' : MockDevice} (h : SentAgain fuel r d d') (hd : d.device.Inv)
    (hN : 10 ≤ d.device.readBuffer.length) (hserve : ∀ s : Servo, ∃ s' reply, s.serve r = some (s', reply)) : AfterAgain r d d' := by
  have silent : ∀ {d₁ d₂ : MockDevice}, AfterAgain r d d₁ → d₂.id = d₁.id → servo d₂ = servo d₁ → Listened d₁ d₂ → Step d₁.device d₂.device →
      AfterAgain r d d₂ := by
    intro d₁ d₂ ih k2 k3 ⟨reads, k4, k4'⟩ k5
    have hw : ∀ f, Wrote d.device d₂.device f → Wrote d.device d₁.device f := fun f hf =>
      (wrote_append ih.step k4' hf).resolve_right fun hm => by obtain ⟨_, _, hc⟩ := k4 _ hm; cases hc
    refine ⟨k2.trans ih.id, ih.step.trans k5, ?_⟩
    rw [k3]
    rcases ih.served with ⟨h1, h2⟩ | ⟨n, reply, h1, ⟨f, h2⟩, h3⟩
    · exact .inl ⟨h1, fun f hf => h2 f (hw f hf)⟩
    · exact .inr ⟨n, reply, h1, ⟨f, wrote_later k5 h2⟩, fun f hf => h3 f (hw f hf)⟩
  induction h with
  | rest =>
    exact ⟨rfl, .refl hd, .inl ⟨rfl, fun f ⟨l, h1, h2⟩ => by
      rw [List.append_right_eq_self.mp h1.symm] at h2; cases h2⟩⟩
  | @idle d₁ statuses trailing _ hst ht hs ih =>
    obtain ⟨d₂, k1, k2, k3, k4, k5, -⟩ := c52_waits (ε := Empty) fuel ih.step.inv (ih.step.readSize ▸ hN) hst ht hs
    rw [k1]
    exact silent ih k2 k3 k4 k5
  | @other d₁ to r' _ hto hb hr ih =>
    obtain ⟨d₂, k1, k2, k3, k4, k5⟩ := c52_ignores_others (ε := Empty) fuel ih.step.inv hto hb hr
    rw [k1]
    exact silent ih k2 k3 k4 k5
  | @own d₁ _ hr ha ih =>
    obtain ⟨s', reply, hs⟩ := hserve (servo d₁)
    obtain ⟨d₂, k1, k2, k3, ⟨reads, wire, k4, k5, k6⟩, k7⟩ :=
      c52_serves_partial (ε := Empty) fuel ih.step.inv ha.1 (.inl rfl) hr hs (ha.2 s' reply hs).1
    rw [k1]
    refine ⟨k2.trans ih.id, ih.step.trans k7, .inr ?_⟩
    dsimp only
    have hnew : Wrote d.device d₂.device (frame d₁.id wire) := by
      obtain ⟨l, hl, -⟩ := ih.step.calls
      exact ⟨l ++ (reads ++ [.discard true, .write (frame d₁.id wire) true]), by rw [k6, hl]; simp, by simp⟩
    have hold : ∀ f, Wrote d.device d₂.device f → Wrote d.device d₁.device f ∨ f = frame d.id wire := by
      intro f hf
      refine (wrote_append ih.step (by rw [k6, List.append_assoc]) hf).imp id fun hm => ?_
      rcases List.mem_append.mp hm with hm | hm
      · obtain ⟨_, _, hc⟩ := k4 _ hm; cases hc
      · simp only [List.mem_cons, reduceCtorEq, Call.write.injEq, and_true, false_or, List.not_mem_nil, or_false] at hm
        rw [hm, ih.id]
    rcases ih.served with ⟨h1, h2⟩ | ⟨n, q, h1, -, h3⟩
    · rw [h1] at hs
      refine ⟨1, reply, k3 ▸ .once hs, ⟨_, hnew⟩, fun f hf => ?_⟩
      rcases hold f hf with hf | rfl
      · exact absurd hf (h2 f)
      · exact ⟨1, s', reply, Nat.le_refl _, .once hs, wire, k5, rfl⟩
    · have hserved := Repeated.again h1 hs
      refine ⟨n + 1, reply, k3 ▸ hserved, ⟨_, hnew⟩, fun f hf => ?_⟩
      rcases hold f hf with hf | rfl
      · obtain ⟨k, s, p, h4, h5⟩ := h3 f hf
        exact ⟨k, s, p, by omega, h5⟩
      · exact ⟨n + 1, s', reply, Nat.le_refl _, hserved, wire, k5, rfl⟩

/-! ## The client -/

/-- If the first packet that arrives at the client, in time for an answer with `n` bytes to what it sends in the state `b`, is a
status packet, then the motor sent it between `d` and `d'`. -/
def OnlyFrom (d d' : MockDevice) (b : Bus) (n : Nat) : Prop :=
  ∀ ns g id wire rest body, LeastTime (11 + n) b.baudRate ns →
    arriving (b.serialPort.now + b.serialPort.writeTime + (ns + 34000000)) (newInput b.serialPort) = g ++ frame id wire ++ rest →
    ¬ header <:+: g → Unstuffs wire (0x55#8 :: body) → Wrote d.device d'.device (frame id wire)

/-- The same call, tried again and again, and the results. Before a try ends, the motor runs; whether it is reached by what the
client sends, how often, and when, is left open, and so is what the client receives of the answers, and when: only, these are
not answers from before the first try or of other motors. What the client does between the tries is left open too. -/
inductive Tries (fuel : Nat) {α : Type} (m : SO Bus TransferError (Response α)) (r : Request) (d : MockDevice) :
    MockDevice → List (Outcome TransferError (Response α)) → Prop
  | none : Tries fuel m r d d []
  | again {d₁ d₂ : MockDevice} {results : List (Outcome TransferError (Response α))} {b : Bus} (h : Tries fuel m r d d₁ results)
      (hb : b.WInv) (hbaud : b.baudRate < 2 ^ 32) (hears : SentAgain fuel r d₁ d₂) (only : OnlyFrom d d₂ b (answerSize r)) :
      Tries fuel m r d d₂ (results ++ [(m b).2])

theorem Tries.hears {fuel : Nat} {α : Type} {m : SO Bus TransferError (Response α)} {r : Request} {d d' : MockDevice}
    {results : List (Outcome TransferError (Response α))} (h : Tries fuel m r d d' results) : SentAgain fuel r d d' := by
  induction h with
  | none => exact .rest _
  | again _ _ _ hears _ ih => exact ih.trans hears

/-- A successful call received an answer. -/
theorem uses_ok {α : Type} {m : SO Bus TransferError (Response α)} {id : Byte} {r : Request} {value : List Byte → α → Prop}
    (h : Uses m id r value) {b c : Bus} {x : Response α} (hid : id ≠ 254#8) (hb : b.WInv) (hbaud : b.baudRate < 2 ^ 32)
    (hx : m b = (c, .ok x)) :
    ∃ body e ps, Exchange b c id body (answerSize r) x.motorId e ps ∧ e.toNat % 128 = 0 ∧ x.alert = decide (128 ≤ e.toNat) ∧
      value ps x.data := by
  cases h with
  | ping =>
    obtain ⟨e, h1, h2, h3, h4⟩ := c30_ping hb hbaud hx
    exact ⟨_, e, _, by rw [h3]; exact h1, h2, h4, rfl⟩
  | readBytes =>
    obtain ⟨e, h1, h2, -, h3, h4⟩ := c30_read_bytes hb hbaud hx
    exact ⟨_, e, _, by rw [h3]; exact h1, h2, h4, rfl⟩
  | read hd =>
    obtain ⟨e, h1, hv, h2, h3, h4⟩ := c30_read_value hd hb hbaud hx
    exact ⟨_, e, _, by rw [h3]; exact h1, h2, h4, hv, rfl⟩
  | writeBytes _ a data =>
    obtain ⟨body, e, h1, h2, h3⟩ := c31_confirmed_by_some_motor_partial (w := .writeBytes a data) hb hbaud hid hx
    exact ⟨body, e, _, h1, h2, h3, trivial⟩
  | @write _ d _ _ hd _ a v hv =>
    obtain ⟨body, e, h1, h2, h3⟩ := c31_confirmed_by_some_motor_partial (w := .write d a v) hb hbaud hid hx
    exact ⟨body, e, _, h1, h2, h3, trivial⟩
  | regWriteBytes _ a data =>
    obtain ⟨body, e, h1, h2, h3⟩ := c31_confirmed_by_some_motor_partial (w := .regWriteBytes a data) hb hbaud hid hx
    exact ⟨body, e, _, h1, h2, h3, trivial⟩
  | action =>
    obtain ⟨body, e, h1, h2, h3⟩ := c31_confirmed_by_some_motor_partial (w := .action) hb hbaud hid hx
    exact ⟨body, e, _, h1, h2, h3, trivial⟩

theorem unstuffs_head {wire out : List Byte} (h : Unstuffs wire out) : wire.head? = out.head? := by
  cases h with
  | run n => rfl
  | plain n => cases n <;> rfl
  | removed n => cases n <;> rfl
  | kept n => cases n <;> rfl
  | last n => cases n <;> rfl

theorem unstuffs_second {x y : Byte} {wire out : List Byte} (h : Unstuffs (x :: wire) (y :: out)) (hy : y ≠ 0xFF#8) (hy' : y ≠ 0xFD#8) :
    Unstuffs wire out := by
  have hxy : x = y := by simpa using unstuffs_head h
  subst hxy
  rw [unstuffs_iff] at h ⊢
  unfold codeUnstuff at h ⊢
  simp only [unstuffGo, ustep] at h
  simp only [hy, hy', if_false, and_false] at h
  simpa using h

theorem stuff_head (l : List Byte) : (stuff l).head? = l.head? := by
  match l with
  | [] => rfl
  | [_] => rfl
  | [_, _] => rfl
  | _ :: _ :: _ :: _ =>
    unfold stuff
    split <;> rfl

/-- The first two bytes are not stuffed. -/
theorem stuffed_two {a e : Byte} {data wire : List Byte} (ha : a ≠ 0xFF#8) (hs : StuffedForm (a :: e :: data) wire) :
    ∃ w, wire = a :: e :: w := by
  obtain ⟨d₁, d₂, h1, rfl, -, -⟩ := hs
  match d₁ with
  | [] =>
    rw [List.nil_append] at h1
    subst h1
    have h := stuff_head (e :: data)
    match data with
    | [] => exact ⟨[], rfl⟩
    | c :: data =>
      rw [List.nil_append, stuff, if_neg (fun h => ha h.1)]
      cases hx : stuff (e :: c :: data) with
      | nil => rw [hx] at h; cases h
      | cons x w => rw [hx] at h; cases h; exact ⟨w, rfl⟩
  | [x] =>
    rw [List.singleton_append] at h1
    obtain ⟨rfl, rfl⟩ := List.cons.inj h1
    have h := stuff_head (e :: data)
    cases hx : stuff (e :: data) with
    | nil => rw [hx] at h; cases h
    | cons x w => rw [hx] at h; cases h; exact ⟨w, rfl⟩
  | x :: y :: d =>
    simp only [List.cons_append, List.cons.injEq] at h1
    obtain ⟨rfl, rfl, -⟩ := h1
    exact ⟨_, rfl⟩

/-- The error byte is not changed by the stuffing. -/
theorem stuffed_error {e e' : Byte} {data ps wire : List Byte} (hs : StuffedForm (0x55#8 :: e :: data) wire)
    (hu : Unstuffs wire (0x55#8 :: e' :: ps)) : e = e' := by
  obtain ⟨w, rfl⟩ := stuffed_two (by decide) hs
  simpa using unstuffs_head (unstuffs_second hu (by decide) (by decide))

theorem repeated_reply {r : Request} {n : Nat} {s s' : Servo} {reply : ServoReply} (h : Repeated r n s s' reply) :
    reply = Servo.outside ∨ (reply.error = 0#8 ∧ reply.data.length = answerSize r) := by
  cases h with
  | once h => exact serve_reply h
  | again _ h => exact serve_reply h

/-- A successful try: the first answer of the motor reached the client. -/
theorem tries_ok {fuel : Nat} {α : Type} {m : SO Bus TransferError (Response α)} {r : Request} {value : List Byte → α → Prop}
    {d d' : MockDevice} {results : List (Outcome TransferError (Response α))} (h : Tries fuel m r d d' results)
    (hu : Uses m d.id r value) (hid : d.id ≠ 254#8) (hd : d.device.Inv) (hN : 10 ≤ d.device.readBuffer.length) {x : Response α}
    (hx : .ok x ∈ results) {s' : Servo} {reply : ServoReply} (hs : (servo d).serve r = some (s', reply)) :
    servo d' = s' ∧ reply.error = 0#8 ∧ x.motorId = d.id ∧ x.alert = false ∧
      ∃ wire ps, StuffedForm (0x55#8 :: 0#8 :: reply.data) wire ∧ Unstuffs wire (0x55#8 :: 0#8 :: ps) ∧ value ps x.data := by
  induction h with
  | none => cases hx
  | @again d₁ d₂ results b h hb hbaud hears only ih =>
    have H := hears_heard (h.hears.trans hears) hd hN (serve_total hu)
    have H₁ := hears_heard h.hears hd hN (serve_total hu)
    rcases List.mem_append.mp hx with hx | hx
    · obtain ⟨h1, h2, h3⟩ := ih hx
      refine ⟨?_, h2, h3⟩
      have H₂ := hears_heard hears H₁.step.inv (H₁.step.readSize ▸ hN) (serve_total hu)
      rcases H₂.served with ⟨h4, -⟩ | ⟨n, q, h4, -⟩
      · rw [h4, h1]
      · rw [h1] at h4
        exact (c88_many h4 (c88_again hs)).1
    · have hx : m b = ((m b).1, .ok x) := Prod.ext rfl (List.mem_singleton.mp hx).symm
      obtain ⟨body, e, ps, ⟨_, _, ns, rest, -, hns, -, -, ⟨g, wire, k1, k2, -, -, k3⟩, -⟩, he, ha, hv⟩ := uses_ok hu hid hb hbaud hx
      have hw := only ns g _ wire rest _ hns k1 k2 k3
      rcases H.served with ⟨-, h2⟩ | ⟨n, q, h1, -, h3⟩
      · exact absurd hw (h2 _)
      · obtain ⟨k, s, p, -, k4, wire', k5, k6⟩ := h3 _ hw
        obtain ⟨k7, rfl⟩ := frame_inj k6
        have hpe := stuffed_error k5 k3
        have hp0 : p.error = 0#8 := by
          rcases repeated_reply k4 with rfl | h
          · rw [← hpe] at he; exact absurd he (by decide)
          · exact h.1
        have hpr : p = reply := by
          rcases (c88_many k4 hs).2 with h | ⟨-, -, rfl⟩
          · exact h
          · cases hp0
        subst hpr
        refine ⟨(c88_many h1 hs).1, hp0, k7, ?_, wire, ps, ?_, ?_, hv⟩
        · rw [ha, ← hpe, hp0]; rfl
        · rw [← hp0]; exact k5
        · rw [← hp0, hpe]; exact k3

/-- **C88** A call that is repeated, for any request to the simulated motor, on a line that loses any of the packets: at any
time, the motor is as it was, or as after a single request. As soon as one of the tries is successful, it is as after a single
request, and this was not refused. -/
theorem c88_retry {fuel : Nat} {α : Type} {m : SO Bus TransferError (Response α)} {r : Request} {value : List Byte → α → Prop}
    {d d' : MockDevice} {results : List (Outcome TransferError (Response α))} (h : Tries fuel m r d d' results)
    (hu : Uses m d.id r value) (hid : d.id ≠ 254#8) (hd : d.device.Inv) (hN : 10 ≤ d.device.readBuffer.length) :
    ∃ s' reply, (servo d).serve r = some (s', reply) ∧ (servo d' = servo d ∨ servo d' = s') ∧
      ∀ x, .ok x ∈ results → servo d' = s' ∧ reply.error = 0#8 ∧ x.motorId = d.id ∧ x.alert = false := by
  obtain ⟨s', reply, hs⟩ := serve_total hu (servo d)
  refine ⟨s', reply, hs, ?_, fun x hx => ?_⟩
  · rcases (hears_heard h.hears hd hN (serve_total hu)).served with ⟨h1, -⟩ | ⟨n, q, h1, -⟩
    · exact .inl h1
    · exact .inr (c88_many h1 hs).1
  · obtain ⟨h1, h2, h3, h4, -⟩ := tries_ok h hu hid hd hN hx hs
    exact ⟨h1, h2, h3, h4⟩

/-- **C88** For writes: after a successful try, the data are in the table of the motor, and the rest of the table and the
registered write are as before the first try. Before that, the table is as before, or as after the write. -/
theorem c88_write {fuel : Nat} {a : U16} {data : List Byte} {d d' : MockDevice} {results : List (Outcome TransferError (Response Unit))}
    (h : Tries fuel (Client.writeBytes d.id a data) (.write a data) d d' results) (hid : d.id ≠ 254#8) (hd : d.device.Inv)
    (hN : 10 ≤ d.device.readBuffer.length) :
    d'.actionRegister = d.actionRegister ∧
    (d'.controlTable = d.controlTable ∨ store d.controlTable a.toNat data = some d'.controlTable) ∧
    ∀ x, .ok x ∈ results → store d.controlTable a.toNat data = some d'.controlTable := by
  obtain ⟨s', reply, hs, h1, h2⟩ := c88_retry h (.writeBytes d.id a data) hid hd hN
  have hs := Option.some.inj hs
  unfold Servo.put at hs
  have hm : (servo d).memory = d.controlTable := rfl
  rw [hm] at hs
  cases hst : store d.controlTable a.toNat data with
  | some m =>
    rw [hst] at hs
    obtain ⟨rfl, rfl⟩ := Prod.mk.inj hs
    have key : servo d' = { servo d with memory := m } → d'.actionRegister = d.actionRegister ∧ m = d'.controlTable := fun h =>
      ⟨congrArg Servo.registered h, (congrArg Servo.memory h).symm⟩
    refine ⟨?_, ?_, fun x hx => congrArg some (key (h2 x hx).1).2⟩
    · rcases h1 with h1 | h1
      · exact congrArg Servo.registered h1
      · exact (key h1).1
    · rcases h1 with h1 | h1
      · exact .inl (congrArg Servo.memory h1)
      · exact .inr (congrArg some (key h1).2)
  | none =>
    rw [hst] at hs
    obtain ⟨rfl, rfl⟩ := Prod.mk.inj hs
    have h1 : servo d' = servo d := h1.elim id id
    exact ⟨congrArg Servo.registered h1, .inl (congrArg Servo.memory h1), fun x hx => absurd (h2 x hx).2.1 (by decide)⟩

/-- **C88** (partial: the English claim is for all data, not only those that survive the stuffing) The value that a successful
try returns is that of the memory. -/
theorem c88_value_partial {fuel : Nat} {α : Type} {m : SO Bus TransferError (Response α)} {r : Request} {value : List Byte → α → Prop}
    {d d' : MockDevice} {results : List (Outcome TransferError (Response α))} (h : Tries fuel m r d d' results)
    (hu : Uses m d.id r value) (hid : d.id ≠ 254#8) (hd : d.device.Inv) (hN : 10 ≤ d.device.readBuffer.length)
    {s' : Servo} {reply : ServoReply} (hs : (servo d).serve r = some (s', reply)) (hgood : Survives (0x55#8 :: 0#8 :: reply.data)) :
    ∀ x, .ok x ∈ results → Shows (.ok x) d.id value reply := by
  intro x hx
  obtain ⟨h1, h2, h3, h4, wire, ps, h5, h6, h7⟩ := tries_ok h hu hid hd hN hx hs
  have h8 := survives_unstuffs h5 hgood
  rw [unstuffs_iff] at h6 h8
  rw [h8] at h6
  simp only [List.cons.injEq, true_and] at h6
  subst h6
  unfold Shows
  rw [if_pos h2]
  refine ⟨x.data, h7, ?_⟩
  obtain ⟨i, al, v⟩ := x
  cases h3
  cases h4
  rfl

/-- **C88** (partial: as above) A try where no packet is lost has the result that the first one would have had, however many
were tried before and whatever became of them; except for actions. -/
theorem c88_delivered_partial {fuel : Nat} {α : Type} {m : SO Bus TransferError (Response α)} {r : Request} {value : List Byte → α → Prop}
    {d d' : MockDevice} {results : List (Outcome TransferError (Response α))} (h : Tries fuel m r d d' results)
    (hu : Uses m d.id r value) (hid : d.id ≠ 254#8) (hd : d.device.Inv) (hN : 10 ≤ d.device.readBuffer.length)
    {s' : Servo} {reply : ServoReply} (hs : (servo d).serve r = some (s', reply))
    {b : Bus} (hb : b.Inv) (h1 : b.writeBuffer.length ≤ d.device.readBuffer.length)
    (h2 : d.device.writeBuffer.length ≤ b.readBuffer.length) (hsend : CanSend Survives b r) (hanswer : CanAnswer Survives d' r)
    (hto : Arrives b (m b).1 d')
    (hback : ArrivesBack d' ((MockDevice.step fuel : SO MockDevice Empty Unit) d').1 b (answerSize r)) :
    servo ((MockDevice.step fuel : SO MockDevice Empty Unit) d').1 = s' ∧
    (Shows (m b).2 d.id value reply ∨ (r = .action ∧ servo d' = s' ∧ (m b).2 = .err (.readError (.motorError ⟨7#8⟩)))) ∧
    (r ≠ .action ∨ servo d' ≠ s' → Shows (m b).2 d.id value reply) := by
  have H := hears_heard h.hears hd hN (serve_total hu)
  have hu' : Uses m d'.id r value := H.id.symm ▸ hu
  obtain ⟨t1, t2⟩ := c54_session_partial (Session.call (c := ⟨m, (m b).2, d'.id, r, value, hu'⟩) rfl hsend hanswer rfl hto hback
    (.done _ _)) (H.id.symm ▸ hid) hb H.step.inv (H.step.readSize ▸ hN) (H.step.readSize ▸ h1) (H.step.writeSize ▸ h2)
  cases t1 with
  | other hne _ => exact absurd rfl hne
  | @own _ s₁ _ _ _ q _ hs' hr ht =>
    have hs₁ : servo ((MockDevice.step fuel : SO MockDevice Empty Unit) d').1 = s₁ := by cases ht; rfl
    rw [hs₁]
    change Shows (m b).2 d'.id value q at hr
    rw [H.id] at hr
    change (servo d').serve r = _ at hs'
    rcases H.served with ⟨h3, -⟩ | ⟨n, p, h3, -⟩
    · rw [h3, hs] at hs'
      obtain ⟨rfl, rfl⟩ := Prod.mk.inj (Option.some.inj hs')
      exact ⟨rfl, .inl hr, fun _ => hr⟩
    · have h4 := (c88_many h3 hs).1
      rw [h4, c88_again hs] at hs'
      obtain ⟨rfl, rfl⟩ := Prod.mk.inj (Option.some.inj hs')
      by_cases ha : r = .action
      · rw [if_pos ha] at hr
        exact ⟨rfl, .inr ⟨ha, h4, hr⟩, fun h => absurd h (by simp [ha, h4])⟩
      · rw [if_neg ha] at hr
        exact ⟨rfl, .inl hr, fun _ => hr⟩

/-! ## Concrete cases -/

theorem header_first {g g' t t' : List Byte} (h : g ++ header ++ t = g' ++ header ++ t') (hg : ¬ header <:+: g)
    (hg' : ¬ header <:+: g') : g = g' := by
  have key : ∀ {g g' t t' : List Byte}, g ++ header ++ t = g' ++ header ++ t' → ¬ header <:+: g' → g.length ≤ g'.length → g = g' := by
    intro g g' t t' h hg' hl
    obtain ⟨x, rfl⟩ : g <+: g' := List.prefix_of_prefix_length_le (l₃ := g ++ header ++ t) (by simp)
      (by rw [h]; simp) hl
    rw [List.append_assoc, List.append_assoc, List.append_assoc] at h
    have h := List.append_cancel_left h
    match x with
    | [] => simp
    | [_] => simp [header] at h
    | [_, _] => simp [header] at h
    | [_, _, _] => simp [header] at h
    | a :: b :: c :: e :: x =>
      refine absurd ⟨g, x, ?_⟩ hg'
      simp only [header, List.cons_append, List.nil_append, List.cons.injEq] at h
      obtain ⟨rfl, rfl, rfl, rfl, -⟩ := h
      simp [header]
  rcases Nat.le_total g.length g'.length with hl | hl
  · exact key h hg' hl
  · exact (key h.symm hg hl).symm

theorem frame_first {g g' wire wire' rest rest' : List Byte} {id id' : Byte}
    (h : g ++ frame id wire ++ rest = g' ++ frame id' wire' ++ rest') (hg : ¬ header <:+: g) (hg' : ¬ header <:+: g')
    (hl : (g ++ frame id wire ++ rest).length < 2 ^ 15) : frame id' wire' = frame id wire := by
  have hl' := hl
  rw [h] at hl'
  simp only [List.length_append, Bus.frame_length] at hl hl'
  have hsplit : ∀ (id : Byte) (wire : List Byte), frame id wire = header ++ (frame id wire).drop 4 := by
    intro id wire
    simp [frame, frameHead, header]
  have h1 : g = g' := by
    rw [hsplit id wire, hsplit id' wire'] at h
    simp only [List.append_assoc] at h
    exact header_first (by simpa only [List.append_assoc] using h) hg hg'
  subst h1
  rw [List.append_assoc, List.append_assoc] at h
  have h := List.append_cancel_left h
  have hw : wire.length = wire'.length := by
    have h5 := congrArg (fun l => ((l[5]?).getD 0#8, (l[6]?).getD 0#8)) h
    simp [frame, frameHead, header, le16] at h5
    have h6 := congrArg BitVec.toNat h5.1
    have h7 := congrArg BitVec.toNat h5.2
    simp only [BitVec.toNat_setWidth, BitVec.toNat_ofNat, BitVec.toNat_ushiftRight, Nat.shiftRight_eq_div_pow] at h6 h7
    omega
  exact (List.append_inj h (by rw [Bus.frame_length, Bus.frame_length, hw])).1.symm

theorem onlyFrom_nothing {d d' : MockDevice} {b : Bus} {n : Nat}
    (h : ∀ D, arriving D (newInput b.serialPort) = []) : OnlyFrom d d' b n := by
  intro ns g id wire rest body _ h2 _ _
  rw [h] at h2
  have := congrArg List.length h2
  simp only [List.length_nil, List.length_append, Bus.frame_length] at this
  omega

theorem onlyFrom_one {d d' : MockDevice} {b : Bus} {n ns : Nat} {g rest wire : List Byte} {id : Byte}
    (hns : LeastTime (11 + n) b.baudRate ns) (hg : ¬ header <:+: g)
    (h2 : arriving (b.serialPort.now + b.serialPort.writeTime + (ns + 34000000)) (newInput b.serialPort) = g ++ frame id wire ++ rest)
    (hl : (g ++ frame id wire ++ rest).length < 2 ^ 15) (hw : Wrote d.device d'.device (frame id wire)) : OnlyFrom d d' b n := by
  intro ns' g' id' wire' rest' body h3 h4 h5 _
  cases leastTime_unique hns h3
  rw [h2] at h4
  rw [frame_first h4 hg h5 hl]
  exact hw

/-- The write of the example, the motor, and its state after it received the write once and twice. -/
def retryRequest : Request := .write 5#16 [7#8, 9#8]
def retryCall : SO Bus TransferError (Response Unit) := Client.writeBytes 1#8 5#16 [7#8, 9#8]
def retryMotor : MockDevice := .new 1#8 (lineBus [frame 1#8 retryRequest.body, frame 1#8 retryRequest.body])
def retryMotor₁ : MockDevice := ((MockDevice.step 0 : SO MockDevice Empty Unit) retryMotor).1
def retryMotor₂ : MockDevice := ((MockDevice.step 0 : SO MockDevice Empty Unit) retryMotor₁).1

theorem retry_stream : stream (retryMotor.device.serialPort.now + 10000000) retryMotor.device =
    frame 1#8 retryRequest.body ++ frame 1#8 retryRequest.body := by decide +kernel

theorem retry_stream₁ : stream (retryMotor₁.device.serialPort.now + 10000000) retryMotor₁.device =
    frame 1#8 retryRequest.body := by decide +kernel

theorem retry_id₁ : retryMotor₁.id = 1#8 := by decide +kernel

theorem receives_plain {d : MockDevice} {instr : Byte} {params rest : List Byte}
    (h : stream (d.device.serialPort.now + 10000000) d.device = frame d.id (instr :: params) ++ rest)
    (h1 : (instr :: params).length + 9 ≤ d.device.readBuffer.length) (h2 : (instr :: params).length + 2 < 2 ^ 16)
    (h3 : codeUnstuff (instr :: params) = instr :: params) : Receives d d.id (instr :: params) :=
  ⟨[], ⟨[], d.id, instr :: params, instr, params⟩, rest, by simp [Statuses],
    ⟨by simp [header], h2, by rw [Bus.frame_length]; dsimp only; omega, (unstuffs_iff _ _).mpr h3⟩, rfl, rfl, by rw [h]; simp [itemBytes]⟩

theorem retry_wrote : Wrote retryMotor.device retryMotor₂.device (frame 1#8 [0x55#8, 0#8]) :=
  ⟨retryMotor₂.device.serialPort.log.drop retryMotor.device.serialPort.log.length, by decide +kernel, by decide +kernel⟩

theorem canAnswer_any {d : MockDevice} {r : Request} (h : CanAnswer Survives d r) : CanAnswer (fun _ => True) d r :=
  ⟨h.1, fun s' reply hs => ⟨(h.2 s' reply hs).1, trivial⟩⟩

theorem retry_hears : SentAgain 0 retryRequest retryMotor retryMotor₁ :=
  .own (.rest _) (receives_plain (rest := frame 1#8 retryRequest.body) retry_stream (by decide +kernel) (by decide) (by decide +kernel))
    (canAnswer_any (canAnswer_plain (s' := ⟨[0#8, 0#8, 0#8, 0#8, 0#8, 7#8, 9#8] ++ List.replicate 193 0#8, none⟩) (reply := ⟨0#8, []⟩)
      (by decide +kernel) ⟨rfl, rfl⟩ (by unfold Room; decide +kernel) (by decide +kernel)))

theorem retry_hears₁ : SentAgain 0 retryRequest retryMotor₁ retryMotor₂ :=
  .own (.rest _) (receives_plain (rest := []) (by rw [List.append_nil, retry_id₁]; exact retry_stream₁) (by decide +kernel) (by decide) (by decide +kernel))
    (canAnswer_any (canAnswer_plain (s' := ⟨[0#8, 0#8, 0#8, 0#8, 0#8, 7#8, 9#8] ++ List.replicate 193 0#8, none⟩) (reply := ⟨0#8, []⟩)
      (by decide +kernel) (by decide +kernel) (by unfold Room; decide +kernel) (by decide +kernel)))

/-- C88: the first instruction is lost, then the answer, and in the third try the motor is reached again. -/
theorem retry_example : Tries 0 retryCall retryRequest retryMotor retryMotor₂
    [.err (.readError (.io .timedOut)), .err (.readError (.io .timedOut)), .ok ⟨1#8, false, ()⟩] := by
  have r1 : (retryCall (lineBus [])).2 = .err (.readError (.io .timedOut)) := by decide +kernel
  have r3 : (retryCall (lineBus [frame 1#8 [0x55#8, 0#8]])).2 = .ok ⟨1#8, false, ()⟩ := by decide +kernel
  have hr : (lineBus []).baudRate < 2 ^ 32 := by decide
  have h1 := Tries.again (Tries.none (fuel := 0) (m := retryCall) (r := retryRequest) (d := retryMotor)) (lineBus_inv []).wInv hr
    (.rest _) (onlyFrom_nothing fun D => by simp [lineBus, newInput, quietPort, notYetArrived, arriving])
  have h2 := Tries.again h1 (lineBus_inv []).wInv hr
    retry_hears (onlyFrom_nothing fun D => by simp [lineBus, newInput, quietPort, notYetArrived, arriving])
  have h3 := Tries.again (b := lineBus [frame 1#8 [0x55#8, 0#8]]) h2 (lineBus_inv _).wInv (by decide) retry_hears₁
    (onlyFrom_one (g := []) (rest := []) (ns := 1909723) (id := 1#8) (wire := [0x55#8, 0#8])
      ⟨by unfold LongEnough; decide +kernel, fun m hm => by
        change (11 + 0) * 10 * 1000000000 ≤ m * 57600 at hm
        omega⟩ (by decide) (by decide +kernel) (by decide +kernel) retry_wrote)
  rw [r1, r3] at h3
  exact h3

example : ∃ s' reply, (servo retryMotor).serve retryRequest = some (s', reply) ∧ servo retryMotor₂ = s' ∧ reply.error = 0#8 := by
  obtain ⟨s', reply, h1, -, h3⟩ := c88_retry retry_example (.writeBytes 1#8 5#16 [7#8, 9#8]) (by decide) (lineBus_inv _) (by decide +kernel)
  exact ⟨s', reply, h1, (h3 ⟨1#8, false, ()⟩ (by simp)).1, (h3 ⟨1#8, false, ()⟩ (by simp)).2.1⟩

example : store retryMotor.controlTable 5 [7#8, 9#8] = some retryMotor₂.controlTable := by
  have h := retry_example
  obtain ⟨-, -, h3⟩ := c88_write (a := 5#16) (data := [7#8, 9#8]) (d := retryMotor) h (by decide) (lineBus_inv _) (by decide +kernel)
  exact h3 ⟨1#8, false, ()⟩ (by simp)

/-- C88: requests are served again. -/
example : ∃ s', Repeated retryRequest 2 ⟨List.replicate 8 0#8, none⟩ s' Servo.done ∧ s' = ⟨[0#8, 0#8, 0#8, 0#8, 0#8, 7#8, 9#8, 0#8], none⟩ := by
  have h1 : (⟨List.replicate 8 0#8, none⟩ : Servo).serve retryRequest =
    some (⟨[0#8, 0#8, 0#8, 0#8, 0#8, 7#8, 9#8, 0#8], none⟩, Servo.done) := by decide
  have h2 : Repeated retryRequest 2 ⟨List.replicate 8 0#8, none⟩ ⟨[0#8, 0#8, 0#8, 0#8, 0#8, 7#8, 9#8, 0#8], none⟩ Servo.done :=
    .again (.once h1) (c88_again h1)
  exact ⟨_, h2, (c88_many h2 h1).1⟩

/-! A read -/

theorem newMotor_hears : SentAgain 0 (.read 198#16 2#16) newMotor ((MockDevice.step 0 : SO MockDevice Empty Unit) newMotor).1 :=
  .own (.rest _) (receives_plain (rest := []) (by decide +kernel) (by decide +kernel) (by decide) (by decide +kernel))
    (canAnswer_any (canAnswer_plain (s' := ⟨List.replicate 200 0#8, none⟩) (reply := ⟨0#8, [0#8, 0#8]⟩)
      (by decide +kernel) ⟨rfl, rfl⟩ (by unfold Room; decide +kernel) (by decide +kernel)))

/-- C88: a read that is answered. -/
theorem retry_read : Tries 0 (Client.readBytes 1#8 198#16 2#16) (.read 198#16 2#16) newMotor
    ((MockDevice.step 0 : SO MockDevice Empty Unit) newMotor).1 [.ok ⟨1#8, false, [0#8, 0#8]⟩] := by
  have r1 : (Client.readBytes 1#8 198#16 2#16 askingClient).2 = .ok ⟨1#8, false, [0#8, 0#8]⟩ := by decide +kernel
  have h := Tries.again (b := askingClient) (Tries.none (fuel := 0) (m := Client.readBytes 1#8 198#16 2#16) (r := .read 198#16 2#16) (d := newMotor))
    (lineBus_inv _).wInv (by decide) newMotor_hears
    (onlyFrom_one (g := []) (rest := []) (ns := 2256945) (id := 1#8) (wire := [0x55#8, 0#8, 0#8, 0#8])
      ⟨by unfold LongEnough; decide +kernel, fun m hm => by
        change (11 + 2) * 10 * 1000000000 ≤ m * 57600 at hm
        omega⟩ (by decide) (by decide +kernel) (by decide +kernel)
      ⟨((MockDevice.step 0 : SO MockDevice Empty Unit) newMotor).1.device.serialPort.log.drop newMotor.device.serialPort.log.length,
        by decide +kernel, by decide +kernel⟩)
  rw [r1] at h
  exact h

example : Shows (.ok ⟨1#8, false, [0#8, 0#8]⟩) 1#8 (fun bytes v => v = bytes) ⟨0#8, [0#8, 0#8]⟩ :=
  c88_value_partial (d := newMotor) retry_read (.readBytes 1#8 198#16 2#16) (by decide) (lineBus_inv _) (by decide +kernel)
    (s' := ⟨List.replicate 200 0#8, none⟩) (by decide +kernel) (survives_plain (by decide +kernel)) _ (by simp)

/-- The value in full. -/
def C88_value_statement : Prop :=
  ∀ (fuel : Nat) (a n : U16) (d d' : MockDevice) (results : List (Outcome TransferError (Response (List Byte))))
    (s' : Servo) (reply : ServoReply), Tries fuel (Client.readBytes d.id a n) (.read a n) d d' results → d.id ≠ 254#8 → d.device.Inv →
    10 ≤ d.device.readBuffer.length → (servo d).serve (.read a n) = some (s', reply) → ∀ x, .ok x ∈ results → x.data = reply.data

/-- Bytes that arrive as other bytes, but not as more or fewer of them. -/
def swapParams : List Byte := [0xFF#8, 0xFF#8, 0xFD#8, 0xFD#8, 0#8, 0xFF#8, 0xFF#8, 0xFF#8, 0xFD#8]

/-- A motor with these bytes, and the client that reads them. -/
def swapMotor : MockDevice :=
  ⟨1#8, lineBus [frame 1#8 (Request.read 0#16 9#16).body], swapParams ++ List.replicate 191 0#8, none⟩
def swapClient : Bus := lineBus [frame 1#8 (codeStuff (0x55#8 :: 0#8 :: swapParams))]

theorem swap_serve : (servo swapMotor).serve (.read 0#16 9#16) = some (servo swapMotor, ⟨0#8, swapParams⟩) := by decide +kernel

theorem swap_hears : SentAgain 0 (.read 0#16 9#16) swapMotor ((MockDevice.step 0 : SO MockDevice Empty Unit) swapMotor).1 :=
  .own (.rest _) (receives_plain (rest := []) (by decide +kernel) (by decide +kernel) (by decide) (by decide +kernel))
    ⟨⟨by simp [swapMotor, lineBus, quietPort], by simp [swapMotor, lineBus, quietPort]⟩, fun s' reply hr => by
        rw [swap_serve] at hr
        obtain ⟨-, rfl⟩ := Prod.mk.inj (Option.some.inj hr)
        exact ⟨by unfold Room; decide +kernel, trivial⟩⟩

/-- **C88** is false for the values, because of the stuffing (C23). -/
theorem c88_value_refuted : ¬ C88_value_statement := by
  intro h
  have r1 : (Client.readBytes 1#8 0#16 9#16 swapClient).2 =
    .ok ⟨1#8, false, [0xFF#8, 0xFF#8, 0xFD#8, 0#8, 0xFF#8, 0xFF#8, 0xFF#8, 0xFD#8, 0xFD#8]⟩ := by decide +kernel
  have ht := Tries.again (b := swapClient) (Tries.none (fuel := 0) (m := Client.readBytes 1#8 0#16 9#16) (r := .read 0#16 9#16) (d := swapMotor))
    (lineBus_inv _).wInv (by decide) swap_hears
    (onlyFrom_one (g := []) (rest := []) (ns := 3472223) (id := 1#8) (wire := codeStuff (0x55#8 :: 0#8 :: swapParams))
      ⟨by unfold LongEnough; decide +kernel, fun m hm => by
        change (11 + 9) * 10 * 1000000000 ≤ m * 57600 at hm
        omega⟩ (by decide) (by decide +kernel) (by decide +kernel)
      ⟨((MockDevice.step 0 : SO MockDevice Empty Unit) swapMotor).1.device.serialPort.log.drop swapMotor.device.serialPort.log.length,
        by decide +kernel, by decide +kernel⟩)
  rw [r1] at ht
  have hx := h 0 0#16 9#16 swapMotor _ _ (servo swapMotor) ⟨0#8, swapParams⟩ ht (by decide) (lineBus_inv _) (by decide +kernel) swap_serve _
    (List.mem_append_right _ (List.mem_singleton.mpr rfl))
  exact absurd hx (by decide)

/-! An action -/

/-- A motor with a registered write that is sent two actions, and its state after the first. -/
def actionMotor : MockDevice :=
  ⟨1#8, lineBus [frame 1#8 Request.action.body, frame 1#8 Request.action.body], List.replicate 200 0#8, some (5#16, [7#8, 9#8])⟩
def actionMotor₁ : MockDevice := ((MockDevice.step 0 : SO MockDevice Empty Unit) actionMotor).1

theorem action_hears : SentAgain 0 .action actionMotor actionMotor₁ :=
  .own (.rest _) (receives_plain (rest := frame 1#8 Request.action.body) (by decide +kernel) (by decide +kernel) (by decide) (by decide +kernel))
    (canAnswer_any (canAnswer_plain (s' := ⟨[0#8, 0#8, 0#8, 0#8, 0#8, 7#8, 9#8] ++ List.replicate 193 0#8, none⟩) (reply := ⟨0#8, []⟩)
      (by decide +kernel) ⟨rfl, rfl⟩ (by unfold Room; decide +kernel) (by decide +kernel)))

/-- C88: an action whose answer is lost. -/
theorem retry_action : Tries 0 (Client.action 1#8) .action actionMotor actionMotor₁ [.err (.readError (.io .timedOut))] := by
  have r1 : (Client.action 1#8 (lineBus [])).2 = .err (.readError (.io .timedOut)) := by decide +kernel
  have h1 := Tries.again (b := lineBus []) (Tries.none (fuel := 0) (m := Client.action 1#8) (r := .action) (d := actionMotor)) (lineBus_inv []).wInv
    (by decide) action_hears (onlyFrom_nothing fun D => by simp [lineBus, newInput, quietPort, notYetArrived, arriving])
  rw [r1] at h1
  exact h1

/-- **C88** An action is not safe to repeat: the registered write was done, but if only the answer was lost then the next try
reports an error of the motor (number 7), whatever is tried after it. -/
theorem c88_action {fuel : Nat} {d d' : MockDevice} {results : List (Outcome TransferError (Response Unit))}
    (h : Tries fuel (Client.action d.id) .action d d' results) (hid : d.id ≠ 254#8) (hd : d.device.Inv)
    (hN : 10 ≤ d.device.readBuffer.length) {a : U16} {data m : List Byte} (hreg : d.actionRegister = some (a, data))
    (hst : store d.controlTable a.toNat data = some m) (hdone : d'.actionRegister = none)
    {b : Bus} (hb : b.Inv) (h1 : b.writeBuffer.length ≤ d.device.readBuffer.length)
    (h2 : d.device.writeBuffer.length ≤ b.readBuffer.length) (hsend : CanSend (fun _ => True) b .action)
    (hanswer : CanAnswer (fun _ => True) d' .action) (hto : Arrives b (Client.action d.id b).1 d')
    (hback : ArrivesBack d' ((MockDevice.step fuel : SO MockDevice Empty Unit) d').1 b 0) :
    d'.controlTable = m ∧ (Client.action d.id b).2 = .err (.readError (.motorError ⟨7#8⟩)) := by
  have hs : (servo d).serve .action = some (⟨m, none⟩, Servo.done) := by
    change (match d.actionRegister with
      | some (address, data) => some (Servo.put { servo d with registered := none } address data)
      | none => some (servo d, Servo.outside)) = _
    rw [hreg]
    dsimp only
    unfold Servo.put
    have : store ({ servo d with registered := none } : Servo).memory a.toNat data = some m := hst
    rw [this]
  have hd' : servo d' = ⟨m, none⟩ := by
    obtain ⟨s', reply, k1, k2, -⟩ := c88_retry h (.action d.id) hid hd hN
    rw [hs] at k1
    obtain ⟨rfl, rfl⟩ := Prod.mk.inj (Option.some.inj k1)
    refine k2.resolve_left fun k => ?_
    have := congrArg Servo.registered k
    change d'.actionRegister = d.actionRegister at this
    rw [hdone, hreg] at this
    cases this
  refine ⟨congrArg Servo.memory hd', ?_⟩
  have H := hears_heard h.hears hd hN (serve_total (.action d.id))
  have hsend : CanSend Survives b .action := ⟨hsend.baud, hsend.baud0, hsend.port, hsend.room, survives_plain (by decide)⟩
  have hanswer : CanAnswer Survives d' .action := ⟨hanswer.1, fun s' reply k => ⟨(hanswer.2 s' reply k).1, by
    have hl : reply.data.length = 0 := by
      rcases serve_reply k with rfl | ⟨-, k⟩
      · rfl
      · exact k
    rw [List.length_eq_zero_iff.mp hl]
    refine survives_plain fun hx => ?_
    have := hx.length_le
    simp at this⟩⟩
  obtain ⟨t1, -⟩ := c54_session_partial (Session.call (c := ⟨Client.action d.id, (Client.action d.id b).2, d.id, .action, _, .action d.id⟩)
    H.id.symm hsend hanswer rfl hto hback (.done _ _)) (H.id.symm ▸ hid) hb H.step.inv (H.step.readSize ▸ hN) (H.step.readSize ▸ h1)
    (H.step.writeSize ▸ h2)
  cases t1 with
  | other hne _ => exact absurd H.id.symm hne
  | @own _ s₁ _ _ _ q _ hs' hr ht =>
    rw [hd', c88_again hs] at hs'
    obtain ⟨-, rfl⟩ := Prod.mk.inj (Option.some.inj hs')
    exact hr

example : actionMotor₁.controlTable = [0#8, 0#8, 0#8, 0#8, 0#8, 7#8, 9#8] ++ List.replicate 193 0#8 ∧
    (Client.action 1#8 (lineBus [frame 1#8 [0x55#8, 7#8]])).2 = .err (.readError (.motorError ⟨7#8⟩)) :=
  c88_action (d := actionMotor) retry_action (by decide) (lineBus_inv _) (by decide +kernel) (a := 5#16) (data := [7#8, 9#8]) rfl
    (by decide +kernel) (by decide +kernel) (lineBus_inv _) (by decide +kernel) (by decide +kernel)
    ⟨by decide, by decide, ⟨by simp [lineBus, quietPort], by simp [lineBus, quietPort]⟩, by unfold Room; decide +kernel, trivial⟩
    (canAnswer_any (canAnswer_plain (s' := ⟨[0#8, 0#8, 0#8, 0#8, 0#8, 7#8, 9#8] ++ List.replicate 193 0#8, none⟩) (reply := ⟨7#8, []⟩)
      (by decide +kernel) (by decide +kernel) (by unfold Room; decide +kernel) (by decide +kernel)))
    (arrives_one (f := frame 1#8 Request.action.body) (g := []) (rest := []) (by decide +kernel) (by decide) (by decide +kernel))
    (arrivesBack_one (f := frame 1#8 [0x55#8, 7#8]) (g := []) (rest := []) (ns := 1909723) (by decide +kernel)
      ⟨by unfold LongEnough; decide +kernel, fun m hm => by
        change (11 + 0) * 10 * 1000000000 ≤ m * 57600 at hm
        omega⟩ (by decide) (by decide +kernel))

/-- C88: after a lost answer, the write is delivered. -/
theorem retry_lost : Tries 0 retryCall retryRequest retryMotor retryMotor₁ [.err (.readError (.io .timedOut))] := by
  have r1 : (retryCall (lineBus [])).2 = .err (.readError (.io .timedOut)) := by decide +kernel
  have h1 := Tries.again (b := lineBus []) (Tries.none (fuel := 0) (m := retryCall) (r := retryRequest) (d := retryMotor)) (lineBus_inv []).wInv
    (by decide) retry_hears (onlyFrom_nothing fun D => by simp [lineBus, newInput, quietPort, notYetArrived, arriving])
  rw [r1] at h1
  exact h1

example : Shows (retryCall (lineBus [frame 1#8 [0x55#8, 0#8]])).2 1#8 (fun _ _ => True) ⟨0#8, []⟩ :=
  (c88_delivered_partial (d := retryMotor) retry_lost (.writeBytes 1#8 5#16 [7#8, 9#8]) (by decide) (lineBus_inv _) (by decide +kernel)
    (s' := ⟨[0#8, 0#8, 0#8, 0#8, 0#8, 7#8, 9#8] ++ List.replicate 193 0#8, none⟩) (reply := ⟨0#8, []⟩) (by decide +kernel)
    (lineBus_inv _) (by decide +kernel) (by decide +kernel)
    (canSend_plain rfl ⟨rfl, rfl⟩ (by unfold Room; decide +kernel) (by decide +kernel))
    (canAnswer_plain (s' := ⟨[0#8, 0#8, 0#8, 0#8, 0#8, 7#8, 9#8] ++ List.replicate 193 0#8, none⟩) (reply := ⟨0#8, []⟩)
      (by decide +kernel) (by decide +kernel) (by unfold Room; decide +kernel) (by decide +kernel))
    (arrives_one (f := frame 1#8 retryRequest.body) (g := []) (rest := []) (by decide +kernel) (by decide) (by decide +kernel))
    (arrivesBack_one (f := frame 1#8 [0x55#8, 0#8]) (g := []) (rest := []) (ns := 1909723) (by decide +kernel)
      ⟨by unfold LongEnough; decide +kernel, fun m hm => by
        change (11 + 0) * 10 * 1000000000 ≤ m * 57600 at hm
        omega⟩ (by decide) (by decide +kernel))).2.2 (.inl (by decide))

end Dxl.Props
