import Verif.Props.Session
import Verif.Lemmas.Iter

/-! # C58: a client and any number of simulated motors -/

namespace Dxl.Props
open Dxl Spec

/-- The motor runs its loop once. -/
def _root_.Dxl.MockDevice.after (fuel : Nat) (d : MockDevice) : MockDevice := ((MockDevice.step fuel : SO MockDevice Empty Unit) d).1

/-- One client and any number of simulated motors on one line, with a user who calls methods of the client, for one of the
motors, for a motor that does not exist, or for all of them (ID 254). Every motor receives every instruction, after any
garbage and status packets, and runs its loop once for it; the answer of a motor that is asked reaches the client in
time. Between the calls, any motor can run its loop without receiving an instruction. -/
inductive Network (fuel : Nat) : Bus → List MockDevice → List Called → Bus → List MockDevice → Prop
  | done (b ds) : Network fuel b ds [] b ds
  | idle {b ds₁ d ds₂ calls b' ds'} {statuses : List Item} {trailing : List Byte}
      (hst : Statuses d.device.readBuffer.length statuses) (ht : ¬ header <:+: trailing)
      (hs : stream (d.device.serialPort.now + 10000000) d.device = itemBytes statuses ++ trailing)
      (h : Network fuel b (ds₁ ++ d.after fuel :: ds₂) calls b' ds') : Network fuel b (ds₁ ++ d :: ds₂) calls b' ds'
  | call {b ds b' ds'} {c : Called} {calls : List Called} (hsend : CanSend Survives b c.request)
      (hresult : (c.call b).2 = c.result) (hto : ∀ d ∈ ds, Arrives b (c.call b).1 d)
      (hanswer : ∀ d ∈ ds, c.id = d.id ∨ c.id = 254#8 → CanAnswer Survives d c.request)
      (hback : ∀ d ∈ ds, c.id = d.id → ArrivesBack d (d.after fuel) b (answerSize c.request))
      (h : Network fuel (c.call b).1 (ds.map (MockDevice.after fuel)) calls b' ds') : Network fuel b ds (c :: calls) b' ds'

/-- The request asks for a change, and not for data. -/
def Writes : Request → Prop
  | .write .. | .regWrite .. | .action => True
  | _ => False

/-- What one of several memories does in a call: it serves the call if it has its ID, with the answer that is the result of
the call, or if the call is for all. Other calls change nothing. -/
def Serves (c : Called) (m m' : Byte × Servo) : Prop :=
  m'.1 = m.1 ∧
  (c.id = m.1 → ∃ reply, m.2.serve c.request = some (m'.2, reply) ∧ Shows c.result c.id c.value reply) ∧
  (c.id = 254#8 → ∃ reply, m.2.serve c.request = some (m'.2, reply)) ∧
  (c.id ≠ m.1 → c.id ≠ 254#8 → m'.2 = m.2)

/-- The calls and their results are what a user of several memories with IDs sees. Writes for all are confirmed at once. -/
inductive Memories : List (Byte × Servo) → List Called → List (Byte × Servo) → Prop
  | done (ms) : Memories ms [] ms
  | call {ms ms₁ ms₂} {c : Called} {calls : List Called} (hs : Pairwise₂ (Serves c) ms ms₁)
      (hall : c.id = 254#8 → Writes c.request → Shows c.result 254#8 c.value Servo.done) (h : Memories ms₁ calls ms₂) :
      Memories ms (c :: calls) ms₂

/-- A motor as a memory with an ID. -/
def _root_.Dxl.MockDevice.view (d : MockDevice) : Byte × Servo := (d.id, servo d)

theorem instruct_broadcast {b : Bus} {instr : Byte} {n : Nat} {enc : Encoder} {params : List Byte} (hb : b.WInv)
    (hp : Fills enc.run n params) (hs : b.serialPort.SendOk) (hroom : Room b n) :
    (Client.instruct 254#8 instr n enc b).2 = .ok ⟨254#8, false, ()⟩ := by
  obtain ⟨b₁, hw⟩ := write_room (id := 254#8) (instr := instr) hb hp hs hroom
  have hw' : (Client.writeInstruction 254#8 instr n enc).mapErr TransferError.writeError b = (b₁, .ok ()) :=
    SO.mapErr_eq_ok.mpr hw
  unfold Client.instruct
  rw [SO.bind_ok hw', SO.mapErr_apply]
  rfl

theorem uses_broadcast {α : Type} {m : SO Bus TransferError (Response α)} {id : Byte} {r : Request} {value : List Byte → α → Prop}
    (h : Uses m id r value) (hid : id = 254#8) (hw : Writes r) {b : Bus} (hb : b.WInv) (hs : b.serialPort.SendOk)
    (hroom : Room b (r.body.length - 1)) : Shows (m b).2 254#8 value Servo.done := by
  subst hid
  have key : ∀ {m : SO Bus TransferError (Response Unit)}, (m b).2 = .ok ⟨254#8, false, ()⟩ →
      Shows (m b).2 254#8 (fun _ _ => True) Servo.done := fun hm => by
    rw [hm]
    exact ⟨(), trivial, rfl⟩
  cases h with
  | ping => exact hw.elim
  | readBytes => exact hw.elim
  | read => exact hw.elim
  | writeBytes _ a data =>
    refine key (instruct_broadcast hb (Client.writeBytesEncoder_fills a data) hs ?_)
    rw [show 2 + data.length = data.length + 1 + 1 by omega]
    simpa [Request.body, Request.parameters, le16] using hroom
  | @write _ d valid f hd _ a v hv =>
    have hc := c28_round_trip_partial d valid f hd
    have hl : (f v).length = d.size.toNat := hc.length v hv
    refine key (instruct_broadcast hb (Client.writeEncoder_fills hc a hv) hs ?_)
    rw [show 2 + d.size.toNat = d.size.toNat + 1 + 1 by omega]
    simpa [Request.body, Request.parameters, le16, hl] using hroom
  | regWriteBytes _ a data =>
    refine key (instruct_broadcast hb (Client.writeBytesEncoder_fills a data) hs ?_)
    rw [show 2 + data.length = data.length + 1 + 1 by omega]
    simpa [Request.body, Request.parameters, le16] using hroom
  | action => exact key (instruct_broadcast hb Client.nothing_fills hs hroom)

/-- What a motor needs: an ID of its own kind, and buffers that fit those of the client. -/
structure Fits (b : Bus) (d : MockDevice) : Prop where
  id : d.id ≠ 254#8
  inv : d.device.Inv
  size : 10 ≤ d.device.readBuffer.length
  to : b.writeBuffer.length ≤ d.device.readBuffer.length
  back : d.device.writeBuffer.length ≤ b.readBuffer.length

/-- One call and one motor. -/
theorem network_step {fuel : Nat} {b : Bus} {d : MockDevice} {c : Called} (hb : b.Inv) (hf : Fits b d)
    (hsend : CanSend Survives b c.request) (hresult : (c.call b).2 = c.result) (hto : Arrives b (c.call b).1 d)
    (hanswer : c.id = d.id ∨ c.id = 254#8 → CanAnswer Survives d c.request)
    (hback : c.id = d.id → ArrivesBack d (d.after fuel) b (answerSize c.request)) :
    Serves c d.view (d.after fuel).view ∧ Fits (c.call b).1 (d.after fuel) := by
  have hstep := c.uses.asks.2 b hb
  have hr := session_receives hb hsend hto hf.to
  have fits : ∀ d' : MockDevice, d'.id = d.id → Step d.device d'.device → Fits (c.call b).1 d' := fun d' h1 h2 =>
    ⟨h1 ▸ hf.id, h2.inv, h2.readSize ▸ hf.size, by rw [hstep.writeSize, h2.readSize]; exact hf.to,
      by rw [hstep.readSize, h2.writeSize]; exact hf.back⟩
  by_cases hc : c.id = d.id ∨ c.id = 254#8
  · obtain ⟨s', reply, hs⟩ := serve_total c.uses (servo d)
    obtain ⟨hroom, hbody⟩ := (hanswer hc).2 s' reply hs
    obtain ⟨d₁, k1, k2, k3, ⟨reads, wire, -, k5, k6⟩, k7⟩ :=
      c52_serves_partial (ε := Empty) fuel hf.inv (hanswer hc).1 hc hr hs hroom
    have hd₁ : d.after fuel = d₁ := by unfold MockDevice.after; rw [k1]
    rw [hd₁] at hback ⊢
    refine ⟨⟨k2, fun hid => ?_, fun _ => ⟨reply, by unfold MockDevice.view; rw [k3]; exact hs⟩,
      fun h1 h2 => absurd hc (by simp [MockDevice.view] at h1; simp [h1, h2])⟩, fits d₁ k2 k7⟩
    have hid : c.id = d.id := hid
    obtain ⟨ns, g, rest, k8, k9, k10⟩ := hback hid (frame d.id wire) ⟨_, by rw [k6, List.append_assoc], by simp⟩
    have hl := stuffed_length k5
    obtain ⟨hroom1, hroom2⟩ := hroom
    simp only [List.length_cons] at hl
    have hfb := hf.back
    have hans : Answered b (c.request.body.length - 1) (answerSize c.request) c.id reply.error reply.data :=
      ⟨hb.wInv, hsend.baud, hsend.baud0, hsend.port, hsend.room, ns, rest, k8, g, wire, by rw [hid]; exact k10, k9, by omega,
        by rw [Bus.frame_length]; omega, survives_unstuffs k5 hbody⟩
    have hshow := uses_answered c.uses (hid ▸ hf.id) (serve_reply hs) hans
    rw [hresult] at hshow
    exact ⟨reply, by unfold MockDevice.view; rw [k3]; exact hs, hshow⟩
  · have hc1 : c.id ≠ d.id := fun h => hc (.inl h)
    have hc2 : c.id ≠ 254#8 := fun h => hc (.inr h)
    obtain ⟨d₁, k1, k2, k3, -, k5⟩ := c52_ignores_others (ε := Empty) fuel hf.inv hc1 hc2 hr
    have hd₁ : d.after fuel = d₁ := by unfold MockDevice.after; rw [k1]
    rw [hd₁]
    exact ⟨⟨k2, fun h => absurd h hc1, fun h => absurd h hc2, fun _ _ => k3⟩, fits d₁ k2 k5⟩

/-- **C58** Whatever calls the user makes, in any number and order, to any number of motors: each motor is a memory of its
own, the results of the calls are the answers of the memory with the ID of the call, and only calls for it or for all
motors change it. -/
theorem c58_network {fuel : Nat} {b b' : Bus} {ds ds' : List MockDevice} {calls : List Called}
    (h : Network fuel b ds calls b' ds') (hb : b.Inv) (hf : ∀ d ∈ ds, Fits b d) :
    Memories (ds.map MockDevice.view) calls (ds'.map MockDevice.view) := by
  induction h with
  | done => exact .done _
  | @idle b ds₁ d ds₂ calls b' ds' statuses trailing hst ht hs h ih =>
    have hfd := hf d (by simp)
    obtain ⟨d₁, k1, k2, k3, -, k5, -⟩ := c52_waits (ε := Empty) fuel hfd.inv hfd.size hst ht hs
    have hd₁ : d.after fuel = d₁ := k1
    rw [hd₁] at ih
    have hv : d₁.view = d.view := by unfold MockDevice.view; rw [k2, k3]
    have := ih hb (fun x hx => by
      rcases List.mem_append.mp hx with hx | hx
      · exact hf x (by simp [hx])
      · rcases List.mem_cons.mp hx with rfl | hx
        · exact ⟨k2 ▸ hfd.id, k5.inv, k5.readSize ▸ hfd.size, k5.readSize ▸ hfd.to, k5.writeSize ▸ hfd.back⟩
        · exact hf x (by simp [hx]))
    simp only [List.map_append, List.map_cons, hv] at this ⊢
    exact this
  | @call b ds b' ds' c calls hsend hresult hto hanswer hback h ih =>
    have hstep := c.uses.asks.2 b hb
    have hall := fun d hd => network_step (fuel := fuel) hb (hf d hd) hsend hresult (hto d hd) (hanswer d hd) (hback d hd)
    have hnext := ih hstep.inv (fun x hx => by
      obtain ⟨d, hd, rfl⟩ := List.mem_map.mp hx
      exact (hall d hd).2)
    refine .call (ms₁ := (ds.map (MockDevice.after fuel)).map MockDevice.view) ?_ (fun h1 h2 => ?_) hnext
    · clear hnext h ih hf hto hanswer hback
      induction ds with
      | nil => exact .nil
      | cons d ds ih => exact .cons (hall d (by simp)).1 (ih fun x hx => hall x (by simp [hx]))
    · rw [← hresult]
      exact uses_broadcast c.uses h1 h2 hb.wInv hsend.port hsend.room

/-! ## What this means for one of the motors -/

/-- What one memory with this ID sees of the calls. -/
inductive Sees (id : Byte) : Servo → List Called → Servo → Prop
  | done (s) : Sees id s [] s
  | own {s s₁ s₂ : Servo} {c : Called} {calls : List Called} {reply : ServoReply} (hid : c.id = id)
      (hs : s.serve c.request = some (s₁, reply)) (hr : Shows c.result c.id c.value reply) (h : Sees id s₁ calls s₂) :
      Sees id s (c :: calls) s₂
  | all {s s₁ s₂ : Servo} {c : Called} {calls : List Called} {reply : ServoReply} (hid : c.id = 254#8)
      (hs : s.serve c.request = some (s₁, reply)) (h : Sees id s₁ calls s₂) : Sees id s (c :: calls) s₂
  | other {s s₂ : Servo} {c : Called} {calls : List Called} (hid : c.id ≠ id) (hall : c.id ≠ 254#8) (h : Sees id s calls s₂) :
      Sees id s (c :: calls) s₂

theorem Memories.sees {ms ms' : List (Byte × Servo)} {calls : List Called} (h : Memories ms calls ms') :
    Pairwise₂ (fun m m' => m'.1 = m.1 ∧ Sees m.1 m.2 calls m'.2) ms ms' := by
  induction h with
  | done ms =>
    induction ms with
    | nil => exact .nil
    | cons m ms ih => exact .cons ⟨rfl, .done _⟩ ih
  | @call ms ms₁ ms₂ c calls hs hall h ih =>
    clear h hall
    induction hs generalizing ms₂ with
    | nil => cases ih; exact .nil
    | @cons m m₁ as bs hm _ ih' =>
      cases ih with
      | @cons _ m₂ _ cs hc hcs =>
        refine .cons ⟨hc.1.trans hm.1, ?_⟩ (ih' hcs)
        obtain ⟨h1, h2, h3, h4⟩ := hm
        have hc := hc.2
        rw [h1] at hc
        by_cases k1 : c.id = m.1
        · obtain ⟨reply, k2, k3⟩ := h2 k1
          exact .own k1 k2 k3 hc
        · by_cases k2 : c.id = 254#8
          · obtain ⟨reply, k3⟩ := h3 k2
            exact .all k2 k3 hc
          · rw [h4 k1 k2] at hc
            exact .other k1 k2 hc

theorem pairwise₂_map {α β : Type} {R : β → β → Prop} {f : α → β} {l l' : List α} (h : Pairwise₂ R (l.map f) (l'.map f)) :
    Pairwise₂ (fun a a' => R (f a) (f a')) l l' := by
  induction l generalizing l' with
  | nil =>
    cases l' with
    | nil => exact .nil
    | cons => cases h
  | cons a l ih =>
    cases l' with
    | nil => cases h
    | cons a' l' =>
      cases h with
      | cons h1 h2 => exact .cons h1 (ih h2)

theorem pairwise₂_mem {α β : Type} {R : α → β → Prop} {l : List α} {l' : List β} (h : Pairwise₂ R l l') {a : α} (ha : a ∈ l) :
    ∃ b ∈ l', R a b := by
  induction h with
  | nil => cases ha
  | cons h1 _ ih =>
    rcases List.mem_cons.mp ha with rfl | ha
    · exact ⟨_, by simp, h1⟩
    · obtain ⟨b, hb, h⟩ := ih ha
      exact ⟨b, by simp [hb], h⟩

theorem pairwise₂_imp {α β : Type} {R S : α → β → Prop} {l : List α} {l' : List β} (h : Pairwise₂ R l l')
    (hi : ∀ a b, R a b → S a b) : Pairwise₂ S l l' := by
  induction h with
  | nil => exact .nil
  | cons h1 _ ih => exact .cons (hi _ _ h1) ih

/-- **C58** The motors stay in their places, keep their IDs, and each sees exactly the calls for it and for all. -/
theorem c58_each {fuel : Nat} {b b' : Bus} {ds ds' : List MockDevice} {calls : List Called} (h : Network fuel b ds calls b' ds')
    (hb : b.Inv) (hf : ∀ d ∈ ds, Fits b d) :
    Pairwise₂ (fun d d' => d'.id = d.id ∧ Sees d.id (servo d) calls (servo d')) ds ds' :=
  pairwise₂_map (R := fun (m m' : Byte × Servo) => m'.1 = m.1 ∧ Sees m.1 m.2 calls m'.2) (c58_network h hb hf).sees

theorem Sees.unchanged {id : Byte} {s s' : Servo} {calls : List Called} (h : Sees id s calls s')
    (hc : ∀ c ∈ calls, c.id ≠ id ∧ c.id ≠ 254#8) : s' = s := by
  induction h with
  | done => rfl
  | own hid => exact absurd hid (hc _ (by simp)).1
  | all hid => exact absurd hid (hc _ (by simp)).2
  | other _ _ _ ih => exact ih fun c h => hc c (by simp [h])

/-- **C58** Calls for other motors change nothing in a motor: neither its table nor its registered write. -/
theorem c58_isolated {fuel : Nat} {b b' : Bus} {ds ds' : List MockDevice} {calls : List Called} (h : Network fuel b ds calls b' ds')
    (hb : b.Inv) (hf : ∀ d ∈ ds, Fits b d) :
    Pairwise₂ (fun d d' => (∀ c ∈ calls, c.id ≠ d.id ∧ c.id ≠ 254#8) → servo d' = servo d) ds ds' :=
  pairwise₂_imp (c58_each h hb hf) fun _ _ hd => hd.2.unchanged

theorem Sees.split {id : Byte} {l₁ l₂ : List Called} {s s' : Servo} (h : Sees id s (l₁ ++ l₂) s') :
    ∃ t, Sees id s l₁ t ∧ Sees id t l₂ s' := by
  induction l₁ generalizing s with
  | nil => exact ⟨s, .done s, h⟩
  | cons c l ih =>
    rw [List.cons_append] at h
    cases h with
    | own hid hs hr h =>
      obtain ⟨t, h1, h2⟩ := ih h
      exact ⟨t, .own hid hs hr h1, h2⟩
    | all hid hs h =>
      obtain ⟨t, h1, h2⟩ := ih h
      exact ⟨t, .all hid hs h1, h2⟩
    | other hid hall h =>
      obtain ⟨t, h1, h2⟩ := ih h
      exact ⟨t, .other hid hall h1, h2⟩

theorem Sees.load {id : Byte} {l : List Called} {s s' : Servo} {a n : Nat} (h : Sees id s l s')
    (hl : ∀ c ∈ l, c.id = id ∨ c.id = 254#8 → LeavesAlone a n c.request) : load s'.memory a n = load s.memory a n := by
  induction h with
  | done => rfl
  | own hid hs hr h ih => rw [ih fun c hc => hl c (by simp [hc]), serve_load hs (hl _ (by simp) (.inl hid))]
  | all hid hs h ih => rw [ih fun c hc => hl c (by simp [hc]), serve_load hs (hl _ (by simp) (.inr hid))]
  | other hid _ h ih => exact ih fun c hc => hl c (by simp [hc])

/-- A read of a memory in which the encoding of `v` is stored returns `v`. -/
theorem sees_read {α : Type} {dt : DataTy α} {valid : α → Prop} {enc : α → List Byte} (hdt : ImplData dt valid enc) {id : Byte}
    (hid : id ≠ 254#8) {s s' : Servo} {a : U16} {v : α} (hv : valid v) {o : Outcome TransferError (Response α)}
    (h : Sees id s [⟨Client.read dt id a, o, _, _, _, .read hdt id a⟩] s')
    (hl : Spec.load s.memory a.toNat dt.size.toNat = some (enc v)) : o = .ok ⟨id, false, v⟩ := by
  have hc := c28_round_trip_partial dt valid enc hdt
  cases h with
  | other hne _ => exact absurd rfl hne
  | all hne _ => exact absurd hne hid
  | own _ hs hr _ =>
    obtain ⟨-, hrep⟩ := Prod.mk.inj (Option.some.inj hs)
    unfold Servo.get at hrep
    rw [hl] at hrep
    subst hrep
    obtain ⟨w, ⟨hw, hfw⟩, ho⟩ := hr
    have hdec := hc.decode w hw
    rw [hfw, hc.decode v hv] at hdec
    rw [Outcome.ok.inj hdec]
    exact ho

theorem Sees.read_back {α : Type} {dt : DataTy α} {valid : α → Prop} {enc : α → List Byte} (hdt : ImplData dt valid enc)
    {id : Byte} (hid : id ≠ 254#8) {before between : List Called} {a : U16} {v : α} (hv : valid v) {r₁ : Response Unit}
    {o₂ : Outcome TransferError (Response α)} {s s' : Servo}
    (h : Sees id s (before ++ ⟨Client.write dt id a v, .ok r₁, _, _, _, .write hdt id a v hv⟩ :: (between ++
      [⟨Client.read dt id a, o₂, _, _, _, .read hdt id a⟩])) s')
    (hbetween : ∀ c ∈ between, c.id = id ∨ c.id = 254#8 → LeavesAlone a.toNat dt.size.toNat c.request) : o₂ = .ok ⟨id, false, v⟩ := by
  have hc := c28_round_trip_partial dt valid enc hdt
  obtain ⟨s₁, -, t1⟩ := h.split
  cases t1 with
  | other hne _ => exact absurd rfl hne
  | all hne => exact absurd hne hid
  | @own _ s₂ _ _ _ reply _ hs hr t2 =>
    obtain ⟨s₃, t3, t4⟩ := t2.split
    have hs := Option.some.inj hs
    have hst : ∃ m, store s₁.memory a.toNat (enc v) = some m ∧ s₂.memory = m := by
      unfold Servo.put at hs
      cases hst : store s₁.memory a.toNat (enc v) with
      | some m =>
        rw [hst] at hs
        exact ⟨m, rfl, by rw [← (Prod.mk.inj hs).1]⟩
      | none =>
        rw [hst] at hs
        rw [← (Prod.mk.inj hs).2] at hr
        cases hr
    obtain ⟨m, hm, rfl⟩ := hst
    have hl := load_store hm
    rw [hc.length v hv, ← t3.load hbetween] at hl
    exact sees_read hdt hid hv t4 hl

/-- **C58** What is written to a motor is read back from it, whatever is done with the other motors in between. -/
theorem c58_read_back {α : Type} {dt : DataTy α} {valid : α → Prop} {enc : α → List Byte} (hdt : ImplData dt valid enc)
    {fuel : Nat} {b b' : Bus} {ds ds' : List MockDevice} {d : MockDevice} (hmem : d ∈ ds) {before between : List Called} {a : U16}
    {v : α} (hv : valid v) {r₁ : Response Unit} {o₂ : Outcome TransferError (Response α)}
    (h : Network fuel b ds (before ++ ⟨Client.write dt d.id a v, .ok r₁, _, _, _, .write hdt d.id a v hv⟩ :: (between ++
      [⟨Client.read dt d.id a, o₂, _, _, _, .read hdt d.id a⟩])) b' ds')
    (hbetween : ∀ c ∈ between, c.id = d.id ∨ c.id = 254#8 → LeavesAlone a.toNat dt.size.toNat c.request)
    (hb : b.Inv) (hf : ∀ d ∈ ds, Fits b d) : o₂ = .ok ⟨d.id, false, v⟩ := by
  obtain ⟨d', -, -, ht⟩ := pairwise₂_mem (c58_each h hb hf) hmem
  exact ht.read_back hdt (hf d hmem).id hv hbetween

theorem store_length {m m' data : List Byte} {a : Nat} (h : store m a data = some m') : m'.length = m.length := by
  unfold store at h
  split at h
  · rw [← Option.some.inj h]; simp
  · cases h

theorem put_length (s : Servo) (a : U16) (data : List Byte) : (s.put a data).1.memory.length = s.memory.length := by
  unfold Servo.put
  cases h : store s.memory a.toNat data with
  | some m => exact store_length h
  | none => rfl

theorem serve_length {s s' : Servo} {r : Request} {reply : ServoReply} (h : s.serve r = some (s', reply)) :
    s'.memory.length = s.memory.length := by
  cases r with
  | ping => obtain ⟨rfl, -⟩ := Prod.mk.inj (Option.some.inj h); rfl
  | read => obtain ⟨rfl, -⟩ := Prod.mk.inj (Option.some.inj h); rfl
  | write a' data => rw [show s' = (s.put a' data).1 by rw [Option.some.inj h]]; exact put_length ..
  | regWrite => obtain ⟨rfl, -⟩ := Prod.mk.inj (Option.some.inj h); rfl
  | action =>
    unfold Servo.serve at h
    cases hr : s.registered with
    | none => rw [hr] at h; obtain ⟨rfl, -⟩ := Prod.mk.inj (Option.some.inj h); rfl
    | some p =>
      rw [hr] at h
      rw [show s' = (Servo.put { s with registered := none } p.1 p.2).1 by rw [Option.some.inj h]]
      exact put_length ..
  | _ => cases h

theorem Sees.length {id : Byte} {l : List Called} {s s' : Servo} (h : Sees id s l s') : s'.memory.length = s.memory.length := by
  induction h with
  | done => rfl
  | own _ hs _ _ ih => rw [ih, serve_length hs]
  | all _ hs _ ih => rw [ih, serve_length hs]
  | other _ _ _ ih => exact ih

theorem put_stored {s : Servo} {a : U16} {data : List Byte} (h : a.toNat + data.length ≤ s.memory.length) :
    Spec.load (s.put a data).1.memory a.toNat data.length = some data := by
  unfold Servo.put
  cases hs : store s.memory a.toNat data with
  | some m => exact load_store hs
  | none =>
    unfold store at hs
    rw [if_pos h] at hs
    cases hs

/-- **C58** What is written to all motors (ID 254) is read back from each of them, if its table has these addresses. -/
theorem c58_broadcast_read_back {α : Type} {dt : DataTy α} {valid : α → Prop} {enc : α → List Byte} (hdt : ImplData dt valid enc)
    {fuel : Nat} {b b' : Bus} {ds ds' : List MockDevice} {d : MockDevice} (hmem : d ∈ ds) {before between : List Called} {a : U16}
    {v : α} (hv : valid v) {o₁ : Outcome TransferError (Response Unit)} {o₂ : Outcome TransferError (Response α)}
    (h : Network fuel b ds (before ++ ⟨Client.write dt 254#8 a v, o₁, _, _, _, .write hdt 254#8 a v hv⟩ :: (between ++
      [⟨Client.read dt d.id a, o₂, _, _, _, .read hdt d.id a⟩])) b' ds')
    (hbetween : ∀ c ∈ between, c.id = d.id ∨ c.id = 254#8 → LeavesAlone a.toNat dt.size.toNat c.request)
    (hb : b.Inv) (hf : ∀ d ∈ ds, Fits b d) (hsize : a.toNat + dt.size.toNat ≤ d.controlTable.length) :
    o₂ = .ok ⟨d.id, false, v⟩ := by
  have hc := c28_round_trip_partial dt valid enc hdt
  obtain ⟨d', -, -, ht⟩ := pairwise₂_mem (c58_each h hb hf) hmem
  obtain ⟨s₁, t0, t1⟩ := ht.split
  have key : ∀ {s₂ reply}, s₁.serve (.write a (enc v)) = some (s₂, reply) →
      Sees d.id s₂ (between ++ [⟨Client.read dt d.id a, o₂, _, _, _, .read hdt d.id a⟩]) (servo d') → o₂ = .ok ⟨d.id, false, v⟩ := by
    intro s₂ reply hs t2
    obtain ⟨s₃, t3, t4⟩ := t2.split
    have hl := put_stored (s := s₁) (a := a) (data := enc v) (by rw [hc.length v hv, t0.length]; exact hsize)
    rw [show (s₁.put a (enc v)).1 = s₂ by rw [Option.some.inj hs], hc.length v hv, ← t3.load hbetween] at hl
    exact sees_read hdt (hf d hmem).id hv t4 hl
  cases t1 with
  | other _ hne _ => exact absurd rfl hne
  | all _ hs t2 => exact key hs t2
  | own hid hs _ t2 => exact key hs t2

/-- The request does not replace or use the registered write. -/
def KeepsRegistered : Request → Prop
  | .regWrite .. | .action => False
  | _ => True

theorem Sees.registered {id : Byte} {l : List Called} {s s' : Servo} (h : Sees id s l s')
    (hl : ∀ c ∈ l, c.id = id ∨ c.id = 254#8 → KeepsRegistered c.request) : s'.registered = s.registered := by
  have key : ∀ {s s₁ : Servo} {r : Request} {reply : ServoReply}, s.serve r = some (s₁, reply) → KeepsRegistered r →
      s₁.registered = s.registered := by
    intro s s₁ r reply h hr
    cases r with
    | ping => obtain ⟨rfl, -⟩ := Prod.mk.inj (Option.some.inj h); rfl
    | read => obtain ⟨rfl, -⟩ := Prod.mk.inj (Option.some.inj h); rfl
    | write a' data =>
      rw [show s₁ = (s.put a' data).1 by rw [Option.some.inj h]]
      unfold Servo.put
      cases store s.memory a'.toNat data <;> rfl
    | regWrite => exact hr.elim
    | action => exact hr.elim
    | _ => cases h
  induction h with
  | done => rfl
  | own hid hs _ _ ih => rw [ih fun c hc => hl c (by simp [hc]), key hs (hl _ (by simp) (.inl hid))]
  | all hid hs _ ih => rw [ih fun c hc => hl c (by simp [hc]), key hs (hl _ (by simp) (.inr hid))]
  | other _ _ _ ih => exact ih fun c hc => hl c (by simp [hc])

/-- **C58** Writes that are registered in motors are done by one action for all: after `reg_write_bytes` to a motor, any calls
to other motors (and calls that keep the registered write), `action` for all, and calls that leave these addresses alone, the
bytes are read back from the motor. -/
theorem c58_registered_read_back {fuel : Nat} {b b' : Bus} {ds ds' : List MockDevice} {d : MockDevice} (hmem : d ∈ ds)
    {before between after : List Called} {a n : U16} {data : List Byte} (hn : data.length = n.toNat)
    {o₁ o₂ : Outcome TransferError (Response Unit)} {o₃ : Outcome TransferError (Response (List Byte))}
    (h : Network fuel b ds (before ++ ⟨Client.regWriteBytes d.id a data, o₁, _, _, _, .regWriteBytes d.id a data⟩ :: (between ++
      ⟨Client.action 254#8, o₂, _, _, _, .action 254#8⟩ :: (after ++
      [⟨Client.readBytes d.id a n, o₃, _, _, _, .readBytes d.id a n⟩]))) b' ds')
    (hbetween : ∀ c ∈ between, c.id = d.id ∨ c.id = 254#8 → KeepsRegistered c.request)
    (hafter : ∀ c ∈ after, c.id = d.id ∨ c.id = 254#8 → LeavesAlone a.toNat n.toNat c.request)
    (hb : b.Inv) (hf : ∀ d ∈ ds, Fits b d) (hsize : a.toNat + n.toNat ≤ d.controlTable.length) :
    o₃ = .ok ⟨d.id, false, data⟩ := by
  obtain ⟨d', -, -, ht⟩ := pairwise₂_mem (c58_each h hb hf) hmem
  have hid := (hf d hmem).id
  obtain ⟨s₁, t0, t1⟩ := ht.split
  cases t1 with
  | other hne _ => exact absurd rfl hne
  | all hne => exact absurd hne hid
  | @own _ s₂ _ _ _ reply _ hs _ t2 =>
    have hs₂ := (Prod.mk.inj (Option.some.inj hs)).1
    have hl₂ := serve_length hs
    obtain ⟨s₃, t3, t4⟩ := t2.split
    have hreg : s₃.registered = some (a, data) := by rw [t3.registered hbetween, ← hs₂]
    have key : ∀ {s₄ reply}, s₃.serve .action = some (s₄, reply) →
        Sees d.id s₄ (after ++ [⟨Client.readBytes d.id a n, o₃, _, _, _, .readBytes d.id a n⟩]) (servo d') →
        o₃ = .ok ⟨d.id, false, data⟩ := by
      intro s₄ reply hs t5
      obtain ⟨s₅, t6, t7⟩ := t5.split
      unfold Servo.serve at hs
      rw [hreg] at hs
      have hl := put_stored (s := { s₃ with registered := none }) (a := a) (data := data)
        (by rw [hn]; change _ ≤ s₃.memory.length; rw [t3.length, hl₂, t0.length]; exact hsize)
      rw [show (Servo.put { s₃ with registered := none } a data).1 = s₄ by rw [Option.some.inj hs], hn, ← t6.load hafter] at hl
      cases t7 with
      | other hne _ => exact absurd rfl hne
      | all hne => exact absurd hne hid
      | own _ hs hr _ =>
        obtain ⟨-, hrep⟩ := Prod.mk.inj (Option.some.inj hs)
        unfold Servo.get at hrep
        rw [hl] at hrep
        subst hrep
        obtain ⟨w, hw, ho⟩ := hr
        subst hw
        exact ho
    cases t4 with
    | other _ hne _ => exact absurd rfl hne
    | all _ hs t5 => exact key hs t5
    | own _ hs _ t5 => exact key hs t5

/-! ## A concrete network: two motors, a write for all, and a read from the second -/

def netClient : Bus := lineBus [[], sampleGarbage ++ frame 2#8 [0x55#8, 0#8, 0x34#8, 0x12#8]]
def netClient' : Bus := (Client.write (DataTy.unsigned 2) 254#8 5#16 0x1234#16 netClient).1
def netMotor (id : Byte) : MockDevice :=
  .new id (lineBus [frame 254#8 (Request.write 5#16 [0x34#8, 0x12#8]).body, frame 2#8 (Request.read 5#16 2#16).body])
def netMotors : List MockDevice := [netMotor 1#8, netMotor 2#8]
def netMotors' : List MockDevice := [(netMotor 1#8).after 0, (netMotor 2#8).after 0]

/-- The two calls of the example. -/
def netCalls : List Called :=
  [⟨Client.write (DataTy.unsigned 2) 254#8 5#16 0x1234#16, .ok ⟨254#8, false, ()⟩, _, _, _,
      .write u16_data 254#8 5#16 0x1234#16 trivial⟩,
   ⟨Client.read (DataTy.unsigned 2) 2#8 5#16, .ok ⟨2#8, false, 0x1234#16⟩, _, _, _, .read u16_data 2#8 5#16⟩]

set_option maxRecDepth 10000 in
/-- C58: both motors have the value in their tables, and the second returns it. -/
theorem netRun : ∃ b' ds', Network 0 netClient netMotors netCalls b' ds' ∧ ds'.map (fun d => d.controlTable.take 8) =
    [[0#8, 0#8, 0#8, 0#8, 0#8, 0x34#8, 0x12#8, 0#8], [0#8, 0#8, 0#8, 0#8, 0#8, 0x34#8, 0x12#8, 0#8]] := by
  refine ⟨_, _, .call (canSend_plain rfl ⟨rfl, rfl⟩ (by unfold Room; decide +kernel) (by decide +kernel)) (by decide +kernel)
    (fun d hd => ?_) (fun d hd _ => ?_) (fun d hd h => ?_)
    (.call (b := netClient') (ds := netMotors')
      (canSend_plain (by decide +kernel) (by decide +kernel) (by unfold Room; decide +kernel) (by decide +kernel))
      (by decide +kernel) (fun d hd => ?_) (fun d hd h => ?_) (fun d hd h => ?_) (.done _ _)), ?_⟩
  · rcases List.mem_cons.mp hd with rfl | hd
    · exact arrives_one (f := frame 254#8 (Request.write 5#16 [0x34#8, 0x12#8]).body) (g := [])
        (rest := frame 2#8 (Request.read 5#16 2#16).body) (by decide +kernel) (by decide) (by decide +kernel)
    · obtain rfl := List.mem_singleton.mp hd
      exact arrives_one (f := frame 254#8 (Request.write 5#16 [0x34#8, 0x12#8]).body) (g := [])
        (rest := frame 2#8 (Request.read 5#16 2#16).body) (by decide +kernel) (by decide) (by decide +kernel)
  · rcases List.mem_cons.mp hd with rfl | hd
    · exact canAnswer_plain (s' := ⟨[0#8, 0#8, 0#8, 0#8, 0#8, 0x34#8, 0x12#8] ++ List.replicate 193 0#8, none⟩) (reply := ⟨0#8, []⟩)
        (by decide +kernel) ⟨rfl, rfl⟩ (by unfold Room; decide +kernel) (by decide +kernel)
    · obtain rfl := List.mem_singleton.mp hd
      exact canAnswer_plain (s' := ⟨[0#8, 0#8, 0#8, 0#8, 0#8, 0x34#8, 0x12#8] ++ List.replicate 193 0#8, none⟩) (reply := ⟨0#8, []⟩)
        (by decide +kernel) ⟨rfl, rfl⟩ (by unfold Room; decide +kernel) (by decide +kernel)
  · rcases List.mem_cons.mp hd with rfl | hd
    · cases h
    · obtain rfl := List.mem_singleton.mp hd
      cases h
  · rcases List.mem_cons.mp hd with rfl | hd
    · exact arrives_one (f := frame 2#8 (Request.read 5#16 2#16).body) (g := []) (rest := []) (by decide +kernel) (by decide)
        (by decide +kernel)
    · obtain rfl := List.mem_singleton.mp hd
      exact arrives_one (f := frame 2#8 (Request.read 5#16 2#16).body) (g := []) (rest := []) (by decide +kernel) (by decide)
        (by decide +kernel)
  · rcases List.mem_cons.mp hd with rfl | hd
    · exact absurd h (by decide +kernel)
    · obtain rfl := List.mem_singleton.mp hd
      exact canAnswer_plain (s' := ⟨[0#8, 0#8, 0#8, 0#8, 0#8, 0x34#8, 0x12#8] ++ List.replicate 193 0#8, none⟩)
        (reply := ⟨0#8, [0x34#8, 0x12#8]⟩) (by decide +kernel) (by decide +kernel) (by unfold Room; decide +kernel) (by decide +kernel)
  · rcases List.mem_cons.mp hd with rfl | hd
    · exact absurd h (by decide +kernel)
    · obtain rfl := List.mem_singleton.mp hd
      exact arrivesBack_one (f := frame 2#8 [0x55#8, 0#8, 0x34#8, 0x12#8]) (g := sampleGarbage) (rest := []) (ns := 2256945)
        (by decide +kernel)
        ⟨by unfold LongEnough; decide +kernel, fun m hm => by
          have hb : netClient'.baudRate = 57600 := by decide +kernel
          unfold LongEnough at hm
          rw [hb] at hm
          change (11 + 2) * 10 * 1000000000 ≤ m * 57600 at hm
          omega⟩ (by decide) (by decide +kernel)
  · decide +kernel

/-- C58: the motors of the example satisfy the other hypotheses. -/
theorem netFits : netClient.Inv ∧ ∀ d ∈ netMotors, Fits netClient d := by
  refine ⟨lineBus_inv _, fun d hd => ?_⟩
  rcases List.mem_cons.mp hd with rfl | hd
  · exact ⟨by decide, lineBus_inv _, by decide +kernel, by decide +kernel, by decide +kernel⟩
  · obtain rfl := List.mem_singleton.mp hd
    exact ⟨by decide, lineBus_inv _, by decide +kernel, by decide +kernel, by decide +kernel⟩

/-! ## The theorems on the example -/

example : ∃ ds' : List MockDevice, Memories (netMotors.map MockDevice.view) netCalls (ds'.map MockDevice.view) :=
  netRun.elim fun _ h => h.elim fun ds' h => ⟨ds', c58_network h.1 netFits.1 netFits.2⟩

example : ∃ ds', Pairwise₂ (fun d d' => d'.id = d.id ∧ Sees d.id (servo d) netCalls (servo d')) netMotors ds' :=
  netRun.elim fun _ h => h.elim fun ds' h => ⟨ds', c58_each h.1 netFits.1 netFits.2⟩

example : ∃ ds', Pairwise₂ (fun d d' => (∀ c ∈ netCalls, c.id ≠ d.id ∧ c.id ≠ 254#8) → servo d' = servo d) netMotors ds' :=
  netRun.elim fun _ h => h.elim fun ds' h => ⟨ds', c58_isolated h.1 netFits.1 netFits.2⟩

example : (.ok ⟨2#8, false, 0x1234#16⟩ : Outcome TransferError (Response (BitVec 16))) = .ok ⟨2#8, false, 0x1234#16⟩ :=
  netRun.elim fun _ h => h.elim fun _ h => c58_broadcast_read_back u16_data (d := netMotor 2#8) (by simp [netMotors]) (before := [])
    (between := []) (v := 0x1234#16) trivial h.1 (by simp) netFits.1 netFits.2 (by decide +kernel)

/-! A write to one of the motors, which confirms it, and a read. -/

def ownClient : Bus := lineBus [frame 2#8 [0x55#8, 0#8], sampleGarbage ++ frame 2#8 [0x55#8, 0#8, 0x34#8, 0x12#8]]
def ownClient' : Bus := (Client.write (DataTy.unsigned 2) 2#8 5#16 0x1234#16 ownClient).1
def ownMotor (id : Byte) : MockDevice :=
  .new id (lineBus [frame 2#8 (Request.write 5#16 [0x34#8, 0x12#8]).body, frame 2#8 (Request.read 5#16 2#16).body])
def ownMotors : List MockDevice := [ownMotor 1#8, ownMotor 2#8]
def ownMotors' : List MockDevice := [(ownMotor 1#8).after 0, (ownMotor 2#8).after 0]

def ownCalls : List Called :=
  [⟨Client.write (DataTy.unsigned 2) 2#8 5#16 0x1234#16, .ok ⟨2#8, false, ()⟩, _, _, _,
      .write u16_data 2#8 5#16 0x1234#16 trivial⟩,
   ⟨Client.read (DataTy.unsigned 2) 2#8 5#16, .ok ⟨2#8, false, 0x1234#16⟩, _, _, _, .read u16_data 2#8 5#16⟩]

set_option maxRecDepth 10000 in
/-- C58: only the second motor has the value in its table, and returns it. -/
theorem ownRun : ∃ b' ds', Network 0 ownClient ownMotors ownCalls b' ds' ∧ ds'.map (fun d => d.controlTable.take 8) =
    [[0#8, 0#8, 0#8, 0#8, 0#8, 0#8, 0#8, 0#8], [0#8, 0#8, 0#8, 0#8, 0#8, 0x34#8, 0x12#8, 0#8]] := by
  refine ⟨_, _, .call (canSend_plain rfl ⟨rfl, rfl⟩ (by unfold Room; decide +kernel) (by decide +kernel)) (by decide +kernel)
    (fun d hd => ?_) (fun d hd h => ?_) (fun d hd h => ?_)
    (.call (b := ownClient') (ds := ownMotors')
      (canSend_plain (by decide +kernel) (by decide +kernel) (by unfold Room; decide +kernel) (by decide +kernel))
      (by decide +kernel) (fun d hd => ?_) (fun d hd h => ?_) (fun d hd h => ?_) (.done _ _)), ?_⟩
  · rcases List.mem_cons.mp hd with rfl | hd
    · exact arrives_one (f := frame 2#8 (Request.write 5#16 [0x34#8, 0x12#8]).body) (g := [])
        (rest := frame 2#8 (Request.read 5#16 2#16).body) (by decide +kernel) (by decide) (by decide +kernel)
    · obtain rfl := List.mem_singleton.mp hd
      exact arrives_one (f := frame 2#8 (Request.write 5#16 [0x34#8, 0x12#8]).body) (g := [])
        (rest := frame 2#8 (Request.read 5#16 2#16).body) (by decide +kernel) (by decide) (by decide +kernel)
  · rcases List.mem_cons.mp hd with rfl | hd
    · exact absurd h (by decide +kernel)
    · obtain rfl := List.mem_singleton.mp hd
      exact canAnswer_plain (s' := ⟨[0#8, 0#8, 0#8, 0#8, 0#8, 0x34#8, 0x12#8] ++ List.replicate 193 0#8, none⟩) (reply := ⟨0#8, []⟩)
        (by decide +kernel) ⟨rfl, rfl⟩ (by unfold Room; decide +kernel) (by decide +kernel)
  · rcases List.mem_cons.mp hd with rfl | hd
    · exact absurd h (by decide +kernel)
    · obtain rfl := List.mem_singleton.mp hd
      exact arrivesBack_one (f := frame 2#8 [0x55#8, 0#8]) (g := [])
        (rest := sampleGarbage ++ frame 2#8 [0x55#8, 0#8, 0x34#8, 0x12#8]) (ns := 1909723)
        (by decide +kernel)
        ⟨by unfold LongEnough; decide +kernel, fun m hm => by
          have hb : ownClient.baudRate = 57600 := by decide +kernel
          unfold LongEnough at hm
          rw [hb] at hm
          change (11 + 0) * 10 * 1000000000 ≤ m * 57600 at hm
          omega⟩ (by decide) (by decide +kernel)
  · rcases List.mem_cons.mp hd with rfl | hd
    · exact arrives_one (f := frame 2#8 (Request.read 5#16 2#16).body) (g := []) (rest := []) (by decide +kernel) (by decide)
        (by decide +kernel)
    · obtain rfl := List.mem_singleton.mp hd
      exact arrives_one (f := frame 2#8 (Request.read 5#16 2#16).body) (g := []) (rest := []) (by decide +kernel) (by decide)
        (by decide +kernel)
  · rcases List.mem_cons.mp hd with rfl | hd
    · exact absurd h (by decide +kernel)
    · obtain rfl := List.mem_singleton.mp hd
      exact canAnswer_plain (s' := ⟨[0#8, 0#8, 0#8, 0#8, 0#8, 0x34#8, 0x12#8] ++ List.replicate 193 0#8, none⟩)
        (reply := ⟨0#8, [0x34#8, 0x12#8]⟩) (by decide +kernel) (by decide +kernel) (by unfold Room; decide +kernel) (by decide +kernel)
  · rcases List.mem_cons.mp hd with rfl | hd
    · exact absurd h (by decide +kernel)
    · obtain rfl := List.mem_singleton.mp hd
      exact arrivesBack_one (f := frame 2#8 [0x55#8, 0#8, 0x34#8, 0x12#8]) (g := sampleGarbage) (rest := []) (ns := 2256945)
        (by decide +kernel)
        ⟨by unfold LongEnough; decide +kernel, fun m hm => by
          have hb : ownClient'.baudRate = 57600 := by decide +kernel
          unfold LongEnough at hm
          rw [hb] at hm
          change (11 + 2) * 10 * 1000000000 ≤ m * 57600 at hm
          omega⟩ (by decide) (by decide +kernel)
  · decide +kernel

example : (.ok ⟨2#8, false, 0x1234#16⟩ : Outcome TransferError (Response (BitVec 16))) = .ok ⟨2#8, false, 0x1234#16⟩ :=
  ownRun.elim fun _ h => h.elim fun _ h => c58_read_back u16_data (d := ownMotor 2#8) (by simp [ownMotors]) (before := [])
    (between := []) (v := 0x1234#16) trivial h.1 (by simp) (lineBus_inv _) (fun d hd => by
      rcases List.mem_cons.mp hd with rfl | hd
      · exact ⟨by decide, lineBus_inv _, by decide +kernel, by decide +kernel, by decide +kernel⟩
      · obtain rfl := List.mem_singleton.mp hd
        exact ⟨by decide, lineBus_inv _, by decide +kernel, by decide +kernel, by decide +kernel⟩)

end Dxl.Props
