import Verif.Lemmas.ClientGroup
import Verif.Props.Concurrent
import Verif.Props.Same

/-! # C72: the integration tests, in every interleaving -/

namespace Dxl.Props
open Dxl Spec Spec.Line Dxl.MockSerial

/-! ## The threads -/

/-- No call of this port to discard input or to write fails, like those of a `MockSerial`. -/
structure Accepts (p : Port) : Prop where
  discard : ∀ x ∈ p.discardRes, x = none
  write : ∀ x ∈ p.writeRes, x.2 = none

/-- An execution of an integration test with motors with these IDs: `as` is what happens on the line, in any interleaving that
the locks allow; every motor runs its loop, for as long as it takes; the body of the test ends with outcome `o`, and `total`
is all that it has seen of the line. -/
structure TestRun (ids : List Byte) (body : SO Bus Empty Unit) (as : List Act) (total : List Seen) (o : Outcome Empty Unit) : Prop where
  line : ∃ s, Run (newClientDevice ids) init as s
  motors : MockSerial.Motors ids as
  client : ∃ debug port b, Client.new debug port = .ok b ∧ port.rate = 56700 ∧ Accepts port ∧ (body b).2 = o ∧
    Saw port total (body b).1.serialPort
  seen : total <+: MockSerial.history 0 as

/-! ## Proofs for tests with one motor -/

theorem Accepts.sendOk {p : Port} (h : Accepts p) : p.SendOk := by
  refine ⟨fun e he => ?_, fun dt e he => ?_⟩
  · cases h.discard _ (List.mem_of_mem_head? he)
  · cases h.write _ (List.mem_of_mem_head? he)

theorem Accepts.saw {p q : Port} {es : List Seen} (h : Saw p es q) (hp : Accepts p) : Accepts q := by
  have hread : ∀ {cap D : Nat} {p p₁ : Port} {o}, Port.read cap D p = (p₁, o) → Accepts p → Accepts p₁ := by
    intro cap D p p₁ o h hp
    have h1 : p₁.discardRes = p.discardRes ∧ p₁.writeRes = p.writeRes := by
      have : p₁ = (Port.read cap D p).1 := by rw [h]
      rw [this]
      unfold Port.read
      dsimp only
      split
      · exact ⟨rfl, rfl⟩
      · split
        · split <;> exact ⟨rfl, rfl⟩
        · split
          · split <;> exact ⟨rfl, rfl⟩
          · exact ⟨rfl, rfl⟩
        · split <;> exact ⟨rfl, rfl⟩
    exact ⟨h1.1 ▸ hp.discard, h1.2 ▸ hp.write⟩
  induction h with
  | nil => exact hp
  | got h _ ih => exact ih (hread h hp)
  | failed h _ ih => exact ih (hread h hp)
  | @wrote p p₁ _ bs o _ h _ ih =>
    refine ih ?_
    have : p₁ = (Port.writeAll bs p).1 := by rw [h]
    rw [this]
    unfold Port.writeAll
    split
    · rename_i heq
      exact ⟨hp.discard, fun x hx => hp.write x (by rw [heq]; exact List.mem_cons_of_mem _ hx)⟩
    · rename_i heq
      exact ⟨hp.discard, fun x hx => hp.write x (by rw [heq]; exact List.mem_cons_of_mem _ hx)⟩
    · exact ⟨hp.discard, hp.write⟩
  | @discarded p p₁ _ o _ h _ ih =>
    refine ih ?_
    have : p₁ = (Port.discardInputBuffer p).1 := by rw [h]
    rw [this]
    unfold Port.discardInputBuffer
    split
    · rename_i heq
      exact ⟨fun x hx => hp.discard x (by rw [heq]; exact List.mem_cons_of_mem _ hx), hp.write⟩
    · rename_i heq
      exact ⟨fun x hx => hp.discard x (by rw [heq]; exact List.mem_cons_of_mem _ hx), hp.write⟩
    · exact ⟨hp.discard, hp.write⟩
  | @baud p p₁ _ rate o _ h _ ih =>
    refine ih ?_
    have : p₁ = (Port.setBaudRate rate p).1 := by rw [h]
    rw [this]
    unfold Port.setBaudRate
    split <;> exact ⟨hp.discard, hp.write⟩

/-- A call of a test, and whether its result is checked. -/
structure TestCall where
  {α : Type}
  call : SO Bus TransferError (Response α)
  id : Byte
  request : Request
  value : List Byte → α → Prop
  uses : Uses call id request value
  checked : Bool

def TestCall.ask (c : TestCall) : Ask := ⟨c.id, c.request⟩

/-- The test. -/
def runCalls : List TestCall → SO Bus Empty Unit
  | [] => pure ()
  | c :: cs => (if c.checked then IntegrationTests.expectFrom c.id c.call else IntegrationTests.ignore c.call) >>= fun _ => runCalls cs

/-- What a checked call comes to. -/
def verdict {α : Type} (id : Byte) : Outcome TransferError (Response α) → Outcome Empty Unit
  | .ok r => if r.motorId = id then .ok () else .panic
  | .hang => .hang
  | _ => .panic

/-- What an unchecked call comes to. -/
def anyhow {α : Type} : Outcome TransferError (Response α) → Outcome Empty Unit
  | .ok _ => .ok ()
  | .err _ => .ok ()
  | .panic => .panic
  | .hang => .hang

theorem attempt_eq {σ ε α : Type} {m : SO σ ε α} {s s' : σ} {o : Outcome ε α} (h : m s = (s', o)) :
    SO.attempt (ε' := Empty) m s = (s', match o with
      | .ok a => .ok (.ok a)
      | .err e => .ok (.error e)
      | .panic => .panic
      | .hang => .hang) := by
  unfold SO.attempt
  simp only [h]
  cases o <;> rfl

theorem expectFrom_eq {α : Type} (id : Byte) {m : SO Bus TransferError (Response α)} {b b' : Bus} {o : Outcome TransferError (Response α)}
    (h : m b = (b', o)) : IntegrationTests.expectFrom id m b = (b', verdict id o) := by
  unfold IntegrationTests.expectFrom
  have k := attempt_eq h
  cases o with
  | ok r =>
    rw [SO.bind_ok k]
    by_cases hr : r.motorId = id <;> simp only [verdict, hr, if_true, if_false] <;> rfl
  | err e => rw [SO.bind_ok k]; rfl
  | panic => rw [SO.bind_panic k]; rfl
  | hang => rw [SO.bind_hang k]; rfl

theorem ignore_eq {α : Type} {m : SO Bus TransferError (Response α)} {b b' : Bus} {o : Outcome TransferError (Response α)}
    (h : m b = (b', o)) : IntegrationTests.ignore m b = (b', anyhow o) := by
  unfold IntegrationTests.ignore
  have k := attempt_eq h
  cases o with
  | ok r => rw [SO.bind_ok k]; rfl
  | err e => rw [SO.bind_ok k]; rfl
  | panic => rw [SO.bind_panic k]; rfl
  | hang => rw [SO.bind_hang k]; rfl

/-- What the test comes to if there is no answer in time: it fails, except if that is the answer to the last call and the
result of that one is not looked at. -/
structure Slow (cs : List TestCall) (es : List Seen) (o : Outcome Empty Unit) : Prop where
  all : (∀ c ∈ cs, c.checked = true) → o = .panic
  last : ∀ ds c, cs = ds ++ [c] → (∀ d ∈ ds, d.checked = true ∧ requestFrame d.id d.request ≠ requestFrame c.id c.request) →
    c.checked = false → (Seen.wrote (requestFrame c.id c.request) ∈ es → o = .ok ()) ∧
      (Seen.wrote (requestFrame c.id c.request) ∉ es → o = .panic)

/-- What the test does, as calls. -/
theorem runCalls_replies : ∀ (cs : List TestCall) {b : Bus}, b.Inv → b.readBuffer.length = 128 → b.writeBuffer.length = 128 →
    b.baudRate ≠ 0 → b.baudRate < 2 ^ 32 → Accepts b.serialPort →
    (∀ c ∈ cs, c.id ≠ 254#8 ∧ (requestFrame c.id c.request).length ≤ 128) →
    ∃ es, Saw b.serialPort es (runCalls cs b).1.serialPort ∧
      ((∀ e, Seen.failed e ∉ es) → ∃ calls : List Called, Replies calls es ∧
        (∀ c ∈ calls, c.id ≠ 254#8 ∧ (requestFrame c.id c.request).length ≤ 128) ∧ calls.map Called.ask <+: cs.map TestCall.ask ∧
        ((∀ c ∈ calls, ∃ v, c.result = .ok ⟨c.id, false, v⟩) → (runCalls cs b).2 = .ok ())) ∧
      ((∃ e, Seen.failed e ∈ es) → Slow cs es (runCalls cs b).2) := by
  intro cs
  induction cs with
  | nil =>
    intro b _ _ _ _ _ _ _
    exact ⟨[], .nil _, fun _ => ⟨[], .nil, by simp, List.prefix_refl _, fun _ => rfl⟩, fun ⟨e, h⟩ => by cases h⟩
  | cons c cs ih =>
    intro b hb hN hW h0 hbaud hp hall
    obtain ⟨h1, h2⟩ := hall c (by simp)
    obtain ⟨es₁, k1, k2, k3⟩ := uses_client c.uses h1 hb hN hW h0 hbaud h2
    have hstep := c.uses.asks.2 b hb
    obtain ⟨es₂, j1, j2, j3⟩ := ih hstep.inv (hstep.readSize.trans hN) (hstep.writeSize.trans hW) (by rw [k2]; exact h0)
      (by rw [k2]; exact hbaud) (.saw k1 hp) fun c hc => hall c (by simp [hc])
    have hasked : (∀ e, Seen.failed e ∉ es₁) → ∃ gs, Asked (c.call b).2 c.id c.request c.value es₁ gs := by
      intro hno
      rcases k3 with h | h
      · obtain ⟨gs, e, rfl⟩ := h.2 hp.sendOk
        exact absurd (by simp) (hno e)
      · exact h
    have hwrote : ∃ gs t, es₁ = .wrote (requestFrame c.id c.request) :: List.map .got gs ++ t ∧ ∀ f, Seen.wrote f ∉ t := by
      rcases k3 with h | ⟨gs, h⟩
      · obtain ⟨gs, e, h⟩ := h.2 hp.sendOk
        exact ⟨gs, _, h, by simp⟩
      · exact ⟨gs, [], by rw [h.saw]; simp, by simp⟩
    have hother : ∀ f, f ≠ requestFrame c.id c.request → Seen.wrote f ∉ es₁ := by
      intro f hf
      obtain ⟨gs, t, h, ht⟩ := hwrote
      rw [h]
      simp [hf, ht]
    have hsame : Seen.wrote (requestFrame c.id c.request) ∈ es₁ := by
      obtain ⟨gs, t, h, ht⟩ := hwrote
      rw [h]
      simp
    have hfails : (∃ e, Seen.failed e ∈ es₁) → Failed (c.call b).2 := by
      rintro ⟨e, he⟩
      rcases k3 with h | ⟨gs, h⟩
      · exact h.1
      · rw [h.saw] at he
        simp at he
    -- the call ends the test
    have stop : ∀ {o : Outcome Empty Unit}, runCalls (c :: cs) b = ((c.call b).1, o) → (Failed (c.call b).2 → o = .panic ∧ c.checked = true) →
        (¬ ∃ v, (c.call b).2 = .ok ⟨c.id, false, v⟩) →
        ∃ es, Saw b.serialPort es (runCalls (c :: cs) b).1.serialPort ∧
          ((∀ e, Seen.failed e ∉ es) → ∃ calls : List Called, Replies calls es ∧
            (∀ c ∈ calls, c.id ≠ 254#8 ∧ (requestFrame c.id c.request).length ≤ 128) ∧
            calls.map Called.ask <+: (c :: cs).map TestCall.ask ∧
            ((∀ c ∈ calls, ∃ v, c.result = .ok ⟨c.id, false, v⟩) → (runCalls (c :: cs) b).2 = .ok ())) ∧
          ((∃ e, Seen.failed e ∈ es) → Slow (c :: cs) es (runCalls (c :: cs) b).2) := by
      intro o h ho hbad
      have hslow : (∃ e, Seen.failed e ∈ es₁) → Slow (c :: cs) es₁ (runCalls (c :: cs) b).2 := by
        intro hf
        obtain ⟨ho, hc⟩ := ho (hfails hf)
        rw [h]
        refine ⟨fun _ => ho, fun ds c' hcs hds hc' => ⟨fun hw => ?_, fun _ => ho⟩⟩
        cases ds with
        | nil =>
          obtain ⟨rfl, -⟩ := List.cons.inj hcs
          rw [hc] at hc'
          cases hc'
        | cons d ds =>
          obtain ⟨rfl, -⟩ := List.cons.inj hcs
          exact absurd hw (hother _ (hds _ (by simp)).2.symm)
      refine ⟨es₁, by rw [h]; exact k1, fun hno => ?_, hslow⟩
      obtain ⟨gs, ha⟩ := hasked hno
      refine ⟨[⟨c.call, (c.call b).2, c.id, c.request, c.value, c.uses⟩], ?_, ?_, ?_, fun hok => ?_⟩
      · have := Replies.cons (c := ⟨c.call, (c.call b).2, c.id, c.request, c.value, c.uses⟩) ha .nil
        rwa [List.append_nil] at this
      · intro c' hc'
        obtain rfl := List.mem_singleton.mp hc'
        exact ⟨h1, h2⟩
      · exact List.cons_prefix_cons.mpr ⟨rfl, List.nil_prefix⟩
      · exact absurd (hok _ List.mem_cons_self) hbad
    -- the test goes on
    have more : runCalls (c :: cs) b = runCalls cs (c.call b).1 → (c.checked = true → ¬ Failed (c.call b).2) →
        ∃ es, Saw b.serialPort es (runCalls (c :: cs) b).1.serialPort ∧
          ((∀ e, Seen.failed e ∉ es) → ∃ calls : List Called, Replies calls es ∧
            (∀ c ∈ calls, c.id ≠ 254#8 ∧ (requestFrame c.id c.request).length ≤ 128) ∧
            calls.map Called.ask <+: (c :: cs).map TestCall.ask ∧
            ((∀ c ∈ calls, ∃ v, c.result = .ok ⟨c.id, false, v⟩) → (runCalls (c :: cs) b).2 = .ok ())) ∧
          ((∃ e, Seen.failed e ∈ es) → Slow (c :: cs) es (runCalls (c :: cs) b).2) := by
      intro h hnf
      rw [h]
      refine ⟨es₁ ++ es₂, k1.trans j1, fun hno => ?_, fun hf => ?_⟩
      · obtain ⟨gs, ha⟩ := hasked fun e he => hno e (List.mem_append_left _ he)
        obtain ⟨calls, i1, i2, i3, i4⟩ := j2 fun e he => hno e (List.mem_append_right _ he)
        refine ⟨⟨c.call, (c.call b).2, c.id, c.request, c.value, c.uses⟩ :: calls, .cons ha i1, ?_, ?_, ?_⟩
        · intro c' hc'
          rcases List.mem_cons.mp hc' with rfl | hc'
          · exact ⟨h1, h2⟩
          · exact i2 c' hc'
        · exact List.cons_prefix_cons.mpr ⟨rfl, i3⟩
        · exact fun hok => i4 fun c' hc' => hok c' (by simp [hc'])
      · have hlate : (c.checked = true) → ∃ e, Seen.failed e ∈ es₂ := by
          intro hc
          obtain ⟨e, he⟩ := hf
          rcases List.mem_append.mp he with he | he
          · exact absurd (hfails ⟨e, he⟩) (hnf hc)
          · exact ⟨e, he⟩
        refine ⟨fun hall => (j3 (hlate (hall c (by simp)))).all fun c' hc' => hall c' (by simp [hc']), fun ds c' hcs hds hc' => ?_⟩
        cases ds with
        | nil =>
          obtain ⟨rfl, rfl⟩ := List.cons.inj hcs
          exact ⟨fun _ => rfl, fun hw => absurd (List.mem_append_left _ hsame) hw⟩
        | cons d ds =>
          obtain ⟨rfl, rfl⟩ := List.cons.inj hcs
          obtain ⟨hc, hd⟩ := hds c (by simp)
          obtain ⟨l1, l2⟩ := (j3 (hlate hc)).last ds c' rfl (fun d hd => hds d (by simp [hd])) hc'
          refine ⟨fun hw => l1 ?_, fun hw => l2 fun h => hw (List.mem_append_right _ h)⟩
          rcases List.mem_append.mp hw with hw | hw
          · exact absurd hw (hother _ hd.symm)
          · exact hw
    have hrun : ∀ {b' : Bus} {o : Outcome TransferError (Response c.α)}, c.call b = (b', o) → runCalls (c :: cs) b =
        match o with
        | .ok r => if c.checked = true ∧ r.motorId ≠ c.id then (b', .panic) else runCalls cs b'
        | .err _ => if c.checked = true then (b', .panic) else runCalls cs b'
        | .panic => (b', .panic)
        | .hang => (b', .hang) := by
      intro b' o h
      cases hch : c.checked with
      | true =>
        have e1 : runCalls (c :: cs) b = (IntegrationTests.expectFrom c.id c.call >>= fun _ => runCalls cs) b := by
          conv => lhs; unfold runCalls
          rw [hch]
          rfl
        have e2 := expectFrom_eq c.id h
        rw [e1]
        cases o with
        | ok r =>
          by_cases hr : r.motorId = c.id
          · rw [verdict, if_pos hr] at e2
            rw [SO.bind_ok e2]
            simp [hr]
          · rw [verdict, if_neg hr] at e2
            rw [SO.bind_panic e2]
            simp [hr]
        | err e => rw [SO.bind_panic e2]; rfl
        | panic => rw [SO.bind_panic e2]
        | hang => rw [SO.bind_hang e2]
      | false =>
        have e1 : runCalls (c :: cs) b = (IntegrationTests.ignore c.call >>= fun _ => runCalls cs) b := by
          conv => lhs; unfold runCalls
          rw [hch]
          rfl
        have e2 := ignore_eq h
        rw [e1]
        cases o with
        | ok r => rw [SO.bind_ok e2]; simp
        | err e => rw [SO.bind_ok e2]; simp
        | panic => rw [SO.bind_panic e2]
        | hang => rw [SO.bind_hang e2]
    rcases hx : c.call b with ⟨b', o⟩
    have hr := hrun hx
    rw [hx] at stop more
    cases o with
    | ok r =>
      dsimp only at hr
      split at hr
      · rename_i hc
        exact stop hr (by rintro (⟨e, h⟩ | ⟨e, h⟩) <;> cases h) fun ⟨v, hv⟩ => hc.2 (by rw [Outcome.ok.inj hv])
      · exact more hr fun _ => by rintro (⟨e, h⟩ | ⟨e, h⟩) <;> cases h
    | err e =>
      dsimp only at hr
      split at hr
      · rename_i hc
        exact stop hr (fun _ => ⟨rfl, hc⟩) (by simp)
      · rename_i hc
        exact more hr fun h => absurd h hc
    | panic => exact stop hr (by rintro (⟨e, h⟩ | ⟨e, h⟩) <;> cases h) (by simp)
    | hang => exact stop hr (by rintro (⟨e, h⟩ | ⟨e, h⟩) <;> cases h) (by simp)

/-- The motor answers each of these instructions without an error. -/
def pleased : Servo → List Request → Bool
  | _, [] => true
  | s, r :: rs => match s.serve r with
    | some (s', reply) => reply.error == 0#8 && pleased s' rs
    | none => true

theorem pleased_prefix {rs rs' : List Request} (h : rs' <+: rs) : ∀ {s : Servo}, pleased s rs = true → pleased s rs' = true := by
  obtain ⟨t, rfl⟩ := h
  induction rs' with
  | nil => intro s _; rfl
  | cons r rs' ih =>
    intro s h
    rw [List.cons_append] at h
    unfold pleased at h ⊢
    split
    · rename_i heq
      simp only [heq, Bool.and_eq_true] at h ⊢
      exact ⟨h.1, ih h.2⟩
    · rfl

theorem Conversation.pleased {ids : List Byte} {σ σ' : Byte → Servo} {calls : List Called} {w : List Msg} (h : Conversation ids σ calls w σ')
    {id : Byte} : (∀ c ∈ calls, c.id = id) → pleased (σ id) (calls.map (·.request)) = true → ∀ c ∈ calls, ∃ v, c.result = .ok ⟨c.id, false, v⟩ := by
  induction h with
  | done => intro _ _ c hc; cases hc
  | @call σ σ' c calls w k s' reply wire wire' hk hr hs hw hw' h ih =>
    intro hid hp
    have h0 : c.id = id := hid c (by simp)
    rw [List.map_cons] at hp
    unfold Props.pleased at hp
    rw [h0] at hr
    simp only [hr, Bool.and_eq_true, beq_iff_eq] at hp
    have := ih (fun c hc => hid c (by simp [hc])) (by rw [update, if_pos h0.symm]; exact hp.2)
    intro c' hc'
    rcases List.mem_cons.mp hc' with rfl | hc'
    · rw [Shows, if_pos hp.1] at hs
      obtain ⟨v, -, hv⟩ := hs
      exact ⟨v, hv⟩
    · exact this c' hc'

/-- A test with one motor. -/
theorem single_test {ids : List Byte} {body : SO Bus Empty Unit} {as : List Act} {total : List Seen} {o : Outcome Empty Unit}
    (h : TestRun ids body as total o) (hn : ids.Nodup) {cs : List TestCall} (hbody : body = runCalls cs) {id : Byte} (hid : id ≠ 254#8)
    (hcs : ∀ c ∈ cs, c.id = id ∧ (requestFrame id c.request).length ≤ 128 ∧ NoFd c.request.body)
    (hp : pleased newServo (cs.map (·.request)) = true) :
    ((∀ e, Seen.failed e ∉ total) → o = .ok ()) ∧ ((∃ e, Seen.failed e ∈ total) → Slow cs total o) := by
  subst hbody
  obtain ⟨hline, hmot, ⟨debug, port, b, hnew, hrate, hacc, hout, hsaw⟩, hseen⟩ := h
  obtain ⟨f1, f2, f3, f4, f5, -⟩ := fresh_bus (debug := debug) (port := port) (b := b) (new_client hnew)
  obtain ⟨es, k1, k2, k3⟩ := runCalls_replies cs f3 f4 f5 (by rw [f2, hrate]; decide) (by rw [f2, hrate]; decide) (by rw [f1]; exact hacc)
    fun c hc => by
      obtain ⟨h1, h2, -⟩ := hcs c hc
      rw [h1]
      exact ⟨hid, h2⟩
  rw [f1] at k1
  obtain rfl := saw_unique hsaw k1
  rw [hout] at k2 k3
  refine ⟨fun hno => ?_, k3⟩
  obtain ⟨calls, i1, i2, i3, i4⟩ := k2 hno
  have hof : ∀ x ∈ calls.map Called.ask, x.to = id ∧ NoFd x.request.body := by
    intro x hx
    obtain ⟨c, hc, rfl⟩ := List.mem_map.mp (i3.subset hx)
    obtain ⟨h1, -, h3⟩ := hcs c hc
    exact ⟨h1, h3⟩
  obtain ⟨σ, w, hconv, -⟩ := replies_conversation hline hmot hseen i1 hn i2
    (smooth_of_noFd (fun x hx => (hof x hx).2) fun _ => newServo_clean)
  refine i4 (hconv.pleased (id := id) (fun c hc => (hof c.ask (List.mem_map.mpr ⟨c, hc, rfl⟩)).1) ?_)
  refine pleased_prefix ?_ hp
  have := i3.map Ask.request
  rw [List.map_map, List.map_map] at this
  exact this

/-! ## The tests with one motor -/

theorem so_bind_unit {σ ε : Type} (m : SO σ ε Unit) : (m >>= fun _ => (pure () : SO σ ε Unit)) = m := by
  funext s
  rw [SO.bind_def]
  rcases m s with ⟨s', o⟩
  cases o <;> rfl

/-- An unsigned integer of the tests. -/
theorem testData {n : Nat} (hn : n < 2 ^ 16) : ImplData (DataTy.unsigned n) (fun _ => True) fun v => toLeBytes n v.toNat :=
  .unsigned hn _ fun _ => littleEndian_iff.mpr rfl

theorem frame_short {id : Byte} {r : Request} (h : 9 + (codeStuff r.body).length ≤ 128) : (requestFrame id r).length ≤ 128 := by
  rw [requestFrame, Bus.frame_length]
  exact h

theorem testRead_calls (id : Byte) (rest : List Byte) : IntegrationTests.testRead (id :: rest) =
    runCalls [⟨_, id, _, _, .read (testData (n := 4) (by decide)) id 132#16, true⟩] :=
  (so_bind_unit _).symm

theorem testReadBytes_calls (id : Byte) (rest : List Byte) : IntegrationTests.testReadBytes (id :: rest) =
    runCalls [⟨_, id, _, _, .readBytes id 132#16 4#16, true⟩] :=
  (so_bind_unit _).symm

theorem testWrite_calls (id : Byte) (rest : List Byte) : IntegrationTests.testWrite (id :: rest) =
    runCalls [⟨_, id, _, _, .write (testData (n := 1) (by decide)) id 65#16 1#8 trivial, true⟩,
      ⟨_, id, _, _, .write (testData (n := 1) (by decide)) id 65#16 0#8 trivial, false⟩] := by
  have := so_bind_unit (IntegrationTests.ignore (Client.write (.unsigned 1) id 65#16 0#8))
  exact congrArg (fun m => IntegrationTests.expectFrom id (Client.write (.unsigned 1) id 65#16 1#8) >>= fun _ => m) this.symm

theorem testWriteBytes_calls (id : Byte) (rest : List Byte) : IntegrationTests.testWriteBytes (id :: rest) =
    runCalls [⟨_, id, _, _, .writeBytes id 116#16 [1, 2, 3, 4], true⟩] :=
  (so_bind_unit _).symm

theorem testRegWrite_calls (id : Byte) (rest : List Byte) : IntegrationTests.testRegWrite (id :: rest) =
    runCalls [⟨_, id, _, _, .regWriteBytes id 65#16 [1#8], true⟩, ⟨_, id, _, _, .action id, true⟩,
      ⟨_, id, _, _, .write (testData (n := 1) (by decide)) id 65#16 0#8 trivial, false⟩] := by
  have h1 := so_bind_unit (IntegrationTests.ignore (Client.write (.unsigned 1) id 65#16 0#8))
  have h2 : Client.regWrite (.unsigned 1) id 65#16 1#8 = Client.regWriteBytes id 65#16 [1#8] :=
    c70_reg_write_one_byte (testData (n := 1) (by decide)) rfl id 65#16 trivial
  refine Eq.trans ?_ (congrArg (fun m => IntegrationTests.expectFrom id (Client.regWriteBytes id 65#16 [1#8]) >>= fun _ =>
    IntegrationTests.expectFrom id (Client.action id) >>= fun _ => m) h1.symm)
  rw [← h2]
  rfl

theorem testRegWriteBytes_calls (id : Byte) (rest : List Byte) : IntegrationTests.testRegWriteBytes (id :: rest) =
    runCalls [⟨_, id, _, _, .regWriteBytes id 116#16 [1, 2, 3, 4], true⟩] :=
  (so_bind_unit _).symm

/-- A test that looks at the result of one call. -/
theorem one_call {ids : List Byte} {body : SO Bus Empty Unit} {as : List Act} {total : List Seen} {o : Outcome Empty Unit}
    (h : TestRun ids body as total o) (hn : ids.Nodup) {c : TestCall} (hbody : body = runCalls [c]) (hid : c.id ≠ 254#8)
    (hc : c.checked = true) (hl : 9 + (codeStuff c.request.body).length ≤ 128) (hf : NoFd c.request.body)
    (hp : pleased newServo [c.request] = true) :
    ((∀ e, Seen.failed e ∉ total) → o = .ok ()) ∧ ((∃ e, Seen.failed e ∈ total) → o = .panic) := by
  obtain ⟨h1, h2⟩ := single_test h hn hbody hid (fun c' hc' => by
    obtain rfl := List.mem_singleton.mp hc'
    exact ⟨rfl, frame_short hl, hf⟩) hp
  refine ⟨h1, fun hfail => (h2 hfail).all fun c' hc' => ?_⟩
  obtain rfl := List.mem_singleton.mp hc'
  exact hc

/-- **C72** `test_read` passes if and only if no read of the client times out. -/
theorem c72_read {id : Byte} {rest : List Byte} {as : List Act} {total : List Seen} {o : Outcome Empty Unit}
    (h : TestRun (id :: rest) (IntegrationTests.testRead (id :: rest)) as total o) (hn : (id :: rest).Nodup) (hid : id ≠ 254#8) :
    ((∀ e, Seen.failed e ∉ total) → o = .ok ()) ∧ ((∃ e, Seen.failed e ∈ total) → o = .panic) :=
  one_call h hn (testRead_calls id rest) hid rfl (by dsimp only; decide +kernel) (by unfold NoFd; dsimp only; decide +kernel)
    (by dsimp only; decide +kernel)

/-- **C72** `test_read_bytes` passes if and only if no read of the client times out. -/
theorem c72_read_bytes {id : Byte} {rest : List Byte} {as : List Act} {total : List Seen} {o : Outcome Empty Unit}
    (h : TestRun (id :: rest) (IntegrationTests.testReadBytes (id :: rest)) as total o) (hn : (id :: rest).Nodup) (hid : id ≠ 254#8) :
    ((∀ e, Seen.failed e ∉ total) → o = .ok ()) ∧ ((∃ e, Seen.failed e ∈ total) → o = .panic) :=
  one_call h hn (testReadBytes_calls id rest) hid rfl (by dsimp only; decide +kernel) (by unfold NoFd; dsimp only; decide +kernel)
    (by dsimp only; decide +kernel)

/-- **C72** `test_write_bytes` passes if and only if no read of the client times out. -/
theorem c72_write_bytes {id : Byte} {rest : List Byte} {as : List Act} {total : List Seen} {o : Outcome Empty Unit}
    (h : TestRun (id :: rest) (IntegrationTests.testWriteBytes (id :: rest)) as total o) (hn : (id :: rest).Nodup) (hid : id ≠ 254#8) :
    ((∀ e, Seen.failed e ∉ total) → o = .ok ()) ∧ ((∃ e, Seen.failed e ∈ total) → o = .panic) :=
  one_call h hn (testWriteBytes_calls id rest) hid rfl (by dsimp only; decide +kernel) (by unfold NoFd; dsimp only; decide +kernel)
    (by dsimp only; decide +kernel)

/-- **C72** `test_reg_write_bytes` passes if and only if no read of the client times out. -/
theorem c72_reg_write_bytes {id : Byte} {rest : List Byte} {as : List Act} {total : List Seen} {o : Outcome Empty Unit}
    (h : TestRun (id :: rest) (IntegrationTests.testRegWriteBytes (id :: rest)) as total o) (hn : (id :: rest).Nodup) (hid : id ≠ 254#8) :
    ((∀ e, Seen.failed e ∉ total) → o = .ok ()) ∧ ((∃ e, Seen.failed e ∈ total) → o = .panic) :=
  one_call h hn (testRegWriteBytes_calls id rest) hid rfl (by dsimp only; decide +kernel) (by unfold NoFd; dsimp only; decide +kernel)
    (by dsimp only; decide +kernel)

theorem requestFrame_ne {id : Byte} {r r' : Request} (h : codeStuff r.body ≠ codeStuff r'.body) : requestFrame id r ≠ requestFrame id r' := by
  exact fun he => h (frame_inj he).2

/-- **C72** `test_write` passes if no read of the client times out, or only in the last call: the one that writes 0. -/
theorem c72_write {id : Byte} {rest : List Byte} {as : List Act} {total : List Seen} {o : Outcome Empty Unit}
    (h : TestRun (id :: rest) (IntegrationTests.testWrite (id :: rest)) as total o) (hn : (id :: rest).Nodup) (hid : id ≠ 254#8) :
    ((∀ e, Seen.failed e ∉ total) → o = .ok ()) ∧
    ((∃ e, Seen.failed e ∈ total) → o = if .wrote (frame id [0x03#8, 0x41#8, 0#8, 0#8]) ∈ total then .ok () else .panic) := by
  obtain ⟨h1, h2⟩ := single_test h hn (testWrite_calls id rest) hid (fun c' hc' => by
    simp only [List.mem_cons, List.not_mem_nil, or_false] at hc'
    rcases hc' with rfl | rfl
    · exact ⟨rfl, frame_short (by dsimp only; decide +kernel), by unfold NoFd; dsimp only; decide +kernel⟩
    · exact ⟨rfl, frame_short (by dsimp only; decide +kernel), by unfold NoFd; dsimp only; decide +kernel⟩) (by dsimp only [List.map]; decide +kernel)
  refine ⟨h1, fun hfail => ?_⟩
  obtain ⟨l1, l2⟩ := (h2 hfail).last [_] _ rfl (fun d hd => by
    obtain rfl := List.mem_singleton.mp hd
    exact ⟨rfl, requestFrame_ne (by dsimp only; decide +kernel)⟩) rfl
  dsimp only at l1 l2
  rw [show requestFrame id (.write 65#16 (toLeBytes 1 (0#8).toNat)) = frame id [0x03#8, 0x41#8, 0#8, 0#8] from
    congrArg (frame id) (show codeStuff (Request.write 65#16 (toLeBytes 1 (0#8).toNat)).body = _ by decide +kernel)] at l1 l2
  split
  · rename_i hw; exact l1 hw
  · rename_i hw; exact l2 hw

/-- **C72** `test_reg_write` passes if no read of the client times out, or only in the last call: the one that writes 0. -/
theorem c72_reg_write {id : Byte} {rest : List Byte} {as : List Act} {total : List Seen} {o : Outcome Empty Unit}
    (h : TestRun (id :: rest) (IntegrationTests.testRegWrite (id :: rest)) as total o) (hn : (id :: rest).Nodup) (hid : id ≠ 254#8) :
    ((∀ e, Seen.failed e ∉ total) → o = .ok ()) ∧
    ((∃ e, Seen.failed e ∈ total) → o = if .wrote (frame id [0x03#8, 0x41#8, 0#8, 0#8]) ∈ total then .ok () else .panic) := by
  obtain ⟨h1, h2⟩ := single_test h hn (testRegWrite_calls id rest) hid (fun c' hc' => by
    simp only [List.mem_cons, List.not_mem_nil, or_false] at hc'
    rcases hc' with rfl | rfl | rfl
    · exact ⟨rfl, frame_short (by dsimp only; decide +kernel), by unfold NoFd; dsimp only; decide +kernel⟩
    · exact ⟨rfl, frame_short (by dsimp only; decide +kernel), by unfold NoFd; dsimp only; decide +kernel⟩
    · exact ⟨rfl, frame_short (by dsimp only; decide +kernel), by unfold NoFd; dsimp only; decide +kernel⟩) (by dsimp only [List.map]; decide +kernel)
  refine ⟨h1, fun hfail => ?_⟩
  obtain ⟨l1, l2⟩ := (h2 hfail).last [_, _] _ rfl (fun d hd => by
    simp only [List.mem_cons, List.not_mem_nil, or_false] at hd
    rcases hd with rfl | rfl
    · exact ⟨rfl, requestFrame_ne (by dsimp only; decide +kernel)⟩
    · exact ⟨rfl, requestFrame_ne (by dsimp only; decide +kernel)⟩) rfl
  dsimp only at l1 l2
  rw [show requestFrame id (.write 65#16 (toLeBytes 1 (0#8).toNat)) = frame id [0x03#8, 0x41#8, 0#8, 0#8] from
    congrArg (frame id) (show codeStuff (Request.write 65#16 (toLeBytes 1 (0#8).toNat)).body = _ by decide +kernel)] at l1 l2
  split
  · rename_i hw; exact l1 hw
  · rename_i hw; exact l2 hw

/-! ## Proofs for tests with several motors -/

theorem unwrap_eq {α : Type} {m : SO Bus WriteError α} {b b' : Bus} {a : α} (h : m b = (b', .ok a)) :
    IntegrationTests.unwrap m b = (b', .ok a) := by
  unfold IntegrationTests.unwrap
  rw [SO.bind_ok (attempt_eq h)]
  rfl

theorem writeInstruction_accepts {b : Bus} {r₀ : Request} {n : Nat} {enc : Encoder} (hb : b.Inv) (hW : b.writeBuffer.length = 128)
    (hacc : Accepts b.serialPort) (hf : Fills enc.run n r₀.parameters) (hlen : (requestFrame 254#8 r₀).length ≤ 128) :
    ∃ b₁, Client.writeInstruction 254#8 r₀.number n enc b = (b₁, .ok ()) ∧ b₁.Inv ∧ b₁.readBuffer.length = b.readBuffer.length ∧
      b₁.baudRate = b.baudRate ∧ b₁.pending = [] ∧ Saw b.serialPort [.wrote (requestFrame 254#8 r₀)] b₁.serialPort := by
  have hl := hf.length
  have hreq := requestFrame_length 254#8 r₀
  have hwire : (requestFrame 254#8 r₀).length = 9 + (codeStuff (r₀.number :: r₀.parameters)).length := Bus.frame_length _ _
  have hsend := c62_send (id := 254#8) hb.wInv hf (stuffedForm_codeStuff (r₀.number :: r₀.parameters))
  rw [sending_ok hacc.sendOk (by omega) (by omega) (by omega)] at hsend
  have hsaw := Bus.writePacket_saw 254#8 r₀.number hb.wInv hf
  have hstep := Bus.writePacket_sound 254#8 r₀.number n enc b hb
  have hkept := (Bus.writePacket_kept 254#8 r₀.number n enc hb.wInv).baudRate
  rcases hm : Bus.writePacket 254#8 r₀.number n enc b with ⟨b₁, o⟩
  have hm' : Bus.writeInstruction 254#8 r₀.number n enc b = (b₁, o) := hm
  rw [hm'] at hsend
  rw [hm] at hsaw hstep hkept
  obtain rfl : o = .ok () := hsend
  rcases hsaw with ⟨-, h⟩ | ⟨h1, -, h2, h3⟩
  · exact absurd rfl h
  · exact ⟨b₁, hm', hstep.inv, hstep.readSize, hkept, by simp [Bus.pending] at h2 h3 ⊢; simp [h2, h3], h1⟩

/-- A test that sends one instruction for all motors and reads status packets. -/
theorem group_run {ids : List Byte} {body rest : SO Bus Empty Unit} {as : List Act} {total : List Seen} {o : Outcome Empty Unit}
    (h : TestRun ids body as total o) {r₀ : Request} {n : Nat} {enc : Encoder} {ans : Nat → Option ServoReply}
    (hbody : body = IntegrationTests.unwrap (Client.writeInstruction 254#8 r₀.number n enc) >>= fun _ => rest)
    (hf : Fills enc.run n r₀.parameters) (hrest : Reading (fun b => b) rest) (hs : Survives r₀.body)
    (hlen : (requestFrame 254#8 r₀).length ≤ 128) (hans : ∀ k reply, ans k = some reply → Survives (0x55#8 :: reply.error :: reply.data))
    (hre : ∀ k id, ids[k]? = some id → Reacts r₀ id (ans k)) :
    ∃ (b : Bus) (h : List Event') (js : List Nat) (es : List Seen), Keeps b [] ∧ total = .wrote (requestFrame 254#8 r₀) :: es ∧ h.map Event'.plain = es ∧
      Saw b.serialPort es (rest b).1.serialPort ∧ (rest b).2 = o ∧ js.Nodup ∧ (∀ k ∈ js, HasAnswer ids ans k) ∧
      heard h = js.map (answerOf ids ans) ∧ (∀ m ∈ heard h, GoodReply m.2) ∧ ∀ e, Event'.failed e ∈ h → e = .timedOut := by
  subst hbody
  obtain ⟨⟨s, hrun⟩, hmot, ⟨debug, port, b, hnew, hrate, hacc, hout, hsaw⟩, hseen⟩ := h
  obtain ⟨f1, f2, f3, f4, f5, -⟩ := fresh_bus (debug := debug) (port := port) (b := b) (new_client hnew)
  obtain ⟨b₁, w1, w2, w3, w4, w5, w6⟩ := writeInstruction_accepts f3 f5 (by rw [f1]; exact hacc) hf hlen
  rw [SO.bind_ok (unwrap_eq w1)] at hout hsaw
  obtain ⟨-, es, hes⟩ := hrest.watched b₁ w2
  rw [f1] at w6
  obtain rfl := saw_unique hsaw (w6.trans hes)
  have hno : ∀ d, Seen.wrote d ∉ es := saw_quiet hes (hrest.just b₁)
  obtain ⟨l, h1, h2, h3, h4⟩ := run_story hrun
  have hseen' := hseen
  rw [← h1 0 (by omega)] at hseen'
  obtain ⟨l', c1, c2⟩ := hist_cut _ l rfl hseen'
  have honce : Once ids (requestFrame 254#8 r₀) ans l' := by
    refine group_story hs hlen hans ⟨es, rfl, hno⟩ l' (fun l'' h => h2 l'' (h.trans c1)) (fun x hx => h3 x (c1.subset hx))
      (by rw [c2]; exact List.prefix_refl _) ?_
    intro l'' hl k id hk hgood
    obtain ⟨debug, port, device, fuel, n, es, d1, d2, d3⟩ := hmot k id hk
    obtain ⟨g1, -, g3, g4, g5, g6⟩ := fresh_bus (debug := debug) (port := port) (b := device) (new_device d1)
    have hkl : k + 1 ≤ ids.length := by
      obtain ⟨hk, -⟩ := List.getElem?_eq_some_iff.mp hk
      omega
    refine group_thread (hre k id hk) (fuel := fuel) n (.new id device) [] es (hist (k + 1) l'') g3 g4 g5 g6 rfl rfl (by simpa using hgood) ?_ ?_
    · change Saw device.serialPort es _
      rw [g1]
      exact d2
    · refine List.IsPrefix.trans ?_ d3
      rw [← h1 (k + 1) hkl]
      exact (hist_prefix (hl.trans c1) (k + 1)).map _
  obtain ⟨js, j1, j2, j3⟩ := honce.client (h2 l' c1)
  cases hh : hist 0 l' with
  | nil => rw [hh] at c2; cases c2
  | cons e h =>
    rw [hh, List.map_cons] at c2
    obtain ⟨e1, e2⟩ := List.cons.inj c2
    rw [hh] at j3
    have hheard : heard (e :: h) = heard h := by
      cases e with
      | wrote d => rfl
      | _ => cases e1
    rw [hheard] at j3
    refine ⟨b₁, h, js, es, ⟨w2, w3.trans f4, by rw [w4, f2, hrate]; decide, by rw [w4, f2, hrate]; decide, by rw [w5]; rfl⟩, rfl, e2, hes, hout,
      j1, j2, j3, ?_, ?_⟩
    · intro m hm
      rw [j3] at hm
      obtain ⟨k, hk, rfl⟩ := List.mem_map.mp hm
      obtain ⟨reply, hr⟩ := Option.isSome_iff_exists.mp (j2 k hk).some
      have := (j2 k hk).length
      refine .reply (hans k _ ?_) this
      rw [hr]
      rfl
    · intro e he
      have e2 : h.map Event'.plain = es := e2
      have : Seen.failed e ∈ es := e2 ▸ List.mem_map.mpr ⟨_, he, rfl⟩
      have := hseen.subset (List.mem_cons_of_mem _ this)
      obtain ⟨a, -, ha⟩ := List.mem_filterMap.mp this
      unfold Act.for at ha
      repeat' split at ha
      all_goals first | cases ha; done | (cases ha; rfl)

/-- Only the first motor has an answer. -/
def firstOnly (reply : ServoReply) (k : Nat) : Option ServoReply := if k = 0 then some reply else none

theorem nodup_length {α : Type} [DecidableEq α] : ∀ {a b : List α}, a.Nodup → (∀ x ∈ a, x ∈ b) → a.length ≤ b.length := by
  intro a
  induction a with
  | nil => intro b _ _; simp
  | cons x a ih =>
    intro b hn hs
    obtain ⟨h1, h2⟩ := List.nodup_cons.mp hn
    have hx := hs x (by simp)
    have := ih (b := b.erase x) h2 fun y hy => (List.mem_erase_of_ne (by rintro rfl; exact h1 hy)).mpr (hs y (by simp [hy]))
    have hl := List.length_erase_of_mem hx
    have := List.length_pos_of_mem hx
    simp only [List.length_cons]
    omega

theorem nodup_one {js : List Nat} (hn : js.Nodup) (h : ∀ k ∈ js, k = 0) : js.length ≤ 1 := by
  match js, hn, h with
  | [], _, _ => simp
  | [_], _, _ => simp
  | a :: b :: js, hn, h =>
    have h1 := h a (by simp)
    have h2 := h b (by simp)
    simp [h1, h2] at hn

theorem iter_reading {ids : List Byte} {σ α : Type} {g : σ → Bus} {left : σ → Nat} {next : SO σ Empty (Option (Except ReadError (Response α)))}
    {drop : SO σ Empty Unit} {start : Bus → σ} (hstart : ∀ b, g (start b) = b) (hfeeds : Feeds g left next) (hdrop : Reading g drop) :
    Reading (fun b => b) (fun b =>
      (g ((IntegrationTests.checkAll next ids >>= fun _ => drop) (start b)).1,
        ((IntegrationTests.checkAll next ids >>= fun _ => drop) (start b)).2) : SO Bus Empty Unit) := by
  have hr : Reading g (IntegrationTests.checkAll next ids >>= fun _ => drop) :=
    (checkAll_reading hfeeds.reading _).bind fun _ => hdrop
  refine ⟨fun b hb => ?_, fun b => ?_⟩
  · have := hr.watched (start b) (by rw [hstart b]; exact hb)
    rw [hstart b] at this
    exact this
  · have := hr.just (start b)
    rw [hstart b] at this
    exact this

/-- A test that reads from several motors with one instruction. -/
theorem group_read {x y : Byte} {rest : List Byte} {body : SO Bus Empty Unit} {as : List Act} {total : List Seen}
    {o : Outcome Empty Unit} (h : TestRun (x :: y :: rest) body as total o) (hn : (x :: y :: rest).Nodup) {r₀ : Request} {n : Nat} {enc : Encoder}
    {σ α : Type} {g : σ → Bus} {left : σ → Nat} {next : SO σ Empty (Option (Except ReadError (Response α)))} {drop : SO σ Empty Unit}
    {start : Bus → σ}
    (hbody : body = IntegrationTests.unwrap (Client.writeInstruction 254#8 r₀.number n enc) >>= fun _ => fun b =>
      (g ((IntegrationTests.checkAll next (x :: y :: rest) >>= fun _ => drop) (start b)).1,
        ((IntegrationTests.checkAll next (x :: y :: rest) >>= fun _ => drop) (start b)).2))
    (hstart : ∀ b, g (start b) = b ∧ left (start b) = (x :: y :: rest).length) (hfeeds : Feeds g left next) (hdrop : Reading g drop)
    (hf : Fills enc.run n r₀.parameters) (hs : Survives r₀.body) (hlen : (requestFrame 254#8 r₀).length ≤ 128)
    (hre : ∃ ids' a c, ReadsOf r₀ (x :: ids') ∧ Reacts r₀ x (some (newServo.get a c)) ∧
      Survives (0x55#8 :: (newServo.get a c).error :: (newServo.get a c).data)) : o = .panic := by
  obtain ⟨ids', a, c, hread, hfirst, hsurv⟩ := hre
  have hreading := iter_reading (ids := x :: y :: rest) (fun b => (hstart b).1) hfeeds hdrop
  obtain ⟨b, hh, js, es, k1, -, k3, k4, k5, k6, k7, k8, k9, -⟩ := group_run h (ans := firstOnly (newServo.get a c)) hbody hf hreading hs hlen
    (by
      intro k reply hr
      unfold firstOnly at hr
      split at hr
      · obtain rfl := Option.some.inj hr
        exact hsurv
      · cases hr)
    (by
      intro k id hk
      cases k with
      | zero =>
        obtain rfl : x = id := by simpa using hk
        exact hfirst
      | succ k =>
        refine reacts_later hread ?_
        rintro rfl
        rw [List.getElem?_cons_succ] at hk
        exact (List.nodup_cons.mp hn).1 (List.mem_of_getElem? hk))
  have hlen1 : js.length ≤ 1 := nodup_one k6 fun k hk => by
    have := (k7 k hk).some
    unfold firstOnly at this
    split at this
    · assumption
    · cases this
  have k1 : Keeps (g (start b)) [] := by rw [(hstart b).1]; exact k1
  have k4 : Saw (g (start b)).serialPort es
      (g ((IntegrationTests.checkAll next (x :: y :: rest) >>= fun _ => drop) (start b)).1).serialPort := by
    have hp : (g (start b)).serialPort = b.serialPort := by rw [(hstart b).1]
    rw [hp]
    exact k4
  obtain ⟨es₁, es₂, rfl, hs₁, hs₂⟩ := WatchedOn.split (checkAll_reading hfeeds.reading (x :: y :: rest)).watched (fun _ => hdrop.watched) k1.inv k4
  obtain ⟨h₁, h₂, rfl, e1, e2⟩ := List.map_eq_append_iff.mp k3
  have hsub : ∀ m ∈ heard h₁, m ∈ heard (h₁ ++ h₂) := fun m hm => by rw [heard_append]; exact List.mem_append_left _ hm
  rcases checkAll_needs hfeeds (x :: y :: rest) (hstart b).2 k1 (by simpa using fun m hm => k9 m (hsub m hm)) hs₁ e1 with hp | hp
  · have hp' : IntegrationTests.checkAll next (x :: y :: rest) (start b) =
        ((IntegrationTests.checkAll next (x :: y :: rest) (start b)).1, .panic) := Prod.ext rfl hp
    rw [← k5]
    dsimp only
    rw [SO.bind_panic hp']
  · exfalso
    have : (heard h₁).length ≤ js.length := by
      rw [heard_append] at k8
      have := congrArg List.length k8
      rw [List.length_append, List.length_map] at this
      omega
    simp at hp
    omega

/-! ## The tests with several motors -/

theorem unsigned_decodes {n : Nat} (hn : n < 2 ^ 16) (ps : List Byte) (h : ps.length = (DataTy.unsigned n).size.toNat) :
    (DataTy.unsigned n).decode ps ≠ .hang := by
  obtain ⟨v, -, -, hv⟩ := c28_decode_onto_partial _ _ _ (testData hn) ps h
  rw [hv]
  simp

/-- An iterator over the answer of one motor, `ps`, and what it does after that. -/
structure ReadsOne {σ α : Type} (g : σ → Bus) (start : Bus → σ) (next : SO σ Empty (Option (Except ReadError (Response α))))
    (drop : SO σ Empty Unit) (x : Byte) (ps : List Byte) : Prop where
  first : ∀ {b : Bus} {es : List Seen} {h : List Event'}, Keeps b [] → (∀ m ∈ heard h, GoodReply m.2) →
    (∀ m ∈ heard h, m.2 = replyFrame x ⟨0#8, ps⟩) → (∀ e, Event'.failed e ∉ h) →
    Saw b.serialPort es (g (next (start b)).1).serialPort → h.map Event'.plain = es →
    ∃ r, (next (start b)).2 = .ok (some (.ok r)) ∧ r.motorId = x
  last : ∀ b, next (next (start b)).1 = ((next (start b)).1, .ok none)
  drop : ∀ b, (drop (next (start b)).1).2 = .ok ()

/-- A test that reads from one motor with a group instruction. -/
theorem group_one {x : Byte} {body : SO Bus Empty Unit} {as : List Act} {total : List Seen}
    {o : Outcome Empty Unit} (h : TestRun [x] body as total o) (hfail : ∀ e, Seen.failed e ∉ total) {r₀ : Request} {n : Nat} {enc : Encoder}
    {σ α : Type} {g : σ → Bus} {next : SO σ Empty (Option (Except ReadError (Response α)))} {drop : SO σ Empty Unit}
    {start : Bus → σ}
    (hbody : body = IntegrationTests.unwrap (Client.writeInstruction 254#8 r₀.number n enc) >>= fun _ => fun b =>
      (g ((IntegrationTests.checkAll next [x] >>= fun _ => drop) (start b)).1,
        ((IntegrationTests.checkAll next [x] >>= fun _ => drop) (start b)).2))
    (hstart : ∀ b, g (start b) = b) {left : σ → Nat} (hfeeds : Feeds g left next) (hdrop : Reading g drop)
    (hf : Fills enc.run n r₀.parameters) (hs : Survives r₀.body) (hlen : (requestFrame 254#8 r₀).length ≤ 128)
    (hre : Reacts r₀ x (some (newServo.get 132#16 4#16)))
    (hone : ReadsOne g start next drop x [0#8, 0#8, 0#8, 0#8]) : o = .ok () := by
  have hreading := iter_reading (ids := [x]) hstart hfeeds hdrop
  have hget : newServo.get 132#16 4#16 = ⟨0#8, [0#8, 0#8, 0#8, 0#8]⟩ := by decide +kernel
  rw [hget] at hre
  have hsurv : Survives (0x55#8 :: 0#8 :: [0#8, 0#8, 0#8, 0#8]) := NoFd.survives (by unfold NoFd; decide)
  obtain ⟨b, hh, js, es, k1, rfl, k3, k4, k5, k6, k7, k8, k9, -⟩ := group_run h (ans := firstOnly ⟨0#8, [0#8, 0#8, 0#8, 0#8]⟩) hbody hf hreading hs hlen
    (by
      intro k reply hr
      unfold firstOnly at hr
      split at hr
      · obtain rfl := Option.some.inj hr
        exact hsurv
      · cases hr)
    (by
      intro k id hk
      cases k with
      | zero =>
        obtain rfl : x = id := by simpa using hk
        exact hre
      | succ k => simp at hk)
  have hnot : ∀ e, Event'.failed e ∉ hh := fun e he =>
    hfail e (List.mem_cons_of_mem _ (k3 ▸ List.mem_map.mpr ⟨_, he, rfl⟩))
  have hall : ∀ m ∈ heard hh, m.2 = replyFrame x ⟨0#8, [0#8, 0#8, 0#8, 0#8]⟩ := by
    intro m hm
    rw [k8] at hm
    obtain ⟨k, hk, rfl⟩ := List.mem_map.mp hm
    have := (k7 k hk).exists_
    obtain rfl : k = 0 := by simp at this; omega
    rfl
  have k4 : Saw (g (start b)).serialPort es (g ((IntegrationTests.checkAll next [x] >>= fun _ => drop) (start b)).1).serialPort := by
    have hp : (g (start b)).serialPort = b.serialPort := by rw [hstart b]
    rw [hp]
    exact k4
  have htail : ∀ y : Option (Except ReadError (Response α)), Reading g ((match y with
      | none => pure ()
      | some (.error _) => SO.panic
      | some (.ok r) => if r.motorId = x then IntegrationTests.checkAll next [] else SO.panic : SO σ Empty Unit) >>= fun _ => drop) := by
    intro y
    refine .bind ?_ fun _ => hdrop
    cases y with
    | none => exact .pure _
    | some y =>
      cases y with
      | error e => exact .panic
      | ok r => dsimp only; split <;> first | exact checkAll_reading hfeeds.reading [] | exact .panic
  have heq : (IntegrationTests.checkAll next [x] >>= fun _ => drop) = (next >>= fun y => (match y with
      | none => pure ()
      | some (.error _) => SO.panic
      | some (.ok r) => if r.motorId = x then IntegrationTests.checkAll next [] else SO.panic : SO σ Empty Unit) >>= fun _ => drop) := by
    funext s
    rw [SO.bind_def, SO.bind_def]
    have hc : IntegrationTests.checkAll next [x] s = (next >>= fun y => (match y with
      | none => pure ()
      | some (.error _) => SO.panic
      | some (.ok r) => if r.motorId = x then IntegrationTests.checkAll next [] else SO.panic : SO σ Empty Unit)) s := rfl
    rw [hc]
    rw [SO.bind_def]
    rcases next s with ⟨s', o⟩
    cases o <;> rfl
  dsimp only at k5
  rw [heq] at k4 k5
  obtain ⟨es₁, es₂, rfl, hs₁, hs₂⟩ := WatchedOn.split hfeeds.reading.watched (fun y => (htail y).watched) (by rw [hstart]; exact k1.inv) k4
  obtain ⟨h₁, h₂, rfl, e1, e2⟩ := List.map_eq_append_iff.mp k3
  have hsub : ∀ m ∈ heard h₁, m ∈ heard (h₁ ++ h₂) := fun m hm => by rw [heard_append]; exact List.mem_append_left _ hm
  rw [hstart] at hs₁
  obtain ⟨r, hr, hid⟩ := hone.first k1 (fun m hm => k9 m (hsub m hm)) (fun m hm => hall m (hsub m hm))
    (fun e he => hnot e (List.mem_append_left _ he)) hs₁ e1
  rw [← k5]
  have hx : next (start b) = ((next (start b)).1, .ok (some (.ok r))) := Prod.ext rfl hr
  rw [SO.bind_ok hx]
  dsimp only
  rw [if_pos hid]
  have hl : IntegrationTests.checkAll next [] (next (start b)).1 = ((next (start b)).1, .ok ()) := by
    unfold IntegrationTests.checkAll
    rw [SO.bind_ok (hone.last b)]
    rfl
  rw [SO.bind_ok hl]
  exact hone.drop b

theorem next_readsOne (x : Byte) {fuel : Nat} (hf : 0 < fuel) : ReadsOne Dxl.SyncIter.client
    (fun b => ⟨b, (DataTy.unsigned 4).size, [x], 0⟩) (Dxl.SyncIter.next (.unsigned 4)) (Dxl.SyncIter.drop (.unsigned 4) fuel) x
    [0#8, 0#8, 0#8, 0#8] := by
  have hlast : ∀ s : Dxl.SyncIter, s.motorIds = [x] → s.index = 1 → (Dxl.SyncIter.next (.unsigned 4) s : _ × Outcome Empty _) = (s, .ok none) := by
    intro s h1 h2
    unfold Dxl.SyncIter.next
    rw [SO.bind_ok (show (Dxl.SyncIter.popMotorId s : _ × Outcome Empty _) = (s, .ok none) by
      unfold Dxl.SyncIter.popMotorId; rw [h1, h2]; rfl)]
    rfl
  have hfst : ∀ b, (Dxl.SyncIter.next (ε := Empty) (.unsigned 4) ⟨b, (DataTy.unsigned 4).size, [x], 0⟩).1 =
      ⟨(Client.readStatusResponse (DataTy.unsigned 4).size b).1, (DataTy.unsigned 4).size, [x], 1⟩ := fun b => by
    rw [next_eq (.unsigned 4) ⟨b, (DataTy.unsigned 4).size, [x], 0⟩ (id := x) rfl]
  refine ⟨fun {b es h} hk hg hh hn hsaw he => ?_, fun b => ?_, fun b => ?_⟩
  · rw [next_eq (.unsigned 4) ⟨b, (DataTy.unsigned 4).size, [x], 0⟩ (id := x) rfl] at hsaw ⊢
    obtain ⟨pkt, h1, h2⟩ := (readStatus_takes _ hk (by simpa using hg) hsaw he).only (NoFd.survives (by unfold NoFd; decide)) hh hn
    refine ⟨⟨x, false, 0⟩, ?_, rfl⟩
    dsimp only at h1 ⊢
    rw [h1]
    change itemOf ((Dxl.SyncIter.checkResponse ⟨pkt⟩ x (DataTy.unsigned 4).size).bind _) = _
    rw [answered_value (v := 0) h2 (by decide) (by decide +kernel)]
    rfl
  · rw [hfst]; exact hlast _ rfl rfl
  · rw [hfst]
    cases fuel with
    | zero => cases hf
    | succ n =>
      unfold Dxl.SyncIter.drop
      rw [SO.bind_ok (hlast _ rfl rfl)]
      rfl

theorem nextBytes_readsOne (x : Byte) {fuel : Nat} (hf : 0 < fuel) : ReadsOne Dxl.SyncIter.client
    (fun b => ⟨b, 4#16, [x], 0⟩) Dxl.SyncIter.nextBytes (Dxl.SyncIter.dropBytes fuel) x [0#8, 0#8, 0#8, 0#8] := by
  have hpop : ∀ s : Dxl.SyncIter, s.motorIds = [x] → s.index = 1 → (Dxl.SyncIter.popMotorId s : _ × Outcome Empty _) = (s, .ok none) := by
    intro s h1 h2
    unfold Dxl.SyncIter.popMotorId
    rw [h1, h2]
    rfl
  have hfst : ∀ b, (Dxl.SyncIter.nextBytes (ε := Empty) ⟨b, 4#16, [x], 0⟩).1 = ⟨(Client.readStatusResponse 4#16 b).1, 4#16, [x], 1⟩ :=
    fun b => by rw [nextBytes_eq ⟨b, 4#16, [x], 0⟩ (id := x) rfl]
  refine ⟨fun {b es h} hk hg hh hn hsaw he => ?_, fun b => ?_, fun b => ?_⟩
  · rw [nextBytes_eq ⟨b, 4#16, [x], 0⟩ (id := x) rfl] at hsaw ⊢
    obtain ⟨pkt, h1, h2⟩ := (readStatus_takes _ hk (by simpa using hg) hsaw he).only (NoFd.survives (by unfold NoFd; decide)) hh hn
    refine ⟨⟨x, false, [0#8, 0#8, 0#8, 0#8]⟩, ?_, rfl⟩
    dsimp only at h1 ⊢
    rw [h1]
    change itemOf ((Dxl.SyncIter.checkResponse ⟨pkt⟩ x 4#16).bind _) = _
    rw [answered_bytes h2 (by decide)]
    rfl
  · rw [hfst]
    unfold Dxl.SyncIter.nextBytes
    rw [SO.bind_ok (hpop _ rfl rfl)]
    rfl
  · rw [hfst]
    cases fuel with
    | zero => cases hf
    | succ n =>
      unfold Dxl.SyncIter.dropBytes
      rw [SO.bind_ok (hpop _ rfl rfl)]
      rfl

theorem bulkNext_readsOne (x : Byte) : ReadsOne Dxl.BulkIter.client (fun b => ⟨b, IntegrationTests.bulkReadData [x], 0⟩) Dxl.BulkIter.next
    Dxl.BulkIter.drop x [0#8, 0#8, 0#8, 0#8] := by
  have hfst : ∀ b, (Dxl.BulkIter.next (ε := Empty) ⟨b, IntegrationTests.bulkReadData [x], 0⟩).1 =
      ⟨(Client.readStatusResponse 4#16 b).1, IntegrationTests.bulkReadData [x], 1⟩ :=
    fun b => by rw [bulkNext_eq ⟨b, IntegrationTests.bulkReadData [x], 0⟩ (r := ⟨x, 132#16, 4#16⟩) rfl]
  refine ⟨fun {b es h} hk hg hh hn hsaw he => ?_, fun b => ?_, fun b => ?_⟩
  · rw [bulkNext_eq ⟨b, IntegrationTests.bulkReadData [x], 0⟩ (r := ⟨x, 132#16, 4#16⟩) rfl] at hsaw ⊢
    obtain ⟨pkt, h1, h2⟩ := (readStatus_takes _ hk (by simpa using hg) hsaw he).only (NoFd.survives (by unfold NoFd; decide)) hh hn
    refine ⟨⟨x, false, [0#8, 0#8, 0#8, 0#8]⟩, ?_, rfl⟩
    dsimp only at h1 ⊢
    rw [h1]
    change itemOf ((Dxl.SyncIter.checkResponse ⟨pkt⟩ x 4#16).bind _) = _
    rw [answered_bytes h2 (by decide)]
    rfl
  · rw [hfst]; rfl
  · rw [hfst]; rfl

theorem one_short : (∀ x : Byte, (requestFrame 254#8 (.syncRead 132#16 4#16 [x])).length ≤ 128) ∧
    ∀ x : Byte, (requestFrame 254#8 (.bulkRead [(x, 132#16, 4#16)])).length ≤ 128 :=
  ⟨fun x => frame_short (by revert x; decide +kernel),
    fun x => frame_short (by revert x; decide +kernel)⟩

/-- **C72** With one motor `test_sync_read` passes in every interleaving in which no read of the client times out: only an answer of
a second motor is missing. -/
theorem c72_sync_read_one {x : Byte} {fuel : Nat} {as : List Act} {total : List Seen} {o : Outcome Empty Unit}
    (h : TestRun [x] (IntegrationTests.testSyncRead fuel [x]) as total o) (hfuel : 0 < fuel) (hfail : ∀ e, Seen.failed e ∉ total)
    (hs : Survives (Request.syncRead 132#16 4#16 [x]).body) : o = .ok () :=
  group_one (r₀ := .syncRead 132#16 4#16 [x]) (g := Dxl.SyncIter.client) (start := fun b => ⟨b, (DataTy.unsigned 4).size, [x], 0⟩)
    (drop := Dxl.SyncIter.drop (.unsigned 4) fuel) h hfail rfl (fun _ => rfl) (next_feeds (unsigned_decodes (by decide))) (SyncIter.drop_reading _ _)
    (Client.syncReadEncoder_fills _ _ _) hs (one_short.1 x) (reacts_first (.inl ⟨_, rfl⟩)) (next_readsOne x hfuel)

/-- **C72** The same for `test_sync_read_bytes`. -/
theorem c72_sync_read_bytes_one {x : Byte} {fuel : Nat} {as : List Act} {total : List Seen} {o : Outcome Empty Unit}
    (h : TestRun [x] (IntegrationTests.testSyncReadBytes fuel [x]) as total o) (hfuel : 0 < fuel) (hfail : ∀ e, Seen.failed e ∉ total)
    (hs : Survives (Request.syncRead 132#16 4#16 [x]).body) : o = .ok () :=
  group_one (r₀ := .syncRead 132#16 4#16 [x]) (g := Dxl.SyncIter.client) (start := fun b => ⟨b, 4#16, [x], 0⟩)
    (drop := Dxl.SyncIter.dropBytes fuel) h hfail rfl (fun _ => rfl) nextBytes_feeds (SyncIter.dropBytes_reading _)
    (Client.syncReadEncoder_fills _ _ _) hs (one_short.1 x) (reacts_first (.inl ⟨_, rfl⟩)) (nextBytes_readsOne x hfuel)

/-- **C72** The same for `test_bulk_read_bytes`. -/
theorem c72_bulk_read_bytes_one {x : Byte} {as : List Act} {total : List Seen} {o : Outcome Empty Unit}
    (h : TestRun [x] (IntegrationTests.testBulkReadBytes [x]) as total o) (hfail : ∀ e, Seen.failed e ∉ total)
    (hs : Survives (Request.bulkRead [(x, 132#16, 4#16)]).body) : o = .ok () :=
  group_one (r₀ := .bulkRead [(x, 132#16, 4#16)]) (g := Dxl.BulkIter.client) (start := fun b => ⟨b, IntegrationTests.bulkReadData [x], 0⟩)
    (drop := Dxl.BulkIter.drop) h hfail rfl (fun _ => rfl) bulkNext_feeds BulkIter.drop_reading
    (Client.bulkRead_fills (IntegrationTests.bulkReadData [x])) hs (one_short.2 x) (reacts_first (.inr ⟨_, rfl⟩)) (bulkNext_readsOne x)

/-- **C72** With two or more motors `test_sync_read` panics in every interleaving, as its attribute `should_panic` says. -/
theorem c72_sync_read {x y : Byte} {rest : List Byte} {fuel : Nat} {as : List Act} {total : List Seen} {o : Outcome Empty Unit}
    (h : TestRun (x :: y :: rest) (IntegrationTests.testSyncRead fuel (x :: y :: rest)) as total o) (hn : (x :: y :: rest).Nodup)
    (hs : Survives (Request.syncRead 132#16 4#16 (x :: y :: rest)).body)
    (hlen : (requestFrame 254#8 (.syncRead 132#16 4#16 (x :: y :: rest))).length ≤ 128) : o = .panic :=
  group_read (r₀ := .syncRead 132#16 4#16 (x :: y :: rest)) (g := Dxl.SyncIter.client) (start := fun b => ⟨b, (DataTy.unsigned 4).size, x :: y :: rest, 0⟩)
    (drop := Dxl.SyncIter.drop (.unsigned 4) fuel) h hn rfl (fun b => ⟨rfl, rfl⟩) (next_feeds (unsigned_decodes (by decide))) (SyncIter.drop_reading _ _)
    (Client.syncReadEncoder_fills _ _ _) hs hlen
    ⟨_, _, _, .inl ⟨_, _, rfl⟩, reacts_first (.inl ⟨_, rfl⟩), NoFd.survives (by unfold NoFd; decide +kernel)⟩

/-- **C72** With two or more motors `test_sync_read_bytes` panics in every interleaving, as its attribute `should_panic` says. -/
theorem c72_sync_read_bytes {x y : Byte} {rest : List Byte} {fuel : Nat} {as : List Act} {total : List Seen} {o : Outcome Empty Unit}
    (h : TestRun (x :: y :: rest) (IntegrationTests.testSyncReadBytes fuel (x :: y :: rest)) as total o) (hn : (x :: y :: rest).Nodup)
    (hs : Survives (Request.syncRead 132#16 4#16 (x :: y :: rest)).body)
    (hlen : (requestFrame 254#8 (.syncRead 132#16 4#16 (x :: y :: rest))).length ≤ 128) : o = .panic :=
  group_read (r₀ := .syncRead 132#16 4#16 (x :: y :: rest)) (g := Dxl.SyncIter.client) (start := fun b => ⟨b, 4#16, x :: y :: rest, 0⟩)
    (drop := Dxl.SyncIter.dropBytes fuel) h hn rfl (fun b => ⟨rfl, rfl⟩) nextBytes_feeds (SyncIter.dropBytes_reading _)
    (Client.syncReadEncoder_fills _ _ _) hs hlen
    ⟨_, _, _, .inl ⟨_, _, rfl⟩, reacts_first (.inl ⟨_, rfl⟩), NoFd.survives (by unfold NoFd; decide +kernel)⟩

/-- **C72** With two or more motors `test_bulk_read_bytes` panics in every interleaving, as its attribute `should_panic` says. -/
theorem c72_bulk_read_bytes {x y : Byte} {rest : List Byte} {as : List Act} {total : List Seen} {o : Outcome Empty Unit}
    (h : TestRun (x :: y :: rest) (IntegrationTests.testBulkReadBytes (x :: y :: rest)) as total o) (hn : (x :: y :: rest).Nodup)
    (hs : Survives (Request.bulkRead ((x :: y :: rest).map fun id => (id, 132#16, 4#16))).body)
    (hlen : (requestFrame 254#8 (.bulkRead ((x :: y :: rest).map fun id => (id, 132#16, 4#16)))).length ≤ 128) : o = .panic := by
  have hdup : Client.hasDuplicateId (IntegrationTests.bulkReadData (x :: y :: rest)) = false := by
    cases hd : Client.hasDuplicateId (IntegrationTests.bulkReadData (x :: y :: rest)) with
    | false => rfl
    | true =>
      refine absurd ?_ ((hasDuplicateId_iff _).mp hd)
      unfold IntegrationTests.bulkReadData
      rw [List.map_map]
      simpa [Function.comp_def] using hn
  have hfill := Client.bulkRead_fills (IntegrationTests.bulkReadData (x :: y :: rest))
  have hpar : (IntegrationTests.bulkReadData (x :: y :: rest)).flatMap (fun r => r.motorId :: (le16 r.address ++ le16 r.count)) =
      (Request.bulkRead ((x :: y :: rest).map fun id => (id, 132#16, 4#16))).parameters := by
    unfold IntegrationTests.bulkReadData Request.parameters
    dsimp only
    rw [List.flatMap_map, List.flatMap_map]
  refine group_read (r₀ := .bulkRead ((x :: y :: rest).map fun id => (id, 132#16, 4#16))) (g := Dxl.BulkIter.client) (n := 5 * (IntegrationTests.bulkReadData (x :: y :: rest)).length)
    (enc := ⟨Client.bulkReadEncodeLoop 0 (IntegrationTests.bulkReadData (x :: y :: rest)), Client.bulkReadEncodeLoop_length _ 0⟩)
    (start := fun b => ⟨b, IntegrationTests.bulkReadData (x :: y :: rest), 0⟩)
    (drop := Dxl.BulkIter.drop) h hn ?_ (fun b => ⟨rfl, by simp [IntegrationTests.bulkReadData]⟩) bulkNext_feeds BulkIter.drop_reading
    (hpar ▸ hfill) hs hlen
    ⟨(y :: rest), 132#16, 4#16, .inr ⟨_, rfl, by simp [Function.comp_def]⟩, reacts_first (.inr ⟨_, rfl⟩), NoFd.survives (by unfold NoFd; decide +kernel)⟩
  unfold IntegrationTests.testBulkReadBytes Client.bulkReadBytes
  rw [hdup]
  rfl

/-- What was read before the first read that timed out. -/
def inTime : List Seen → List Byte
  | [] => []
  | .got bs :: es => bs ++ inTime es
  | .wrote _ :: es => inTime es
  | .failed _ :: _ => []

theorem inTime_heard {h : List Event'} (hn : ∀ e, Event'.failed e ∉ h) (e : IoErr) (es : List Seen) :
    inTime (h.map Event'.plain ++ .failed e :: es) = bytes (heard h) := by
  induction h with
  | nil => rfl
  | cons x h ih =>
    have ih := ih fun e he => hn e (by simp [he])
    cases x with
    | got ms => simp [Event'.plain, inTime, ih, heard, bytes]
    | wrote d => simpa [Event'.plain, inTime, heard] using ih
    | failed e => exact absurd (by simp) (hn e)

theorem bytes_answers (ids : List Byte) (ans : Nat → Option ServoReply) (js : List Nat) :
    bytes (js.map (answerOf ids ans)) = (js.map fun k => (answerOf ids ans k).2).flatten := by
  simp [bytes, Function.comp_def]

/-- **C72** `test_ping` counts the motors whose answers arrive before a read times out: it passes if and only if those are all
motors. -/
theorem c72_ping {ids : List Byte} {fuel : Nat} {as : List Act} {total : List Seen} {o : Outcome Empty Unit}
    (h : TestRun ids (IntegrationTests.testPing fuel ids) as total o) (hfuel : ids.length < fuel) :
    ∃ js : List Nat, js.Nodup ∧ (∀ k ∈ js, k < ids.length) ∧
      inTime total = (js.map fun k => frame (ids.getD k 0#8) [0x55#8, 0#8, 10#8, 20#8, 46#8]).flatten ∧
      o = if js.length = ids.length then .ok () else .panic := by
  have hreading : Reading (fun b => b) (Cli.scanLoop (ε := Empty) fuel >>= fun items => Client.scanDrop fuel >>= fun _ =>
      if items.length = ids.length then pure () else SO.panic) :=
    (scanLoop_reading fuel).bind fun items => (scanDrop_reading fuel).bind fun _ => by split <;> first | exact .pure _ | exact .panic
  obtain ⟨b, hh, js, es, k1, rfl, rfl, k4, k5, k6, k7, k8, k9, k10⟩ := group_run h (r₀ := .ping) (ans := fun _ => some ⟨0#8, [10#8, 20#8, 46#8]⟩)
    rfl Client.nothing_fills hreading (NoFd.survives (by unfold NoFd; decide)) (frame_short (by decide +kernel))
    (fun k reply hr => by
      obtain rfl := Option.some.inj hr
      exact NoFd.survives (by unfold NoFd; decide))
    (fun k id _ => reacts_ping id)
  have hjs : js.length ≤ ids.length := by
    have := nodup_length (b := List.range ids.length) k6 fun k hk => List.mem_range.mpr (k7 k hk).exists_
    simpa using this
  obtain ⟨es₁, es₂, e0, hs₁, hs₂⟩ := WatchedOn.split (scanLoop_reading fuel).watched
    (fun items => ((scanDrop_reading fuel).bind fun _ => by split <;> first | exact .pure _ | exact .panic : Reading (fun b => b) _).watched) k1.inv k4
  obtain ⟨h₁, h₂, rfl, e1, e2⟩ := List.map_eq_append_iff.mp e0
  rw [heard_append] at k8 k9
  have hl8 := congrArg List.length k8
  rw [List.length_append, List.length_map] at hl8
  obtain ⟨h', items, rfl, l2, l3, l4, l5⟩ := scanLoop_scans fuel k1 (by simpa using fun m hm => k9 m (List.mem_append_left _ hm))
    (fun e he => k10 e (List.mem_append_left _ he)) hs₁ e1 (by simp; omega)
  have hx : Cli.scanLoop (ε := Empty) fuel b = ((Cli.scanLoop (ε := Empty) fuel b).1, .ok items) := Prod.ext rfl l3
  rw [SO.bind_ok hx] at k5 hs₂
  obtain ⟨es₃, es₄, rfl, hs₃, hs₄⟩ := WatchedOn.split (scanDrop_reading fuel).watched
    (fun _ => (by split <;> first | exact .pure _ | exact .panic : Reading (fun b => b) (if items.length = ids.length then pure () else SO.panic)).watched)
    l5.inv hs₂
  obtain ⟨h₃, h₄, rfl, e3, e4⟩ := List.map_eq_append_iff.mp e2
  rw [heard_append (h₃)] at k8 k9 hl8
  rw [List.length_append (as := heard h₃)] at hl8
  have hd := scanDrop_scans fuel l5 (by simpa using fun m hm => k9 m (List.mem_append_right _ (List.mem_append_left _ hm)))
    (fun e he => k10 e (List.mem_append_right _ (List.mem_append_left _ he))) hs₃ e3 (by simp; omega)
  have hy : Client.scanDrop (ε := Empty) fuel (Cli.scanLoop (ε := Empty) fuel b).1 =
      ((Client.scanDrop (ε := Empty) fuel (Cli.scanLoop (ε := Empty) fuel b).1).1, .ok ()) := Prod.ext rfl hd
  rw [SO.bind_ok hy] at k5
  have hheard : heard (h' ++ [.failed .timedOut]) = heard h' := by rw [heard_append]; simp [heard]
  rw [hheard] at k8
  have htake : heard h' = (js.take (heard h').length).map (answerOf ids fun _ => some ⟨0#8, [10#8, 20#8, 46#8]⟩) := by
    rw [List.map_take, ← k8, List.take_left]
  refine ⟨js.take (heard h').length, k6.sublist (List.take_sublist _ _), fun k hk => (k7 k (List.mem_of_mem_take hk)).exists_, ?_, ?_⟩
  · have hin := inTime_heard l2 .timedOut ((h₃ ++ h₄).map Event'.plain)
    rw [htake, bytes_answers] at hin
    have hframe : ∀ k, (answerOf ids (fun _ => some ⟨0#8, [10#8, 20#8, 46#8]⟩) k).2 =
        frame (ids.getD k 0#8) [0x55#8, 0#8, 10#8, 20#8, 46#8] := fun k =>
      congrArg (frame (ids.getD k 0#8)) (show codeStuff [0x55#8, 0#8, 10#8, 20#8, 46#8] = _ by decide +kernel)
    simp only [hframe] at hin
    rw [← hin]
    simp [inTime, Event'.plain]
  · rw [← k5]
    have hn : (js.take (heard h').length).length = items.length := by
      rw [l4, List.nil_append, ← List.length_map, ← htake]
    rw [hn]
    split <;> rfl

/-- **C72** `test_ping` passes if and only if an answer of 14 bytes has been read for every motor before a read times out. -/
theorem c72_ping_bytes {ids : List Byte} {fuel : Nat} {as : List Act} {total : List Seen} {o : Outcome Empty Unit}
    (h : TestRun ids (IntegrationTests.testPing fuel ids) as total o) (hfuel : ids.length < fuel) :
    o = if (inTime total).length = 14 * ids.length then .ok () else .panic := by
  obtain ⟨js, -, -, h3, h4⟩ := c72_ping h hfuel
  have hl : (inTime total).length = 14 * js.length := by
    rw [h3]
    clear h3 h4
    induction js with
    | nil => rfl
    | cons k js ih =>
      rw [List.map_cons, List.flatten_cons, List.length_append, ih, Bus.frame_length, List.length_cons]
      simp only [List.length_cons, List.length_nil]
      omega
  rw [h4, hl]
  by_cases hj : js.length = ids.length
  · rw [if_pos hj, if_pos (by omega)]
  · rw [if_neg hj, if_neg (by omega)]

/-! ## Examples -/

/-- What the client sees. -/
def bodySees (body : SO Bus Empty Unit) (as : List Act) : List Seen :=
  ((scripted (MockSerial.history 0 as)).redoAll (body (scriptedBus (MockSerial.history 0 as))).1.serialPort.log).2

/-- To check that something is an execution. -/
theorem testRun_of {ids : List Byte} {body : SO Bus Empty Unit} {as : List Act} {o : Outcome Empty Unit} (n : Nat)
    (hline : ((executeAll (newClientDevice ids) init as).map fun _ => ()) = some ())
    (hmot : ∀ k < ids.length, MockSerial.history (k + 1) as <+: motorSees k (ids.getD k 0#8) n as)
    (hsaw : ∃ es, Saw (scriptedBus (MockSerial.history 0 as)).serialPort es (body (scriptedBus (MockSerial.history 0 as))).1.serialPort)
    (hout : (body (scriptedBus (MockSerial.history 0 as))).2 = o)
    (hsees : bodySees body as <+: MockSerial.history 0 as) : TestRun ids body as (bodySees body as) o := by
  refine ⟨?_, fun k id hk => ?_, ?_, hsees⟩
  · obtain ⟨s, h, -⟩ := executes hline
    exact ⟨s, h⟩
  · obtain ⟨f1, -, f3, -⟩ := fresh_bus (scriptedBus_eq (MockSerial.history (k + 1) as))
    have hm := hmot k (List.getElem?_eq_some_iff.mp hk).1
    rw [List.getD_eq_getElem?_getD, hk] at hm
    have hs' := saw_computed (motor_saw 0 n id f3)
    rw [f1] at hs'
    refine ⟨false, scripted (MockSerial.history (k + 1) as), _, 0, n, _, ?_, hs', hm⟩
    unfold Device.new
    rw [show defaultBuffer = List.replicate 128 0#8 from rfl, scriptedBus_eq]
  · obtain ⟨f1, -⟩ := fresh_bus (scriptedBus_eq (MockSerial.history 0 as))
    have hs' := saw_computed hsaw
    rw [f1] at hs'
    refine ⟨false, scripted (MockSerial.history 0 as), _, ?_, rfl, ⟨by simp [scripted], by simp [scripted]⟩, hout, hs'⟩
    unfold Client.new
    rw [show defaultBuffer = List.replicate 128 0#8 from rfl, scriptedBus_eq]

theorem single_saw {as : List Act} {cs : List TestCall} (hcs : ∀ c ∈ cs, c.id ≠ 254#8 ∧ (requestFrame c.id c.request).length ≤ 128) :
    ∃ es, Saw (scriptedBus (MockSerial.history 0 as)).serialPort es (runCalls cs (scriptedBus (MockSerial.history 0 as))).1.serialPort := by
  obtain ⟨f1, f2, f3, f4, f5, -⟩ := fresh_bus (scriptedBus_eq (MockSerial.history 0 as))
  obtain ⟨es, h, -⟩ := runCalls_replies cs f3 f4 f5 (by rw [f2]; exact Nat.succ_ne_zero _) (by rw [f2]; show 56700 < 2 ^ 32; decide)
    (by rw [f1]; exact ⟨by simp [scripted], by simp [scripted]⟩) hcs
  exact ⟨es, h⟩

theorem group_saw {as : List Act} {body rest : SO Bus Empty Unit} {r₀ : Request} {n : Nat} {enc : Encoder}
    (hbody : body = IntegrationTests.unwrap (Client.writeInstruction 254#8 r₀.number n enc) >>= fun _ => rest)
    (hf : Fills enc.run n r₀.parameters) (hrest : Reading (fun b => b) rest) (hlen : (requestFrame 254#8 r₀).length ≤ 128) :
    ∃ es, Saw (scriptedBus (MockSerial.history 0 as)).serialPort es (body (scriptedBus (MockSerial.history 0 as))).1.serialPort := by
  subst hbody
  obtain ⟨f1, f2, f3, f4, f5, -⟩ := fresh_bus (scriptedBus_eq (MockSerial.history 0 as))
  obtain ⟨b₁, w1, w2, -, -, -, w6⟩ := writeInstruction_accepts f3 f5 (by rw [f1]; exact ⟨by simp [scripted], by simp [scripted]⟩) hf hlen
  rw [SO.bind_ok (unwrap_eq w1)]
  obtain ⟨-, es, hes⟩ := hrest.watched b₁ w2
  exact ⟨_, w6.trans hes⟩

theorem testPing_saw (as : List Act) (fuel : Nat) (ids : List Byte) : ∃ es, Saw (scriptedBus (MockSerial.history 0 as)).serialPort es
    (IntegrationTests.testPing fuel ids (scriptedBus (MockSerial.history 0 as))).1.serialPort :=
  group_saw (r₀ := .ping) rfl Client.nothing_fills
    ((scanLoop_reading fuel).bind fun items => (scanDrop_reading fuel).bind fun _ => by split <;> first | exact .pure _ | exact .panic)
    (frame_short (by decide +kernel))

theorem testSyncRead_saw (as : List Act) (fuel : Nat) (ids : List Byte) (hlen : (requestFrame 254#8 (.syncRead 132#16 4#16 ids)).length ≤ 128) :
    ∃ es, Saw (scriptedBus (MockSerial.history 0 as)).serialPort es
      (IntegrationTests.testSyncRead fuel ids (scriptedBus (MockSerial.history 0 as))).1.serialPort :=
  group_saw (r₀ := .syncRead 132#16 4#16 ids) rfl (Client.syncReadEncoder_fills _ _ _)
    (iter_reading (g := Dxl.SyncIter.client) (start := fun b => ⟨b, (DataTy.unsigned 4).size, ids, 0⟩) (fun _ => rfl)
      (next_feeds (unsigned_decodes (by decide))) (SyncIter.drop_reading _ _)) hlen

/-- The motor answers. -/
def answeredRun : List Act := turn 1 0 (frame 1#8 [0x02#8, 0x84#8, 0#8, 4#8, 0#8]) (frame 1#8 [0x55#8, 0#8, 0#8, 0#8, 0#8, 0#8])

theorem answeredRun_test : TestRun [1#8] (IntegrationTests.testRead [1#8]) answeredRun (bodySees (IntegrationTests.testRead [1#8]) answeredRun) (.ok ()) := by
  refine testRun_of 3 (by decide +kernel) (by decide +kernel) ?_ (by decide +kernel) (by decide +kernel)
  rw [testRead_calls]
  exact single_saw fun c hc => by
    obtain rfl := List.mem_singleton.mp hc
    exact ⟨by decide, frame_short (by dsimp only; decide +kernel)⟩

/-- The motor does not answer in time. -/
def lateRun : List Act := [.startWrite 0 (frame 1#8 [0x02#8, 0x84#8, 0#8, 4#8, 0#8]), .append 0, .finish 0, .startRead 0 128 0, .tick, .expire 0]

theorem lateRun_test : TestRun [1#8] (IntegrationTests.testRead [1#8]) lateRun (bodySees (IntegrationTests.testRead [1#8]) lateRun) .panic := by
  refine testRun_of 3 (by decide +kernel) (by decide +kernel) ?_ (by decide +kernel) (by decide +kernel)
  rw [testRead_calls]
  exact single_saw fun c hc => by
    obtain rfl := List.mem_singleton.mp hc
    exact ⟨by decide, frame_short (by dsimp only; decide +kernel)⟩

/-- Both motors answer. -/
def pingRun : List Act :=
  [.startWrite 0 (frame 254#8 [0x01#8]), .append 0, .append 0, .finish 0,
    .startRead 1 128 9, .check 1, .take 1 (frame 254#8 [0x01#8]), .startRead 2 128 9, .check 2, .take 2 (frame 254#8 [0x01#8]),
    .startWrite 2 (frame 2#8 [0x55#8, 0#8, 10#8, 20#8, 46#8]), .startWrite 1 (frame 1#8 [0x55#8, 0#8, 10#8, 20#8, 46#8]),
    .append 2, .append 1, .append 1, .append 2, .finish 1, .finish 2,
    .startRead 0 128 9, .check 0, .take 0 (frame 2#8 [0x55#8, 0#8, 10#8, 20#8, 46#8] ++ frame 1#8 [0x55#8, 0#8, 10#8, 20#8, 46#8]),
    .startRead 0 128 0, .tick, .expire 0, .startRead 0 128 0, .tick, .expire 0]

theorem pingRun_test : TestRun [1#8, 2#8] (IntegrationTests.testPing 3 [1#8, 2#8]) pingRun
    (bodySees (IntegrationTests.testPing 3 [1#8, 2#8]) pingRun) (.ok ()) := by
  exact testRun_of 3 (by decide +kernel) (by decide +kernel) (testPing_saw _ _ _) (by decide +kernel) (by decide +kernel)

/-- The first motor answers, the second does not. -/
def syncReadRun : List Act :=
  [.startWrite 0 (frame 254#8 [0x82#8, 0x84#8, 0#8, 4#8, 0#8, 1#8, 2#8]), .append 0, .append 0, .finish 0,
    .startRead 2 128 9, .check 2, .take 2 (frame 254#8 [0x82#8, 0x84#8, 0#8, 4#8, 0#8, 1#8, 2#8]),
    .startRead 1 128 9, .check 1, .take 1 (frame 254#8 [0x82#8, 0x84#8, 0#8, 4#8, 0#8, 1#8, 2#8]),
    .startWrite 1 (frame 1#8 [0x55#8, 0#8, 0#8, 0#8, 0#8, 0#8]), .append 1, .append 1, .finish 1,
    .startRead 0 128 9, .check 0, .take 0 (frame 1#8 [0x55#8, 0#8, 0#8, 0#8, 0#8, 0#8]),
    .startRead 0 128 0, .tick, .expire 0]

theorem syncReadRun_test : TestRun [1#8, 2#8] (IntegrationTests.testSyncRead 3 [1#8, 2#8]) syncReadRun
    (bodySees (IntegrationTests.testSyncRead 3 [1#8, 2#8]) syncReadRun) .panic := by
  exact testRun_of 3 (by decide +kernel) (by decide +kernel) (testSyncRead_saw _ _ _ (frame_short (by decide +kernel))) (by decide +kernel)
    (by decide +kernel)

/-- The integration tests run with the motors 1 and 2 (`tests/common/mock/mod.rs:47`): if no read of the client times out,
`test_read` passes. -/
example {as : List Act} {total : List Seen} {o : Outcome Empty Unit} (h : TestRun [1#8, 2#8] (IntegrationTests.testRead [1#8, 2#8]) as total o)
    (hf : ∀ e, Seen.failed e ∉ total) : o = .ok () :=
  (c72_read h (by decide) (by decide)).1 hf

/-- `test_sync_read` panics. -/
example {fuel : Nat} {as : List Act} {total : List Seen} {o : Outcome Empty Unit}
    (h : TestRun [1#8, 2#8] (IntegrationTests.testSyncRead fuel [1#8, 2#8]) as total o) : o = .panic :=
  c72_sync_read h (by decide) (NoFd.survives (by unfold NoFd; decide)) (frame_short (by decide +kernel))

/-- So does `test_sync_read_bytes`. -/
example {fuel : Nat} {as : List Act} {total : List Seen} {o : Outcome Empty Unit}
    (h : TestRun [1#8, 2#8] (IntegrationTests.testSyncReadBytes fuel [1#8, 2#8]) as total o) : o = .panic :=
  c72_sync_read_bytes h (by decide) (NoFd.survives (by unfold NoFd; decide)) (frame_short (by decide +kernel))

/-- So does `test_bulk_read_bytes`. -/
example {as : List Act} {total : List Seen} {o : Outcome Empty Unit}
    (h : TestRun [1#8, 2#8] (IntegrationTests.testBulkReadBytes [1#8, 2#8]) as total o) : o = .panic :=
  c72_bulk_read_bytes h (by decide) (NoFd.survives (by unfold NoFd; decide)) (frame_short (by decide +kernel))

/-- The runs of the tests, and the bytes that were read in time. -/
example : inTime (bodySees (IntegrationTests.testPing 3 [1#8, 2#8]) pingRun) =
    frame 2#8 [0x55#8, 0#8, 10#8, 20#8, 46#8] ++ frame 1#8 [0x55#8, 0#8, 10#8, 20#8, 46#8] := by decide +kernel

/-- One motor answers `test_sync_read`. -/
def syncOneRun : List Act := turn 1 0 (frame 254#8 [0x82#8, 0x84#8, 0#8, 4#8, 0#8, 1#8]) (frame 1#8 [0x55#8, 0#8, 0#8, 0#8, 0#8, 0#8])

theorem syncOneRun_test : TestRun [1#8] (IntegrationTests.testSyncRead 3 [1#8]) syncOneRun
    (bodySees (IntegrationTests.testSyncRead 3 [1#8]) syncOneRun) (.ok ()) :=
  testRun_of 3 (by decide +kernel) (by decide +kernel) (testSyncRead_saw _ _ _ (one_short.1 _)) (by decide +kernel) (by decide +kernel)

example : (.ok () : Outcome Empty Unit) = .ok () :=
  c72_sync_read_one syncOneRun_test (by decide) (fun e => by
    rw [show bodySees (IntegrationTests.testSyncRead 3 [1#8]) syncOneRun =
      [.wrote (frame 254#8 [0x82#8, 0x84#8, 0#8, 4#8, 0#8, 1#8]), .got (frame 1#8 [0x55#8, 0#8, 0#8, 0#8, 0#8, 0#8])] by decide +kernel]
    simp) (NoFd.survives (by unfold NoFd; decide))

/-! ## The other tests, run with one motor that answers -/

theorem noFailed_iff {es : List Seen} : (∀ e, Seen.failed e ∉ es) ↔ (es.all fun x => match x with | .failed _ => false | _ => true) = true := by
  rw [List.all_eq_true]
  constructor
  · intro h x hx
    cases x with
    | failed e => exact absurd hx (h e)
    | got _ => rfl
    | wrote _ => rfl
  · intro h e he
    exact Bool.noConfusion (h _ he)

/-- An empty status packet of motor 1. -/
def doneFrame : List Byte := frame 1#8 [0x55#8, 0#8]

def writeTwiceRun : List Act := turn 1 0 (frame 1#8 [0x03#8, 0x41#8, 0#8, 1#8]) doneFrame ++ turn 1 0 (frame 1#8 [0x03#8, 0x41#8, 0#8, 0#8]) doneFrame

def writeBytesRun : List Act := turn 1 0 (frame 1#8 [0x03#8, 116#8, 0#8, 1#8, 2#8, 3#8, 4#8]) doneFrame

def regWriteRun : List Act := turn 1 0 (frame 1#8 [0x04#8, 0x41#8, 0#8, 1#8]) doneFrame ++ turn 1 0 (frame 1#8 [0x05#8]) doneFrame ++
  turn 1 0 (frame 1#8 [0x03#8, 0x41#8, 0#8, 0#8]) doneFrame

def regWriteBytesRun : List Act := turn 1 0 (frame 1#8 [0x04#8, 116#8, 0#8, 1#8, 2#8, 3#8, 4#8]) doneFrame

/-- The motor answers the first of the two writes, but the client waits for the second answer in vain. -/
def writeLateRun : List Act := turn 1 0 (frame 1#8 [0x03#8, 0x41#8, 0#8, 1#8]) doneFrame ++
  [.startWrite 0 (frame 1#8 [0x03#8, 0x41#8, 0#8, 0#8]), .append 0, .finish 0, .startRead 0 128 0, .tick, .expire 0]

theorem readBytesRun_test : TestRun [1#8] (IntegrationTests.testReadBytes [1#8]) answeredRun
    (bodySees (IntegrationTests.testReadBytes [1#8]) answeredRun) (.ok ()) := by
  refine testRun_of 3 (by decide +kernel) (by decide +kernel) ?_ (by decide +kernel) (by decide +kernel)
  rw [testReadBytes_calls]
  exact single_saw fun c hc => by
    obtain rfl := List.mem_singleton.mp hc
    exact ⟨by decide, frame_short (by dsimp only; decide +kernel)⟩

theorem writeBytesRun_test : TestRun [1#8] (IntegrationTests.testWriteBytes [1#8]) writeBytesRun
    (bodySees (IntegrationTests.testWriteBytes [1#8]) writeBytesRun) (.ok ()) := by
  refine testRun_of 3 (by decide +kernel) (by decide +kernel) ?_ (by decide +kernel) (by decide +kernel)
  rw [testWriteBytes_calls]
  exact single_saw fun c hc => by
    obtain rfl := List.mem_singleton.mp hc
    exact ⟨by decide, frame_short (by dsimp only; decide +kernel)⟩

theorem regWriteBytesRun_test : TestRun [1#8] (IntegrationTests.testRegWriteBytes [1#8]) regWriteBytesRun
    (bodySees (IntegrationTests.testRegWriteBytes [1#8]) regWriteBytesRun) (.ok ()) := by
  refine testRun_of 3 (by decide +kernel) (by decide +kernel) ?_ (by decide +kernel) (by decide +kernel)
  rw [testRegWriteBytes_calls]
  exact single_saw fun c hc => by
    obtain rfl := List.mem_singleton.mp hc
    exact ⟨by decide, frame_short (by dsimp only; decide +kernel)⟩

theorem testWrite_saw (as : List Act) : ∃ es, Saw (scriptedBus (MockSerial.history 0 as)).serialPort es
    (IntegrationTests.testWrite [1#8] (scriptedBus (MockSerial.history 0 as))).1.serialPort := by
  rw [testWrite_calls]
  exact single_saw fun c hc => by
    simp only [List.mem_cons, List.not_mem_nil, or_false] at hc
    rcases hc with rfl | rfl <;> exact ⟨by decide, frame_short (by dsimp only; decide +kernel)⟩

theorem writeTwiceRun_test : TestRun [1#8] (IntegrationTests.testWrite [1#8]) writeTwiceRun
    (bodySees (IntegrationTests.testWrite [1#8]) writeTwiceRun) (.ok ()) :=
  testRun_of 6 (by decide +kernel) (by decide +kernel) (testWrite_saw _) (by decide +kernel) (by decide +kernel)

theorem writeLateRun_test : TestRun [1#8] (IntegrationTests.testWrite [1#8]) writeLateRun
    (bodySees (IntegrationTests.testWrite [1#8]) writeLateRun) (.ok ()) :=
  testRun_of 6 (by decide +kernel) (by decide +kernel) (testWrite_saw _) (by decide +kernel) (by decide +kernel)

theorem regWriteRun_test : TestRun [1#8] (IntegrationTests.testRegWrite [1#8]) regWriteRun
    (bodySees (IntegrationTests.testRegWrite [1#8]) regWriteRun) (.ok ()) := by
  refine testRun_of 9 (by decide +kernel) (by decide +kernel) ?_ (by decide +kernel) (by decide +kernel)
  rw [testRegWrite_calls]
  exact single_saw fun c hc => by
    simp only [List.mem_cons, List.not_mem_nil, or_false] at hc
    rcases hc with rfl | rfl | rfl <;> exact ⟨by decide, frame_short (by dsimp only; decide +kernel)⟩

theorem syncReadBytesOneRun_test : TestRun [1#8] (IntegrationTests.testSyncReadBytes 3 [1#8]) syncOneRun
    (bodySees (IntegrationTests.testSyncReadBytes 3 [1#8]) syncOneRun) (.ok ()) :=
  testRun_of 3 (by decide +kernel) (by decide +kernel) (group_saw (r₀ := .syncRead 132#16 4#16 [1#8]) rfl (Client.syncReadEncoder_fills _ _ _)
    (iter_reading (g := Dxl.SyncIter.client) (start := fun b => ⟨b, 4#16, [1#8], 0⟩) (fun _ => rfl)
      nextBytes_feeds (SyncIter.dropBytes_reading _)) (one_short.1 _)) (by decide +kernel) (by decide +kernel)

def bulkOneRun : List Act := turn 1 0 (frame 254#8 [0x92#8, 1#8, 0x84#8, 0#8, 4#8, 0#8]) (frame 1#8 [0x55#8, 0#8, 0#8, 0#8, 0#8, 0#8])

theorem bulkOneRun_test : TestRun [1#8] (IntegrationTests.testBulkReadBytes [1#8]) bulkOneRun
    (bodySees (IntegrationTests.testBulkReadBytes [1#8]) bulkOneRun) (.ok ()) :=
  testRun_of 3 (by decide +kernel) (by decide +kernel) (group_saw (r₀ := .bulkRead [(1#8, 132#16, 4#16)]) rfl
    (Client.bulkRead_fills (IntegrationTests.bulkReadData [1#8]))
    (iter_reading (g := Dxl.BulkIter.client) (start := fun b => ⟨b, IntegrationTests.bulkReadData [1#8], 0⟩) (fun _ => rfl)
      bulkNext_feeds BulkIter.drop_reading) (one_short.2 _)) (by decide +kernel) (by decide +kernel)

example : (.ok () : Outcome Empty Unit) = .ok () :=
  (c72_read_bytes readBytesRun_test (by decide) (by decide)).1 (noFailed_iff.2 (by decide +kernel))

example : (.ok () : Outcome Empty Unit) = .ok () :=
  (c72_write_bytes writeBytesRun_test (by decide) (by decide)).1 (noFailed_iff.2 (by decide +kernel))

example : (.ok () : Outcome Empty Unit) = .ok () :=
  (c72_reg_write_bytes regWriteBytesRun_test (by decide) (by decide)).1 (noFailed_iff.2 (by decide +kernel))

example : (.ok () : Outcome Empty Unit) = .ok () :=
  (c72_write writeTwiceRun_test (by decide) (by decide)).1 (noFailed_iff.2 (by decide +kernel))

/-- The second answer is late, and the test passes all the same. -/
example : (.ok () : Outcome Empty Unit) =
    if .wrote (frame 1#8 [0x03#8, 0x41#8, 0#8, 0#8]) ∈ bodySees (IntegrationTests.testWrite [1#8]) writeLateRun then .ok () else .panic :=
  (c72_write writeLateRun_test (by decide) (by decide)).2 ⟨.timedOut, by decide +kernel⟩

example : (.ok () : Outcome Empty Unit) = .ok () :=
  (c72_reg_write regWriteRun_test (by decide) (by decide)).1 (noFailed_iff.2 (by decide +kernel))

example : (.ok () : Outcome Empty Unit) = .ok () :=
  c72_sync_read_bytes_one syncReadBytesOneRun_test (by decide) (noFailed_iff.2 (by decide +kernel)) (NoFd.survives (by unfold NoFd; decide))

example : (.ok () : Outcome Empty Unit) = .ok () :=
  c72_bulk_read_bytes_one bulkOneRun_test (noFailed_iff.2 (by decide +kernel)) (NoFd.survives (by unfold NoFd; decide))

example : ∃ js : List Nat, js.Nodup ∧ (∀ k ∈ js, k < 2) ∧
    inTime (bodySees (IntegrationTests.testPing 3 [1#8, 2#8]) pingRun) =
      (js.map fun k => frame ([1#8, 2#8].getD k 0#8) [0x55#8, 0#8, 10#8, 20#8, 46#8]).flatten ∧
    (.ok () : Outcome Empty Unit) = if js.length = 2 then .ok () else .panic :=
  c72_ping pingRun_test (by decide)

end Dxl.Props
