import Verif.Lemmas.ClientThread
import Verif.Props.Construct

/-! # C66: the client and the simulated motors as threads -/

namespace Dxl.Props
open Dxl Spec Spec.Line Dxl.MockSerial

/-! ## The threads -/

/-- The user of the client makes these calls one after the other. -/
inductive CallsMade : Bus → List Called → Bus → Prop
  | done (b) : CallsMade b [] b
  | call {b b' : Bus} {c : Called} {calls : List Called} (hr : (c.call b).2 = c.result) (h : CallsMade (c.call b).1 calls b') :
      CallsMade b (c :: calls) b'

/-- An execution of the threads of an integration test with motors with these IDs: `as` is what happens on the line, in any
interleaving that the locks allow; every motor runs its loop, for as long as it takes; the user of the client makes the calls,
and has seen their results. -/
structure Test (ids : List Byte) (calls : List Called) (as : List Act) : Prop where
  line : ∃ s, Run (newClientDevice ids) init as s
  motors : MockSerial.Motors ids as
  client : ∃ debug port b b' total, Client.new debug port = .ok b ∧ port.rate = 56700 ∧ CallsMade b calls b' ∧
    Saw port total b'.serialPort ∧ total <+: MockSerial.history 0 as

/-- The call as an instruction for a motor. -/
def Called.ask (c : Called) : Ask := ⟨c.id, c.request⟩

/-! ## What is to be shown -/

/-- A conversation with memories: each call is answered by the motor with its ID, with one packet, after the packet with the
instruction and before the next one. -/
inductive Conversation (ids : List Byte) : (Byte → Servo) → List Called → List Msg → (Byte → Servo) → Prop
  | done (σ) : Conversation ids σ [] [] σ
  | call {σ σ' : Byte → Servo} {c : Called} {calls : List Called} {w : List Msg} {k : Nat} {s' : Servo} {reply : ServoReply}
      {wire wire' : List Byte} (hk : ids[k]? = some c.id) (hr : (σ c.id).serve c.request = some (s', reply))
      (hs : Shows c.result c.id c.value reply) (hw : StuffedForm c.request.body wire)
      (hw' : StuffedForm (0x55#8 :: reply.error :: reply.data) wire')
      (h : Conversation ids (update σ c.id s') calls w σ') :
      Conversation ids σ (c :: calls) ((0, frame c.id wire) :: (k + 1, frame c.id wire') :: w) σ'

/-! ## Proofs -/

/-- What the client sees, with the results of the calls. -/
inductive Replies : List Called → List Seen → Prop
  | nil : Replies [] []
  | cons {c : Called} {calls : List Called} {es t : List Seen} {gs : List (List Byte)}
      (ha : Asked c.result c.id c.request c.value es gs) (h : Replies calls t) : Replies (c :: calls) (es ++ t)

theorem Replies.talk {calls : List Called} {total : List Seen} (h : Replies calls total) : Talk (calls.map Called.ask) total := by
  induction h with
  | nil => exact .nil
  | @cons c calls es t gs ha h ih =>
    obtain ⟨rfl, hne, -⟩ := ha
    cases gs with
    | nil => exact absurd rfl hne
    | cons g gs => exact .cons (x := c.ask) ih

theorem calls_replies {b b' : Bus} {calls : List Called} (h : CallsMade b calls b') : b.Inv → b.readBuffer.length = 128 →
    b.writeBuffer.length = 128 → b.baudRate ≠ 0 → b.baudRate < 2 ^ 32 →
    (∀ c ∈ calls, c.id ≠ 254#8 ∧ (requestFrame c.id c.request).length ≤ 128 ∧ ¬ Failed c.result) →
    ∃ total, Saw b.serialPort total b'.serialPort ∧ Replies calls total := by
  induction h with
  | done b => exact fun _ _ _ _ _ _ => ⟨[], .nil _, .nil⟩
  | @call b b' c calls hr h ih =>
    intro hb hN hW h0 hbaud hall
    obtain ⟨h1, h2, h3⟩ := hall c (by simp)
    obtain ⟨es, k1, k2, k3⟩ := uses_client c.uses h1 hb hN hW h0 hbaud h2
    have hstep := c.uses.asks.2 b hb
    rw [hr] at k3
    obtain ⟨gs, k3⟩ := k3.resolve_left fun h => h3 h.1
    obtain ⟨t, k4, k5⟩ := ih hstep.inv (hstep.readSize.trans hN) (hstep.writeSize.trans hW) (by rw [k2]; exact h0)
      (by rw [k2]; exact hbaud) fun c hc => hall c (by simp [hc])
    exact ⟨es ++ t, k1.trans k4, .cons k3 k5⟩

/-- `Done` from the front. -/
inductive Play (ids : List Byte) : (Byte → Servo) → List Ask → List Msg → List Seen → (Byte → Servo) → Prop
  | done (σ) : Play ids σ [] [] [] σ
  | call {σ σ' : Byte → Servo} {x : Ask} {xs : List Ask} {w : List Msg} {t : List Seen} {k : Nat} {s' : Servo} {reply : ServoReply}
      (hk : ids[k]? = some x.to) (hr : (σ x.to).serve x.request = some (s', reply)) (hl : (replyFrame x.to reply).length ≤ 128)
      (h : Play ids (update σ x.to s') xs w t σ') :
      Play ids σ (x :: xs) ((0, x.frame) :: (k + 1, replyFrame x.to reply) :: w)
        (.wrote x.frame :: .got (replyFrame x.to reply) :: t) σ'

theorem Play.append {ids : List Byte} {σ σ' σ'' : Byte → Servo} {xs ys : List Ask} {w v : List Msg} {t u : List Seen}
    (h : Play ids σ xs w t σ') (h' : Play ids σ' ys v u σ'') : Play ids σ (xs ++ ys) (w ++ v) (t ++ u) σ'' := by
  induction h with
  | done => exact h'
  | call hk hr hl _ ih => exact .call hk hr hl (ih h')

theorem Done.play {ids : List Byte} {xs : List Ask} {σ : Byte → Servo} {w : List Msg} {hs : List Event'} (h : Done ids xs σ w hs) :
    Play ids (fun _ => newServo) xs w (hs.map Event'.plain) σ := by
  induction h with
  | nil => exact .done _
  | snoc _ hk hr hl ih =>
    have := ih.append (.call hk hr hl (.done _))
    simpa [Event'.plain, bytes] using this

theorem play_conversation {ids : List Byte} {calls : List Called} {total : List Seen} (h : Replies calls total) :
    ∀ {σ σ' : Byte → Servo} {w : List Msg}, Play ids σ (calls.map Called.ask) w total σ' → Smooth σ (calls.map Called.ask) →
      Conversation ids σ calls w σ' := by
  induction h with
  | nil =>
    intro σ σ' w hp _
    cases hp
    exact .done _
  | @cons c calls es t gs ha h ih =>
    intro σ σ' w hp hsm
    obtain ⟨rfl, hne, hshow⟩ := ha
    generalize htot : Seen.wrote (requestFrame c.id c.request) :: gs.map .got ++ t = tot at hp
    rw [List.map_cons] at hp hsm
    cases hp with
    | @call _ _ _ _ w t' k s' reply hk hr hl hp =>
      cases gs with
      | nil => exact absurd rfl hne
      | cons g gs =>
        simp only [List.map_cons, List.cons_append, List.cons.injEq, Seen.got.injEq] at htot
        obtain ⟨-, rfl, htot⟩ := htot
        have hgs : gs = [] := by
          cases gs with
          | nil => rfl
          | cons g gs =>
            exfalso
            rw [← htot] at hp
            cases hm : calls.map Called.ask with
            | nil => rw [hm] at hp; cases hp
            | cons => rw [hm] at hp; cases hp
        subst hgs
        obtain ⟨s1, s2⟩ := hsm
        obtain ⟨s3, s4⟩ := s2 _ _ hr
        rw [← htot] at hp
        exact .call hk hr (hshow reply (by simp [Called.ask]) s3 hl (serve_reply hr)) (stuffedForm_codeStuff _) (stuffedForm_codeStuff _)
          (ih hp s4)

theorem hist_cut {total : List Seen} : ∀ (n : Nat) (l : Story), l.length = n → total <+: (hist 0 l).map Event'.plain →
    ∃ l', l' <+: l ∧ (hist 0 l').map Event'.plain = total := by
  intro n
  induction n with
  | zero =>
    intro l hl h
    obtain rfl := List.length_eq_zero_iff.mp hl
    exact ⟨[], List.prefix_refl _, (List.prefix_nil.mp h).symm⟩
  | succ n ih =>
    intro l hl h
    obtain ⟨l, ⟨j, e⟩, rfl⟩ : ∃ l' x, l = l' ++ [x] :=
      ⟨l.dropLast, l.getLast (by rintro rfl; simp at hl), (List.dropLast_concat_getLast _).symm⟩
    by_cases heq : total = (hist 0 (l ++ [(j, e)])).map Event'.plain
    · exact ⟨_, List.prefix_refl _, heq.symm⟩
    · have hp : total <+: (hist 0 l).map Event'.plain := by
        by_cases hj : j = 0
        · subst hj
          rw [hist_snoc_same, List.map_append, List.map_singleton] at h heq
          exact (List.prefix_concat_iff.mp h).resolve_left heq
        · rwa [hist_snoc_other hj] at h
      obtain ⟨l', h1, h2⟩ := ih l (by simpa using hl) hp
      exact ⟨l', h1.trans (List.prefix_append _ _), h2⟩

theorem hist_prefix {l l' : Story} (h : l' <+: l) (i : Nat) : hist i l' <+: hist i l := by
  obtain ⟨t, rfl⟩ := h
  rw [hist_append]
  exact List.prefix_append _ _

/-- A new client or device. -/
theorem fresh_bus {debug : Bool} {port : Port} {b : Bus} (h : Bus.withBuffers debug port (List.replicate 128 0#8) (List.replicate 128 0#8) = .ok b) :
    b.serialPort = port ∧ b.baudRate = port.rate ∧ b.Inv ∧ b.readBuffer.length = 128 ∧ b.writeBuffer.length = 128 ∧ b.pending = [] := by
  obtain ⟨c1, -, c3⟩ := asked_constructs (debug := debug) (readBuffer := List.replicate 128 0#8) (writeBuffer := List.replicate 128 0#8) port
  cases hr : port.rateErr with
  | none =>
    obtain ⟨b', h1, h2⟩ := c1 port port.rate (by rw [askedRate, hr]) (by simp)
    rw [h1] at h
    obtain rfl := Outcome.ok.inj h
    exact ⟨h2.port, h2.rate, ⟨h2.rinv, h2.winv⟩, by rw [h2.readSize]; simp, by rw [h2.writeSize]; simp, h2.empty⟩
  | some e =>
    have := c3 e (by rw [askedRate, hr])
    rw [this] at h
    cases h

theorem new_client {debug : Bool} {port : Port} {b : Bus} (h : Client.new debug port = .ok b) :
    Bus.withBuffers debug port (List.replicate 128 0#8) (List.replicate 128 0#8) = .ok b := by
  unfold Client.new at h
  cases hb : Bus.withBuffers debug port (List.replicate 128 0#8) (List.replicate 128 0#8) with
  | _ => rw [show defaultBuffer = List.replicate 128 0#8 from rfl, hb] at h; first | exact h | cases h

theorem new_device {debug : Bool} {port : Port} {b : Bus} (h : Device.new debug port = .ok b) :
    Bus.withBuffers debug port (List.replicate 128 0#8) (List.replicate 128 0#8) = .ok b := new_client h

theorem Phase.over {ids : List Byte} {all xs : List Ask} {l : Story} {σ : Byte → Servo} {total : List Seen} (hp : Phase ids all l xs σ)
    (ht : Talk all total) (hh : (hist 0 l).map Event'.plain = total) :
    ∃ hs, Done ids all σ (writes l) hs ∧ hs.map Event'.plain = total := by
  have busy : ∀ {xs todo : List Ask} {x : Ask} {σ : Byte → Servo} {w : List Msg} {hs : List Event'}, Done ids xs σ w hs →
      all = xs ++ x :: todo → hist 0 l = hs ++ [.wrote x.frame] → False := by
    intro xs todo x σ w hs hd ha hl
    subst ha
    rw [hl, List.map_append] at hh
    obtain ⟨ps, rfl, h2⟩ := hd.exchange
    rw [h2] at hh
    obtain ⟨gs, rest, rfl, h3⟩ := ht.after (hh ▸ List.prefix_append _ _)
    have := List.append_cancel_left hh
    cases gs with
    | nil =>
      cases h3
      simp at this
    | cons g gs => simp [Event'.plain] at this
  cases hp with
  | @idle _ todo _ w hs hd ha hw hl =>
    subst ha hw hl
    obtain ⟨ps, rfl, h2⟩ := hd.exchange
    rw [h2] at hh
    obtain ⟨gs, rest, rfl, h3⟩ := ht.after (hh ▸ List.prefix_refl _)
    have hnil : List.map Seen.got gs ++ rest = [] := by
      have := congrArg List.length hh
      rw [List.length_append] at this
      exact List.length_eq_zero_iff.mp (by omega)
    rw [(List.append_eq_nil_iff.mp hnil).2] at h3
    cases h3
    refine ⟨_, by simpa using hd, ?_⟩
    rw [h2, hnil, List.append_nil]
  | asked hd ha hw hl => exact (busy hd ha hl).elim
  | answered hd hk hr hl ha hw hh => exact (busy hd ha hh).elim

/-- The part about the motors: the client has seen an answer to each of its instructions. -/
theorem replies_conversation {ids : List Byte} {calls : List Called} {as : List Act} {total : List Seen}
    (hline : ∃ s, Run (newClientDevice ids) init as s) (hmot : MockSerial.Motors ids as) (htot : total <+: MockSerial.history 0 as)
    (k2 : Replies calls total) (hn : ids.Nodup) (hall : ∀ c ∈ calls, c.id ≠ 254#8 ∧ (requestFrame c.id c.request).length ≤ 128)
    (hsm : Smooth (fun _ => newServo) (calls.map Called.ask)) :
    ∃ σ w, Conversation ids (fun _ => newServo) calls w σ ∧ w <+: said ids.length as := by
  obtain ⟨s, hrun⟩ := hline
  obtain ⟨l, h1, h2, h3, h4⟩ := run_story hrun
  rw [← h1 0 (by omega)] at htot
  obtain ⟨l', c1, c2⟩ := hist_cut _ l rfl htot
  have hok : ∀ x ∈ calls.map Called.ask, x.Ok := by
    have hsurv : ∀ (xs : List Ask) (σ : Byte → Servo), (∀ x ∈ xs, Served x.request) → Smooth σ xs → ∀ x ∈ xs, Survives x.request.body := by
      intro xs
      induction xs with
      | nil => intro _ _ _ x hx; cases hx
      | cons y ys ih =>
        intro σ hs hsm x hx
        rcases List.mem_cons.mp hx with rfl | hx
        · exact hsm.1
        · obtain ⟨s', reply, hserve⟩ := hs y (by simp) (σ y.to)
          exact ih _ (fun z hz => hs z (by simp [hz])) (hsm.2 _ _ hserve).2 x hx
    have hserved : ∀ x ∈ calls.map Called.ask, Served x.request := by
      intro x hx
      obtain ⟨c, hc, rfl⟩ := List.mem_map.mp hx
      exact serve_total c.uses
    intro x hx
    have hs := hsurv _ _ hserved hsm x hx
    have hsv := hserved x hx
    obtain ⟨c, hc, rfl⟩ := List.mem_map.mp hx
    exact ⟨hsv, (hall c hc).1, hs, (hall c hc).2⟩
  obtain ⟨xs, σ, hp, -⟩ := conversation hn hok hsm k2.talk l' (fun l'' h => h2 l'' (h.trans c1)) (fun x hx => h3 x (c1.subset hx))
    (by rw [c2]; exact List.prefix_refl _) (by
      intro l'' hl k id hk hgood
      obtain ⟨debug, port, device, fuel, n, es, d1, d2, d3⟩ := hmot k id hk
      obtain ⟨g1, -, g3, g4, g5, g6⟩ := fresh_bus (debug := debug) (port := port) (b := device) (new_device d1)
      have hkl : k + 1 ≤ ids.length := by
        obtain ⟨hk, -⟩ := List.getElem?_eq_some_iff.mp hk
        omega
      refine motor_thread (fuel := fuel) n (.new id device) [] es (hist (k + 1) l'') g3 g4 g5 g6 (by simpa using hgood) ?_ ?_
      · change Saw device.serialPort es _
        rw [g1]
        exact d2
      · refine List.IsPrefix.trans ?_ d3
        rw [← h1 (k + 1) hkl]
        exact (hist_prefix (hl.trans c1) (k + 1)).map _)
  obtain ⟨hs, hd, he⟩ := hp.over k2.talk c2
  refine ⟨σ, writes l', play_conversation k2 (he ▸ hd.play) hsm, ?_⟩
  rw [← h4]
  obtain ⟨t, rfl⟩ := c1
  rw [writes_append]
  exact List.prefix_append _ _

/-- **C66** In every interleaving of the client with the simulated motors: if no call fails with a timeout, each call was
answered by the motor with its ID and nobody else, its result is what a memory answers, and the packets on the line are the
instructions of the calls and these answers, in turn. -/
theorem c66_conversation {ids : List Byte} {calls : List Called} {as : List Act} (h : Test ids calls as) (hn : ids.Nodup)
    (hall : ∀ c ∈ calls, c.id ≠ 254#8 ∧ (requestFrame c.id c.request).length ≤ 128 ∧ ¬ Failed c.result)
    (hsm : Smooth (fun _ => newServo) (calls.map Called.ask)) :
    ∃ σ w, Conversation ids (fun _ => newServo) calls w σ ∧ w <+: said ids.length as := by
  obtain ⟨hline, hmot, debug, port, b, b', total, hnew, hrate, hcalls, hsaw, htot⟩ := h
  obtain ⟨f1, f2, f3, f4, f5, -⟩ := fresh_bus (debug := debug) (port := port) (b := b) (new_client hnew)
  obtain ⟨total', k1, k2⟩ := calls_replies hcalls f3 f4 f5 (by rw [f2, hrate]; decide) (by rw [f2, hrate]; decide) hall
  rw [f1] at k1
  obtain rfl := saw_unique hsaw k1
  exact replies_conversation hline hmot htot k2 hn (fun c hc => ⟨(hall c hc).1, (hall c hc).2.1⟩) hsm

/-! ## Corollaries -/

theorem CallsMade.split {b b' : Bus} {calls rest : List Called} (h : CallsMade b (calls ++ rest) b') :
    ∃ b₁, CallsMade b calls b₁ ∧ CallsMade b₁ rest b' := by
  induction calls generalizing b with
  | nil => exact ⟨b, .done b, h⟩
  | cons c calls ih =>
    cases h with
    | call hr h =>
      obtain ⟨b₁, h1, h2⟩ := ih h
      exact ⟨b₁, .call hr h1, h2⟩

/-- What is seen of any calls. -/
theorem CallsMade.saw {b b' : Bus} {calls : List Called} (h : CallsMade b calls b') : b.Inv → b.readBuffer.length = 128 →
    b.writeBuffer.length = 128 → b.baudRate ≠ 0 → b.baudRate < 2 ^ 32 →
    (∀ c ∈ calls, c.id ≠ 254#8 ∧ (requestFrame c.id c.request).length ≤ 128) →
    (∃ total, Saw b.serialPort total b'.serialPort) ∧ b'.Inv ∧ b'.readBuffer.length = 128 ∧ b'.writeBuffer.length = 128 ∧
      b'.baudRate = b.baudRate := by
  induction h with
  | done b => exact fun h1 h2 h3 _ _ _ => ⟨⟨[], .nil _⟩, h1, h2, h3, rfl⟩
  | @call b b' c calls hr h ih =>
    intro hb hN hW h0 hbaud hall
    obtain ⟨h1, h2⟩ := hall c (by simp)
    obtain ⟨es, k1, k2, -⟩ := uses_client c.uses h1 hb hN hW h0 hbaud h2
    have hstep := c.uses.asks.2 b hb
    obtain ⟨⟨t, k4⟩, k5, k6, k7, k8⟩ := ih hstep.inv (hstep.readSize.trans hN) (hstep.writeSize.trans hW) (by rw [k2]; exact h0)
      (by rw [k2]; exact hbaud) fun c hc => hall c (by simp [hc])
    exact ⟨⟨es ++ t, k1.trans k4⟩, k5, k6, k7, k8.trans k2⟩

/-- The first calls of a test are a test. -/
theorem Test.first {ids : List Byte} {calls rest : List Called} {as : List Act} (h : Test ids (calls ++ rest) as)
    (hall : ∀ c ∈ calls ++ rest, c.id ≠ 254#8 ∧ (requestFrame c.id c.request).length ≤ 128) : Test ids calls as := by
  obtain ⟨h1, h2, debug, port, b, b', total, hnew, hrate, hcalls, hsaw, htot⟩ := h
  obtain ⟨f1, f2, f3, f4, f5, -⟩ := fresh_bus (debug := debug) (port := port) (b := b) (new_client hnew)
  obtain ⟨b₁, c1, c2⟩ := hcalls.split
  have h0 : b.baudRate ≠ 0 := by rw [f2, hrate]; decide
  have hbaud : b.baudRate < 2 ^ 32 := by rw [f2, hrate]; decide
  obtain ⟨⟨t1, s1⟩, i1, i2, i3, i4⟩ := c1.saw f3 f4 f5 h0 hbaud fun c hc => hall c (by simp [hc])
  obtain ⟨⟨t2, s2⟩, -⟩ := c2.saw i1 i2 i3 (by rw [i4]; exact h0) (by rw [i4]; exact hbaud) fun c hc => hall c (by simp [hc])
  rw [f1] at s1
  obtain rfl := saw_unique hsaw (s1.trans s2)
  exact ⟨h1, h2, debug, port, b, b₁, t1, hnew, hrate, c1, s1, (List.prefix_append _ _).trans htot⟩

/-- **C66** Up to the first call that fails. -/
theorem c66_until_failure {ids : List Byte} {calls rest : List Called} {as : List Act} (h : Test ids (calls ++ rest) as) (hn : ids.Nodup)
    (hall : ∀ c ∈ calls ++ rest, c.id ≠ 254#8 ∧ (requestFrame c.id c.request).length ≤ 128) (hf : ∀ c ∈ calls, ¬ Failed c.result)
    (hsm : Smooth (fun _ => newServo) (calls.map Called.ask)) :
    ∃ σ w, Conversation ids (fun _ => newServo) calls w σ ∧ w <+: said ids.length as :=
  c66_conversation (h.first hall) hn
    (fun c hc => ⟨(hall c (by simp [hc])).1, (hall c (by simp [hc])).2, hf c hc⟩) hsm

theorem pairwise₂_maps {α β γ : Type} {R : β → γ → Prop} {f : α → β} {g : α → γ} (xs : List α) (h : ∀ x, R (f x) (g x)) :
    Pairwise₂ R (xs.map f) (xs.map g) := by
  induction xs with
  | nil => exact .nil
  | cons x xs ih => exact .cons (h x) ih

theorem Conversation.memories {ids : List Byte} {σ σ' : Byte → Servo} {calls : List Called} {w : List Msg} (h : Conversation ids σ calls w σ')
    (hb : ∀ c ∈ calls, c.id ≠ 254#8) :
    Memories (ids.map fun id => (id, σ id)) calls (ids.map fun id => (id, σ' id)) ∧ ∀ c ∈ calls, c.id ∈ ids := by
  induction h with
  | done => exact ⟨.done _, by simp⟩
  | @call σ σ' c calls w k s' reply wire wire' hk hr hs hw hw' h ih =>
    obtain ⟨ih1, ih2⟩ := ih fun c hc => hb c (by simp [hc])
    have h254 := hb c (by simp)
    refine ⟨.call ?_ (fun h => absurd h h254) ih1, fun x hx => ?_⟩
    · exact pairwise₂_maps _ fun id => ⟨rfl, fun h => by
        dsimp only at h ⊢
        subst h
        refine ⟨reply, ?_, hs⟩
        rw [update, if_pos rfl]
        exact hr, fun h => absurd h h254, fun h _ => by
        dsimp only at h ⊢
        rw [update, if_neg (Ne.symm h)]⟩
    · rcases List.mem_cons.mp hx with rfl | hx
      · exact List.mem_of_getElem? hk
      · exact ih2 x hx

/-- **C66** The results are those of independent memories, and only motors that exist answer. -/
theorem c66_memories {ids : List Byte} {calls : List Called} {as : List Act} (h : Test ids calls as) (hn : ids.Nodup)
    (hall : ∀ c ∈ calls, c.id ≠ 254#8 ∧ (requestFrame c.id c.request).length ≤ 128 ∧ ¬ Failed c.result)
    (hsm : Smooth (fun _ => newServo) (calls.map Called.ask)) :
    (∃ σ : Byte → Servo, Memories (ids.map fun id => (id, newServo)) calls (ids.map fun id => (id, σ id))) ∧ ∀ c ∈ calls, c.id ∈ ids := by
  obtain ⟨σ, w, hc, -⟩ := c66_conversation h hn hall hsm
  obtain ⟨h1, h2⟩ := hc.memories fun c hc => (hall c hc).1
  exact ⟨⟨σ, h1⟩, h2⟩

/-- **C66** What is written to a motor is read back from it, whatever is done with the other motors in between. -/
theorem c66_read_back {α : Type} {dt : DataTy α} {valid : α → Prop} {enc : α → List Byte} (hdt : ImplData dt valid enc) {ids : List Byte}
    {id : Byte} {before between calls : List Called} {a : U16} {v : α} (hv : valid v) {r₁ : Response Unit}
    {o₂ : Outcome TransferError (Response α)} {as : List Act} (h : Test ids calls as) (hn : ids.Nodup)
    (hcalls : calls = before ++ ⟨Client.write dt id a v, .ok r₁, _, _, _, .write hdt id a v hv⟩ :: (between ++
      [⟨Client.read dt id a, o₂, _, _, _, .read hdt id a⟩]))
    (hbetween : ∀ c ∈ between, c.id = id → LeavesAlone a.toNat dt.size.toNat c.request)
    (hall : ∀ c ∈ calls, c.id ≠ 254#8 ∧ (requestFrame c.id c.request).length ≤ 128 ∧ ¬ Failed c.result)
    (hsm : Smooth (fun _ => newServo) (calls.map Called.ask)) : o₂ = .ok ⟨id, false, v⟩ := by
  obtain ⟨⟨σ, hm⟩, hids⟩ := c66_memories h hn hall hsm
  have hid : id ∈ ids := hids ⟨Client.write dt id a v, .ok r₁, _, _, _, .write hdt id a v hv⟩ (by rw [hcalls]; simp)
  obtain ⟨m, hm, -, hs⟩ := pairwise₂_mem hm.sees (List.mem_map.mpr ⟨id, hid, rfl⟩)
  subst hcalls
  refine hs.read_back hdt (hall ⟨Client.write dt id a v, .ok r₁, _, _, _, .write hdt id a v hv⟩ (by simp)).1 hv fun c hc hid => ?_
  exact hbetween c hc (hid.resolve_right (hall c (by simp [hc])).1)

/-- No byte is `FD`. -/
def NoFd (bs : List Byte) : Prop := 0xFD#8 ∉ bs

theorem NoFd.survives {bs : List Byte} (h : NoFd bs) : Survives bs :=
  survives_plain fun hi => h (hi.subset (by simp))

theorem NoFd.store {m m' data : List Byte} {a : Nat} (hm : NoFd m) (hd : NoFd data) (h : store m a data = some m') : NoFd m' := by
  have hget : ∀ {l : List Byte} (i : Nat), NoFd l → l.getD i 0#8 ≠ 0xFD#8 := by
    intro l i hl
    rw [List.getD_eq_getElem?_getD]
    cases hi : l[i]? with
    | none => decide
    | some b =>
      rintro rfl
      exact hl (List.mem_of_getElem? hi)
  unfold Spec.store at h
  split at h
  · obtain rfl := Option.some.inj h
    intro hx
    obtain ⟨i, -, hi⟩ := List.mem_map.mp hx
    split at hi
    · exact hget _ hd hi
    · exact hget _ hm hi
  · cases h

theorem NoFd.load {m data : List Byte} {a n : Nat} (hm : NoFd m) (h : load m a n = some data) : NoFd data := by
  unfold Spec.load at h
  split at h
  · obtain rfl := Option.some.inj h
    intro hx
    obtain ⟨i, -, hi⟩ := List.mem_map.mp hx
    rw [List.getD_eq_getElem?_getD] at hi
    cases hj : m[a + i]? with
    | none => rw [hj] at hi; revert hi; decide
    | some b =>
      rw [hj] at hi
      obtain rfl : b = 0xFD#8 := hi
      exact hm (List.mem_of_getElem? hj)
  · cases h

/-- No byte of the motor is `FD`. -/
def CleanServo (s : Servo) : Prop := NoFd s.memory ∧ ∀ x ∈ s.registered, NoFd x.2

theorem put_clean {s : Servo} {a : U16} {data : List Byte} (hs : CleanServo s) (hd : NoFd data) :
    CleanServo (s.put a data).1 ∧ NoFd ((s.put a data).2.error :: (s.put a data).2.data) := by
  unfold Servo.put
  cases h : store s.memory a.toNat data with
  | some m => exact ⟨⟨hs.1.store hd h, hs.2⟩, by show 0xFD#8 ∉ [0#8]; decide⟩
  | none => exact ⟨hs, by show 0xFD#8 ∉ [7#8]; decide⟩

theorem serve_clean {s s' : Servo} {r : Request} {reply : ServoReply} (hs : CleanServo s) (hr : NoFd r.body)
    (h : s.serve r = some (s', reply)) : CleanServo s' ∧ NoFd (reply.error :: reply.data) := by
  cases r with
  | ping => cases h; exact ⟨hs, by unfold NoFd; decide⟩
  | read a n =>
    cases h
    refine ⟨hs, ?_⟩
    unfold Servo.get
    cases hl : load s.memory a.toNat n.toNat with
    | some data =>
      have := hs.1.load hl
      simpa [NoFd] using this
    | none => unfold NoFd; decide
  | write a data =>
    have hd : NoFd data := fun hx => hr (by simp [Request.body, Request.parameters, hx])
    have := put_clean (a := a) hs hd
    rw [show s.put a data = (s', reply) from Option.some.inj h] at this
    exact this
  | regWrite a data =>
    have hd : NoFd data := fun hx => hr (by simp [Request.body, Request.parameters, hx])
    cases h
    exact ⟨⟨hs.1, by simpa using hd⟩, by unfold NoFd; decide⟩
  | action =>
    unfold Servo.serve at h
    cases hreg : s.registered with
    | none =>
      simp only [hreg] at h
      cases h
      exact ⟨hs, by unfold NoFd; decide⟩
    | some x =>
      obtain ⟨a, data⟩ := x
      simp only [hreg] at h
      have := put_clean (s := { s with registered := none }) (a := a) ⟨hs.1, by simp⟩ (hs.2 (a, data) (by simp [hreg]))
      rw [show Servo.put { s with registered := none } a data = (s', reply) from Option.some.inj h] at this
      exact this
  | _ => cases h

/-- If `FD` occurs in no instruction, nothing is damaged by stuffing. -/
theorem smooth_of_noFd {xs : List Ask} (h : ∀ x ∈ xs, NoFd x.request.body) {σ : Byte → Servo} (hσ : ∀ id, CleanServo (σ id)) : Smooth σ xs := by
  induction xs generalizing σ with
  | nil => trivial
  | cons x xs ih =>
    have hx := h x (by simp)
    refine ⟨hx.survives, fun s' reply hr => ?_⟩
    obtain ⟨h1, h2⟩ := serve_clean (hσ x.to) hx hr
    refine ⟨NoFd.survives ?_, ih (fun y hy => h y (by simp [hy])) fun id => ?_⟩
    · intro hm
      rcases List.mem_cons.mp hm with hm | hm
      · revert hm; decide
      · exact h2 hm
    · unfold update
      split
      · exact h1
      · exact hσ id

theorem newServo_clean : CleanServo newServo := by
  refine ⟨?_, by simp [newServo]⟩
  unfold newServo NoFd
  intro h
  have := (List.mem_replicate.mp h).2
  revert this
  decide

/-- **C66** With data in which no `FD` occurs. -/
theorem c66_no_fd {ids : List Byte} {calls : List Called} {as : List Act} (h : Test ids calls as) (hn : ids.Nodup)
    (hall : ∀ c ∈ calls, c.id ≠ 254#8 ∧ (requestFrame c.id c.request).length ≤ 128 ∧ ¬ Failed c.result ∧ NoFd c.request.body) :
    ∃ σ w, Conversation ids (fun _ => newServo) calls w σ ∧ w <+: said ids.length as := by
  refine c66_conversation h hn (fun c hc => ⟨(hall c hc).1, (hall c hc).2.1, (hall c hc).2.2.1⟩) (smooth_of_noFd ?_ fun _ => newServo_clean)
  intro x hx
  obtain ⟨c, hc, rfl⟩ := List.mem_map.mp hx
  exact (hall c hc).2.2.2

/-! ## Scripts

For every sequence of answers there is a script, so that `Test` leaves out no execution of the code. -/

/-- The answers to reads. -/
def answersOf (es : List Seen) : List RxEvent :=
  es.filterMap fun | .got bs => some (.data 0 bs) | .failed e => some (.fail 0 e) | .wrote _ => none

/-- The port gives these answers to the next reads, and accepts every write. -/
structure Scripted (es : List Seen) (p : Port) : Prop where
  now : p.now = 0
  rx : p.rx = answersOf es
  write : p.writeRes = []
  discard : p.discardRes = []
  noop : p.discardIsNoop = true

theorem script_complete {es : List Seen} {p : Port} :
    (∀ bs cap D, Scripted (.got bs :: es) p → bs.length ≤ cap → ∃ q, Port.read cap D p = (q, .ok bs) ∧ Scripted es q) ∧
    (∀ e cap D, Scripted (.failed e :: es) p → ∃ q, Port.read cap D p = (q, .err e) ∧ Scripted es q) ∧
    (∀ bs, Scripted (.wrote bs :: es) p → ∃ q, Port.writeAll bs p = (q, .ok ()) ∧ Scripted es q) ∧
    (Scripted es p → ∃ q, Port.discardInputBuffer p = (q, .ok ()) ∧ Scripted es q) := by
  obtain ⟨now, rx, tail, discardRes, noop, writeRes, baudRes, rate, rateErr, log⟩ := p
  refine ⟨?_, ?_, ?_, ?_⟩
  · rintro bs cap D ⟨rfl, rfl, rfl, rfl, rfl⟩ hl
    refine ⟨⟨0, answersOf es, tail, [], true, [], baudRes, rate, rateErr, log ++ [.read cap D]⟩, ?_, ⟨rfl, rfl, rfl, rfl, rfl⟩⟩
    simp [Port.read, answersOf, hl]
  · rintro e cap D ⟨rfl, rfl, rfl, rfl, rfl⟩
    refine ⟨⟨0, answersOf es, tail, [], true, [], baudRes, rate, rateErr, log ++ [.read cap D]⟩, ?_, ⟨rfl, rfl, rfl, rfl, rfl⟩⟩
    simp [Port.read, answersOf]
  · rintro bs ⟨rfl, rfl, rfl, rfl, rfl⟩
    exact ⟨_, rfl, ⟨rfl, rfl, rfl, rfl, rfl⟩⟩
  · rintro ⟨rfl, rfl, rfl, rfl, rfl⟩
    exact ⟨_, rfl, ⟨rfl, rfl, rfl, rfl, rfl⟩⟩

/-! ## Examples -/

theorem saw_computed {p q : Port} (h : ∃ es, Saw p es q) : Saw p (p.redoAll (q.log.drop p.log.length)).2 q := by
  obtain ⟨es, h⟩ := h
  obtain ⟨cs, h1, h2⟩ := h.redo
  rw [h1, List.drop_left, h2]
  exact h

/-- A port that gives these answers. -/
def scripted (es : List Seen) : Port :=
  { now := 0
    rx := answersOf es
    tail := .silent, discardRes := [], discardIsNoop := true, writeRes := [], baudRes := [], rate := 56700, rateErr := none, log := [] }

/-- The client or device that was made. -/
def made : Outcome IoErr Bus → Bus
  | .ok b => b
  | _ => lineBus []

theorem made_eq {x : Outcome IoErr Bus} (h : ∃ b, x = .ok b) : x = .ok (made x) := by
  obtain ⟨b, rfl⟩ := h
  rfl

theorem scripted_scripted (es : List Seen) : Scripted es (scripted es) := ⟨rfl, rfl, rfl, rfl, rfl⟩

/-- A new client or device on such a port. -/
def scriptedBus (es : List Seen) : Bus :=
  made (Bus.withBuffers false (scripted es) (List.replicate 128 0#8) (List.replicate 128 0#8))

theorem scriptedBus_eq (es : List Seen) :
    Bus.withBuffers false (scripted es) (List.replicate 128 0#8) (List.replicate 128 0#8) = .ok (scriptedBus es) := by
  obtain ⟨c1, -, -⟩ := asked_constructs (debug := false) (readBuffer := List.replicate 128 0#8) (writeBuffer := List.replicate 128 0#8)
    (scripted es)
  obtain ⟨b, h, -⟩ := c1 (scripted es) 56700 rfl (by rw [List.length_replicate]; omega)
  exact made_eq ⟨b, h⟩

/-- The client after the calls. -/
def after (b : Bus) : List Called → Bus
  | [] => b
  | c :: calls => after (c.call b).1 calls

/-- What a motor sees. -/
def motorSees (k : Nat) (id : Byte) (n : Nat) (as : List Act) : List Seen :=
  let p := scripted (MockSerial.history (k + 1) as)
  (p.redoAll ((MockDevice.run 0 n : SO MockDevice Empty Unit) (.new id (scriptedBus (MockSerial.history (k + 1) as)))).1.device.serialPort.log).2

/-- What the client sees. -/
def clientSees (calls : List Called) (as : List Act) : List Seen :=
  let p := scripted (MockSerial.history 0 as)
  (p.redoAll (after (scriptedBus (MockSerial.history 0 as)) calls).serialPort.log).2

theorem motor_saw (fuel n : Nat) (id : Byte) {b : Bus} (hb : b.Inv) :
    ∃ es, Saw b.serialPort es ((MockDevice.run fuel n : SO MockDevice Empty Unit) (.new id b)).1.device.serialPort :=
  (MockDevice.run_seen (ε := Empty) fuel n (.new id b) hb).2

/-- To check that something is an execution. -/
theorem test_of {ids : List Byte} {calls : List Called} {as : List Act} (n : Nat)
    (hline : ((executeAll (newClientDevice ids) init as).map fun _ => ()) = some ())
    (hmot : ∀ k < ids.length, MockSerial.history (k + 1) as <+: motorSees k (ids.getD k 0#8) n as)
    (hall : ∀ c ∈ calls, c.id ≠ 254#8 ∧ (requestFrame c.id c.request).length ≤ 128)
    (hcalls : CallsMade (scriptedBus (MockSerial.history 0 as)) calls (after (scriptedBus (MockSerial.history 0 as)) calls))
    (hsees : clientSees calls as <+: MockSerial.history 0 as) : Test ids calls as := by
  refine ⟨?_, fun k id hk => ?_, ?_⟩
  · obtain ⟨s, h, -⟩ := executes hline
    exact ⟨s, h⟩
  · obtain ⟨f1, -, f3, -⟩ := fresh_bus (scriptedBus_eq (MockSerial.history (k + 1) as))
    have hm := hmot k (List.getElem?_eq_some_iff.mp hk).1
    rw [List.getD_eq_getElem?_getD, hk] at hm
    have hs' := saw_computed (motor_saw 0 n id f3)
    rw [f1] at hs'
    refine ⟨false, scripted (MockSerial.history (k + 1) as), _, 0, n, _, ?_, hs', hm⟩
    unfold Device.new
    rw [show defaultBuffer = List.replicate 128 0#8 from rfl, scriptedBus_eq]
  · obtain ⟨f1, f2, f3, f4, f5, -⟩ := fresh_bus (scriptedBus_eq (MockSerial.history 0 as))
    obtain ⟨hs, -⟩ := hcalls.saw f3 f4 f5 (by rw [f2]; exact Nat.succ_ne_zero _) (by rw [f2]; show 56700 < 2 ^ 32; decide) hall
    have hs' := saw_computed hs
    rw [f1] at hs'
    refine ⟨false, _, _, _, _, ?_, rfl, hcalls, hs', hsees⟩
    unfold Client.new
    rw [show defaultBuffer = List.replicate 128 0#8 from rfl, scriptedBus_eq]

/-- The client writes `q`, and motor `k` answers with `a`; all of `n` motors hear both. -/
def turn (n k : Nat) (q a : List Byte) : List Act :=
  [.startWrite 0 q] ++ List.replicate n (.append 0) ++ [.finish 0] ++
  (List.range n).flatMap (fun j => [.startRead (j + 1) 128 9, .check (j + 1), .take (j + 1) q]) ++
  [.startWrite (k + 1) a] ++ List.replicate n (.append (k + 1)) ++ [.finish (k + 1)] ++
  (List.range (n + 1)).flatMap (fun j => if j = k + 1 then [] else [.startRead j 128 9, .check j, .take j a])

/-- Two bytes are written to motor 2, motor 1 is pinged, and the bytes are read back. -/
def testCalls : List Called :=
  [⟨Client.writeBytes 2#8 100#16 [5#8, 6#8], .ok ⟨2#8, false, ()⟩, _, _, _, .writeBytes _ _ _⟩,
    ⟨Client.ping 1#8, .ok ⟨1#8, false, ⟨0x140a#16, 0x2e#8⟩⟩, _, _, _, .ping _⟩,
    ⟨Client.readBytes 2#8 100#16 2#16, .ok ⟨2#8, false, [5#8, 6#8]⟩, _, _, _, .readBytes _ _ _⟩]

def testRun : List Act :=
  turn 2 1 (requestFrame 2#8 (.write 100#16 [5#8, 6#8])) (replyFrame 2#8 ⟨0#8, []⟩) ++
  turn 2 0 (requestFrame 1#8 .ping) (replyFrame 1#8 ⟨0#8, [0x0a#8, 0x14#8, 0x2e#8]⟩) ++
  turn 2 1 (requestFrame 2#8 (.read 100#16 2#16)) (replyFrame 2#8 ⟨0#8, [5#8, 6#8]⟩)

theorem testRun_test : Test [1#8, 2#8] testCalls testRun := by
  refine test_of 9 (by decide +kernel) (by decide +kernel) ?_ (.call (by decide +kernel) (.call (by decide +kernel) (.call (by decide +kernel) (.done _))))
    (by decide +kernel)
  intro c hc
  simp only [testCalls, List.mem_cons, List.not_mem_nil, or_false] at hc
  rcases hc with rfl | rfl | rfl <;> decide +kernel

/-- The theorems apply to it. -/
example : ∃ σ w, Conversation [1#8, 2#8] (fun _ => newServo) testCalls w σ ∧ w <+: said 2 testRun := by
  refine c66_no_fd testRun_test (by decide) ?_
  intro c hc
  simp only [testCalls, List.mem_cons, List.not_mem_nil, or_false] at hc
  rcases hc with rfl | rfl | rfl
  all_goals refine ⟨by decide, by decide +kernel, ?_, by unfold NoFd; decide +kernel⟩
  all_goals rintro (⟨e, h⟩ | ⟨e, h⟩) <;> cases h

/-! ## After a call that failed -/

/-- The calls and their results are those of memories; a call that failed may have been served or not. -/
inductive Remembers : (Byte → Servo) → List Called → Prop
  | done (σ) : Remembers σ []
  | call {σ : Byte → Servo} {c : Called} {calls : List Called} {s' : Servo} {reply : ServoReply}
      (hr : (σ c.id).serve c.request = some (s', reply)) (hs : Shows c.result c.id c.value reply)
      (h : Remembers (update σ c.id s') calls) : Remembers σ (c :: calls)
  | served {σ : Byte → Servo} {c : Called} {calls : List Called} {s' : Servo} {reply : ServoReply} (hf : Failed c.result)
      (hr : (σ c.id).serve c.request = some (s', reply)) (h : Remembers (update σ c.id s') calls) : Remembers σ (c :: calls)
  | lost {σ : Byte → Servo} {c : Called} {calls : List Called} (hf : Failed c.result) (h : Remembers σ calls) :
      Remembers σ (c :: calls)

/-- What nobody writes to is read unchanged. -/
theorem Remembers.reads {id : Byte} {a n : U16} {data : List Byte} {r : Response (List Byte)} {pre : List Called} {σ : Byte → Servo}
    (hpre : ∀ c ∈ pre, c.id = id → LeavesAlone a.toNat n.toNat c.request) (hl : load (σ id).memory a.toNat n.toNat = some data)
    (h : Remembers σ (pre ++ [⟨Client.readBytes id a n, .ok r, _, _, _, .readBytes _ _ _⟩])) : r.data = data := by
  induction pre generalizing σ with
  | nil =>
    have hf : ¬ Failed (.ok r : Outcome TransferError (Response (List Byte))) := by
      rintro (⟨e, h⟩ | ⟨e, h⟩) <;> cases h
    cases h with
    | served hfl => exact absurd hfl hf
    | lost hfl => exact absurd hfl hf
    | call hr hs =>
      obtain ⟨-, rfl⟩ := Prod.mk.inj (Option.some.inj hr)
      unfold Servo.get at hs
      dsimp only at hs
      rw [hl] at hs
      obtain ⟨v, rfl, hv⟩ := hs
      obtain rfl := Outcome.ok.inj hv
      rfl
  | cons c pre ih =>
    have key : ∀ {s' : Servo} {reply : ServoReply}, (σ c.id).serve c.request = some (s', reply) →
        load (update σ c.id s' id).memory a.toNat n.toNat = some data := by
      intro s' reply hr
      by_cases hid : c.id = id
      · rw [hid, update, if_pos rfl, serve_load hr (hpre c (by simp) hid), hid, hl]
      · rw [update, if_neg (Ne.symm hid), hl]
    cases h with
    | served _ hr h => exact ih (fun x hx => hpre x (by simp [hx])) (key hr) h
    | lost _ h => exact ih (fun x hx => hpre x (by simp [hx])) hl h
    | call hr _ h => exact ih (fun x hx => hpre x (by simp [hx])) (key hr) h

/-- Two bytes are written, a read of them times out, and a read of other bytes returns them. -/
def staleCalls : List Called :=
  [⟨Client.writeBytes 1#8 100#16 [5#8, 6#8], .ok ⟨1#8, false, ()⟩, _, _, _, .writeBytes _ _ _⟩,
    ⟨Client.readBytes 1#8 100#16 2#16, .err (.readError (.io .timedOut)), _, _, _, .readBytes _ _ _⟩,
    ⟨Client.readBytes 1#8 0#16 2#16, .ok ⟨1#8, false, [5#8, 6#8]⟩, _, _, _, .readBytes _ _ _⟩]

/-- The motor answers the first read after the time-out, and before the second read. -/
def staleRun : List Act :=
  turn 1 0 (requestFrame 1#8 (.write 100#16 [5#8, 6#8])) (replyFrame 1#8 ⟨0#8, []⟩) ++
  [.startWrite 0 (requestFrame 1#8 (.read 100#16 2#16)), .append 0, .finish 0, .startRead 0 128 0, .tick, .expire 0,
    .startRead 1 128 9, .check 1, .take 1 (requestFrame 1#8 (.read 100#16 2#16)),
    .startWrite 1 (replyFrame 1#8 ⟨0#8, [5#8, 6#8]⟩), .append 1, .finish 1,
    .startWrite 0 (requestFrame 1#8 (.read 0#16 2#16)), .append 0, .finish 0, .startRead 0 128 9, .check 0,
    .take 0 (replyFrame 1#8 ⟨0#8, [5#8, 6#8]⟩)]

theorem staleRun_test : Test [1#8] staleCalls staleRun := by
  refine test_of 9 (by decide +kernel) (by decide +kernel) ?_
    (.call (by decide +kernel) (.call (by decide +kernel) (.call (by decide +kernel) (.done _)))) (by decide +kernel)
  intro c hc
  simp only [staleCalls, List.mem_cons, List.not_mem_nil, or_false] at hc
  rcases hc with rfl | rfl | rfl <;> decide +kernel

/-- **C66** After a call that timed out, the answer to it can be taken for the answer to the next one: the simulated port does
not discard it (`tests/common/mock/mock_serial_port.rs:69-72`). -/
theorem c66_stale : Test [1#8] staleCalls staleRun ∧ ¬ Remembers (fun _ => newServo) staleCalls := by
  refine ⟨staleRun_test, fun h => ?_⟩
  have := Remembers.reads (id := 1#8) (a := 0#16) (n := 2#16) (data := [0#8, 0#8]) (pre := staleCalls.take 2) (σ := fun _ => newServo)
    ?_ (by decide +kernel) h
  · revert this; decide
  · intro c hc _
    simp only [staleCalls, List.take, List.mem_cons, List.not_mem_nil, or_false] at hc
    rcases hc with rfl | rfl
    · exact .inl (by decide)
    · trivial

/-! ## The other theorems on the run -/

theorem testCalls_all : ∀ c ∈ testCalls, c.id ≠ 254#8 ∧ (requestFrame c.id c.request).length ≤ 128 ∧ ¬ Failed c.result := by
  intro c hc
  simp only [testCalls, List.mem_cons, List.not_mem_nil, or_false] at hc
  rcases hc with rfl | rfl | rfl
  all_goals refine ⟨by decide, by decide +kernel, ?_⟩
  all_goals rintro (⟨e, h⟩ | ⟨e, h⟩) <;> cases h

theorem testCalls_smooth : Smooth (fun _ => newServo) (testCalls.map Called.ask) := by
  refine smooth_of_noFd (fun x hx => ?_) fun _ => newServo_clean
  simp only [testCalls, List.map_cons, List.map_nil, List.mem_cons, List.not_mem_nil, or_false] at hx
  rcases hx with rfl | rfl | rfl <;> (unfold NoFd; decide +kernel)

example := c66_conversation testRun_test (by decide) testCalls_all testCalls_smooth
example := c66_memories testRun_test (by decide) testCalls_all testCalls_smooth
example := c66_until_failure (calls := testCalls.take 2) (rest := testCalls.drop 2) testRun_test (by decide)
  (fun c hc => ⟨(testCalls_all c hc).1, (testCalls_all c hc).2.1⟩) (fun c hc => (testCalls_all c (List.mem_of_mem_take hc)).2.2)
  (smooth_of_noFd (fun x hx => by
    simp only [testCalls, List.take, List.map_cons, List.map_nil, List.mem_cons, List.not_mem_nil, or_false] at hx
    rcases hx with rfl | rfl <;> (unfold NoFd; decide +kernel)) fun _ => newServo_clean)

/-- The same run, for a test that writes and reads a 16-bit number. -/
def typedCalls : List Called :=
  [⟨Client.write (.unsigned 2) 2#8 100#16 0x0605#16, .ok ⟨2#8, false, ()⟩, _, _, _, .write (implUnsigned (n := 2) (by decide)) _ _ _ trivial⟩,
    ⟨Client.ping 1#8, .ok ⟨1#8, false, ⟨0x140a#16, 0x2e#8⟩⟩, _, _, _, .ping _⟩,
    ⟨Client.read (.unsigned 2) 2#8 100#16, .ok ⟨2#8, false, 0x0605#16⟩, _, _, _, .read (implUnsigned (n := 2) (by decide)) _ _⟩]

theorem typedRun_test : Test [1#8, 2#8] typedCalls testRun := by
  refine test_of 9 (by decide +kernel) (by decide +kernel) ?_ (.call (by decide +kernel) (.call (by decide +kernel) (.call (by decide +kernel) (.done _))))
    (by decide +kernel)
  intro c hc
  simp only [typedCalls, List.mem_cons, List.not_mem_nil, or_false] at hc
  rcases hc with rfl | rfl | rfl <;> decide +kernel

example := c66_read_back (implUnsigned (n := 2) (by decide)) (before := []) (between := [typedCalls[1]]) (v := 0x0605#16) trivial
  (o₂ := .ok ⟨2#8, false, 0x0605#16⟩) typedRun_test (by decide) rfl
  (by
    intro c hc h
    obtain rfl := List.mem_singleton.mp hc
    exact absurd h (by decide))
  (by
    intro c hc
    simp only [typedCalls, List.mem_cons, List.not_mem_nil, or_false] at hc
    rcases hc with rfl | rfl | rfl
    all_goals refine ⟨by decide, by decide +kernel, ?_⟩
    all_goals rintro (⟨e, h⟩ | ⟨e, h⟩) <;> cases h)
  (smooth_of_noFd (fun x hx => by
    simp only [typedCalls, List.map_cons, List.map_nil, List.mem_cons, List.not_mem_nil, or_false] at hx
    rcases hx with rfl | rfl | rfl <;> (unfold NoFd; decide +kernel)) fun _ => newServo_clean)

end Dxl.Props
