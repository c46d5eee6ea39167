import Verif.Lemmas.Watch
import Verif.Props.Mock
import Verif.Spec.Line

/-! # The thread of a simulated motor, on whole packets -/

namespace Dxl.Props
open Dxl Spec Spec.Line

/-! ## Packets on the line -/

/-- The packet with this instruction. -/
def requestFrame (to : Byte) (r : Request) : List Byte := frame to (codeStuff r.body)

/-- The packet with this answer. -/
def replyFrame (id : Byte) (reply : ServoReply) : List Byte := frame id (codeStuff (0x55#8 :: reply.error :: reply.data))

/-- The simulated motor implements the request. -/
def Served (r : Request) : Prop := ∀ s : Servo, ∃ s' reply, s.serve r = some (s', reply)

/-- The packets on the line: instructions of this kind, and status packets. -/
inductive GoodOf (R : Byte → Request → Prop) : List Byte → Prop
  | request {to : Byte} {r : Request} (hr : R to r) (hs : Survives r.body)
      (hl : (requestFrame to r).length ≤ 128) : GoodOf R (requestFrame to r)
  | reply {id : Byte} {reply : ServoReply} (hs : Survives (0x55#8 :: reply.error :: reply.data))
      (hl : (replyFrame id reply).length ≤ 128) : GoodOf R (replyFrame id reply)

/-- An instruction for one motor. -/
def ForOne (to : Byte) (r : Request) : Prop := Served r ∧ to ≠ 254#8

/-- The packets on the line: instructions for one motor, and status packets. -/
abbrev Good : List Byte → Prop := GoodOf ForOne

theorem frame_inj {a b : Byte} {v w : List Byte} (h : frame a v = frame b w) : a = b ∧ v = w := by
  have hl := congrArg List.length h
  rw [Bus.frame_length, Bus.frame_length] at hl
  unfold frame frameHead at h
  have h1 := (List.append_inj h (by simp [header, le16]; omega)).1
  obtain ⟨h1, h2⟩ := List.append_inj h1 (by simp [header, le16])
  refine ⟨?_, h2⟩
  simp [header] at h1
  exact h1.1

/-- The message is an instruction for this motor. -/
def Own (id : Byte) (m : Msg) : Prop := ∃ r, m.2 = requestFrame id r

theorem reply_not_own {id i : Byte} {k : Nat} {reply : ServoReply} : ¬ Own id (k, replyFrame i reply) := by
  rintro ⟨r, h⟩
  obtain ⟨-, h⟩ := frame_inj h
  obtain ⟨t, h1⟩ := codeStuff_cons 0x55#8 (reply.error :: reply.data)
  obtain ⟨t', h2⟩ := codeStuff_cons r.number r.parameters
  rw [h1, show r.body = r.number :: r.parameters from rfl, h2] at h
  exact request_number_ne r (List.cons.inj h).1.symm

theorem other_not_own {id i : Byte} {k : Nat} {r : Request} (h : i ≠ id) : ¬ Own id (k, requestFrame i r) := by
  rintro ⟨r', h'⟩
  exact h (frame_inj h').1

/-! ## What the thread sees, with the messages -/

/-- What a thread sees of the line, where the bytes that are read are whole messages. -/
inductive Event' where
  | got (ms : List Msg)
  | failed (e : IoErr)
  | wrote (data : List Byte)

/-- Without the messages. -/
def Event'.plain : Event' → Seen
  | .got ms => .got (bytes ms)
  | .failed e => .failed e
  | .wrote data => .wrote data

/-- The messages that were read. -/
def heard (h : List Event') : List Msg :=
  h.flatMap fun e => match e with
    | .got ms => ms
    | _ => []

theorem heard_append (a b : List Event') : heard (a ++ b) = heard a ++ heard b := by simp [heard]

/-- The motor as a memory with a list of messages that it has received and not looked at. -/
inductive Mot (id : Byte) (st₀ : Servo × List Msg) : List Event' → Servo × List Msg → Prop
  | nil : Mot id st₀ [] st₀
  | get {h : List Event'} {s : Servo} {p ms : List Msg} : Mot id st₀ h (s, p) → Mot id st₀ (h ++ [.got ms]) (s, p ++ ms)
  | late {h : List Event'} {st : Servo × List Msg} {e : IoErr} : Mot id st₀ h st → Mot id st₀ (h ++ [.failed e]) st
  | skip {h : List Event'} {s : Servo} {m : Msg} {p : List Msg} : Mot id st₀ h (s, m :: p) → ¬ Own id m → Mot id st₀ h (s, p)
  | answer {h : List Event'} {s s' : Servo} {m : Msg} {p : List Msg} {r : Request} {reply : ServoReply} :
      Mot id st₀ h (s, m :: p) → m.2 = requestFrame id r → Survives r.body → s.serve r = some (s', reply) →
      (replyFrame id reply).length ≤ 128 → Mot id st₀ (h ++ [.wrote (replyFrame id reply)]) (s', [])

theorem Mot.trans {id : Byte} {a b c : Servo × List Msg} {h h' : List Event'} (h1 : Mot id a h b) (h2 : Mot id b h' c) :
    Mot id a (h ++ h') c := by
  induction h2 with
  | nil => rw [List.append_nil]; exact h1
  | get _ ih => rw [← List.append_assoc]; exact .get ih
  | late _ ih => rw [← List.append_assoc]; exact .late ih
  | skip _ hn ih => exact .skip ih hn
  | answer _ k1 k2 k3 k4 ih => rw [← List.append_assoc]; exact .answer ih k1 k2 k3 k4

/-- The thread only reads. -/
def Quiet (h : List Event') : Prop := ∀ data, Event'.wrote data ∉ h

theorem Mot.hears {id : Byte} {s : Servo} {p : List Msg} {h : List Event'} (hq : Quiet h) :
    Mot id (s, p) h (s, p ++ heard h) := by
  have key : ∀ (h' : List Event') (h : List Event'), Quiet h' → Mot id (s, p) h (s, p ++ heard h) →
      Mot id (s, p) (h ++ h') (s, p ++ heard (h ++ h')) := by
    intro h'
    induction h' with
    | nil => intro h _ hm; simpa using hm
    | cons e h' ih =>
      intro h hq hm
      have := ih (h ++ [e]) (fun d hd => hq d (by simp [hd])) (by
        rw [heard_append, ← List.append_assoc]
        cases e with
        | got ms => simpa [heard] using Mot.get (ms := ms) hm
        | failed e => simpa [heard] using Mot.late (e := e) hm
        | wrote d => exact absurd (by simp) (hq d))
      simpa using this
  simpa using key h [] hq (by simpa [heard] using Mot.nil)

theorem Mot.skips {id : Byte} {st₀ : Servo × List Msg} {h : List Event'} {s : Servo} {l p : List Msg}
    (hm : Mot id st₀ h (s, l ++ p)) (hl : ∀ m ∈ l, ¬ Own id m) : Mot id st₀ h (s, p) := by
  induction l with
  | nil => exact hm
  | cons m l ih => exact ih (.skip hm (hl m (by simp))) fun x hx => hl x (by simp [hx])

/-! ## Reading whole messages -/

theorem bytes_append' (a b : List Msg) : bytes (a ++ b) = bytes a ++ bytes b := by simp [bytes]

theorem good_parse {R : Byte → Request → Prop} {m : Msg} (h : GoodOf R m.2) (rest : List Msg) :
    parse 128 (bytes (m :: rest)) = .packet m.2 (bytes rest) := by
  have key : ∀ (id : Byte) (wire : List Byte), (frame id wire).length ≤ 128 → m.2 = frame id wire →
      parse 128 (bytes (m :: rest)) = .packet m.2 (bytes rest) := by
    intro id wire hl he
    have := Bus.frame_length id wire
    have hp := parse_good_frame (g := []) (rest := bytes rest) id (by simp [header]) (by omega) hl
    rw [he]
    simpa [bytes, he] using hp
  generalize m.2 = f at h key ⊢
  cases h with
  | request _ _ hl => exact key _ _ hl rfl
  | reply _ hl => exact key _ _ hl rfl

theorem messages_parse {R : Byte → Request → Prop} {q : List Msg} (h : ∀ m ∈ q, GoodOf R m.2) :
    (q = [] ∧ parse 128 (bytes q) = .more ∧ skip (bytes q) = []) ∨
      ∃ m rest, q = m :: rest ∧ parse 128 (bytes q) = .packet m.2 (bytes rest) := by
  cases q with
  | nil => exact .inl ⟨rfl, parse_garbage (g := []) (by simp [header]) 128, rfl⟩
  | cons m rest => exact .inr ⟨m, rest, rfl, good_parse (h m (by simp)) rest⟩

theorem heard_gots {h : List Event'} {gs : List (List Byte)} (he : h.map Event'.plain = gs.map .got) :
    bytes (heard h) = gs.flatten := by
  induction h generalizing gs with
  | nil => cases gs <;> simp_all [heard, bytes]
  | cons e h ih =>
    cases gs with
    | nil => simp at he
    | cons g gs =>
      simp only [List.map_cons, List.cons.injEq] at he
      cases e with
      | got ms =>
        have h1 : bytes ms = g := by simpa [Event'.plain] using he.1
        have : heard (.got ms :: h) = ms ++ heard h := rfl
        rw [this, bytes_append', ih he.2, h1]
        rfl
      | failed e => simp [Event'.plain] at he
      | wrote d => simp [Event'.plain] at he

/-- A status packet. -/
def IsReply (m : Msg) : Prop := ∃ id reply, m.2 = replyFrame id reply

theorem IsReply.not_own {m : Msg} (h : IsReply m) (id : Byte) : ¬ Own id m := by
  obtain ⟨i, reply, h⟩ := h
  rintro ⟨r, h'⟩
  exact reply_not_own (k := 0) (id := id) (i := i) (reply := reply) ⟨r, h ▸ h'⟩

/-- What the device makes of the messages `q`, when `es` is what it sees of the line. -/
inductive Picks (R : Byte → Request → Prop) (q : List Msg) (es : List Seen) : Bus × Outcome ReadError InstructionPacket → Prop
  | request {statuses rest : List Msg} {m : Msg} {to : Byte} {r : Request} {c : Bus} {pkt : Packet} (hq : q = statuses ++ m :: rest)
      (hst : ∀ m ∈ statuses, IsReply m) (hm : m.2 = requestFrame to r) (hr : R to r) (hs : Survives r.body)
      (hc : Carries pkt to r.number r.parameters) (hp : c.pending = bytes rest) : Picks R q es (c, .ok ⟨pkt⟩)
  | ended {c : Bus} {e : IoErr} (hst : ∀ m ∈ q, IsReply m) (hp : c.pending = []) (he : Seen.failed e ∈ es) :
      Picks R q es (c, .err (.io e))
  | hangs {c : Bus} : Picks R q es (c, .hang)

theorem Picks.cons {R : Byte → Request → Prop} {q : List Msg} {m : Msg} {es : List Seen} {x : Bus × Outcome ReadError InstructionPacket}
    (h : Picks R q es x) (hm : IsReply m) (es' : List Seen) : Picks R (m :: q) (es' ++ es) x := by
  cases h with
  | @request statuses rest m' to r c pkt hq hst k1 k2 k3 k4 k5 =>
    refine .request (statuses := m :: statuses) (rest := rest) (by rw [hq]; rfl) (fun x hx => ?_) k1 k2 k3 k4 k5
    rcases List.mem_cons.mp hx with rfl | hx
    · exact hm
    · exact hst x hx
  | ended hst hp he =>
    refine .ended (fun x hx => ?_) hp (List.mem_append_right _ he)
    rcases List.mem_cons.mp hx with rfl | hx
    · exact hm
    · exact hst x hx
  | hangs => exact .hangs

theorem readRawLoop_picks {R : Byte → Request → Prop} (D : Nat) : ∀ (fuel : Nat) (b : Bus) (p : List Msg) (es : List Seen) (h : List Event'), b.Inv →
    b.readBuffer.length = 128 → b.pending = bytes p → (∀ m ∈ p ++ heard h, GoodOf R m.2) →
    Saw b.serialPort es (Device.readRawLoop D fuel b).1.serialPort → h.map Event'.plain = es →
    Picks R (p ++ heard h) es (Device.readRawLoop D fuel b) := by
  intro fuel
  induction fuel with
  | zero => intro b p es h _ _ _ _ _ _; exact .hangs
  | succ fuel ih =>
    intro b p es h hb hN hp hg hsaw he
    obtain ⟨es₁, es₂, rfl, hsaw₁, hsaw₂⟩ := WatchedOn.split (Bus.readPacketDeadline_watched D) (fun pkt => by
      refine .bind (.lift _) fun o => ?_
      cases o with
      | some i => exact .pure _
      | none => exact Device.readRawLoop_watched D fuel) hb hsaw
    change Saw _ es₂ (Device.readRawLoop D (fuel + 1) b).1.serialPort at hsaw₂
    obtain ⟨h₁, h₂, rfl, he₁, he₂⟩ := List.map_eq_append_iff.mp he
    obtain ⟨es₃, hsaw₃, hsees⟩ := Bus.readPacketDeadline_sees D hb.rInv (by omega : 10 ≤ b.readBuffer.length)
    obtain rfl := saw_unique hsaw₁ hsaw₃
    have hsound := Bus.readPacketDeadline_sound D b hb
    rcases e : Bus.readPacketDeadline D b with ⟨c, o⟩
    rw [e] at hsaw₂ hsees hsound
    dsimp only at hsaw₂ hsound
    have hsucc := readRawLoop_succ (fuel := fuel) e
    have stop : (Device.readRawLoop D (fuel + 1) b).1 = c → h₂ = [] := by
      intro k
      rw [k] at hsaw₂
      rw [saw_unique hsaw₂ (.nil _)] at he₂
      exact List.map_eq_nil_iff.mp he₂
    have hg₁ : ∀ m ∈ p ++ heard h₁, GoodOf R m.2 := fun m hm => hg m (by
      rw [heard_append, ← List.append_assoc]; exact List.mem_append_left _ hm)
    rw [heard_append, ← List.append_assoc] at hg ⊢
    cases hsees with
    | @packet gs f rest c' hp' hr hc hs =>
      rw [hN, hp, ← heard_gots he₁, ← bytes_append'] at hp'
      rcases messages_parse hg₁ with ⟨-, hm, -⟩ | ⟨m, q, hq, hm⟩
      · rw [hm] at hp'; cases hp'
      rw [hm] at hp'
      obtain ⟨rfl, rfl⟩ : m.2 = f ∧ bytes q = rest := by injection hp' with a b; exact ⟨a, b⟩
      rw [hq]
      have hgm := hg₁ m (by rw [hq]; simp)
      obtain ⟨k, f⟩ := m
      dsimp only at hgm hm hsucc ⊢
      cases hgm with
      | @request to r h1 h3 h4 =>
        obtain ⟨pkt, h5, h6⟩ := frameOutcome_carries (id := to) (survives_unstuffs (stuffedForm_codeStuff r.body) h3)
        have h7 := hsucc.2.1 pkt to r.number r.parameters h5 h6 (request_number_ne r)
        rw [h7] at stop ⊢
        obtain rfl := stop rfl
        exact .request (statuses := []) (m := (k, requestFrame to r)) (rest := q) (by simp [heard]) (by simp) rfl h1 h3 h6 hc
      | @reply id reply h1 h2 =>
        obtain ⟨pkt, h5, h6⟩ := frameOutcome_carries (id := id) (survives_unstuffs (stuffedForm_codeStuff _) h1)
        have h7 := hsucc.1 pkt id _ h5 h6
        rw [h7] at hsaw₂ ⊢
        refine .cons (ih c q es₂ h₂ hsound.inv (hs.trans hN) hc (fun x hx => hg x ?_) hsaw₂ he₂) ⟨_, _, rfl⟩ _
        rw [hq, List.cons_append]
        exact List.mem_cons_of_mem _ hx
    | @tooBig gs req rest c' hp' =>
      rw [hN, hp, ← heard_gots he₁, ← bytes_append'] at hp'
      rcases messages_parse hg₁ with ⟨-, hm, -⟩ | ⟨m, q, hq, hm⟩ <;> rw [hm] at hp' <;> cases hp'
    | @ended gs e' c' hp' hr hc hs =>
      obtain ⟨h₁, h₃, rfl, he₁, he₃⟩ := List.map_eq_append_iff.mp he₁
      have hh : heard h₃ = [] := by
        obtain ⟨a, t, rfl, h1, h2⟩ := List.map_eq_cons_iff.mp he₃
        obtain rfl := List.map_eq_nil_iff.mp h2
        cases a <;> simp [Event'.plain] at h1
        rfl
      have h7 := hsucc.2.2.1 _ rfl
      rw [h7] at stop ⊢
      obtain rfl := stop rfl
      rw [heard_append, hh, List.append_nil] at hg₁ ⊢
      simp only [heard, List.flatMap_nil, List.append_nil]
      change Picks R (p ++ heard h₁) _ _
      rw [hN, hp, ← heard_gots he₁, ← bytes_append'] at hp'
      rw [hp, ← heard_gots he₁, ← bytes_append'] at hc
      rcases messages_parse hg₁ with ⟨hq, -, hm⟩ | ⟨m, q, hq, hm⟩
      · rw [hm] at hc
        exact .ended (by simp [hq]) hc (by simp)
      · rw [hm] at hp'; cases hp'

/-! ## Answering -/

/-- What a motor does to send a packet, whatever the port does: nothing, because it fails before; or it asks for one write. -/
def Answering {ε : Type} (d : MockDevice) (f : List Byte) (s' : Servo) (x : MockDevice × Outcome ε Unit) : Prop :=
  (Saw d.device.serialPort [] x.1.device.serialPort ∧ x.2 ≠ .ok ()) ∨
    (Saw d.device.serialPort [.wrote f] x.1.device.serialPort ∧ f.length ≤ d.device.writeBuffer.length ∧
      (x.2 = .ok () → x.1.id = d.id ∧ servo x.1 = s' ∧ x.1.device.pending = []))

theorem mock_sends {ε : Type} {d : MockDevice} {e : Byte} {n : Nat} {enc : Encoder} {params : List Byte} (hd : d.device.Inv)
    (he : Fills enc.run n params) :
    Answering d (replyFrame d.id ⟨e, params⟩) (servo d)
      ((MockDevice.assertOk (MockDevice.onDevice (Device.writeStatus d.id e n enc)) : SO MockDevice ε Unit) d) := by
  have hw := Bus.writePacket_saw (b := d.device) d.id 0x55#8 hd.wInv (statusEncoder_fills (error := e) he)
  have hx : Device.writeStatus d.id e n enc d.device =
      Bus.writePacket d.id 0x55#8 (n + 1) (Bus.statusEncoder e enc) d.device := writeStatus_eq _ _ _ _ _
  rcases h : Bus.writePacket d.id 0x55#8 (n + 1) (Bus.statusEncoder e enc) d.device with ⟨c, o⟩
  rw [h] at hw hx
  have hy : (MockDevice.onDevice (Device.writeStatus d.id e n enc) : SO MockDevice _ Unit) d = ({ d with device := c }, o) :=
    onDevice_apply hx
  have hz : ∃ o', (MockDevice.assertOk (MockDevice.onDevice (Device.writeStatus d.id e n enc)) : SO MockDevice ε Unit) d =
      ({ d with device := c }, o') ∧ (o' = .ok () ↔ o = .ok ()) := by
    unfold MockDevice.assertOk
    rw [SO.bind_def]
    unfold SO.attempt
    rw [hy]
    cases o with
    | ok u => exact ⟨_, rfl, by simp⟩
    | err e => exact ⟨_, rfl, by simp⟩
    | panic => exact ⟨_, rfl, by simp⟩
    | hang => exact ⟨_, rfl, by simp⟩
  obtain ⟨o', hz, ho⟩ := hz
  rw [hz]
  rcases hw with ⟨h1, h2⟩ | ⟨h1, h2, h3, h4⟩
  · exact .inl ⟨h1, fun k => h2 (ho.mp k)⟩
  · refine .inr ⟨h1, h2, fun _ => ⟨rfl, rfl, ?_⟩⟩
    dsimp only at h3 h4 ⊢
    simp [Bus.pending, h3, h4]

/-- What the motor does with an instruction that it has received, whatever the port does. -/
theorem mock_answers {ε : Type} {d : MockDevice} (fuel : Nat) {r : Request} {s' : Servo} {reply : ServoReply} (hd : d.device.Inv)
    (hs : (servo d).serve r = some (s', reply)) :
    Answering d (replyFrame d.id reply) s' ((MockDevice.handle fuel (decoded r) : SO MockDevice ε Unit) d) := by
  have put : ∀ (d : MockDevice) (a : U16) (bytes : List Byte) (s' : Servo) (reply : ServoReply), d.device.Inv →
      (servo d).put a bytes = (s', reply) →
      Answering d (replyFrame d.id reply) s' ((MockDevice.writeAndAnswer a bytes : SO MockDevice ε Unit) d) := by
    intro d a bytes s' reply hd hs
    have ht : (MockDevice.onTable (ControlTable.write a bytes) : SO MockDevice ε Bool) d =
        ({ d with controlTable := (store d.controlTable a.toNat bytes).getD d.controlTable },
          .ok (store d.controlTable a.toNat bytes).isSome) := by
      unfold MockDevice.onTable
      rw [SO.zoom_apply, controlTable_write]
    unfold MockDevice.writeAndAnswer
    rw [SO.get_bind, SO.bind_ok ht]
    unfold Servo.put at hs
    cases hst : store d.controlTable a.toNat bytes with
    | some m =>
      simp only [Option.isSome_some, if_true, Option.getD_some]
      rw [show (servo d).memory = d.controlTable from rfl, hst] at hs
      obtain ⟨rfl, rfl⟩ := Prod.mk.inj hs
      exact mock_sends (ε := ε) (d := { d with controlTable := m }) (e := 0#8) hd Client.nothing_fills
    | none =>
      simp only [Option.isSome_none, Bool.false_eq_true, if_false, Option.getD_none]
      rw [show (servo d).memory = d.controlTable from rfl, hst] at hs
      obtain ⟨rfl, rfl⟩ := Prod.mk.inj hs
      exact mock_sends (ε := ε) (d := d) (e := 7#8) hd Client.nothing_fills
  cases r with
  | ping =>
    rw [show decoded .ping = .ping from rfl, MockDevice.handle, SO.get_bind]
    obtain ⟨rfl, rfl⟩ := Prod.mk.inj (Option.some.inj hs)
    exact mock_sends (ε := ε) (d := d) (e := 0#8) hd pingEncoder_fills
  | read a n =>
    rw [show decoded (.read a n) = .read a n from rfl, MockDevice.handle]
    unfold MockDevice.reply
    rw [SO.get_bind, controlTable_read, SO.lift_ok_bind]
    obtain ⟨rfl, hg⟩ := Prod.mk.inj (Option.some.inj hs)
    clear hs
    change (match load d.controlTable a.toNat n.toNat with
      | some data => (⟨0#8, data⟩ : ServoReply)
      | none => Servo.outside) = _ at hg
    cases hl : load d.controlTable a.toNat n.toNat with
    | some data =>
      rw [hl] at hg
      subst hg
      have hlen : data.length = n.toNat := by
        unfold load at hl
        split at hl
        · cases hl; simp
        · cases hl
      have hf : Fills (MockDevice.dataEncoder data).run n.toNat data := hlen ▸ fills_copyFromSlice data
      exact mock_sends (ε := ε) (d := d) (e := 0#8) hd hf
    | none =>
      rw [hl] at hg
      subst hg
      exact mock_sends (ε := ε) (d := d) (e := 7#8) hd Client.nothing_fills
  | write a data =>
    rw [show decoded (.write a data) = .write a data from rfl, MockDevice.handle]
    exact put d a data s' reply hd (Option.some.inj hs)
  | regWrite a data =>
    rw [show decoded (.regWrite a data) = .regWrite a data from rfl, MockDevice.handle, SO.modify_bind, SO.get_bind]
    obtain ⟨rfl, rfl⟩ := Prod.mk.inj (Option.some.inj hs)
    exact mock_sends (ε := ε) (d := { d with actionRegister := some (a, data) }) (e := 0#8) hd Client.nothing_fills
  | action =>
    rw [show decoded .action = .action from rfl, MockDevice.handle, SO.get_bind]
    change (match d.actionRegister with
      | some (address, data) => some (Servo.put { servo d with registered := none } address data)
      | none => some (servo d, Servo.outside)) = _ at hs
    rcases hr : d.actionRegister with _ | ⟨a, data⟩
    · rw [hr] at hs
      obtain ⟨rfl, rfl⟩ := Prod.mk.inj (Option.some.inj hs)
      exact mock_sends (ε := ε) (d := d) (e := 7#8) hd Client.nothing_fills
    · rw [hr] at hs
      exact put { d with actionRegister := none } a data s' reply hd (Option.some.inj hs)
  | _ => cases hs

/-! ## The whole thread -/

theorem prefix_split {α : Type} {h a b : List α} (hp : h <+: a ++ b) : h <+: a ∨ ∃ h', h = a ++ h' ∧ h' <+: b := by
  obtain ⟨t, ht⟩ := hp
  rcases List.append_eq_append_iff.mp ht with ⟨x, h1, h2⟩ | ⟨x, h1, h2⟩
  · exact .inl ⟨x, h1.symm⟩
  · exact .inr ⟨x, h1, t, h2.symm⟩

theorem quiet_of {b c : Bus} {es : List Seen} {h : List Event'} (hs : Saw b.serialPort es c.serialPort) (hr : ReadsOnly b c)
    (hp : h.map Event'.plain <+: es) : Quiet h := by
  intro data hd
  exact saw_quiet hs hr data (hp.subset (List.mem_map.mpr ⟨_, hd, rfl⟩))

theorem attempt_fst {σ ε ε' α : Type} (m : SO σ ε α) (s : σ) : ((m.attempt : SO σ ε' (Except ε α)) s).1 = (m s).1 := by
  unfold SO.attempt
  rcases m s with ⟨s', o⟩
  cases o <;> rfl

theorem read_fst (t : Nat) (b : Bus) : (Device.read t b).1 =
    (Device.readRawLoop (b.serialPort.now + t) (b.readLen + b.serialPort.measure + 1) b).1 := by
  unfold Device.read
  rw [SO.bind_def, readRaw_eq]
  rcases Device.readRawLoop _ _ b with ⟨c, o⟩
  cases o <;> rfl

/-- One turn of the loop, after the read. -/
theorem step_read {d : MockDevice} (fuel : Nat) {c : Bus} {o : Outcome ReadError InstructionPacket}
    (h : Device.readRawLoop (d.device.serialPort.now + MockDevice.timeout)
      (d.device.readLen + d.device.serialPort.measure + 1) d.device = (c, o)) :
    (∀ e, o = .err (.io e) → ∃ o', (MockDevice.step fuel : SO MockDevice Empty Unit) d = ({ d with device := c }, o')) ∧
    (o = .hang → (MockDevice.step fuel : SO MockDevice Empty Unit) d = ({ d with device := c }, .hang)) ∧
    (∀ pkt to r, o = .ok ⟨pkt⟩ → Carries pkt to (Request.number r) r.parameters →
      (MockDevice.step fuel : SO MockDevice Empty Unit) d =
        (if to ≠ d.id ∧ to ≠ 254#8 then pure () else MockDevice.handle fuel (decoded r) : SO MockDevice Empty Unit)
          { d with device := c }) := by
  have hread : Device.read MockDevice.timeout d.device =
      (SO.lift o >>= fun packet => SO.lift ((Device.toInstruction packet).mapErr .invalidMessage) : SO Bus ReadError Instruction) c := by
    unfold Device.read
    rw [SO.bind_def, readRaw_eq, h]
    cases o <;> rfl
  refine ⟨?_, ?_, ?_⟩
  · rintro e rfl
    have : (MockDevice.onDevice (Device.read MockDevice.timeout)) d = ({ d with device := c }, .err (.io e)) := onDevice_apply hread
    unfold MockDevice.step
    rw [SO.bind_def]
    unfold SO.attempt
    rw [this]
    dsimp only
    split <;> exact ⟨_, rfl⟩
  · rintro rfl
    have : (MockDevice.onDevice (Device.read MockDevice.timeout)) d = ({ d with device := c }, .hang) := onDevice_apply hread
    unfold MockDevice.step
    rw [SO.bind_def]
    unfold SO.attempt
    rw [this]
  · rintro pkt to r rfl hc
    have hr : Device.read MockDevice.timeout d.device = (c, .ok ⟨to, decoded r⟩) := by
      rw [hread, SO.lift_ok_bind, toInstruction_carries hc, parseInstruction_request]
      rfl
    unfold MockDevice.step
    rw [SO.bind_ok (attempt_ok (onDevice_apply hr))]
    rfl

/-- The motor does what `Mot` says, as long as all it hears are whole packets. -/
theorem motor_thread {fuel : Nat} : ∀ (n : Nat) (d : MockDevice) (p : List Msg) (es : List Seen) (h : List Event'), d.device.Inv →
    d.device.readBuffer.length = 128 → d.device.writeBuffer.length = 128 → d.device.pending = bytes p →
    (∀ m ∈ p ++ heard h, Good m.2) →
    Saw d.device.serialPort es ((MockDevice.run fuel n : SO MockDevice Empty Unit) d).1.device.serialPort →
    h.map Event'.plain <+: es → ∃ st, Mot d.id (servo d, p) h st := by
  intro n
  induction n with
  | zero =>
    intro d p es h _ _ _ _ _ hsaw hh
    obtain rfl := saw_unique hsaw (.nil _)
    obtain rfl := List.map_eq_nil_iff.mp (List.prefix_nil.mp hh)
    exact ⟨_, .nil⟩
  | succ n ih =>
    intro d p es h hd hN hW hp hg hsaw hh
    obtain ⟨es₁, es₂, rfl, hs₁, hs₂⟩ := WatchedOn.split (MockDevice.step_seen fuel) (fun _ => MockDevice.run_seen fuel n) hd hsaw
    change Saw _ es₂ ((MockDevice.run fuel (n + 1) : SO MockDevice Empty Unit) d).1.device.serialPort at hs₂
    obtain ⟨e₁, e₂, rfl, ht₁, ht₂⟩ := WatchedOn.split
      (WatchedOn.attempt (MockDevice.onDevice_seen (Device.read_watched MockDevice.timeout))) (fun o => by
        split
        · split
          · exact .pure _
          · exact .panic
        · exact .panic
        · refine .bind .get fun d => ?_
          split
          · exact .pure _
          · exact MockDevice.handle_seen _ _) hd hs₁
    change Saw _ e₂ ((MockDevice.step fuel : SO MockDevice Empty Unit) d).1.device.serialPort at ht₂
    rw [attempt_fst] at ht₁ ht₂
    change Saw _ e₁ (Device.read MockDevice.timeout d.device).1.serialPort at ht₁
    change Saw (Device.read MockDevice.timeout d.device).1.serialPort e₂ _ at ht₂
    have hjust := Device.read_just MockDevice.timeout d.device
    have hsound := Device.read_sound MockDevice.timeout d.device hd
    have hstep := (MockDevice.step_seen (ε := Empty) fuel d hd).1
    dsimp only at hjust hsound
    rw [List.append_assoc] at hh
    -- the thread is still reading
    rcases prefix_split hh with hh | ⟨h', hh', hhh⟩
    · exact ⟨_, Mot.hears (quiet_of ht₁ hjust hh)⟩
    replace hh := hhh
    clear hhh
    obtain ⟨h₁, h₂, rfl, he₁, he₂⟩ := List.map_eq_append_iff.mp hh'
    have hm₁ : Mot d.id (servo d, p) h₁ (servo d, p ++ heard h₁) :=
      Mot.hears (quiet_of ht₁ hjust (by rw [he₁]; exact List.prefix_refl _))
    rw [heard_append, ← List.append_assoc] at hg
    rw [read_fst] at ht₁ ht₂ hsound
    have hpicks := readRawLoop_picks _ _ d.device p e₁ h₁ hd hN hp (fun m hm => hg m (List.mem_append_left _ hm)) ht₁ he₁
    -- the thread has ended
    have stop : ∀ {d' : MockDevice} {o : Outcome Empty Unit}, (MockDevice.step fuel : SO MockDevice Empty Unit) d = (d', o) →
        o ≠ .ok () → es₂ = [] := by
      intro d' o k ho
      refine saw_unique hs₂ ?_
      have : ((MockDevice.run fuel (n + 1) : SO MockDevice Empty Unit) d).1 = d' := by
        rw [MockDevice.run, SO.bind_def, k]
        cases o with
        | ok u => exact absurd rfl ho
        | _ => rfl
      rw [this, k]
      exact .nil _
    -- or goes on
    have go : ∀ {d' : MockDevice}, (MockDevice.step fuel : SO MockDevice Empty Unit) d = (d', .ok ()) →
        ∀ (p' : List Msg) (h'' : List Event'), d'.device.pending = bytes p' → (∀ m ∈ p' ++ heard h'', Good m.2) →
          h''.map Event'.plain <+: es₂ → ∃ st, Mot d'.id (servo d', p') h'' st := by
      intro d' k p' h'' hp' hg' hh'
      have : (MockDevice.run fuel (n + 1) : SO MockDevice Empty Unit) d = (MockDevice.run fuel n : SO MockDevice Empty Unit) d' := by
        rw [MockDevice.run, SO.bind_ok k]
      rw [this, k] at hs₂
      rw [k] at hstep
      exact ih d' p' es₂ h'' hstep.inv (hstep.readSize.trans hN) (hstep.writeSize.trans hW) hp' hg' hs₂ hh'
    rcases hx : Device.readRawLoop (d.device.serialPort.now + MockDevice.timeout)
      (d.device.readLen + d.device.serialPort.measure + 1) d.device with ⟨c, o⟩
    have hread := step_read fuel hx
    rw [hx] at hpicks ht₂
    dsimp only at ht₂
    have quietly : ∀ {d' : MockDevice} {o' : Outcome Empty Unit}, (MockDevice.step fuel : SO MockDevice Empty Unit) d = (d', o') →
        d'.device = c → e₂ = [] := by
      intro d' o' k hc
      rw [k] at ht₂
      exact saw_unique ht₂ (by rw [hc]; exact .nil _)
    cases hpicks with
    | hangs =>
      have k := hread.2.1 rfl
      rw [quietly k rfl, stop k (by simp), List.append_nil, List.prefix_nil, ← he₂, List.map_eq_nil_iff] at hh
      subst hh
      exact ⟨_, by simpa using hm₁⟩
    | @ended _ e hst hpend =>
      obtain ⟨o', k⟩ := hread.1 e rfl
      rw [quietly k rfl, List.nil_append] at hh
      have hm₂ : Mot d.id (servo d, p) h₁ (servo d, []) :=
        Mot.skips (p := []) (by simpa using hm₁) fun m hm => (hst m hm).not_own _
      by_cases ho : o' = .ok ()
      · subst ho
        obtain ⟨st, hm₃⟩ := go k [] h₂ hpend (fun m hm => hg m (List.mem_append_right _ hm)) (he₂ ▸ hh)
        exact ⟨st, hm₂.trans hm₃⟩
      · rw [stop k ho, List.prefix_nil, ← he₂, List.map_eq_nil_iff] at hh
        subst hh
        exact ⟨_, by simpa using hm₂⟩
    | @request statuses rest m to r _ pkt hq hst hm hrto hsv hc hpend =>
      obtain ⟨hr, hto⟩ := hrto
      have k := hread.2.2 pkt to r rfl hc
      rw [hq] at hm₁
      have hm₂ := Mot.skips hm₁ fun m hm => (hst m hm).not_own _
      by_cases hid : to = d.id
      · subst hid
        rw [if_neg (by simp)] at k
        obtain ⟨s', reply, hserve⟩ := hr (servo d)
        have hans := mock_answers (ε := Empty) (d := { d with device := c }) fuel (by rw [hx] at hsound; exact hsound.inv) hserve
        rw [← k] at hans
        rcases hy : (MockDevice.step fuel : SO MockDevice Empty Unit) d with ⟨d', o'⟩
        rw [hy] at hans ht₂
        rcases hans with ⟨h1, h2⟩ | ⟨h1, h2, h3⟩
        · dsimp only at h1 h2 ht₂
          rw [saw_unique ht₂ h1, stop hy h2, List.append_nil, List.prefix_nil, ← he₂, List.map_eq_nil_iff] at hh
          subst hh
          exact ⟨_, by simpa using hm₂⟩
        · dsimp only at h1 h2 h3 ht₂
          rw [saw_unique ht₂ h1, ← he₂] at hh
          have hsize : c.writeBuffer.length = 128 := by
            have := hsound.writeSize
            rw [hx] at this
            exact this.trans hW
          match h₂ with
          | [] => exact ⟨_, by simpa using hm₂⟩
          | a :: h₃ =>
            simp only [List.map_cons, List.singleton_append, List.cons_prefix_cons] at hh
            obtain ⟨ha, hh⟩ := hh
            obtain rfl : a = .wrote (replyFrame d.id reply) := by
              cases a <;> simp [Event'.plain] at ha
              rw [ha]
            have hm₃ := Mot.answer hm₂ hm hsv hserve (by rw [← hsize]; exact h2)
            by_cases ho : o' = .ok ()
            · subst ho
              obtain ⟨h4, h5, h6⟩ := h3 rfl
              obtain ⟨st, hm₄⟩ := go hy [] h₃ h6 (fun x hx => hg x (List.mem_append_right _ hx)) hh
              rw [h4, h5] at hm₄
              refine ⟨st, ?_⟩
              have := hm₃.trans hm₄
              simpa using this
            · rw [stop hy ho, List.prefix_nil, List.map_eq_nil_iff] at hh
              subst hh
              exact ⟨_, hm₃⟩
      · rw [if_pos ⟨hid, hto⟩] at k
        change _ = ({ d with device := c }, Outcome.ok ()) at k
        rw [quietly k rfl, List.nil_append] at hh
        have hm₃ := Mot.skip hm₂ (by
          rintro ⟨r', h'⟩
          rw [hm] at h'
          exact hid (frame_inj h').1)
        obtain ⟨st, hm₄⟩ := go k rest h₂ hpend (fun x hx => hg x (by
          rw [hq, List.append_assoc, List.cons_append]
          exact List.mem_append_right _ (List.mem_cons_of_mem _ hx))) (he₂ ▸ hh)
        exact ⟨st, hm₃.trans hm₄⟩

end Dxl.Props
