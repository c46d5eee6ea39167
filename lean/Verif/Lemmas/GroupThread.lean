import Verif.Lemmas.Conversation
import Verif.Props.MockGroup

/-! # The thread of a simulated motor, with an instruction for several motors -/

namespace Dxl.Props
open Dxl Spec Spec.Line

/-- This instruction, for all motors. -/
def ForAll (r₀ : Request) (to : Byte) (r : Request) : Prop := to = 254#8 ∧ r = r₀

/-- The motor as a list of messages that it has received and not looked at: it can answer to this instruction. -/
inductive Roll (W : List Byte) (id : Byte) (ans : Option ServoReply) (p₀ : List Msg) : List Event' → List Msg → Prop
  | nil : Roll W id ans p₀ [] p₀
  | get {h : List Event'} {p ms : List Msg} : Roll W id ans p₀ h p → Roll W id ans p₀ (h ++ [.got ms]) (p ++ ms)
  | late {h : List Event'} {p : List Msg} {e : IoErr} : Roll W id ans p₀ h p → Roll W id ans p₀ (h ++ [.failed e]) p
  | skip {h : List Event'} {m : Msg} {p : List Msg} : Roll W id ans p₀ h (m :: p) → Roll W id ans p₀ h p
  | answer {h : List Event'} {m : Msg} {p : List Msg} {reply : ServoReply} :
      Roll W id ans p₀ h (m :: p) → m.2 = W → ans = some reply → (replyFrame id reply).length ≤ 128 →
      Roll W id ans p₀ (h ++ [.wrote (replyFrame id reply)]) []

namespace Roll
variable {W : List Byte} {id : Byte} {ans : Option ServoReply} {p : List Msg}

theorem trans {a b c : List Msg} {h h' : List Event'} (h1 : Roll W id ans a h b) (h2 : Roll W id ans b h' c) :
    Roll W id ans a (h ++ h') c := by
  induction h2 with
  | nil => rw [List.append_nil]; exact h1
  | get _ ih => rw [← List.append_assoc]; exact .get ih
  | late _ ih => rw [← List.append_assoc]; exact .late ih
  | skip _ ih => exact .skip ih
  | answer _ k1 k2 k3 ih => rw [← List.append_assoc]; exact .answer ih k1 k2 k3

theorem hears {h : List Event'} (hq : Quiet h) : Roll W id ans p h (p ++ heard h) := by
  have key : ∀ (h' : List Event') (h : List Event'), Quiet h' → Roll W id ans p h (p ++ heard h) →
      Roll W id ans p (h ++ h') (p ++ heard (h ++ h')) := by
    intro h'
    induction h' with
    | nil => intro h _ hm; simpa using hm
    | cons e h' ih =>
      intro h hq hm
      have := ih (h ++ [e]) (fun d hd => hq d (by simp [hd])) (by
        rw [heard_append, ← List.append_assoc]
        cases e with
        | got ms => simpa [heard] using Roll.get (ms := ms) hm
        | failed e => simpa [heard] using Roll.late (e := e) hm
        | wrote d => exact absurd (by simp) (hq d))
      simpa using this
  simpa using key h [] hq (by simpa [heard] using Roll.nil)

theorem skips {p₀ : List Msg} {h : List Event'} {l p : List Msg} (hm : Roll W id ans p₀ h (l ++ p)) : Roll W id ans p₀ h p := by
  induction l with
  | nil => exact hm
  | cons m l ih => exact ih (.skip hm)

/-- How many packets were written. -/
def sent (h : List Event') : Nat := h.countP fun e => match e with
  | .wrote _ => true
  | _ => false

/-- How many of the messages are this packet. -/
def times (W : List Byte) (ms : List Msg) : Nat := ms.countP fun m => m.2 == W

theorem sent_le {p₀ p : List Msg} {h : List Event'} (hr : Roll W id ans p₀ h p) :
    sent h + times W p ≤ times W p₀ + times W (heard h) := by
  induction hr with
  | nil => simp [sent, heard, times]
  | get _ ih => simp only [sent, times, heard_append, List.countP_append] at ih ⊢; simp [heard] at ih ⊢; omega
  | late _ ih => simp only [sent, times, heard_append, List.countP_append] at ih ⊢; simp [heard] at ih ⊢; omega
  | skip _ ih =>
    refine Nat.le_trans ?_ ih
    simp only [times, List.countP_cons]
    omega
  | answer _ h1 _ _ ih =>
    simp only [sent, times, heard_append, List.countP_append, List.countP_cons, h1, beq_self_eq_true, if_true] at ih ⊢
    simp [heard] at ih ⊢
    omega

theorem wrote {p₀ p : List Msg} {h : List Event'} (hr : Roll W id ans p₀ h p) {data : List Byte} (hd : Event'.wrote data ∈ h) :
    ∃ reply, ans = some reply ∧ data = replyFrame id reply ∧ (replyFrame id reply).length ≤ 128 := by
  induction hr with
  | nil => cases hd
  | get _ ih => exact ih (by simpa using hd)
  | late _ ih => exact ih (by simpa using hd)
  | skip _ ih => exact ih hd
  | @answer _ _ _ reply _ h1 h2 h3 ih =>
    rcases List.mem_append.mp hd with hd | hd
    · exact ih hd
    · simp only [List.mem_singleton, Event'.wrote.injEq] at hd
      exact ⟨reply, h2, hd, h3⟩

end Roll

/-! ## What a motor does with such an instruction -/

/-- The motor reads, perhaps, and leaves whole messages. -/
def Waits {ε : Type} (R : Byte → Request → Prop) (d : MockDevice) (x : MockDevice × Outcome ε Unit) : Prop :=
  ReadsOnly d.device x.1.device ∧ ∀ (p : List Msg) (es : List Seen) (h : List Event'), d.device.pending = bytes p →
    (∀ m ∈ p ++ heard h, GoodOf R m.2) → Saw d.device.serialPort es x.1.device.serialPort → h.map Event'.plain = es → x.2 = .ok () →
    x.1.id = d.id ∧ servo x.1 = servo d ∧ ∃ a q, p ++ heard h = a ++ q ∧ x.1.device.pending = bytes q

/-- What a new motor with this ID does with the instruction: it has this answer, or none. -/
def Reacts (r₀ : Request) (id : Byte) (ans : Option ServoReply) : Prop :=
  ∀ (fuel : Nat) (d : MockDevice), d.device.Inv → d.device.readBuffer.length = 128 → d.id = id → servo d = newServo →
    (∃ reply, ans = some reply ∧
      Answering d (replyFrame id reply) newServo ((MockDevice.handle fuel (decoded r₀) : SO MockDevice Empty Unit) d)) ∨
    Waits (ForAll r₀) d ((MockDevice.handle fuel (decoded r₀) : SO MockDevice Empty Unit) d)

/-- The motor does what `Roll` says, as long as all it hears are this instruction and status packets. -/
theorem group_thread {r₀ : Request} {id : Byte} {ans : Option ServoReply} (hre : Reacts r₀ id ans) {fuel : Nat} :
    ∀ (n : Nat) (d : MockDevice) (p : List Msg) (es : List Seen) (h : List Event'), d.device.Inv →
    d.device.readBuffer.length = 128 → d.device.writeBuffer.length = 128 → d.device.pending = bytes p → d.id = id → servo d = newServo →
    (∀ m ∈ p ++ heard h, GoodOf (ForAll r₀) m.2) →
    Saw d.device.serialPort es ((MockDevice.run fuel n : SO MockDevice Empty Unit) d).1.device.serialPort →
    h.map Event'.plain <+: es → ∃ st, Roll (requestFrame 254#8 r₀) id ans p h st := by
  intro n
  induction n with
  | zero =>
    intro d p es h _ _ _ _ _ _ _ hsaw hh
    obtain rfl := saw_unique hsaw (.nil _)
    obtain rfl := List.map_eq_nil_iff.mp (List.prefix_nil.mp hh)
    exact ⟨_, .nil⟩
  | succ n ih =>
    intro d p es h hd hN hW hp hdid hserv hg hsaw hh
    obtain ⟨es₁, es₂, rfl, hs₁, hs₂⟩ := WatchedOn.split (MockDevice.step_seen fuel) (fun _ => MockDevice.run_seen fuel n) hd hsaw
    change Saw _ es₂ ((MockDevice.run fuel (n + 1) : SO MockDevice Empty Unit) d).1.device.serialPort at hs₂
    obtain ⟨e₁, e₂, rfl, ht₁, ht₂⟩ := WatchedOn.split
      (WatchedOn.attempt (MockDevice.onDevice_seen (Device.read_watched MockDevice.timeout))) (fun o => by
        split
        · split
          · exact .pure _
          · exact .panic
        · exact .panic
        · refine .bind .get fun d => ?_
          split
          · exact .pure _
          · exact MockDevice.handle_seen _ _) hd hs₁
    change Saw _ e₂ ((MockDevice.step fuel : SO MockDevice Empty Unit) d).1.device.serialPort at ht₂
    rw [attempt_fst] at ht₁ ht₂
    change Saw _ e₁ (Device.read MockDevice.timeout d.device).1.serialPort at ht₁
    change Saw (Device.read MockDevice.timeout d.device).1.serialPort e₂ _ at ht₂
    have hjust := Device.read_just MockDevice.timeout d.device
    have hsound := Device.read_sound MockDevice.timeout d.device hd
    have hstep := (MockDevice.step_seen (ε := Empty) fuel d hd).1
    dsimp only at hjust hsound
    rw [List.append_assoc] at hh
    -- the thread is still reading
    rcases prefix_split hh with hh | ⟨h', hh', hhh⟩
    · exact ⟨_, Roll.hears (quiet_of ht₁ hjust hh)⟩
    replace hh := hhh
    clear hhh
    obtain ⟨h₁, h₂, rfl, he₁, he₂⟩ := List.map_eq_append_iff.mp hh'
    have hm₁ : Roll (requestFrame 254#8 r₀) id ans p h₁ (p ++ heard h₁) :=
      Roll.hears (quiet_of ht₁ hjust (by rw [he₁]; exact List.prefix_refl _))
    rw [heard_append, ← List.append_assoc] at hg
    rw [read_fst] at ht₁ ht₂ hsound
    have hpicks := readRawLoop_picks _ _ d.device p e₁ h₁ hd hN hp (fun m hm => hg m (List.mem_append_left _ hm)) ht₁ he₁
    -- the thread has ended
    have stop : ∀ {d' : MockDevice} {o : Outcome Empty Unit}, (MockDevice.step fuel : SO MockDevice Empty Unit) d = (d', o) →
        o ≠ .ok () → es₂ = [] := by
      intro d' o k ho
      refine saw_unique hs₂ ?_
      have : ((MockDevice.run fuel (n + 1) : SO MockDevice Empty Unit) d).1 = d' := by
        rw [MockDevice.run, SO.bind_def, k]
        cases o with
        | ok u => exact absurd rfl ho
        | _ => rfl
      rw [this, k]
      exact .nil _
    -- or goes on
    have go : ∀ {d' : MockDevice}, (MockDevice.step fuel : SO MockDevice Empty Unit) d = (d', .ok ()) → d'.id = id →
        servo d' = newServo → ∀ (p' : List Msg) (h'' : List Event'), d'.device.pending = bytes p' →
          (∀ m ∈ p' ++ heard h'', GoodOf (ForAll r₀) m.2) → h''.map Event'.plain <+: es₂ →
          ∃ st, Roll (requestFrame 254#8 r₀) id ans p' h'' st := by
      intro d' k hid hsv p' h'' hp' hg' hh'
      have : (MockDevice.run fuel (n + 1) : SO MockDevice Empty Unit) d = (MockDevice.run fuel n : SO MockDevice Empty Unit) d' := by
        rw [MockDevice.run, SO.bind_ok k]
      rw [this, k] at hs₂
      rw [k] at hstep
      exact ih d' p' es₂ h'' hstep.inv (hstep.readSize.trans hN) (hstep.writeSize.trans hW) hp' hid hsv hg' hs₂ hh'
    rcases hx : Device.readRawLoop (d.device.serialPort.now + MockDevice.timeout)
      (d.device.readLen + d.device.serialPort.measure + 1) d.device with ⟨c, o⟩
    have hread := step_read fuel hx
    rw [hx] at hpicks ht₂ hsound
    dsimp only at ht₂ hsound
    have quietly : ∀ {d' : MockDevice} {o' : Outcome Empty Unit}, (MockDevice.step fuel : SO MockDevice Empty Unit) d = (d', o') →
        d'.device = c → e₂ = [] := by
      intro d' o' k hc
      rw [k] at ht₂
      exact saw_unique ht₂ (by rw [hc]; exact .nil _)
    cases hpicks with
    | hangs =>
      have k := hread.2.1 rfl
      rw [quietly k rfl, stop k (by simp), List.append_nil, List.prefix_nil, ← he₂, List.map_eq_nil_iff] at hh
      subst hh
      exact ⟨_, by simpa using hm₁⟩
    | @ended _ e hst hpend =>
      obtain ⟨o', k⟩ := hread.1 e rfl
      rw [quietly k rfl, List.nil_append] at hh
      have hm₂ : Roll (requestFrame 254#8 r₀) id ans p h₁ [] := Roll.skips (p := []) (by simpa using hm₁)
      by_cases ho : o' = .ok ()
      · subst ho
        obtain ⟨st, hm₃⟩ := go k hdid hserv [] h₂ hpend (fun m hm => hg m (List.mem_append_right _ hm)) (he₂ ▸ hh)
        exact ⟨st, hm₂.trans hm₃⟩
      · rw [stop k ho, List.prefix_nil, ← he₂, List.map_eq_nil_iff] at hh
        subst hh
        exact ⟨_, by simpa using hm₂⟩
    | @request statuses rest m to r _ pkt hq hst hm hrto hsv hc hpend =>
      obtain ⟨rfl, rfl⟩ := hrto
      have k := hread.2.2 pkt 254#8 r rfl hc
      rw [if_neg (fun h => h.2 rfl)] at k
      rw [hq] at hm₁
      have hm₂ := Roll.skips hm₁
      rcases hy : (MockDevice.step fuel : SO MockDevice Empty Unit) d with ⟨d', o'⟩
      rcases hre fuel { d with device := c } hsound.inv (hsound.readSize.trans hN) hdid hserv with ⟨reply, ha, hans⟩ | ⟨hro, hwait⟩
      · rw [← k, hy] at hans
        rw [hy] at ht₂
        rcases hans with ⟨h1, h2⟩ | ⟨h1, h2, h3⟩
        · dsimp only at h1 h2 ht₂
          rw [saw_unique ht₂ h1, stop hy h2, List.append_nil, List.prefix_nil, ← he₂, List.map_eq_nil_iff] at hh
          subst hh
          exact ⟨_, by simpa using hm₂⟩
        · dsimp only at h1 h2 h3 ht₂
          rw [saw_unique ht₂ h1, ← he₂] at hh
          have hsize : c.writeBuffer.length = 128 := hsound.writeSize.trans hW
          match h₂ with
          | [] => exact ⟨_, by simpa using hm₂⟩
          | a :: h₃ =>
            simp only [List.map_cons, List.singleton_append, List.cons_prefix_cons] at hh
            obtain ⟨ha', hh⟩ := hh
            obtain rfl : a = .wrote (replyFrame id reply) := by
              cases a <;> simp [Event'.plain] at ha'
              rw [ha']
            have hm₃ := Roll.answer hm₂ hm ha (by rw [← hsize]; exact h2)
            by_cases ho : o' = .ok ()
            · subst ho
              obtain ⟨h4, h5, h6⟩ := h3 rfl
              obtain ⟨st, hm₄⟩ := go hy (h4.trans hdid) h5 [] h₃ h6 (fun x hx => hg x (List.mem_append_right _ hx)) hh
              refine ⟨st, ?_⟩
              have := hm₃.trans hm₄
              simpa using this
            · rw [stop hy ho, List.prefix_nil, List.map_eq_nil_iff] at hh
              subst hh
              exact ⟨_, hm₃⟩
      · rw [← k, hy] at hwait hro
        rw [hy] at ht₂
        dsimp only at hwait hro ht₂
        -- the thread is waiting
        rcases prefix_split hh with hh | ⟨h', hh', hhh⟩
        · have := Roll.hears (W := requestFrame 254#8 r) (id := id) (ans := ans) (p := m :: rest) (quiet_of ht₂ hro (he₂ ▸ hh))
          exact ⟨_, hm₂.trans this⟩
        rw [← he₂] at hh'
        obtain ⟨h₂, h₃, rfl, he₂, he₃⟩ := List.map_eq_append_iff.mp hh'
        have hm₃ := Roll.hears (W := requestFrame 254#8 r) (id := id) (ans := ans) (p := rest)
          (quiet_of ht₂ hro (by rw [he₂]; exact List.prefix_refl _))
        by_cases ho : o' = .ok ()
        · subst ho
          rw [heard_append, ← List.append_assoc, hq] at hg
          obtain ⟨h4, h5, a, q, h6, h7⟩ := hwait rest e₂ h₂ hpend (fun x hx => hg x (by
            rw [List.append_assoc _ (m :: rest), List.cons_append]
            exact List.mem_append_left _ (List.mem_append_right _ (List.mem_cons_of_mem _ hx)))) ht₂ he₂ rfl
          rw [h6] at hm₃
          obtain ⟨st, hm₄⟩ := go hy (h4.trans hdid) (h5.trans hserv) q h₃ h7 (fun x hx => hg x (by
            rcases List.mem_append.mp hx with hx | hx
            · have : x ∈ rest ++ heard h₂ := by rw [h6]; exact List.mem_append_right _ hx
              rw [List.append_assoc _ (m :: rest), List.cons_append]
              exact List.mem_append_left _ (List.mem_append_right _ (List.mem_cons_of_mem _ this))
            · exact List.mem_append_right _ hx)) (he₃ ▸ hhh)
          exact ⟨st, by simpa using (hm₂.skip.trans hm₃.skips).trans hm₄⟩
        · rw [stop hy ho, List.prefix_nil, ← he₃, List.map_eq_nil_iff] at hhh
          subst hhh
          exact ⟨_, by simpa using hm₂.skip.trans hm₃⟩

/-! ## The instructions for several motors -/

theorem read_eq {b c : Bus} {t : Nat} {o : Outcome ReadError InstructionPacket}
    (h : Device.readRawLoop (b.serialPort.now + t) (b.readLen + b.serialPort.measure + 1) b = (c, o)) :
    Device.read t b = (c, o.bind fun packet => (Device.toInstruction packet).mapErr .invalidMessage) := by
  unfold Device.read
  rw [SO.bind_def, readRaw_eq, h]
  cases o <;> rfl

/-- Waiting for the answer of another motor, on whole messages. -/
theorem awaitReply_waits {R : Byte → Request → Prop} (x : Byte) (fuel : Nat) : ∀ (d : MockDevice), d.device.Inv →
    d.device.readBuffer.length = 128 → ∀ (p : List Msg) (es : List Seen) (h : List Event'), d.device.pending = bytes p →
    (∀ m ∈ p ++ heard h, GoodOf R m.2) →
    Saw d.device.serialPort es ((MockDevice.awaitReply x fuel : SO MockDevice Empty Bool) d).1.device.serialPort →
    h.map Event'.plain = es → ∀ v, ((MockDevice.awaitReply x fuel : SO MockDevice Empty Bool) d).2 = .ok v →
    v = false ∧ ((MockDevice.awaitReply x fuel : SO MockDevice Empty Bool) d).1.id = d.id ∧
      servo ((MockDevice.awaitReply x fuel : SO MockDevice Empty Bool) d).1 = servo d ∧
      ∃ a q, p ++ heard h = a ++ q ∧ ((MockDevice.awaitReply x fuel : SO MockDevice Empty Bool) d).1.device.pending = bytes q := by
  induction fuel with
  | zero => intro d _ _ p es h _ _ _ _ v hv; cases hv
  | succ fuel ih =>
    intro d hd hN p es h hp hg hsaw he v hv
    obtain ⟨c', o', hc', -, hnever⟩ := awaitReply_never (ε := Empty) x (fuel + 1) d hd
    have hsound := Device.read_sound MockDevice.timeout d.device hd
    obtain ⟨es₁, es₂, rfl, ht₁, ht₂⟩ := WatchedOn.split
      (WatchedOn.attempt (MockDevice.onDevice_seen (Device.read_watched MockDevice.timeout))) (fun o => by
        split
        · split <;> exact .pure _
        · exact .pure _
        · split
          · exact MockDevice.awaitReply_seen _ _
          · exact .pure _
        · exact .pure _) hd hsaw
    change Saw _ es₂ ((MockDevice.awaitReply x (fuel + 1) : SO MockDevice Empty Bool) d).1.device.serialPort at ht₂
    rw [attempt_fst] at ht₁ ht₂
    change Saw _ es₁ (Device.read MockDevice.timeout d.device).1.serialPort at ht₁
    change Saw (Device.read MockDevice.timeout d.device).1.serialPort es₂ _ at ht₂
    obtain ⟨h₁, h₂, rfl, he₁, he₂⟩ := List.map_eq_append_iff.mp he
    rw [heard_append, ← List.append_assoc] at hg ⊢
    rw [read_fst] at ht₁ ht₂ hsound
    have hpicks := readRawLoop_picks _ _ d.device p es₁ h₁ hd hN hp (fun m hm => hg m (List.mem_append_left _ hm)) ht₁ he₁
    rcases hx : Device.readRawLoop (d.device.serialPort.now + MockDevice.timeout)
      (d.device.readLen + d.device.serialPort.measure + 1) d.device with ⟨c, o⟩
    have hread : (MockDevice.onDevice (Device.read MockDevice.timeout)) d = ({ d with device := c }, _) := onDevice_apply (read_eq hx)
    rw [hx] at hpicks ht₂ hsound
    dsimp only at ht₂ hsound
    have hf : v = false := by
      rw [hc'] at hv
      cases v with
      | true => exact absurd hv hnever
      | false => rfl
    refine ⟨hf, ?_⟩
    subst hf
    have done : ∀ {a q : List Msg}, p ++ heard h₁ = a ++ q → c.pending = bytes q →
        (MockDevice.awaitReply x (fuel + 1) : SO MockDevice Empty Bool) d = ({ d with device := c }, .ok false) →
        ((MockDevice.awaitReply x (fuel + 1) : SO MockDevice Empty Bool) d).1.id = d.id ∧
          servo ((MockDevice.awaitReply x (fuel + 1) : SO MockDevice Empty Bool) d).1 = servo d ∧
          ∃ a q, p ++ heard h₁ ++ heard h₂ = a ++ q ∧
            ((MockDevice.awaitReply x (fuel + 1) : SO MockDevice Empty Bool) d).1.device.pending = bytes q := by
      intro a q h1 h2 h3
      rw [h3] at ht₂ ⊢
      obtain rfl := saw_unique ht₂ (.nil _)
      obtain rfl := List.map_eq_nil_iff.mp he₂
      exact ⟨rfl, rfl, a, q, by simpa [heard] using h1, h2⟩
    cases hpicks with
    | hangs =>
      exfalso
      rw [MockDevice.awaitReply, SO.bind_def] at hv
      unfold SO.attempt at hv
      rw [hread] at hv
      cases hv
    | @ended _ e hst hpend =>
      by_cases ht : e.isTimeout
      · have hloop : (MockDevice.awaitReply x (fuel + 1) : SO MockDevice Empty Bool) d =
            (MockDevice.awaitReply x fuel : SO MockDevice Empty Bool) { d with device := c } := by
          rw [MockDevice.awaitReply, SO.bind_def]
          unfold SO.attempt
          rw [hread]
          simp only [Outcome.bind]
          rw [if_pos ht]
        rw [hloop] at ht₂ hv ⊢
        obtain ⟨-, i1, i2, a, q, i3, i4⟩ := ih { d with device := c } hsound.inv (hsound.readSize.trans hN) [] es₂ h₂ hpend
          (fun m hm => hg m (List.mem_append_right _ (by simpa using hm))) ht₂ he₂ false hv
        refine ⟨i1, i2, p ++ heard h₁ ++ a, q, ?_, i4⟩
        rw [List.nil_append] at i3
        rw [i3, List.append_assoc, List.append_assoc, List.append_assoc]
      · refine done (a := p ++ heard h₁) (q := []) (by simp) hpend ?_
        rw [MockDevice.awaitReply, SO.bind_def]
        unfold SO.attempt
        rw [hread]
        simp only [Outcome.bind]
        rw [if_neg ht]
        rfl
    | @request statuses rest m to r _ pkt hq hst hm hrto hsv hc hpend =>
      refine done (a := statuses ++ [m]) (q := rest) (by rw [hq]; simp) hpend ?_
      have hins : Device.toInstruction ⟨pkt⟩ = .ok ⟨to, decoded r⟩ := by
        rw [toInstruction_carries hc, parseInstruction_request]
        rfl
      have hd' : ∀ {i ps}, decoded r ≠ .unknown i ps := by
        intro i ps
        cases r with
        | factoryReset kind => cases kind <;> simp [decoded]
        | _ => simp [decoded]
      rw [hc'] at hv
      simp only at hv
      subst hv
      rw [MockDevice.awaitReply, SO.bind_def]
      unfold SO.attempt
      rw [hread]
      simp only [Outcome.bind, hins, Outcome.mapErr_ok]
      clear hins
      generalize decoded r = z at hd'
      cases z with
      | unknown i ps => exact absurd rfl hd'
      | _ => rfl

theorem Waits.same {ε : Type} {R : Byte → Request → Prop} {d : MockDevice} {o : Outcome ε Unit} : Waits R d (d, o) := by
  refine ⟨.refl _, fun p es h hp _ hsaw he _ => ⟨rfl, rfl, [], p ++ heard h, rfl, ?_⟩⟩
  obtain rfl := saw_unique hsaw (.nil _)
  obtain rfl := List.map_eq_nil_iff.mp he
  simpa [heard] using hp

theorem syncBulkRead_waits {R : Byte → Request → Prop} (fuel : Nat) (a n : U16) {x : Byte} {ids : List Byte} {d : MockDevice}
    (hd : d.device.Inv) (hN : d.device.readBuffer.length = 128) (hx : x ≠ d.id) :
    Waits R d ((MockDevice.handleSyncBulkRead fuel a n (x :: ids) : SO MockDevice Empty Unit) d) := by
  obtain ⟨c, o, h1, h2, h3⟩ := awaitReply_never (ε := Empty) x fuel d hd
  have h4 := awaitReply_waits (R := R) x fuel d hd hN
  have heq : (MockDevice.handleSyncBulkRead fuel a n (x :: ids) : SO MockDevice Empty Unit) d =
      ({ d with device := c }, o.bind fun _ => .ok ()) := by
    rw [MockDevice.handleSyncBulkRead, SO.get_bind, if_neg hx, SO.bind_def, h1]
    cases o with
    | ok y =>
      cases y with
      | true => exact absurd rfl h3
      | false => rfl
    | _ => rfl
  rw [heq]
  rw [h1] at h4
  refine ⟨h2, fun p es h hp hg hsaw he ho => ?_⟩
  cases o with
  | ok v => exact (h4 p es h hp hg hsaw he v rfl).2
  | _ => cases ho

/-- All motors answer a ping. -/
theorem reacts_ping (id : Byte) : Reacts .ping id (some ⟨0#8, [10#8, 20#8, 46#8]⟩) := by
  intro fuel d hd _ hid hs
  subst hid
  exact .inl ⟨_, rfl, hs ▸ mock_answers fuel hd rfl⟩

/-- The first motor answers a sync read or a bulk read. -/
theorem reacts_first {r : Request} {a n : U16} {id : Byte}
    (hr : (∃ ids, r = .syncRead a n (id :: ids)) ∨ ∃ reads, r = .bulkRead ((id, a, n) :: reads)) :
    Reacts r id (some (newServo.get a n)) := by
  intro fuel d hd _ hid hs
  subst hid
  refine .inl ⟨_, rfl, ?_⟩
  rw [handle_first fuel hr]
  exact mock_answers fuel hd (by rw [hs]; rfl)

/-- The other motors do not answer it. -/
theorem reacts_later {r : Request} {id x : Byte} {ids : List Byte} (hr : ReadsOf r (x :: ids)) (hx : x ≠ id) : Reacts r id none := by
  intro fuel d hd hN hid hs
  subst hid
  refine .inr ?_
  have key : (∃ a n, (MockDevice.handle fuel (decoded r) : SO MockDevice Empty Unit) d =
      MockDevice.handleSyncBulkRead fuel a n (x :: ids) d) ∨
      ∃ o, (MockDevice.handle fuel (decoded r) : SO MockDevice Empty Unit) d = (d, o) := by
    rcases hr with ⟨a, n, rfl⟩ | ⟨reads, rfl, hids⟩
    · rw [show decoded (.syncRead a n (x :: ids)) = .syncRead a n (x :: ids) from rfl, MockDevice.handle, SO.get_bind]
      split
      · exact .inl ⟨a, n, rfl⟩
      · exact .inr ⟨.ok (), rfl⟩
    · rw [show decoded (.bulkRead reads) = .bulkRead (readBytes' reads) from rfl, MockDevice.handle, SO.get_bind]
      dsimp only
      rw [everyFifth_reads, ← hids]
      cases (x :: ids).idxOf? d.id with
      | none => exact .inr ⟨.ok (), rfl⟩
      | some k =>
        dsimp only
        rw [SO.bind_def, SO.lift_apply]
        cases (MockDevice.u16At (readBytes' reads) (k * 5 + 1) (k * 5 + 3) : Outcome Empty U16) with
        | ok a =>
          dsimp only
          rw [SO.bind_def, SO.lift_apply]
          cases (MockDevice.u16At (readBytes' reads) (k * 5 + 3) (k * 5 + 5) : Outcome Empty U16) with
          | ok n => exact .inl ⟨a, n, rfl⟩
          | err e => cases e
          | panic => exact .inr ⟨.panic, rfl⟩
          | hang => exact .inr ⟨.hang, rfl⟩
        | err e => cases e
        | panic => exact .inr ⟨.panic, rfl⟩
        | hang => exact .inr ⟨.hang, rfl⟩
  rcases key with ⟨a, n, h⟩ | ⟨o, h⟩
  · rw [h]
    exact syncBulkRead_waits fuel a n hd hN hx
  · rw [h]
    exact .same

end Dxl.Props
