import Verif.Lemmas.Crash
import Verif.Lemmas.MotorFine

/-! # C74: the threads of the integration tests do not panic in the simulated line -/

namespace Dxl.Props
open Dxl Spec Spec.Line Dxl.MockSerial

/-! ## The threads -/

/-- An execution of an integration test with motors with these IDs, up to some time: `as` is what happens on the line, in any
interleaving that the locks allow; every motor is in its loop, the client in the body of the test; each of them has made the reads and
writes that the code makes, with slices of the size that the code gives them, perhaps not to the end of a call. -/
structure Threads (ids : List Byte) (body : SO Bus Empty Unit) (as : List Act) : Prop where
  line : ∃ s, Run (newClientDevice ids) init as s
  motors : ∀ (k : Nat) (id : Byte), ids[k]? = some id →
    ∃ (debug : Bool) (port : Port) (device : Bus) (fuel n : Nat) (es : List PortAct),
      Device.new debug port = .ok device ∧ Accepts port ∧
      Traced port es ((MockDevice.run fuel n : SO MockDevice Empty Unit) (.new id device)).1.device.serialPort ∧
      trace (k + 1) as <+: es
  client : ∃ (debug : Bool) (port : Port) (b : Bus) (es : List PortAct), Client.new debug port = .ok b ∧ port.rate = 56700 ∧ Accepts port ∧
    Traced port es (body b).1.serialPort ∧ trace 0 as <+: es

/-- No thread panics in a read or a write of its port. -/
def NoPanic (ids : List Byte) (as : List Act) : Prop :=
  ∀ s, Run (newClientDevice ids) init as s → (∀ i p, s.threads i ≠ .panicked p) ∧ ∀ j, (s.buffers j).poisoned = false

/-! ## Proofs -/

theorem history_prefix {i : Nat} {as : List Act} {es : List PortAct} (h : trace i as <+: es) :
    MockSerial.history i as <+: es.filterMap PortAct.plain := by
  rw [← trace_history]
  exact h.filterMap _

theorem Threads.motors' {ids : List Byte} {body : SO Bus Empty Unit} {as : List Act} (h : Threads ids body as) : MockSerial.Motors ids as := by
  intro k id hk
  obtain ⟨debug, port, device, fuel, n, es, h1, -, h3, h4⟩ := h.motors k id hk
  exact ⟨debug, port, device, fuel, n, _, h1, h3.saw, history_prefix h4⟩

/-- The reads of code that starts with an empty buffer. -/
theorem step_spacious {b b' : Bus} {es t : List PortAct} (h : Step b b') (hN : b.readBuffer.length = 128) (hr : b.readLen = 0)
    (ht : Traced b.serialPort es b'.serialPort) (hp : t <+: es) : Spacious 128 t := by
  obtain ⟨-, es', h1, h2⟩ := h.room
  obtain rfl := traced_unique ht h1
  rw [hN, hr] at h2
  exact ⟨es, _, h2, hp⟩

theorem fresh_readLen {debug : Bool} {port : Port} {b : Bus}
    (h : Bus.withBuffers debug port (List.replicate 128 0#8) (List.replicate 128 0#8) = .ok b) : b.readLen = 0 := by
  generalize List.replicate 128 0#8 = buffer at h
  unfold Bus.withBuffers Port.baudRate at h
  cases hr : port.rateErr with
  | none =>
    rw [hr] at h
    change Bus.withBuffersAndBaudRate debug port buffer buffer port.rate = .ok b at h
    unfold Bus.withBuffersAndBaudRate at h
    split at h
    · cases h; rfl
    · cases h
  | some e => rw [hr] at h; cases h

/-- A test in which each thread is sent at most as much as fits into its buffer. -/
theorem threads_no_panic {ids : List Byte} {body : SO Bus Empty Unit} {as : List Act} (h : Threads ids body as)
    (hbody : ∀ b, b.Inv → Step b (body b).1)
    (hsaid : ∀ i, i ≤ ids.length → (bytes (others_ i (said ids.length as))).length ≤ 128) : NoPanic ids as := by
  intro s hs
  refine c56_no_panic_partial hs (no_crash hs (N := fun _ => 128) (fun i hi => ?_) hsaid)
  cases i with
  | zero =>
    obtain ⟨debug, port, b, es, h1, -, -, h3, h4⟩ := h.client
    obtain ⟨f1, -, f3, f4, -, f6⟩ := fresh_bus (debug := debug) (port := port) (b := b) (new_client h1)
    exact step_spacious (hbody b f3) f4 (fresh_readLen (new_client h1)) (by rw [f1]; exact h3) h4
  | succ k =>
    obtain ⟨debug, port, device, fuel, n, es, h1, -, h3, h4⟩ := h.motors k ids[k] (List.getElem?_eq_getElem (by omega))
    obtain ⟨f1, -, f3, f4, -, f6⟩ := fresh_bus (debug := debug) (port := port) (b := device) (new_device h1)
    exact step_spacious (MockDevice.run_seen (ε := Empty) fuel n (.new ids[k] device) f3).1 f4 (fresh_readLen (new_device h1))
      (by change Traced device.serialPort es _; rw [f1]; exact h3) h4

theorem constructed_readLen {port : Port} {readBuffer writeBuffer : List Byte} {b : Bus} (h : Constructed port readBuffer writeBuffer b) :
    b.readLen = 0 := by
  have key : ∀ {ε : Type} {debug : Bool} {rate : Nat},
      Bus.withBuffersAndBaudRate (ε := ε) debug port readBuffer writeBuffer rate = .ok b → b.readLen = 0 := by
    intro ε debug rate h
    unfold Bus.withBuffersAndBaudRate at h
    split at h
    · cases h; rfl
    · cases h
  obtain ⟨debug, h | ⟨rate, h⟩⟩ := h
  · exact key (withBuffers_ok h).2
  · exact key h

/-- The thread of a port that is used by a client or device with a read buffer for `N` bytes, through any calls of the crate, or by
a motor. -/
def PortUser (N : Nat) (es : List PortAct) : Prop :=
  ∃ (port : Port) (readBuffer writeBuffer : List Byte) (b b' : Bus), Constructed port readBuffer writeBuffer b ∧ readBuffer.length = N ∧
    Traced port es b'.serialPort ∧
    ((∃ ops, b' = history b ops) ∨ ∃ fuel n id, b' = ((MockDevice.run fuel n : SO MockDevice Empty Unit) (.new id b)).1.device)

/-- **C74** Whatever the threads do with their ports: as long as no thread is sent more than fits into its read buffer, none of them
panics in a read or a write of its port. -/
theorem c74_fits {ids : List Byte} {N : Nat → Nat} {as : List Act}
    (h : ∀ i, i ≤ ids.length → ∃ es, PortUser (N i) es ∧ trace i as <+: es)
    (hsaid : ∀ i, i ≤ ids.length → (bytes ((said ids.length as).filter fun m => m.1 != i)).length ≤ N i) : NoPanic ids as := by
  intro s hs
  refine c56_no_panic_partial hs (no_crash hs (N := N) (fun i hi => ?_) hsaid)
  obtain ⟨es, ⟨port, readBuffer, writeBuffer, b, b', h1, h2, h3, h4⟩, h5⟩ := h i hi
  obtain ⟨k1, k2, k3, -⟩ := constructed_ok h1
  have hstep : Step b b' := by
    rcases h4 with ⟨ops, rfl⟩ | ⟨fuel, n, id, rfl⟩
    · exact history_step ops k1
    · exact (MockDevice.run_seen (ε := Empty) fuel n (.new id b) k1).1
  obtain ⟨-, es', e1, e2⟩ := hstep.room
  rw [k2] at e1
  obtain rfl := traced_unique h3 e1
  rw [k3, h2, constructed_readLen h1] at e2
  exact ⟨es, _, e2, h5⟩

/-! ### Tests with one motor -/

theorem bytes_filter_le (p : Msg → Bool) (ms : List Msg) : (bytes (ms.filter p)).length ≤ (bytes ms).length := by
  induction ms with
  | nil => simp
  | cons m ms ih =>
    rw [List.filter_cons]
    split
    · rw [show m :: ms.filter p = [m] ++ ms.filter p from rfl, show m :: ms = [m] ++ ms from rfl, bytes_append', bytes_append',
        List.length_append, List.length_append]
      omega
    · rw [show m :: ms = [m] ++ ms from rfl, bytes_append', List.length_append]
      omega

/-- A motor answers no more often than it is asked. -/
theorem Mot.sent_le {id : Byte} {s₀ : Servo} {p₀ : List Msg} {h : List Event'} {st : Servo × List Msg} (hm : Mot id (s₀, p₀) h st) :
    Roll.sent h + (owns id st.2).length ≤ (owns id (p₀ ++ heard h)).length := by
  induction hm with
  | nil => simp [Roll.sent, heard]
  | @get h s p ms _ ih =>
    rw [heard_append, ← List.append_assoc, owns_append _ _ (heard [.got ms]), owns_append, List.length_append, List.length_append]
    have : heard [.got ms] = ms := by simp [heard]
    rw [this]
    have : Roll.sent (h ++ [.got ms]) = Roll.sent h := by simp [Roll.sent]
    dsimp only at ih
    omega
  | @late h st e _ ih =>
    have h1 : heard (h ++ [.failed e]) = heard h := by rw [heard_append]; simp [heard]
    have h2 : Roll.sent (h ++ [.failed e]) = Roll.sent h := by simp [Roll.sent]
    rw [h1, h2]
    exact ih
  | @skip h s m p _ hn ih =>
    rw [owns_cons_not hn] at ih
    exact ih
  | @answer h s s' m p r reply _ k1 _ _ _ ih =>
    have h1 : heard (h ++ [.wrote (replyFrame id reply)]) = heard h := by rw [heard_append]; simp [heard]
    have h2 : Roll.sent (h ++ [.wrote (replyFrame id reply)]) = Roll.sent h + 1 := by simp [Roll.sent]
    rw [h1, h2]
    rw [owns_cons_own ⟨r, k1⟩, List.length_cons] at ih
    have : (owns id ([] : List Msg)).length = 0 := by rw [owns_nil_of (by simp)]; rfl
    dsimp only at ih ⊢
    omega

/-- The answers of a motor to instructions from a list. -/
theorem Mot.replies {xs : List Ask} {id : Byte} {s₀ : Servo} {p₀ : List Msg} {h : List Event'} {st : Servo × List Msg}
    (hm : Mot id (s₀, p₀) h st) (hs : CleanServo s₀) (hx : ∀ x ∈ xs, NoFd x.request.body)
    (hb : ∀ x ∈ xs, ∀ s s' reply, CleanServo s → s.serve x.request = some (s', reply) → (replyFrame x.to reply).length ≤ 16) :
    (∀ m ∈ p₀ ++ heard h, Own id m → ∃ x ∈ xs, m.2 = x.frame) →
    CleanServo st.1 ∧ (∀ m ∈ st.2, m ∈ p₀ ++ heard h) ∧ ∀ d, Event'.wrote d ∈ h → ∃ x ∈ xs, x.to = id ∧
      ∃ reply, d = replyFrame id reply ∧ NoFd (reply.error :: reply.data) ∧ d.length ≤ 16 := by
  induction hm with
  | nil => exact fun _ => ⟨hs, fun m hm => List.mem_append_left _ hm, by simp⟩
  | @get h s p ms _ ih =>
    intro ho
    have hh : heard (h ++ [.got ms]) = heard h ++ ms := by rw [heard_append]; simp [heard]
    rw [hh, ← List.append_assoc] at ho ⊢
    obtain ⟨i1, i2, i3⟩ := ih fun m hm => ho m (List.mem_append_left _ hm)
    refine ⟨i1, fun m hm => ?_, fun d hd => i3 d (by simpa using hd)⟩
    rcases List.mem_append.mp hm with hm | hm
    · exact List.mem_append_left _ (i2 m hm)
    · exact List.mem_append_right _ hm
  | @late h st e _ ih =>
    intro ho
    have hh : heard (h ++ [.failed e]) = heard h := by rw [heard_append]; simp [heard]
    rw [hh] at ho ⊢
    obtain ⟨i1, i2, i3⟩ := ih ho
    exact ⟨i1, i2, fun d hd => i3 d (by simpa using hd)⟩
  | @skip h s m p _ hn ih =>
    intro ho
    obtain ⟨i1, i2, i3⟩ := ih ho
    exact ⟨i1, fun m hm => i2 m (List.mem_cons_of_mem _ hm), i3⟩
  | @answer h s s' m p r reply _ k1 k2 k3 k4 ih =>
    intro ho
    have hh : heard (h ++ [.wrote (replyFrame id reply)]) = heard h := by rw [heard_append]; simp [heard]
    rw [hh] at ho ⊢
    obtain ⟨i1, i2, i3⟩ := ih ho
    obtain ⟨x, hxm, hxf⟩ := ho m (i2 m (by simp)) ⟨r, k1⟩
    rw [k1] at hxf
    obtain ⟨rfl, rfl⟩ := request_unique hxf k2 (hx x hxm).survives k3
    obtain ⟨c1, c2⟩ := serve_clean i1 (hx x hxm) k3
    refine ⟨c1, by simp, fun d hd => ?_⟩
    rcases List.mem_append.mp hd with hd | hd
    · exact i3 d hd
    · simp only [List.mem_singleton, Event'.wrote.injEq] at hd
      exact ⟨x, hxm, rfl, reply, hd, c2, hd ▸ hb x hxm _ _ _ i1 k3⟩

/-- Calls for one motor: all messages are well formed, and the answers are short and come from that motor. -/
theorem small_talk {ids : List Byte} {xs : List Ask} {id : Byte} (hto : ∀ x ∈ xs, x.to = id) (hok : ∀ x ∈ xs, x.Ok)
    (hx : ∀ x ∈ xs, NoFd x.request.body)
    (hb : ∀ x ∈ xs, ∀ s s' reply, CleanServo s → s.serve x.request = some (s', reply) → (replyFrame x.to reply).length ≤ 16) :
    ∀ l : Story, (∀ l', l' <+: l → InOrder l') → (∀ x ∈ l, x.1 ≤ ids.length) → from_ 0 (writes l) <+: xs.map Ask.frame →
    (∀ l', l' <+: l → ∀ k id, ids[k]? = some id → (∀ m ∈ heard (hist (k + 1) l'), Good m.2) →
      ∃ st, Mot id (newServo, []) (hist (k + 1) l') st) →
    ∀ m ∈ writes l, Good m.2 ∧ (m.1 ≠ 0 → IsReply m ∧ ids[m.1 - 1]? = some id ∧ m.2.length ≤ 16) := by
  have key : ∀ n, ∀ l : Story, l.length = n → (∀ l', l' <+: l → InOrder l') →
    (∀ x ∈ l, x.1 ≤ ids.length) → from_ 0 (writes l) <+: xs.map Ask.frame →
    (∀ l', l' <+: l → ∀ k id, ids[k]? = some id → (∀ m ∈ heard (hist (k + 1) l'), Good m.2) →
      ∃ st, Mot id (newServo, []) (hist (k + 1) l') st) →
    ∀ m ∈ writes l, Good m.2 ∧ (m.1 ≠ 0 → IsReply m ∧ ids[m.1 - 1]? = some id ∧ m.2.length ≤ 16) := by
    intro n
    induction n with
    | zero =>
      intro l hl _ _ _ _
      obtain rfl := List.length_eq_zero_iff.mp hl
      intro m hm
      cases hm
    | succ n ih =>
      intro l hl hin hle hc hmot
      obtain ⟨l, ⟨j, e⟩, rfl⟩ : ∃ l' x, l = l' ++ [x] := by
        refine ⟨l.dropLast, l.getLast (by rintro rfl; simp at hl), (List.dropLast_concat_getLast _).symm⟩
      have hpre : l <+: l ++ [(j, e)] := List.prefix_append _ _
      have ih' := ih l (by simpa using hl) (fun l' h => hin l' (h.trans hpre)) (fun x hx => hle x (by simp [hx]))
        (List.IsPrefix.trans (by rw [writes_append, from_append]; exact List.prefix_append _ _) hc)
        (fun l' h => hmot l' (h.trans hpre))
      intro m hm
      rw [writes_snoc] at hm
      rcases List.mem_append.mp hm with hm | hm
      · exact ih' m hm
      · cases e with
        | got ms => cases hm
        | failed e => cases hm
        | wrote d =>
          obtain rfl := List.mem_singleton.mp hm
          cases j with
          | zero =>
            have hd : d ∈ xs.map Ask.frame := hc.subset (by
              rw [writes_snoc, from_append]
              exact List.mem_append_right _ (by simp [from_]))
            obtain ⟨x, hxm, rfl⟩ := List.mem_map.mp hd
            have h := hok x hxm
            exact ⟨.request ⟨h.served, h.to⟩ h.survives h.length, fun h => absurd rfl h⟩
          | succ k =>
            have hk : k < ids.length := by
              exact hle (k + 1, .wrote d) (by simp)
            have hheard : heard (hist (k + 1) (l ++ [(k + 1, .wrote d)])) = heard (hist (k + 1) l) := by
              rw [hist_snoc_same, heard_append]; simp [heard]
            have hmem : ∀ m ∈ heard (hist (k + 1) l), m ∈ writes l := fun m hm => heard_mem (hin l hpre) hm
            obtain ⟨st, hst⟩ := hmot _ (List.prefix_refl _) k ids[k] (List.getElem?_eq_getElem hk) (by
              rw [hheard]
              exact fun m hm => (ih' m (hmem m hm)).1)
            obtain ⟨-, -, h3⟩ := hst.replies newServo_clean hx hb (by
              rw [hheard]
              intro m hm ho
              have hw := hmem m hm
              by_cases h0 : m.1 = 0
              · have : m.2 ∈ from_ 0 (writes l) := List.mem_map.mpr ⟨m, List.mem_filter.mpr ⟨hw, by simp [h0]⟩, rfl⟩
                have := hc.subset (by
                  rw [writes_snoc, from_append]
                  exact List.mem_append_left _ this)
                obtain ⟨x, hxm, he⟩ := List.mem_map.mp this
                exact ⟨x, hxm, he.symm⟩
              · exact absurd ho (((ih' m hw).2 h0).1.not_own _))
            obtain ⟨x, hxm, hxt, reply, rfl, hno, h16⟩ := h3 d (by rw [hist_snoc_same]; simp)
            refine ⟨.reply (NoFd.survives ?_) (by omega), fun _ => ⟨⟨_, reply, rfl⟩, ?_, h16⟩⟩
            · intro hm
              rcases List.mem_cons.mp hm with hm | hm
              · revert hm; decide
              · exact hno hm
            · rw [← hto x hxm, hxt]
              exact List.getElem?_eq_getElem hk
  exact fun l => key l.length l rfl

/-- The number of bytes of all messages: those of the client, and at most 16 for each answer. -/
theorem bytes_le {w : List Msg} (h : ∀ m ∈ w, m.1 ≠ 0 → m.2.length ≤ 16) :
    (bytes w).length ≤ (from_ 0 w).flatten.length + 16 * w.countP fun m => m.1 != 0 := by
  induction w with
  | nil => simp [bytes]
  | cons m w ih =>
    have ih := ih fun m hm => h m (by simp [hm])
    rw [show m :: w = [m] ++ w from rfl, bytes_append', from_append, List.flatten_append, List.countP_append, List.length_append,
      List.length_append]
    by_cases h0 : m.1 = 0
    · have e1 : (bytes [m]).length = m.2.length := by simp [bytes]
      have e2 : (from_ 0 [m]).flatten.length = m.2.length := by simp [from_, h0]
      omega
    · have e1 : (bytes [m]).length = m.2.length := by simp [bytes]
      have e2 : List.countP (fun m => m.1 != 0) [m] = 1 := by simp [h0]
      have := h m (by simp) h0
      omega

theorem sent_writes (j : Nat) (l : Story) : Roll.sent (hist j l) = (from_ j (writes l)).length := by
  induction l with
  | nil => rfl
  | cons x l ih =>
    obtain ⟨i, e⟩ := x
    rw [show (i, e) :: l = [(i, e)] ++ l from rfl, hist_append, writes_append, from_append, List.length_append, ← ih]
    unfold Roll.sent
    rw [List.countP_append]
    congr 1
    rw [hist_one]
    by_cases hi : i = j
    · cases e <;> simp [hi, writes, from_]
    · cases e <;> simp [hi, writes, from_]

theorem Threads.mot {ids : List Byte} {as : List Act} (hmot : MockSerial.Motors ids as) {l : Story}
    (h1 : ∀ i, i ≤ ids.length → (hist i l).map Event'.plain = MockSerial.history i as) :
    ∀ l', l' <+: l → ∀ k id, ids[k]? = some id → (∀ m ∈ heard (hist (k + 1) l'), Good m.2) →
      ∃ st, Mot id (newServo, []) (hist (k + 1) l') st := by
  intro l'' hl k id hk hgood
  obtain ⟨debug, port, device, fuel, n, es, d1, d2, d3⟩ := hmot k id hk
  obtain ⟨g1, -, g3, g4, g5, g6⟩ := fresh_bus (debug := debug) (port := port) (b := device) (new_device d1)
  have hkl : k + 1 ≤ ids.length := by
    obtain ⟨hk, -⟩ := List.getElem?_eq_some_iff.mp hk
    omega
  refine motor_thread (fuel := fuel) n (.new id device) [] es (hist (k + 1) l'') g3 g4 g5 g6 (by simpa using hgood) ?_ ?_
  · change Saw device.serialPort es _
    rw [g1]
    exact d2
  · refine List.IsPrefix.trans ?_ d3
    rw [← h1 (k + 1) hkl]
    exact (hist_prefix hl (k + 1)).map _

/-- What the code writes. -/
def wroteOf : List Seen → List (List Byte) := List.filterMap fun e => match e with
  | .wrote d => some d
  | _ => none

theorem wroteOf_append (a b : List Seen) : wroteOf (a ++ b) = wroteOf a ++ wroteOf b := by simp [wroteOf]

theorem wroteOf_hist (l : Story) : wroteOf ((hist 0 l).map Event'.plain) = from_ 0 (writes l) := by
  induction l with
  | nil => rfl
  | cons x l ih =>
    obtain ⟨i, e⟩ := x
    rw [show (i, e) :: l = [(i, e)] ++ l from rfl, hist_append, writes_append, from_append, List.map_append, wroteOf_append, ih]
    congr 1
    rw [hist_one]
    by_cases hi : i = 0
    · cases e <;> simp [hi, writes, from_, wroteOf, Event'.plain]
    · cases e <;> simp [hi, writes, from_, wroteOf]

/-- All that is said if the client asks one motor for a few things. -/
theorem small_said {ids : List Byte} {xs : List Ask} {id : Byte} {as : List Act} (hn : ids.Nodup) (hto : ∀ x ∈ xs, x.to = id)
    (hok : ∀ x ∈ xs, x.Ok) (hx : ∀ x ∈ xs, NoFd x.request.body)
    (hb : ∀ x ∈ xs, ∀ s s' reply, CleanServo s → s.serve x.request = some (s', reply) → (replyFrame x.to reply).length ≤ 16)
    (hline : ∃ s, Run (newClientDevice ids) init as s) (hmot : MockSerial.Motors ids as)
    (hc : wroteOf (MockSerial.history 0 as) <+: xs.map Ask.frame) :
    (∀ m ∈ said ids.length as, Good m.2 ∧ (m.1 ≠ 0 → IsReply m)) ∧
      (bytes (said ids.length as)).length ≤ (xs.map Ask.frame).flatten.length + 16 * xs.length := by
  obtain ⟨s, hrun⟩ := hline
  obtain ⟨l, h1, h2, h3, h4⟩ := run_story hrun
  rw [← h1 0 (by omega), wroteOf_hist] at hc
  have hall := small_talk hto hok hx hb l h2 h3 hc (Threads.mot hmot h1)
  rw [← h4]
  refine ⟨fun m hm => ⟨(hall m hm).1, fun h0 => ((hall m hm).2 h0).1⟩, Nat.le_trans (bytes_le fun m hm h0 => ((hall m hm).2 h0).2.2) ?_⟩
  have h5 : (from_ 0 (writes l)).flatten.length ≤ (xs.map Ask.frame).flatten.length := by
    obtain ⟨t, ht⟩ := hc
    rw [← ht, List.flatten_append, List.length_append]
    omega
  have h6 : (writes l).countP (fun m => m.1 != 0) ≤ xs.length := by
    by_cases hk : id ∈ ids
    · obtain ⟨k, hk⟩ := List.getElem?_of_mem hk
      have e1 : (writes l).countP (fun m => m.1 != 0) ≤ (writes l).countP fun m => m.1 == k + 1 := by
        refine List.countP_mono_left fun m hm h0 => ?_
        have h0 : m.1 ≠ 0 := by simpa using h0
        have := ((hall m hm).2 h0).2.1
        obtain ⟨hlt, he⟩ := List.getElem?_eq_some_iff.mp this
        obtain ⟨hlt', he'⟩ := List.getElem?_eq_some_iff.mp hk
        have := (List.getElem_inj hn (h₀ := hlt) (h₁ := hlt')).mp (he.trans he'.symm)
        simp only [beq_iff_eq]
        omega
      rw [← from_length, ← sent_writes] at e1
      obtain ⟨st, hst⟩ := Threads.mot hmot h1 l (List.prefix_refl _) k id hk fun m hm => (hall m (heard_mem (h2 l (List.prefix_refl _)) hm)).1
      have e2 := hst.sent_le
      rw [List.nil_append, owns_mine fun m hm h0 => ((hall m (heard_mem (h2 l (List.prefix_refl _)) hm)).2 h0).1.not_own _] at e2
      have e3 : (mine id (from_ 0 (heard (hist (k + 1) l)))).length ≤ (from_ 0 (heard (hist (k + 1) l))).length := List.length_filter_le _ _
      have e4 := ((h2 l (List.prefix_refl _)).order 0 (k + 1)).length_le
      have e5 := hc.length_le
      rw [List.length_map] at e5
      omega
    · have : (writes l).countP (fun m => m.1 != 0) = 0 := by
        rw [List.countP_eq_zero]
        intro m hm h0
        exact hk (List.mem_of_getElem? ((hall m hm).2 (by simpa using h0)).2.1)
      omega
  omega

theorem ncount_noFd {d : List Byte} (h : NoFd d) : ncount d = 0 := by
  induction d with
  | nil => rfl
  | cons b d ih =>
    have hb : b ≠ 0xFD#8 := fun hb => h (by simp [hb])
    rw [ncount, ih fun hm => h (by simp [hm])]
    simp [hb]

theorem put_size (s : Servo) (a : U16) (data : List Byte) : (s.put a data).2.data = [] := by
  unfold Servo.put
  split <;> rfl

theorem serve_size {s s' : Servo} {r : Request} {reply : ServoReply} (h : s.serve r = some (s', reply)) : reply.data.length ≤ answerSize r := by
  cases r with
  | ping => cases h; decide
  | read a n =>
    cases h
    unfold Servo.get
    cases hl : load s.memory a.toNat n.toNat with
    | some data =>
      unfold load at hl
      split at hl
      · cases hl; simp [answerSize]
      · cases hl
    | none => exact Nat.zero_le _
  | write a data =>
    have := put_size s a data
    rw [show s.put a data = (s', reply) from Option.some.inj h] at this
    dsimp only at this
    rw [this]
    exact Nat.zero_le _
  | regWrite a data =>
    obtain ⟨-, rfl⟩ := Prod.mk.inj (Option.some.inj h)
    exact Nat.zero_le _
  | action =>
    unfold Servo.serve at h
    cases hreg : s.registered with
    | none =>
      simp only [hreg] at h
      obtain ⟨-, rfl⟩ := Prod.mk.inj (Option.some.inj h)
      exact Nat.zero_le _
    | some x =>
      obtain ⟨a, data⟩ := x
      simp only [hreg] at h
      have := put_size { s with registered := none } a data
      rw [show Servo.put { s with registered := none } a data = (s', reply) from Option.some.inj h] at this
      dsimp only at this
      rw [this]
      exact Nat.zero_le _
  | _ => cases h

theorem reply_short {s s' : Servo} {id : Byte} {r : Request} {reply : ServoReply} (hs : CleanServo s) (hr : NoFd r.body)
    (h : s.serve r = some (s', reply)) (hsize : answerSize r ≤ 5) : (replyFrame id reply).length ≤ 16 := by
  obtain ⟨-, h2⟩ := serve_clean hs hr h
  have h3 := serve_size h
  have h4 : NoFd (0x55#8 :: reply.error :: reply.data).reverse := by
    intro hm
    rcases List.mem_cons.mp (List.mem_reverse.mp hm) with hm | hm
    · revert hm; decide
    · exact h2 hm
  rw [replyFrame, Bus.frame_length, codeStuff_length, ncount_noFd h4]
  simp only [List.length_cons]
  omega

/-- The first call, then the others or nothing. -/
theorem runCalls_cases (c : TestCall) (cs : List TestCall) (b : Bus) :
    (∃ o, runCalls (c :: cs) b = ((c.call b).1, o)) ∨ runCalls (c :: cs) b = runCalls cs (c.call b).1 := by
  have hone : ((if c.checked then IntegrationTests.expectFrom c.id c.call else IntegrationTests.ignore c.call) b).1 = (c.call b).1 := by
    rcases hx : c.call b with ⟨b', o⟩
    split
    · rw [expectFrom_eq c.id hx]
    · rw [ignore_eq hx]
  change (∃ o, ((if c.checked then IntegrationTests.expectFrom c.id c.call else IntegrationTests.ignore c.call) >>= fun _ => runCalls cs) b =
    ((c.call b).1, o)) ∨ ((if c.checked then IntegrationTests.expectFrom c.id c.call else IntegrationTests.ignore c.call) >>= fun _ =>
      runCalls cs) b = runCalls cs (c.call b).1
  rcases hx : (if c.checked then IntegrationTests.expectFrom c.id c.call else IntegrationTests.ignore c.call) b with ⟨b', o⟩
  rw [hx] at hone
  dsimp only at hone
  subst hone
  cases o with
  | ok a => exact .inr (SO.bind_ok hx _)
  | err e => cases e
  | panic => exact .inl ⟨_, SO.bind_panic hx _⟩
  | hang => exact .inl ⟨_, SO.bind_hang hx _⟩

/-- What a test with one motor writes, and that all of it is sound code. -/
theorem runCalls_writes : ∀ (cs : List TestCall) {b : Bus}, b.Inv → b.readBuffer.length = 128 → b.writeBuffer.length = 128 →
    b.baudRate ≠ 0 → b.baudRate < 2 ^ 32 → Accepts b.serialPort →
    (∀ c ∈ cs, c.id ≠ 254#8 ∧ (requestFrame c.id c.request).length ≤ 128) →
    ∃ es, Saw b.serialPort es (runCalls cs b).1.serialPort ∧ wroteOf es <+: (cs.map TestCall.ask).map Ask.frame := by
  intro cs
  induction cs with
  | nil =>
    intro b _ _ _ _ _ _ _
    exact ⟨[], .nil _, List.nil_prefix⟩
  | cons c cs ih =>
    intro b hb hN hW h0 hbaud hp hall
    obtain ⟨h1, h2⟩ := hall c (by simp)
    obtain ⟨es₁, k1, k2, k3⟩ := uses_client c.uses h1 hb hN hW h0 hbaud h2
    have hstep := c.uses.asks.2 b hb
    obtain ⟨es₂, j1, j2⟩ := ih hstep.inv (hstep.readSize.trans hN) (hstep.writeSize.trans hW) (by rw [k2]; exact h0)
      (by rw [k2]; exact hbaud) (.saw k1 hp) fun c hc => hall c (by simp [hc])
    have hgots : ∀ gs : List (List Byte), wroteOf (gs.map .got) = [] := by
      intro gs
      induction gs with
      | nil => rfl
      | cons g gs ih => exact ih
    have hwrote : wroteOf es₁ = [c.ask.frame] := by
      rcases k3 with h | ⟨gs, h⟩
      · obtain ⟨gs, e, rfl⟩ := h.2 hp.sendOk
        change wroteOf ([.wrote (requestFrame c.id c.request)] ++ gs.map .got ++ [.failed e]) = _
        rw [wroteOf_append, wroteOf_append, hgots]
        rfl
      · rw [h.saw]
        change wroteOf ([.wrote (requestFrame c.id c.request)] ++ gs.map .got) = _
        rw [wroteOf_append, hgots]
        rfl
    rcases runCalls_cases c cs b with ⟨o, h⟩ | h
    · rw [h]
      exact ⟨es₁, k1, by rw [hwrote]; exact List.cons_prefix_cons.mpr ⟨rfl, List.nil_prefix⟩⟩
    · rw [h]
      exact ⟨es₁ ++ es₂, k1.trans j1, by rw [wroteOf_append, hwrote]; exact List.cons_prefix_cons.mpr ⟨rfl, j2⟩⟩

theorem runCalls_step : ∀ (cs : List TestCall) (b : Bus), b.Inv → Step b (runCalls cs b).1 := by
  intro cs
  induction cs with
  | nil => intro b hb; exact .refl hb
  | cons c cs ih =>
    intro b hb
    have hstep := c.uses.asks.2 b hb
    rcases runCalls_cases c cs b with ⟨o, h⟩ | h
    · rw [h]; exact hstep
    · rw [h]; exact hstep.trans (ih _ hstep.inv)

/-- All messages are whole packets, with status packets or these instructions. -/
def SaysOnly (P : Request → Prop) (ids : List Byte) (as : List Act) : Prop := ∀ m ∈ said ids.length as, GoodOf (fun _ r => P r) m.2

/-- The instructions that a motor can carry out without waiting for others. -/
def AtOnce (r : Request) : Prop := Modest r ∧ Served r

theorem said_client {n : Nat} {as : List Act} {m : Msg} (hm : m ∈ said n as) (h0 : m.1 = 0) : m.2 ∈ wroteOf (MockSerial.history 0 as) := by
  obtain ⟨a, ha, he⟩ := List.mem_filterMap.mp hm
  cases a with
  | startWrite i data =>
    dsimp only at he
    split at he
    · cases he
      dsimp only at h0
      subst h0
      exact List.mem_filterMap.mpr ⟨.wrote data, List.mem_filterMap.mpr ⟨_, ha, by simp [Act.for]⟩, rfl⟩
    · cases he
  | _ => cases he

theorem good_reply {R R' : Byte → Request → Prop} {m : Msg} (h : GoodOf R m.2) (hr : IsReply m) : GoodOf R' m.2 := by
  obtain ⟨k, f⟩ := m
  cases h with
  | @request to r _ _ _ => exact absurd ⟨r, rfl⟩ (hr.not_own to)
  | reply h1 h2 => exact .reply h1 h2

/-- A test with one motor. -/
theorem single_no_panic {ids : List Byte} {body : SO Bus Empty Unit} {as : List Act} (h : Threads ids body as) (hn : ids.Nodup)
    {cs : List TestCall} (hbody : body = runCalls cs) {id : Byte} (hid : id ≠ 254#8)
    (hcs : ∀ c ∈ cs, c.id = id ∧ (requestFrame id c.request).length ≤ 16 ∧ NoFd c.request.body ∧ answerSize c.request ≤ 5)
    (hlen : cs.length ≤ 3) : SaysOnly AtOnce ids as ∧ NoPanic ids as := by
  subst hbody
  have hask : ∀ x ∈ cs.map TestCall.ask, ∃ c ∈ cs, x.request = c.request ∧ x.to = id ∧ x.frame = requestFrame id c.request := by
    intro x hx
    obtain ⟨c, hc, rfl⟩ := List.mem_map.mp hx
    obtain ⟨e, -⟩ := hcs c hc
    exact ⟨c, hc, rfl, e, by rw [Ask.frame, TestCall.ask, e]⟩
  have hc : wroteOf (MockSerial.history 0 as) <+: (cs.map TestCall.ask).map Ask.frame := by
    obtain ⟨debug, port, b, es, h1, h2, h3, h4, h5⟩ := h.client
    obtain ⟨f1, f2, f3, f4, f5, -⟩ := fresh_bus (debug := debug) (port := port) (b := b) (new_client h1)
    obtain ⟨es', k1, k2⟩ := runCalls_writes cs f3 f4 f5 (by rw [f2, h2]; decide) (by rw [f2, h2]; decide) (by rw [f1]; exact h3)
      fun c hc => by
        obtain ⟨e1, e2, -⟩ := hcs c hc
        rw [e1]
        exact ⟨hid, by omega⟩
    rw [f1] at k1
    rw [saw_unique k1 h4.saw] at k2
    exact ((history_prefix h5).filterMap _).trans k2
  obtain ⟨hgood, hsaid⟩ := small_said hn (id := id) (xs := cs.map TestCall.ask) (fun x hx => (hask x hx).choose_spec.2.2.1)
    (fun x hx => by
      obtain ⟨c, hc, e1, e2, e3⟩ := hask x hx
      obtain ⟨-, i2, i3, -⟩ := hcs c hc
      exact ⟨by rw [e1]; exact serve_total c.uses, by rw [e2]; exact hid, by rw [e1]; exact i3.survives, by rw [e3]; omega⟩)
    (fun x hx => by
      obtain ⟨c, hc, e1, e2, e3⟩ := hask x hx
      rw [e1]
      exact (hcs c hc).2.2.1)
    (fun x hx s s' reply hs hserve => by
      obtain ⟨c, hc, e1, e2, e3⟩ := hask x hx
      rw [e1] at hserve
      exact reply_short hs (hcs c hc).2.2.1 hserve (hcs c hc).2.2.2)
    h.line h.motors' hc
  refine ⟨fun m hm => ?_, threads_no_panic h (runCalls_step cs) fun i _ => Nat.le_trans (bytes_filter_le _ _) (Nat.le_trans hsaid ?_)⟩
  · by_cases h0 : m.1 = 0
    · obtain ⟨x, hx, he⟩ := List.mem_map.mp (hc.subset (said_client hm h0))
      obtain ⟨c, hcm, -, -, e3⟩ := hask x hx
      obtain ⟨-, i2, i3, i4⟩ := hcs c hcm
      rw [← he, e3]
      exact .request ⟨modest_of (serve_total c.uses) i4, serve_total c.uses⟩ i3.survives (by omega)
    · exact good_reply (hgood m hm).1 ((hgood m hm).2 h0)
  have : ((cs.map TestCall.ask).map Ask.frame).flatten.length ≤ 16 * cs.length := by
    clear hc hsaid hlen hgood h
    induction cs with
    | nil => simp
    | cons c cs ih =>
      have := ih (fun c hc => hcs c (by simp [hc])) (fun x hx => by
        obtain ⟨c, hc, e, -⟩ := List.mem_map.mp hx
        obtain ⟨e1, -⟩ := hcs c (by simp [hc])
        exact ⟨c, hc, rfl, e1, by rw [Ask.frame, TestCall.ask, e1]⟩)
      obtain ⟨e1, e2, -⟩ := hcs c (by simp)
      rw [List.map_cons, List.map_cons, List.flatten_cons, List.length_append]
      have : c.ask.frame.length ≤ 16 := by rw [Ask.frame, TestCall.ask, e1]; exact e2
      simp only [List.length_cons]
      omega
  rw [List.length_map]
  omega

/-! ### Tests with several motors -/

theorem bytes_answers_le {ids : List Byte} {ans : Nat → Option ServoReply} {L : Nat}
    (h : ∀ k, (answerOf ids ans k).2.length ≤ L) (ks : List Nat) : (bytes (ks.map (answerOf ids ans))).length ≤ L * ks.length := by
  induction ks with
  | nil => simp [bytes]
  | cons k ks ih =>
    rw [List.map_cons, show answerOf ids ans k :: ks.map (answerOf ids ans) = [answerOf ids ans k] ++ ks.map (answerOf ids ans) from rfl,
      bytes_append', List.length_append, List.length_cons, Nat.mul_succ]
    have : (bytes [answerOf ids ans k]).length = (answerOf ids ans k).2.length := by simp [bytes]
    have := h k
    omega

/-- A test that sends one instruction for all motors and reads status packets: what is said. -/
theorem group_said {ids : List Byte} {body rest : SO Bus Empty Unit} {as : List Act} (h : Threads ids body as) {r₀ : Request} {n : Nat}
    {enc : Encoder} {ans : Nat → Option ServoReply}
    (hbody : body = IntegrationTests.unwrap (Client.writeInstruction 254#8 r₀.number n enc) >>= fun _ => rest)
    (hf : Fills enc.run n r₀.parameters) (hrest : Reading (fun b => b) rest) (hs : Survives r₀.body)
    (hlen : (requestFrame 254#8 r₀).length ≤ 128) (hans : ∀ k reply, ans k = some reply → Survives (0x55#8 :: reply.error :: reply.data))
    (hre : ∀ k id, ids[k]? = some id → Reacts r₀ id (ans k)) :
    said ids.length as = [] ∨ ∃ ks : List Nat, ks.Nodup ∧ (∀ k ∈ ks, HasAnswer ids ans k) ∧
      said ids.length as = (0, requestFrame 254#8 r₀) :: ks.map (answerOf ids ans) := by
  subst hbody
  obtain ⟨s, hrun⟩ := h.line
  obtain ⟨debug, port, b, es, hnew, hrate, hacc, hsaw, hseen⟩ := h.client
  have hmot := h.motors'
  obtain ⟨f1, f2, f3, f4, f5, -⟩ := fresh_bus (debug := debug) (port := port) (b := b) (new_client hnew)
  obtain ⟨b₁, w1, w2, w3, w4, w5, w6⟩ := writeInstruction_accepts f3 f5 (by rw [f1]; exact hacc) hf hlen
  have hseen := history_prefix hseen
  have hsaw := hsaw.saw
  rw [SO.bind_ok (unwrap_eq w1)] at hsaw
  obtain ⟨-, es', hes⟩ := hrest.watched b₁ w2
  rw [f1] at w6
  rw [saw_unique hsaw (w6.trans hes)] at hseen
  have hno : ∀ d, Seen.wrote d ∉ es' := saw_quiet hes (hrest.just b₁)
  obtain ⟨l, h1, h2, h3, h4⟩ := run_story hrun
  rw [← h1 0 (by omega)] at hseen
  rw [← h4]
  refine group_story hs hlen hans ⟨es', rfl, hno⟩ l h2 h3 hseen ?_
  intro l'' hl k id hk hgood
  obtain ⟨debug, port, device, fuel, n, es, d1, d2, d3⟩ := hmot k id hk
  obtain ⟨g1, -, g3, g4, g5, g6⟩ := fresh_bus (debug := debug) (port := port) (b := device) (new_device d1)
  have hkl : k + 1 ≤ ids.length := by
    obtain ⟨hk, -⟩ := List.getElem?_eq_some_iff.mp hk
    omega
  refine group_thread (hre k id hk) (fuel := fuel) n (.new id device) [] es (hist (k + 1) l'') g3 g4 g5 g6 rfl rfl (by simpa using hgood) ?_ ?_
  · change Saw device.serialPort es _
    rw [g1]
    exact d2
  · refine List.IsPrefix.trans ?_ d3
    rw [← h1 (k + 1) hkl]
    exact (hist_prefix hl (k + 1)).map _

theorem group_step {body rest : SO Bus Empty Unit} {id i : Byte} {n : Nat} {enc : Encoder}
    (hbody : body = IntegrationTests.unwrap (Client.writeInstruction id i n enc) >>= fun _ => rest) (hrest : Reading (fun b => b) rest) :
    ∀ b, b.Inv → Step b (body b).1 := by
  subst hbody
  have h1 : Sound (IntegrationTests.unwrap (Client.writeInstruction id i n enc)) :=
    .bind (.attempt (Bus.writePacket_sound id i n enc)) fun o => by
      cases o with
      | ok a => exact .pure a
      | error e => exact .panic
  exact h1.bind fun _ b hb => (hrest.watched b hb).1

theorem others_append (i : Nat) (a b : List Msg) : others_ i (a ++ b) = others_ i a ++ others_ i b := by simp [others_]

theorem others_answers (ids : List Byte) (ans : Nat → Option ServoReply) (i : Nat) (ks : List Nat) :
    others_ i (ks.map (answerOf ids ans)) = (ks.filter fun k => k + 1 != i).map (answerOf ids ans) := by
  rw [others_, List.filter_map]
  rfl

/-- A test that sends one instruction for all motors: at most `c` motors answer with at most `L` bytes. -/
theorem group_no_panic {ids : List Byte} {body rest : SO Bus Empty Unit} {as : List Act} (h : Threads ids body as) {r₀ : Request} {n : Nat}
    {enc : Encoder} {ans : Nat → Option ServoReply}
    (hbody : body = IntegrationTests.unwrap (Client.writeInstruction 254#8 r₀.number n enc) >>= fun _ => rest)
    (hf : Fills enc.run n r₀.parameters) (hrest : Reading (fun b => b) rest) (hs : Survives r₀.body)
    (hans : ∀ k reply, ans k = some reply → Survives (0x55#8 :: reply.error :: reply.data))
    (hre : ∀ k id, ids[k]? = some id → Reacts r₀ id (ans k)) {L : Nat} (hL : ∀ k, (answerOf ids ans k).2.length ≤ L)
    (hlen : (requestFrame 254#8 r₀).length ≤ 128)
    (hfit : ∀ ks : List Nat, ks.Nodup → (∀ k ∈ ks, HasAnswer ids ans k) → L * ks.length ≤ 128 ∧
      ∀ i, i < ids.length → (requestFrame 254#8 r₀).length + L * (ks.filter fun k => k != i).length ≤ 128) :
    (∀ m ∈ said ids.length as, GoodOf (ForAll r₀) m.2) ∧ NoPanic ids as := by
  refine ⟨fun m hm => ?_, threads_no_panic h (group_step hbody hrest) fun i hi => ?_⟩
  · rcases group_said h hbody hf hrest hs hlen hans hre with h0 | ⟨ks, h1, h2, h3⟩
    · rw [h0] at hm; cases hm
    · rw [h3] at hm
      rcases List.mem_cons.mp hm with rfl | hm
      · exact .request ⟨rfl, rfl⟩ hs hlen
      · obtain ⟨k, hk, rfl⟩ := List.mem_map.mp hm
        have hlk := (h2 k hk).length
        obtain ⟨reply, hr⟩ := Option.isSome_iff_exists.mp (h2 k hk).some
        unfold answerOf at hlk ⊢
        rw [hr] at hlk ⊢
        exact .reply (hans k reply hr) hlk
  rcases group_said h hbody hf hrest hs hlen hans hre with h0 | ⟨ks, h1, h2, h3⟩
  · rw [h0]; simp [others_, bytes]
  · obtain ⟨g1, g2⟩ := hfit ks h1 h2
    rw [h3, show (0, requestFrame 254#8 r₀) :: ks.map (answerOf ids ans) = [(0, requestFrame 254#8 r₀)] ++ ks.map (answerOf ids ans) from rfl,
      others_append, bytes_append', List.length_append, others_answers]
    cases i with
    | zero =>
      have e1 : others_ 0 [(0, requestFrame 254#8 r₀)] = [] := rfl
      have e2 : (ks.filter fun k => k + 1 != 0) = ks := List.filter_eq_self.mpr fun k _ => by simp
      rw [e1, e2]
      have := bytes_answers_le hL ks
      simp only [bytes, List.map_nil, List.flatten_nil, List.length_nil, Nat.zero_add] at this ⊢
      omega
    | succ i =>
      have e1 : (bytes (others_ (i + 1) [(0, requestFrame 254#8 r₀)])).length = (requestFrame 254#8 r₀).length := by simp [others_, bytes]
      have e2 : (ks.filter fun k => k + 1 != i + 1) = ks.filter fun k => k != i := by
        refine List.filter_congr fun k _ => ?_
        by_cases hk : k = i <;> simp [hk]
      rw [e1, e2]
      have := bytes_answers_le hL (ks.filter fun k => k != i)
      have := g2 i hi
      omega

/-! ## The tests with one motor -/

theorem read_talk {id : Byte} {rest : List Byte} {as : List Act}
    (h : Threads (id :: rest) (IntegrationTests.testRead (id :: rest)) as) (hn : (id :: rest).Nodup) (hid : id ≠ 254#8) : SaysOnly AtOnce (id :: rest) as ∧ NoPanic (id :: rest) as :=
  single_no_panic h hn (testRead_calls id rest) hid (fun c hc => by
    obtain rfl := List.mem_singleton.mp hc
    exact ⟨rfl, by rw [requestFrame, Bus.frame_length]; dsimp only; decide +kernel, by unfold NoFd; dsimp only; decide +kernel,
      by dsimp only; decide +kernel⟩) (by simp)

/-- **C74** `test_read`: no thread panics in a read or a write, in any interleaving. -/
theorem c74_read {id : Byte} {rest : List Byte} {as : List Act}
    (h : Threads (id :: rest) (IntegrationTests.testRead (id :: rest)) as) (hn : (id :: rest).Nodup) (hid : id ≠ 254#8) : NoPanic (id :: rest) as :=
  (read_talk h hn hid).2

theorem read_bytes_talk {id : Byte} {rest : List Byte} {as : List Act}
    (h : Threads (id :: rest) (IntegrationTests.testReadBytes (id :: rest)) as) (hn : (id :: rest).Nodup) (hid : id ≠ 254#8) : SaysOnly AtOnce (id :: rest) as ∧ NoPanic (id :: rest) as :=
  single_no_panic h hn (testReadBytes_calls id rest) hid (fun c hc => by
    obtain rfl := List.mem_singleton.mp hc
    exact ⟨rfl, by rw [requestFrame, Bus.frame_length]; dsimp only; decide +kernel, by unfold NoFd; dsimp only; decide +kernel,
      by dsimp only; decide +kernel⟩) (by simp)

/-- **C74** `test_read_bytes`: no thread panics in a read or a write, in any interleaving. -/
theorem c74_read_bytes {id : Byte} {rest : List Byte} {as : List Act}
    (h : Threads (id :: rest) (IntegrationTests.testReadBytes (id :: rest)) as) (hn : (id :: rest).Nodup) (hid : id ≠ 254#8) : NoPanic (id :: rest) as :=
  (read_bytes_talk h hn hid).2

theorem write_talk {id : Byte} {rest : List Byte} {as : List Act}
    (h : Threads (id :: rest) (IntegrationTests.testWrite (id :: rest)) as) (hn : (id :: rest).Nodup) (hid : id ≠ 254#8) : SaysOnly AtOnce (id :: rest) as ∧ NoPanic (id :: rest) as :=
  single_no_panic h hn (testWrite_calls id rest) hid (fun c hc => by
    simp only [List.mem_cons, List.not_mem_nil, or_false] at hc
    rcases hc with rfl | rfl
    · exact ⟨rfl, by rw [requestFrame, Bus.frame_length]; dsimp only; decide +kernel, by unfold NoFd; dsimp only; decide +kernel,
        by dsimp only; decide +kernel⟩
    · exact ⟨rfl, by rw [requestFrame, Bus.frame_length]; dsimp only; decide +kernel, by unfold NoFd; dsimp only; decide +kernel,
        by dsimp only; decide +kernel⟩) (by simp)

/-- **C74** `test_write`: no thread panics in a read or a write, in any interleaving. -/
theorem c74_write {id : Byte} {rest : List Byte} {as : List Act}
    (h : Threads (id :: rest) (IntegrationTests.testWrite (id :: rest)) as) (hn : (id :: rest).Nodup) (hid : id ≠ 254#8) : NoPanic (id :: rest) as :=
  (write_talk h hn hid).2

theorem write_bytes_talk {id : Byte} {rest : List Byte} {as : List Act}
    (h : Threads (id :: rest) (IntegrationTests.testWriteBytes (id :: rest)) as) (hn : (id :: rest).Nodup) (hid : id ≠ 254#8) : SaysOnly AtOnce (id :: rest) as ∧ NoPanic (id :: rest) as :=
  single_no_panic h hn (testWriteBytes_calls id rest) hid (fun c hc => by
    obtain rfl := List.mem_singleton.mp hc
    exact ⟨rfl, by rw [requestFrame, Bus.frame_length]; dsimp only; decide +kernel, by unfold NoFd; dsimp only; decide +kernel,
      by dsimp only; decide +kernel⟩) (by simp)

/-- **C74** `test_write_bytes`: no thread panics in a read or a write, in any interleaving. -/
theorem c74_write_bytes {id : Byte} {rest : List Byte} {as : List Act}
    (h : Threads (id :: rest) (IntegrationTests.testWriteBytes (id :: rest)) as) (hn : (id :: rest).Nodup) (hid : id ≠ 254#8) : NoPanic (id :: rest) as :=
  (write_bytes_talk h hn hid).2

theorem reg_write_talk {id : Byte} {rest : List Byte} {as : List Act}
    (h : Threads (id :: rest) (IntegrationTests.testRegWrite (id :: rest)) as) (hn : (id :: rest).Nodup) (hid : id ≠ 254#8) : SaysOnly AtOnce (id :: rest) as ∧ NoPanic (id :: rest) as :=
  single_no_panic h hn (testRegWrite_calls id rest) hid (fun c hc => by
    simp only [List.mem_cons, List.not_mem_nil, or_false] at hc
    rcases hc with rfl | rfl | rfl
    · exact ⟨rfl, by rw [requestFrame, Bus.frame_length]; dsimp only; decide +kernel, by unfold NoFd; dsimp only; decide +kernel,
        by dsimp only; decide +kernel⟩
    · exact ⟨rfl, by rw [requestFrame, Bus.frame_length]; dsimp only; decide +kernel, by unfold NoFd; dsimp only; decide +kernel,
        by dsimp only; decide +kernel⟩
    · exact ⟨rfl, by rw [requestFrame, Bus.frame_length]; dsimp only; decide +kernel, by unfold NoFd; dsimp only; decide +kernel,
        by dsimp only; decide +kernel⟩) (by simp)

/-- **C74** `test_reg_write`: no thread panics in a read or a write, in any interleaving. -/
theorem c74_reg_write {id : Byte} {rest : List Byte} {as : List Act}
    (h : Threads (id :: rest) (IntegrationTests.testRegWrite (id :: rest)) as) (hn : (id :: rest).Nodup) (hid : id ≠ 254#8) : NoPanic (id :: rest) as :=
  (reg_write_talk h hn hid).2

theorem reg_write_bytes_talk {id : Byte} {rest : List Byte} {as : List Act}
    (h : Threads (id :: rest) (IntegrationTests.testRegWriteBytes (id :: rest)) as) (hn : (id :: rest).Nodup) (hid : id ≠ 254#8) : SaysOnly AtOnce (id :: rest) as ∧ NoPanic (id :: rest) as :=
  single_no_panic h hn (testRegWriteBytes_calls id rest) hid (fun c hc => by
    obtain rfl := List.mem_singleton.mp hc
    exact ⟨rfl, by rw [requestFrame, Bus.frame_length]; dsimp only; decide +kernel, by unfold NoFd; dsimp only; decide +kernel,
      by dsimp only; decide +kernel⟩) (by simp)

/-- **C74** `test_reg_write_bytes`: no thread panics in a read or a write, in any interleaving. -/
theorem c74_reg_write_bytes {id : Byte} {rest : List Byte} {as : List Act}
    (h : Threads (id :: rest) (IntegrationTests.testRegWriteBytes (id :: rest)) as) (hn : (id :: rest).Nodup) (hid : id ≠ 254#8) : NoPanic (id :: rest) as :=
  (reg_write_bytes_talk h hn hid).2

/-! ## The tests with several motors -/

theorem answer_length {ids : List Byte} {ans : Nat → Option ServoReply} {L : Nat} (h : ∀ k id, (replyFrame id ((ans k).getD Servo.done)).length ≤ L)
    (k : Nat) : (answerOf ids ans k).2.length ≤ L := h k _

theorem ping_talk {ids : List Byte} {fuel : Nat} {as : List Act} (h : Threads ids (IntegrationTests.testPing fuel ids) as)
    (hids : ids.length ≤ 9) : (∀ m ∈ said ids.length as, GoodOf (ForAll .ping) m.2) ∧ NoPanic ids as := by
  refine group_no_panic h (r₀ := .ping) (ans := fun _ => some ⟨0#8, [10#8, 20#8, 46#8]⟩) (L := 14) rfl Client.nothing_fills
    ((scanLoop_reading fuel).bind fun items => (scanDrop_reading fuel).bind fun _ => by split <;> first | exact .pure _ | exact .panic)
    (NoFd.survives (by unfold NoFd; decide)) (fun k reply hr => by
      obtain rfl := Option.some.inj hr
      exact NoFd.survives (by unfold NoFd; decide)) (fun k id _ => reacts_ping id)
    (fun k => ?_) (frame_short (by decide +kernel)) fun ks hn hk => ⟨?_, fun i hi => ?_⟩
  · dsimp only [answerOf, Option.getD]
    rw [replyFrame, Bus.frame_length]
    decide +kernel
  · have := nodup_length (b := List.range ids.length) hn fun k h => List.mem_range.mpr (hk k h).exists_
    rw [List.length_range] at this
    omega
  · have hlen : (requestFrame 254#8 .ping).length = 10 := by rw [requestFrame, Bus.frame_length]; decide +kernel
    have := nodup_length (a := ks.filter fun k => k != i) (b := (List.range ids.length).erase i) (hn.sublist List.filter_sublist)
      fun k h => by
        obtain ⟨h1, h2⟩ := List.mem_filter.mp h
        exact (List.mem_erase_of_ne (by simpa using h2)).mpr (List.mem_range.mpr (hk k h1).exists_)
    rw [List.length_erase_of_mem (List.mem_range.mpr hi), List.length_range] at this
    omega

/-- **C74** `test_ping` with up to nine motors: no thread panics in a read or a write, in any interleaving. -/
theorem c74_ping {ids : List Byte} {fuel : Nat} {as : List Act} (h : Threads ids (IntegrationTests.testPing fuel ids) as)
    (hids : ids.length ≤ 9) : NoPanic ids as :=
  (ping_talk h hids).2

/-- A test that reads from several motors with one instruction. -/
theorem group_read_no_panic {x : Byte} {rest : List Byte} {body : SO Bus Empty Unit} {as : List Act}
    (h : Threads (x :: rest) body as) (hn : (x :: rest).Nodup) {r₀ : Request} {n : Nat} {enc : Encoder}
    {σ α : Type} {g : σ → Bus} {left : σ → Nat} {next : SO σ Empty (Option (Except ReadError (Response α)))} {drop : SO σ Empty Unit}
    {start : Bus → σ}
    (hbody : body = IntegrationTests.unwrap (Client.writeInstruction 254#8 r₀.number n enc) >>= fun _ => fun b =>
      (g ((IntegrationTests.checkAll next (x :: rest) >>= fun _ => drop) (start b)).1,
        ((IntegrationTests.checkAll next (x :: rest) >>= fun _ => drop) (start b)).2))
    (hstart : ∀ b, g (start b) = b) (hfeeds : Feeds g left next) (hdrop : Reading g drop)
    (hf : Fills enc.run n r₀.parameters) (hs : Survives r₀.body) (hlen : (requestFrame 254#8 r₀).length + 15 ≤ 128)
    (hre : ReadsOf r₀ (x :: rest) ∧ Reacts r₀ x (some (newServo.get 132#16 4#16))) :
    (∀ m ∈ said (x :: rest).length as, GoodOf (ForAll r₀) m.2) ∧ NoPanic (x :: rest) as := by
  obtain ⟨hread, hfirst⟩ := hre
  have hreading := iter_reading (ids := x :: rest) hstart hfeeds hdrop
  refine group_no_panic h (ans := firstOnly (newServo.get 132#16 4#16)) (L := 15) hbody hf hreading hs
    (by
      intro k reply hr
      unfold firstOnly at hr
      split at hr
      · obtain rfl := Option.some.inj hr
        exact NoFd.survives (by unfold NoFd; decide +kernel)
      · cases hr)
    (by
      intro k id hk
      cases k with
      | zero =>
        obtain rfl : x = id := by simpa using hk
        exact hfirst
      | succ k =>
        refine reacts_later hread ?_
        rintro rfl
        rw [List.getElem?_cons_succ] at hk
        exact (List.nodup_cons.mp hn).1 (List.mem_of_getElem? hk))
    (fun k => ?_) (by omega) fun ks hn hk => ?_
  · dsimp only [answerOf]
    rw [replyFrame, Bus.frame_length]
    unfold firstOnly
    split
    · rw [show newServo.get 132#16 4#16 = ⟨0#8, [0#8, 0#8, 0#8, 0#8]⟩ from by decide +kernel, Option.getD_some]
      decide +kernel
    · rw [Option.getD_none]
      decide +kernel
  · have h1 : ks.length ≤ 1 := nodup_one hn fun k h => by
      have := (hk k h).some
      unfold firstOnly at this
      split at this
      · assumption
      · cases this
    refine ⟨by omega, fun i _ => ?_⟩
    have := List.length_filter_le (fun k => k != i) ks
    omega

theorem sync_read_talk {x : Byte} {rest : List Byte} {fuel : Nat} {as : List Act}
    (h : Threads (x :: rest) (IntegrationTests.testSyncRead fuel (x :: rest)) as) (hn : (x :: rest).Nodup)
    (hs : Survives (Request.syncRead 132#16 4#16 (x :: rest)).body)
    (hlen : (requestFrame 254#8 (.syncRead 132#16 4#16 (x :: rest))).length + 15 ≤ 128) :
    (∀ m ∈ said (x :: rest).length as, GoodOf (ForAll (.syncRead 132#16 4#16 (x :: rest))) m.2) ∧ NoPanic (x :: rest) as :=
  group_read_no_panic (r₀ := .syncRead 132#16 4#16 (x :: rest)) (g := Dxl.SyncIter.client) (start := fun b => ⟨b, (DataTy.unsigned 4).size, x :: rest, 0⟩)
    (drop := Dxl.SyncIter.drop (.unsigned 4) fuel) h hn rfl (fun _ => rfl) (next_feeds (unsigned_decodes (by decide))) (SyncIter.drop_reading _ _)
    (Client.syncReadEncoder_fills _ _ _) hs hlen ⟨.inl ⟨_, _, rfl⟩, reacts_first (.inl ⟨_, rfl⟩)⟩

/-- **C74** `test_sync_read`: no thread panics in a read or a write, in any interleaving (it panics because an answer is missing,
C72). -/
theorem c74_sync_read {x : Byte} {rest : List Byte} {fuel : Nat} {as : List Act}
    (h : Threads (x :: rest) (IntegrationTests.testSyncRead fuel (x :: rest)) as) (hn : (x :: rest).Nodup)
    (hs : Survives (Request.syncRead 132#16 4#16 (x :: rest)).body)
    (hlen : (requestFrame 254#8 (.syncRead 132#16 4#16 (x :: rest))).length + 15 ≤ 128) : NoPanic (x :: rest) as :=
  (sync_read_talk h hn hs hlen).2

theorem sync_read_bytes_talk {x : Byte} {rest : List Byte} {fuel : Nat} {as : List Act}
    (h : Threads (x :: rest) (IntegrationTests.testSyncReadBytes fuel (x :: rest)) as) (hn : (x :: rest).Nodup)
    (hs : Survives (Request.syncRead 132#16 4#16 (x :: rest)).body)
    (hlen : (requestFrame 254#8 (.syncRead 132#16 4#16 (x :: rest))).length + 15 ≤ 128) :
    (∀ m ∈ said (x :: rest).length as, GoodOf (ForAll (.syncRead 132#16 4#16 (x :: rest))) m.2) ∧ NoPanic (x :: rest) as :=
  group_read_no_panic (r₀ := .syncRead 132#16 4#16 (x :: rest)) (g := Dxl.SyncIter.client) (start := fun b => ⟨b, 4#16, x :: rest, 0⟩)
    (drop := Dxl.SyncIter.dropBytes fuel) h hn rfl (fun _ => rfl) nextBytes_feeds (SyncIter.dropBytes_reading _)
    (Client.syncReadEncoder_fills _ _ _) hs hlen ⟨.inl ⟨_, _, rfl⟩, reacts_first (.inl ⟨_, rfl⟩)⟩

/-- **C74** `test_sync_read_bytes`: no thread panics in a read or a write, in any interleaving. -/
theorem c74_sync_read_bytes {x : Byte} {rest : List Byte} {fuel : Nat} {as : List Act}
    (h : Threads (x :: rest) (IntegrationTests.testSyncReadBytes fuel (x :: rest)) as) (hn : (x :: rest).Nodup)
    (hs : Survives (Request.syncRead 132#16 4#16 (x :: rest)).body)
    (hlen : (requestFrame 254#8 (.syncRead 132#16 4#16 (x :: rest))).length + 15 ≤ 128) : NoPanic (x :: rest) as :=
  (sync_read_bytes_talk h hn hs hlen).2

theorem bulk_read_bytes_talk {x : Byte} {rest : List Byte} {as : List Act}
    (h : Threads (x :: rest) (IntegrationTests.testBulkReadBytes (x :: rest)) as) (hn : (x :: rest).Nodup)
    (hs : Survives (Request.bulkRead ((x :: rest).map fun id => (id, 132#16, 4#16))).body)
    (hlen : (requestFrame 254#8 (.bulkRead ((x :: rest).map fun id => (id, 132#16, 4#16)))).length + 15 ≤ 128) :
    (∀ m ∈ said (x :: rest).length as, GoodOf (ForAll (.bulkRead ((x :: rest).map fun id => (id, 132#16, 4#16)))) m.2) ∧ NoPanic (x :: rest) as := by
  have hdup : Client.hasDuplicateId (IntegrationTests.bulkReadData (x :: rest)) = false := by
    cases hd : Client.hasDuplicateId (IntegrationTests.bulkReadData (x :: rest)) with
    | false => rfl
    | true =>
      refine absurd ?_ ((hasDuplicateId_iff _).mp hd)
      unfold IntegrationTests.bulkReadData
      rw [List.map_map]
      simpa [Function.comp_def] using hn
  have hfill := Client.bulkRead_fills (IntegrationTests.bulkReadData (x :: rest))
  have hpar : (IntegrationTests.bulkReadData (x :: rest)).flatMap (fun r => r.motorId :: (le16 r.address ++ le16 r.count)) =
      (Request.bulkRead ((x :: rest).map fun id => (id, 132#16, 4#16))).parameters := by
    unfold IntegrationTests.bulkReadData Request.parameters
    dsimp only
    rw [List.flatMap_map, List.flatMap_map]
  refine group_read_no_panic (r₀ := .bulkRead ((x :: rest).map fun id => (id, 132#16, 4#16))) (g := Dxl.BulkIter.client)
    (n := 5 * (IntegrationTests.bulkReadData (x :: rest)).length)
    (enc := ⟨Client.bulkReadEncodeLoop 0 (IntegrationTests.bulkReadData (x :: rest)), Client.bulkReadEncodeLoop_length _ 0⟩)
    (start := fun b => ⟨b, IntegrationTests.bulkReadData (x :: rest), 0⟩)
    (drop := Dxl.BulkIter.drop) h hn ?_ (fun _ => rfl) bulkNext_feeds BulkIter.drop_reading
    (hpar ▸ hfill) hs hlen ⟨.inr ⟨_, rfl, by simp [Function.comp_def]⟩, reacts_first (.inr ⟨_, rfl⟩)⟩
  unfold IntegrationTests.testBulkReadBytes Client.bulkReadBytes
  rw [hdup]
  rfl

/-- **C74** `test_bulk_read_bytes`: no thread panics in a read or a write, in any interleaving. -/
theorem c74_bulk_read_bytes {x : Byte} {rest : List Byte} {as : List Act}
    (h : Threads (x :: rest) (IntegrationTests.testBulkReadBytes (x :: rest)) as) (hn : (x :: rest).Nodup)
    (hs : Survives (Request.bulkRead ((x :: rest).map fun id => (id, 132#16, 4#16))).body)
    (hlen : (requestFrame 254#8 (.bulkRead ((x :: rest).map fun id => (id, 132#16, 4#16)))).length + 15 ≤ 128) : NoPanic (x :: rest) as :=
  (bulk_read_bytes_talk h hn hs hlen).2

/-! ## Executions -/

theorem traced_computed {p q : Port} {es : List PortAct} (h : Traced p es q) (hp : p.log = []) : Traced p (p.retraceAll q.log).2 q := by
  obtain ⟨cs, h1, h2⟩ := h.redo
  rw [hp, List.nil_append] at h1
  rw [h1, h2]
  exact h

/-- What a motor does. -/
def motorDoes (k : Nat) (id : Byte) (n : Nat) (as : List Act) : List PortAct :=
  ((scripted (MockSerial.history (k + 1) as)).retraceAll
    ((MockDevice.run 0 n : SO MockDevice Empty Unit) (.new id (scriptedBus (MockSerial.history (k + 1) as)))).1.device.serialPort.log).2

/-- What the body of a test does. -/
def bodyDoes (body : SO Bus Empty Unit) (as : List Act) : List PortAct :=
  ((scripted (MockSerial.history 0 as)).retraceAll (body (scriptedBus (MockSerial.history 0 as))).1.serialPort.log).2

theorem scripted_accepts (es : List Seen) : Accepts (scripted es) := by
  constructor <;> intro x hx <;> cases hx

theorem motor_traced (fuel n : Nat) (id : Byte) {b : Bus} (hb : b.Inv) :
    ∃ es, Traced b.serialPort es ((MockDevice.run fuel n : SO MockDevice Empty Unit) (.new id b)).1.device.serialPort := by
  obtain ⟨-, es, h, -⟩ := (MockDevice.run_seen (ε := Empty) fuel n (.new id b) hb).1.room
  exact ⟨es, h⟩

/-- To check that something is an execution. -/
theorem threads_of {ids : List Byte} {body : SO Bus Empty Unit} {as : List Act} (n : Nat)
    (hline : ((executeAll (newClientDevice ids) init as).map fun _ => ()) = some ())
    (hmot : ∀ k < ids.length, trace (k + 1) as <+: motorDoes k (ids.getD k 0#8) n as)
    (hbody : Step (scriptedBus (MockSerial.history 0 as)) (body (scriptedBus (MockSerial.history 0 as))).1)
    (hdoes : trace 0 as <+: bodyDoes body as) : Threads ids body as := by
  refine ⟨?_, fun k id hk => ?_, ?_⟩
  · obtain ⟨s, h, -⟩ := executes hline
    exact ⟨s, h⟩
  · obtain ⟨f1, -, f3, -⟩ := fresh_bus (scriptedBus_eq (MockSerial.history (k + 1) as))
    have hm := hmot k (List.getElem?_eq_some_iff.mp hk).1
    rw [List.getD_eq_getElem?_getD, hk] at hm
    obtain ⟨es, ht⟩ := motor_traced 0 n id f3
    rw [f1] at ht
    have ht' := traced_computed ht rfl
    refine ⟨false, scripted (MockSerial.history (k + 1) as), _, 0, n, _, ?_, scripted_accepts _, ht', hm⟩
    unfold Device.new
    rw [show defaultBuffer = List.replicate 128 0#8 from rfl, scriptedBus_eq]
  · obtain ⟨f1, -⟩ := fresh_bus (scriptedBus_eq (MockSerial.history 0 as))
    obtain ⟨-, es, ht, -⟩ := hbody.room
    rw [f1] at ht
    have ht' := traced_computed ht rfl
    refine ⟨false, scripted (MockSerial.history 0 as), _, _, ?_, rfl, scripted_accepts _, ht', hdoes⟩
    unfold Client.new
    rw [show defaultBuffer = List.replicate 128 0#8 from rfl, scriptedBus_eq]

theorem testPing_step (fuel : Nat) (ids : List Byte) (b : Bus) (hb : b.Inv) : Step b ((IntegrationTests.testPing fuel ids) b).1 :=
  group_step (rest := _) rfl ((scanLoop_reading fuel).bind fun items => (scanDrop_reading fuel).bind fun _ => by
    split <;> first | exact .pure _ | exact .panic) b hb

/-- Ten motors. -/
def tenIds : List Byte := [1#8, 2#8, 3#8, 4#8, 5#8, 6#8, 7#8, 8#8, 9#8, 10#8]

/-- Ten motors answer a ping before the client reads: their answers have 140 bytes, and the client reads into a slice of 128. -/
def tenRun : List Act :=
  [.startWrite 0 (frame 254#8 [0x01#8])] ++ List.replicate 10 (.append 0) ++ [.finish 0] ++
  tenIds.flatMap (fun id => [.startRead id.toNat 128 9, .check id.toNat, .take id.toNat (frame 254#8 [0x01#8])]) ++
  tenIds.flatMap (fun id => [.startWrite id.toNat (frame id [0x55#8, 0#8, 10#8, 20#8, 46#8])] ++
    List.replicate 10 (.append id.toNat) ++ [.finish id.toNat]) ++
  [.startRead 0 128 9, .check 0, .crash 0]

theorem tenRun_threads : Threads tenIds (IntegrationTests.testPing 3 tenIds) tenRun :=
  threads_of 2 (by decide +kernel) (by decide +kernel) (testPing_step _ _ _ (fresh_bus (scriptedBus_eq _)).2.2.1) (by decide +kernel)

/-- **C74** The bound on the number of motors is sharp: with ten of them, the client can panic in a read. -/
theorem c74_ten : ∃ as s, Threads tenIds (IntegrationTests.testPing 3 tenIds) as ∧ Run (newClientDevice tenIds) init as s ∧
    (∃ p, s.threads 0 = .panicked p) ∧ (s.buffers 0).poisoned = true := by
  obtain ⟨s, h, hs⟩ := executes (show ((executeAll (newClientDevice tenIds) init tenRun).map fun s =>
    (match s.threads 0 with | .panicked _ => true | _ => false) && (s.buffers 0).poisoned) = some true by decide +kernel)
  refine ⟨tenRun, s, tenRun_threads, h, ?_⟩
  rw [Bool.and_eq_true] at hs
  refine ⟨?_, hs.2⟩
  have := hs.1
  split at this
  · exact ⟨_, by assumption⟩
  · cases this

/-- The motors of the integration tests (`tests/common/mock/mod.rs:47`). -/
example {fuel : Nat} {as : List Act} (h : Threads [1#8, 2#8] (IntegrationTests.testPing fuel [1#8, 2#8]) as) : NoPanic [1#8, 2#8] as :=
  c74_ping h (by decide)

example {fuel : Nat} {as : List Act} (h : Threads [1#8, 2#8] (IntegrationTests.testSyncRead fuel [1#8, 2#8]) as) : NoPanic [1#8, 2#8] as :=
  c74_sync_read h (by decide) (NoFd.survives (by unfold NoFd; decide)) (by rw [requestFrame, Bus.frame_length]; decide +kernel)

example {as : List Act} (h : Threads [1#8, 2#8] (IntegrationTests.testBulkReadBytes [1#8, 2#8]) as) : NoPanic [1#8, 2#8] as :=
  c74_bulk_read_bytes h (by decide) (NoFd.survives (by unfold NoFd; decide)) (by rw [requestFrame, Bus.frame_length]; decide +kernel)

/-! ## Each theorem on a run with one motor -/

theorem readRun_threads : Threads [1#8] (IntegrationTests.testRead [1#8]) answeredRun := by
  refine threads_of 3 (by decide +kernel) (by decide +kernel) ?_ (by decide +kernel)
  rw [testRead_calls]
  exact runCalls_step _ _ (fresh_bus (scriptedBus_eq _)).2.2.1

theorem readBytesRun_threads : Threads [1#8] (IntegrationTests.testReadBytes [1#8]) answeredRun := by
  refine threads_of 3 (by decide +kernel) (by decide +kernel) ?_ (by decide +kernel)
  rw [testReadBytes_calls]
  exact runCalls_step _ _ (fresh_bus (scriptedBus_eq _)).2.2.1

theorem writeTwiceRun_threads : Threads [1#8] (IntegrationTests.testWrite [1#8]) writeTwiceRun := by
  refine threads_of 6 (by decide +kernel) (by decide +kernel) ?_ (by decide +kernel)
  rw [testWrite_calls]
  exact runCalls_step _ _ (fresh_bus (scriptedBus_eq _)).2.2.1

theorem writeBytesRun_threads : Threads [1#8] (IntegrationTests.testWriteBytes [1#8]) writeBytesRun := by
  refine threads_of 3 (by decide +kernel) (by decide +kernel) ?_ (by decide +kernel)
  rw [testWriteBytes_calls]
  exact runCalls_step _ _ (fresh_bus (scriptedBus_eq _)).2.2.1

theorem regWriteRun_threads : Threads [1#8] (IntegrationTests.testRegWrite [1#8]) regWriteRun := by
  refine threads_of 9 (by decide +kernel) (by decide +kernel) ?_ (by decide +kernel)
  rw [testRegWrite_calls]
  exact runCalls_step _ _ (fresh_bus (scriptedBus_eq _)).2.2.1

theorem regWriteBytesRun_threads : Threads [1#8] (IntegrationTests.testRegWriteBytes [1#8]) regWriteBytesRun := by
  refine threads_of 3 (by decide +kernel) (by decide +kernel) ?_ (by decide +kernel)
  rw [testRegWriteBytes_calls]
  exact runCalls_step _ _ (fresh_bus (scriptedBus_eq _)).2.2.1

theorem pingRun_threads : Threads [1#8, 2#8] (IntegrationTests.testPing 3 [1#8, 2#8]) pingRun :=
  threads_of 3 (by decide +kernel) (by decide +kernel) (testPing_step _ _ _ (fresh_bus (scriptedBus_eq _)).2.2.1) (by decide +kernel)

theorem syncReadRun_threads : Threads [1#8, 2#8] (IntegrationTests.testSyncRead 3 [1#8, 2#8]) syncReadRun :=
  threads_of 1 (by decide +kernel) (by decide +kernel) (group_step (rest := _) rfl
    (iter_reading (g := Dxl.SyncIter.client) (start := fun b => ⟨b, (DataTy.unsigned 4).size, [1#8, 2#8], 0⟩) (fun _ => rfl)
      (next_feeds (unsigned_decodes (by decide))) (SyncIter.drop_reading _ _)) _ (fresh_bus (scriptedBus_eq _)).2.2.1) (by decide +kernel)

theorem syncReadBytesRun_threads : Threads [1#8, 2#8] (IntegrationTests.testSyncReadBytes 3 [1#8, 2#8]) syncReadRun :=
  threads_of 1 (by decide +kernel) (by decide +kernel) (group_step (rest := _) rfl
    (iter_reading (g := Dxl.SyncIter.client) (start := fun b => ⟨b, 4#16, [1#8, 2#8], 0⟩) (fun _ => rfl)
      nextBytes_feeds (SyncIter.dropBytes_reading _)) _ (fresh_bus (scriptedBus_eq _)).2.2.1) (by decide +kernel)

example : NoPanic [1#8] answeredRun := c74_read readRun_threads (by decide) (by decide)

example : NoPanic [1#8] answeredRun := c74_read_bytes readBytesRun_threads (by decide) (by decide)

example : NoPanic [1#8] writeTwiceRun := c74_write writeTwiceRun_threads (by decide) (by decide)

example : NoPanic [1#8] writeBytesRun := c74_write_bytes writeBytesRun_threads (by decide) (by decide)

example : NoPanic [1#8] regWriteRun := c74_reg_write regWriteRun_threads (by decide) (by decide)

example : NoPanic [1#8] regWriteBytesRun := c74_reg_write_bytes regWriteBytesRun_threads (by decide) (by decide)

example : NoPanic [1#8, 2#8] pingRun := c74_ping pingRun_threads (by decide)

example : NoPanic [1#8, 2#8] syncReadRun := c74_sync_read syncReadRun_threads (by decide) (NoFd.survives (by unfold NoFd; decide))
  (by rw [requestFrame, Bus.frame_length]; decide +kernel)

example : NoPanic [1#8, 2#8] syncReadRun := c74_sync_read_bytes syncReadBytesRun_threads (by decide) (NoFd.survives (by unfold NoFd; decide))
  (by rw [requestFrame, Bus.frame_length]; decide +kernel)

/-- The users of the ports: a client that reads four bytes, and a motor. -/
theorem readRun_users : ∀ i, i ≤ 1 → ∃ es, PortUser 128 es ∧ trace i answeredRun <+: es := by
  intro i hi
  match i, hi with
  | 0, _ =>
    obtain ⟨f1, -, f3, -⟩ := fresh_bus (scriptedBus_eq (MockSerial.history 0 answeredRun))
    obtain ⟨-, es, ht, -⟩ := (history_step [.readBytes 1#8 132#16 4#16] f3).room
    rw [f1] at ht
    exact ⟨_, ⟨_, _, _, _, _, ⟨false, .inl (scriptedBus_eq _)⟩, List.length_replicate, traced_computed ht rfl, .inl ⟨[.readBytes 1#8 132#16 4#16], rfl⟩⟩,
      by decide +kernel⟩
  | 1, _ =>
    obtain ⟨f1, -, f3, -⟩ := fresh_bus (scriptedBus_eq (MockSerial.history 1 answeredRun))
    obtain ⟨es, ht⟩ := motor_traced 0 3 1#8 f3
    rw [f1] at ht
    exact ⟨_, ⟨_, _, _, _, _, ⟨false, .inl (scriptedBus_eq _)⟩, List.length_replicate, traced_computed ht rfl, .inr ⟨0, 3, 1#8, rfl⟩⟩,
      by decide +kernel⟩

example : NoPanic [1#8] answeredRun := c74_fits (ids := [1#8]) (N := fun _ => 128) readRun_users (by decide +kernel)

end Dxl.Props
