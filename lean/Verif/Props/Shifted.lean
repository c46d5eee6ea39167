import Verif.Props.Late
import Verif.Props.LostAnswers
import Verif.Spec.Shifted

/-! # C96: a status packet too many during a group read -/

namespace Dxl.Props
open Dxl Spec

/-! ## Group reads -/

/-- The group reads: how the instruction is sent, the iterator that is created then, its `next`, its client, who is asked for how
many bytes, what the values mean, and the number of parameters of the instruction. -/
inductive GroupRead : {σ α : Type} → SO Bus WriteError Unit → (Bus → σ) → SO σ ReadError (Option (Except ReadError (Response α))) →
    (σ → Bus) → List (Byte × Nat) → (α → List Byte → Prop) → Nat → Prop
  | syncReadBytes (ids : List Byte) (address count : U16) : GroupRead (Client.syncReadBytes ids address count)
      (fun b => (⟨b, count, ids, 0⟩ : SyncIter)) SyncIter.nextBytes SyncIter.client (ids.map fun id => (id, count.toNat)) (fun v ps => v = ps)
      (4 + ids.length)
  | syncRead {α : Type} {d : DataTy α} {valid : α → Prop} {f : α → List Byte} (hd : ImplData d valid f) (ids : List Byte)
      (address : U16) : GroupRead (Client.syncRead d ids address)
      (fun b => (⟨b, d.size, ids, 0⟩ : SyncIter)) (SyncIter.next d) SyncIter.client (ids.map fun id => (id, d.size.toNat))
      (fun v ps => valid v ∧ f v = ps) (4 + ids.length)
  | bulkReadBytes (reads : List BulkReadData) (hn : (reads.map (·.motorId)).Nodup) : GroupRead (Client.bulkReadBytes reads)
      (fun b => (⟨b, reads, 0⟩ : BulkIter)) BulkIter.next BulkIter.client (reads.map fun r => (r.motorId, r.count.toNat))
      (fun v ps => v = ps) (5 * reads.length)

/-- The instruction is sent, and the code loops over the responses, `xs`, until the iterator ends. Before is `b`, and after `c`. -/
def Loops {σ α : Type} (send : SO Bus WriteError Unit) (start : Bus → σ) (next : SO σ ReadError (Option (Except ReadError (Response α))))
    (client : σ → Bus) (b : Bus) (xs : List (Except ReadError (Response α))) (c : Bus) : Prop :=
  ∃ b' s, send b = (b', .ok ()) ∧ callTimes next (xs.length + 1) (start b') = (s, .ok (xs.map some ++ [none])) ∧ client s = c

/-- The same again and again; with the times at which the loops begin. -/
inductive LoopsAgain {σ α : Type} (send : SO Bus WriteError Unit) (start : Bus → σ)
    (next : SO σ ReadError (Option (Except ReadError (Response α)))) (client : σ → Bus) :
    Bus → List (Nat × List (Except ReadError (Response α))) → Bus → Prop
  | nil (b : Bus) : LoopsAgain send start next client b [] b
  | cons {b c d : Bus} {xs : List (Except ReadError (Response α))} {xss : List (Nat × List (Except ReadError (Response α)))} :
      Loops send start next client b xs c → LoopsAgain send start next client c xss d →
      LoopsAgain send start next client b ((b.serialPort.now, xs) :: xss) d

/-- What a turn makes of the packet that it gets. -/
def TurnGets {α : Type} (Value : α → List Byte → Prop) (q : (Byte × Nat) × LateAnswer) (x : Except ReadError (Response α)) : Prop :=
  Judged (some q.1.1) q.1.2 Value q.2.sender q.2.error q.2.params x

/-- What the turn of the motor `want` makes of a packet of another motor. -/
def mistaken {α : Type} (want : Byte) (a : LateAnswer) : Except ReadError (Response α) :=
  if a.error.toNat % 128 ≠ 0 then .error (.motorError ⟨a.error⟩) else .error (.invalidMessage (.packetId a.sender want))

/-! ## Lemmas -/

theorem GroupRead.iterates {σ α : Type} {send : SO Bus WriteError Unit} {start : Bus → σ}
    {next : SO σ ReadError (Option (Except ReadError (Response α)))} {client : σ → Bus} {asked : List (Byte × Nat)}
    {Value : α → List Byte → Prop} {n : Nat} (g : GroupRead send start next client asked Value n) :
    ∃ todo : σ → List (Byte × Nat), IsIterator next client todo Value ∧ OnlyReads next client todo ∧
      (∀ b, client (start b) = b ∧ todo (start b) = asked) ∧
      ∃ instr params enc, Fills enc.run n params ∧ send = Bus.writeInstruction 0xFE#8 instr n enc := by
  cases g with
  | syncReadBytes ids address count =>
    exact ⟨_, syncBytes_iterator _, syncBytes_onlyReads _, fun b => ⟨rfl, by simp [syncTodo]⟩, _, _, _,
      Client.syncReadEncoder_fills address count ids, rfl⟩
  | syncRead hd ids address =>
    exact ⟨_, syncData_iterator hd _, syncData_onlyReads _ _, fun b => ⟨rfl, by simp⟩, _, _, _,
      Client.syncReadEncoder_fills address _ ids, rfl⟩
  | bulkReadBytes reads hn =>
    refine ⟨_, bulk_iterator _, bulk_onlyReads _, fun b => ⟨rfl, by simp [bulkTodo]⟩, InstructionId.bulkRead, _,
      ⟨Client.bulkReadEncodeLoop 0 reads, Client.bulkReadEncodeLoop_length reads 0⟩, Client.bulkRead_fills reads, ?_⟩
    unfold Client.bulkReadBytes
    rw [if_neg fun h => (hasDuplicateId_iff _).mp h hn]
    rfl

theorem calm_not_fails {rx : List RxEvent} (h : ∀ e ∈ rx, ∃ t bs, e = RxEvent.data t bs) (T : Nat) : ¬ failsBy T rx .silent := by
  induction rx with
  | nil => exact id
  | cons e rx ih =>
    obtain ⟨t, bs, rfl⟩ := h e List.mem_cons_self
    exact fun hf => ih (fun e he => h e (List.mem_cons_of_mem _ he)) hf.2

/-- The client between two turns: what comes is `future`. -/
structure InLoop (durations : List Nat) (future : List RxEvent) (b : Bus) : Prop where
  winv : b.WInv
  rinv : b.RInv
  baud : b.baudRate < 2 ^ 32
  baud0 : b.baudRate ≠ 0
  room : 10 ≤ b.readBuffer.length
  smooth : Smoothly durations b.serialPort
  comes : ∀ T, b.serialPort.now ≤ T → stream T b = arriving T future
  later : ∀ T, b.serialPort.now ≤ T → notYetArrived T b.serialPort.rx = notYetArrived T future

theorem InLoop.between {durations : List Nat} {answers : List LateAnswer} {b : Bus}
    (h : InLoop durations (answers.flatMap LateAnswer.events) b) (hl : ∀ a ∈ answers, ∀ p ∈ a.pieces, b.serialPort.now < p.1) :
    Between durations (answers.flatMap LateAnswer.events) b where
  winv := h.winv
  baud := h.baud
  baud0 := h.baud0
  room := h.room
  smooth := h.smooth
  future := by
    unfold newInput
    rw [h.smooth.noop, if_neg (by decide), h.later _ (Nat.le_refl _)]
    exact notYetArrived_all hl

/-- One turn: it takes the next packet. -/
theorem turn_takes {σ ε α : Type} {next : SO σ ε (Option (Except ReadError (Response α)))} {client : σ → Bus}
    {todo : σ → List (Byte × Nat)} {Value : α → List Byte → Prop} (h : IsIterator next client todo Value)
    (ho : OnlyReads next client todo) {durations : List Nat} {a : LateAnswer} {more : List LateAnswer} {s : σ} {q : Byte × Nat}
    {rest : List (Byte × Nat)} (ht : todo s = q :: rest)
    (hi : InLoop durations ((a :: more).flatMap LateAnswer.events) (client s)) (ha : a.Valid (client s).readBuffer.length)
    (hin : ∀ p ∈ a.pieces, p.1 ≤ (client s).serialPort.now + responseWait (client s).baudRate q.2) :
    ∃ s' x, next s = (s', .ok (some x)) ∧ todo s' = rest ∧ TurnGets Value (q, a) x ∧
      (client s').serialPort.now = a.complete (client s).serialPort.now ∧ Bus.Like (client s) (client s') ∧
      InLoop durations (more.flatMap LateAnswer.events) (client s') := by
  rw [List.flatMap_cons] at hi
  generalize hD : (client s).serialPort.now + responseWait (client s).baudRate q.2 = D at hin
  have hnow : (client s).serialPort.now ≤ D := by omega
  obtain ⟨g1, g2⟩ := complete_ge a (client s).serialPort.now
  have g3 := complete_le a hnow hin
  have hsD : stream D (client s) = frame a.sender a.wire ++ arriving D (more.flatMap LateAnswer.events) := by
    rw [hi.comes D hnow, arriving_pieces hin, ha.whole]
  have hsf : StatusFirst (client s).readBuffer.length (stream D (client s)) a.sender a.error a.params
      (arriving D (more.flatMap LateAnswer.events)) :=
    ⟨[], a.wire, by rw [hsD]; rfl, by decide, ha.short, ha.fits, ha.means⟩
  have hnd := statusFirst_not_deadly hi.rinv hD.symm hsf
  rcases h.step s q.1 q.2 rest ht hi.rinv hi.baud with ⟨h1, -⟩ | ⟨-, s', x, h2, h3, h4⟩
  · rcases h1 with h1 | h1
    · exact absurd h1 hi.baud0
    · rw [hD] at h1; exact absurd h1 hnd
  · rw [hD] at h4
    obtain ⟨hj, hst⟩ := h4.answered _ _ _ _ hsf
    obtain ⟨front, c1, c2⟩ := h4.consumed _ _ _ _ hsf
    have hfront : front = frame a.sender a.wire := by
      rw [hsD] at c1
      exact (List.append_cancel_right c1).symm
    subst hfront
    have hc := ho s s' q rest _ ht hi.baud0 hi.baud h2
    rw [hD] at hc
    have hends := c85_packet hi.rinv hi.room hnow
    rw [← hc] at hends
    have hset : ∀ T, (client s).serialPort.now ≤ T → (Settled (client s).readBuffer.length (client s).pending (client s).serialPort.rx
        (client s).serialPort.tail T ↔ parse (client s).readBuffer.length (arriving T (a.events ++ more.flatMap LateAnswer.events)) ≠ .more) := by
      intro T hT
      unfold Settled
      rw [← stream_eq hT, hi.comes T hT]
      refine or_iff_left ?_
      rw [hi.smooth.calm.1]
      exact calm_not_fails hi.smooth.calm.2 T
    have hdone : (client s').serialPort.now = a.complete (client s).serialPort.now := by
      have hcomp : parse (client s).readBuffer.length (arriving (a.complete (client s).serialPort.now)
          (a.events ++ more.flatMap LateAnswer.events)) ≠ .more := by
        rw [arriving_pieces g2, ha.whole]
        have := parse_good_frame (g := []) (rest := arriving (a.complete (client s).serialPort.now) (more.flatMap LateAnswer.events))
          a.sender (by decide) ha.short ha.fits
        rw [List.nil_append] at this
        rw [this]
        simp
      generalize (client s').serialPort.now = t at hends
      cases hends with
      | timeout k => exact absurd ((hset _ g1).mpr hcomp) (k _ g1 g3)
      | settled k1 k2 k3 k4 =>
        refine Nat.le_antisymm (k4 _ g1 ((hset _ g1).mpr hcomp)) (complete_le a k1 fun p hp => ?_)
        refine Nat.not_lt.mp fun hlt => ?_
        obtain ⟨⟨u, hu, he⟩, -⟩ := arriving_missing (T := t) ⟨p, hp, hlt⟩ ha.pieces (more.flatMap LateAnswer.events) .silent
        exact (hset t k1).mp k3 (parse_missing hu (he.trans ha.whole) ha.short ha.fits)
    have hk1 := Bus.read_kept (kept_smoothly durations) D hi.rinv hi.smooth
    have hk2 := Bus.read_kept (kept_sameFuture (a.events ++ more.flatMap LateAnswer.events)) D hi.rinv ⟨hi.smooth.calm.2, hi.later⟩
    rw [← hc] at hk1 hk2
    refine ⟨s', x, h2, h3, hj, hdone, h4.like, ?_⟩
    refine ⟨⟨?_, ?_⟩, h4.rinv, ?_, ?_, ?_, hk1, fun T hT => ?_, fun T hT => ?_⟩
    · rw [h4.like.writeBuffer]; exact hi.winv.size
    · rw [h4.like.writeBuffer]; exact hi.winv.prefix_eq
    · rw [h4.like.baudRate]; exact hi.baud
    · rw [h4.like.baudRate]; exact hi.baud0
    · rw [h4.like.readSize]; exact hi.room
    · have e1 := c2 T hT
      have hp : ∀ p ∈ a.pieces, p.1 ≤ T := fun p hp => by have := g2 p hp; omega
      rw [hi.comes T (by have := h4.now_le; omega), arriving_pieces hp, ha.whole] at e1
      exact (List.append_cancel_left e1).symm
    · rw [hk2.2 T hT, notYetArrived_append, notYetArrived_none fun p hp => by have := g2 p hp; omega]
      rfl

/-- All turns. -/
theorem turns_take {σ ε α : Type} {next : SO σ ε (Option (Except ReadError (Response α)))} {client : σ → Bus}
    {todo : σ → List (Byte × Nat)} {Value : α → List Byte → Prop} (h : IsIterator next client todo Value)
    (ho : OnlyReads next client todo) {durations : List Nat} {more : List LateAnswer} :
    ∀ {packets : List LateAnswer} {asked : List (Byte × Nat)} {s : σ}, todo s = asked →
      InLoop durations ((packets ++ more).flatMap LateAnswer.events) (client s) →
      (∀ a ∈ packets, a.Valid (client s).readBuffer.length) →
      InTurn (client s).serialPort.now (asked.map fun q => responseWait (client s).baudRate q.2) packets →
      ∃ s' xs, callTimes next asked.length s = (s', .ok (xs.map some)) ∧ todo s' = [] ∧
        Pairwise₂ (TurnGets Value) (asked.zip packets) xs ∧
        (client s').serialPort.now = takenAll (client s).serialPort.now packets ∧ Bus.Like (client s) (client s') ∧
        InLoop durations (more.flatMap LateAnswer.events) (client s') := by
  intro packets
  induction packets with
  | nil =>
    intro asked s ht hi _ hin
    cases asked with
    | nil => exact ⟨s, [], rfl, ht, .nil, rfl, .refl _, hi⟩
    | cons q asked => exact hin.elim
  | cons a packets ih =>
    intro asked s ht hi hv hin
    cases asked with
    | nil => exact hin.elim
    | cons q asked =>
      obtain ⟨hin1, hin2⟩ := hin
      obtain ⟨s1, x, h1, h2, h3, h4, h5, h6⟩ := turn_takes h ho ht hi (hv a List.mem_cons_self) hin1
      obtain ⟨s2, xs, k1, k2, k3, k4, k5, k6⟩ := ih h2 h6 (fun a' ha => by rw [h5.readSize]; exact hv a' (List.mem_cons_of_mem _ ha))
        (by rw [h4, h5.baudRate]; exact hin2)
      refine ⟨s2, x :: xs, ?_, k2, .cons h3 k3, ?_, h5.trans k5, k6⟩
      · rw [List.length_cons, callTimes_succ_ok h1, k1]; rfl
      · rw [k4, h4]; rfl

theorem pairwise₂_length {α β : Type} {R : α → β → Prop} {as : List α} {bs : List β} (h : Pairwise₂ R as bs) : as.length = bs.length := by
  induction h with
  | nil => rfl
  | cons _ _ ih => simp [ih]

theorem inTurn_length {packets : List LateAnswer} : ∀ {waits : List Nat} {now : Nat}, InTurn now waits packets → waits.length = packets.length := by
  induction packets with
  | nil => intro waits now h; cases waits with | nil => rfl | cons => exact h.elim
  | cons a packets ih => intro waits now h; cases waits with | nil => exact h.elim | cons => simp [ih h.2]

theorem takenAll_ge (packets : List LateAnswer) (start : Nat) : start ≤ takenAll start packets := by
  unfold takenAll
  induction packets generalizing start with
  | nil => exact Nat.le_refl _
  | cons a packets ih => exact Nat.le_trans (complete_ge a start).1 (ih _)

theorem polled_later {waits : List Nat} {left : List LateAnswer} : ∀ {rounds : List (Nat × List LateAnswer)} {now : Nat},
    Polled waits now rounds left → ∀ a ∈ rounds.flatMap (·.2) ++ left, ∀ p ∈ a.pieces, now < p.1 := by
  intro rounds
  induction rounds with
  | nil => intro now h; exact h
  | cons r rounds ih =>
    obtain ⟨w, packets⟩ := r
    intro now ⟨h1, _, h2⟩ a ha p hp
    rw [List.flatMap_cons, List.append_assoc, List.mem_append] at ha
    rcases ha with ha | ha
    · exact h1 a ha p hp
    · have := ih h2 a ha p hp
      have := takenAll_ge packets (now + w)
      omega

/-! ## The claims -/

section
variable {σ α : Type} {send : SO Bus WriteError Unit} {start : Bus → σ} {next : SO σ ReadError (Option (Except ReadError (Response α)))}
  {client : σ → Bus} {asked : List (Byte × Nat)} {Value : α → List Byte → Prop} {n : Nat}

/-- **C96** A loop over the responses to a group read: each turn takes the next status packet, whatever that is, and nothing
that comes later is lost. -/
theorem c96_turns (g : GroupRead send start next client asked Value n) {writing : Nat} {durations : List Nat}
    {packets more : List LateAnswer} {b : Bus} (h : Between (writing :: durations) ((packets ++ more).flatMap LateAnswer.events) b)
    (hroom : Room b n) (hv : ∀ a ∈ packets, a.Valid b.readBuffer.length)
    (hin : InTurn (b.serialPort.now + writing) (asked.map fun q => responseWait b.baudRate q.2) packets)
    (hlater : ∀ a ∈ more, ∀ p ∈ a.pieces, takenAll (b.serialPort.now + writing) packets < p.1) :
    ∃ xs c, Loops send start next client b xs c ∧ Pairwise₂ (TurnGets Value) (asked.zip packets) xs ∧
      c.serialPort.now = takenAll (b.serialPort.now + writing) packets ∧
      c.writeBuffer.length = b.writeBuffer.length ∧ c.readBuffer.length = b.readBuffer.length ∧ c.baudRate = b.baudRate ∧
      Between durations (more.flatMap LateAnswer.events) c := by
  obtain ⟨todo, hit, ho, hst, instr, params, enc, hp, rfl⟩ := g.iterates
  have hok : b.serialPort.SendOk := ⟨by rw [h.smooth.discard]; simp, by rw [h.smooth.writes]; simp⟩
  have hwt : b.serialPort.writeTime = writing := by unfold Port.writeTime; rw [h.smooth.writes]; rfl
  obtain ⟨b₁, hw⟩ := write_room (id := 0xFE#8) (instr := instr) h.winv hp hok hroom
  obtain ⟨_, _, -, -, -, h3⟩ := afterSend h.winv hw
  obtain ⟨_, _, _, _, _, hb₁⟩ := Bus.writeInstruction_ok h.winv hw
  have hkept : Bus.Kept b b₁ := by
    have := Bus.writePacket_kept 0xFE#8 instr n enc h.winv
    rwa [show Bus.writePacket 0xFE#8 instr n enc b = (b₁, .ok ()) from hw] at this
  have hrx : b₁.serialPort.rx = newInput b.serialPort := by rw [newInput_eq, hb₁]; rfl
  have hnow : b₁.serialPort.now = b.serialPort.now + writing := by rw [h3.now, hwt]
  have hi : InLoop durations ((packets ++ more).flatMap LateAnswer.events) b₁ := by
    refine ⟨hkept.wInv h.winv, h3.rinv, h3.baudRate ▸ h.baud, h3.baudRate ▸ h.baud0, h3.readBuffer ▸ h.room, ?_, ?_, ?_⟩
    · refine ⟨?_, ?_, ?_, ?_, ?_⟩
      · rw [hb₁]; show b.serialPort.discardRes.tail = []; rw [h.smooth.discard]; rfl
      · rw [hb₁]; exact h.smooth.noop
      · rw [hb₁]; show b.serialPort.writeRes.tail = _; rw [h.smooth.writes]; rfl
      · rw [← h.smooth.calm.1, hb₁]; rfl
      · intro e he
        exact h.smooth.calm.2 e (newInput_subset _ e (by rw [← hrx]; exact he))
    · intro T hT
      rw [h3.stream T hT, h.future]
    · intro T _
      rw [hrx, h.future]
  obtain ⟨e1, e2⟩ := hst b₁
  obtain ⟨s, xs, k1, k2, k3, k4, k5, k6⟩ := turns_take hit ho (s := start b₁) e2 (by rw [e1]; exact hi)
    (by rw [e1, h3.readBuffer]; exact hv) (by rw [e1, hnow, h3.baudRate]; exact hin)
  rw [e1] at k4 k5
  rw [hnow] at k4
  have hlen : xs.length = asked.length := by
    have h1 := pairwise₂_length k3
    have h2 := inTurn_length hin
    rw [List.length_zip, ← h2, List.length_map, Nat.min_self] at h1
    exact h1.symm
  refine ⟨xs, client s, ⟨b₁, s, hw, ?_, rfl⟩, k3, k4, ?_, ?_, ?_, ?_⟩
  · rw [hlen]
    exact callTimes_snoc _ k1 (hit.finished s k2)
  · rw [k5.writeBuffer, hkept.writeLength]
  · rw [k5.readSize, h3.readBuffer]
  · rw [k5.baudRate, h3.baudRate]
  · exact k6.between (by rw [k4]; exact hlater)

/-- **C96** The same again and again: what a loop does not take is left for the next one. -/
theorem c96_rounds (g : GroupRead send start next client asked Value n) {left : List LateAnswer} :
    ∀ {rounds : List (Nat × List LateAnswer)} {b : Bus},
      Between (rounds.map (·.1)) ((rounds.flatMap (·.2) ++ left).flatMap LateAnswer.events) b → Room b n →
      (∀ r ∈ rounds, ∀ a ∈ r.2, a.Valid b.readBuffer.length) →
      Polled (asked.map fun q => responseWait b.baudRate q.2) b.serialPort.now rounds left →
      ∃ xss c, LoopsAgain send start next client b xss c ∧
        Pairwise₂ (fun r xs => Pairwise₂ (TurnGets Value) (asked.zip r.2) xs.2) rounds xss ∧
        xss.map (·.1) = begins b.serialPort.now rounds ∧ Between [] (left.flatMap LateAnswer.events) c := by
  intro rounds
  induction rounds with
  | nil => intro b h _ _ _; exact ⟨[], b, .nil b, .nil, rfl, h⟩
  | cons r rounds ih =>
    obtain ⟨w, packets⟩ := r
    intro b h hroom hv hp
    obtain ⟨p1, p2, p3⟩ := hp
    rw [List.flatMap_cons, List.append_assoc] at h
    obtain ⟨xs, c, k1, k2, k3, k4, k5, k6, k7⟩ := c96_turns g h hroom (hv (w, packets) List.mem_cons_self) p2 (polled_later p3)
    obtain ⟨xss, d, l1, l2, l3, l4⟩ := ih k7 (by unfold Room at hroom ⊢; rwa [k4])
      (fun r hr => by rw [k5]; exact hv r (List.mem_cons_of_mem _ hr)) (by rw [k3, k6]; exact p3)
    exact ⟨_, d, .cons k1 l1, .cons k2 l2, by rw [List.map_cons, l3, k3]; rfl, l4⟩

/-- The turn of a motor that gets the packet of another one. -/
theorem TurnGets.mistaken {q : (Byte × Nat) × LateAnswer} {x : Except ReadError (Response α)} (h : TurnGets Value q x)
    (hq : q.1.1 ≠ q.2.sender) : x = Props.mistaken q.1.1 q.2 := by
  unfold TurnGets Judged at h
  unfold Props.mistaken
  split at h
  · rename_i he; rw [if_pos he]; exact h
  · rename_i he
    rw [if_neg he]
    rw [if_pos (by simpa using hq)] at h
    exact h

theorem all_mistaken {l : List ((Byte × Nat) × LateAnswer)} {xs : List (Except ReadError (Response α))}
    (h : Pairwise₂ (TurnGets Value) l xs) (hl : ∀ q ∈ l, q.1.1 ≠ q.2.sender) : xs = l.map fun q => mistaken q.1.1 q.2 := by
  induction h with
  | nil => rfl
  | cons h _ ih =>
    rw [List.map_cons, h.mistaken (hl _ List.mem_cons_self), ih fun q hq => hl q (List.mem_cons_of_mem _ hq)]

/-- When everything is one place behind, no motor is met by its own answer. -/
theorem behind_differ {asked : List (Byte × Nat)} {answers : List LateAnswer} (hs : answers.map (·.sender) = asked.map (·.1))
    (hn : (asked.map (·.1)).Nodup) {extra : LateAnswer} (he : (asked.map (·.1)).head? ≠ some extra.sender) :
    ∀ q ∈ asked.zip (extra :: answers).dropLast, q.1.1 ≠ q.2.sender := by
  intro q hq
  obtain ⟨i, hi, rfl⟩ := List.mem_iff_getElem.mp hq
  simp only [List.length_zip, List.length_dropLast, List.length_cons, Nat.add_sub_cancel] at hi
  rw [List.getElem_zip, List.getElem_dropLast]
  dsimp only
  have hlen : answers.length = asked.length := by simpa using congrArg List.length hs
  cases i with
  | zero =>
    intro h
    apply he
    rw [List.head?_eq_getElem?, List.getElem?_map, List.getElem?_eq_getElem (by omega)]
    exact congrArg some h
  | succ i =>
    rw [List.getElem_cons_succ]
    intro h
    have h1 : (answers.map (·.sender))[i]'(by rw [List.length_map]; omega) = (asked.map (·.1))[i]'(by rw [List.length_map]; omega) := by
      simp only [hs]
    rw [List.getElem_map] at h1
    rw [h1] at h
    have h2 : (asked.map (·.1))[i + 1]'(by rw [List.length_map]; omega) = (asked.map (·.1))[i]'(by rw [List.length_map]; omega) := by
      rw [List.getElem_map]; exact h
    have := (List.getElem_inj hn).mp h2
    omega

theorem behind_flatten (rounds : List (List LateAnswer)) : ∀ extra : LateAnswer,
    extra :: rounds.flatten = (behind extra rounds).flatten ++ [behindLast extra rounds] := by
  induction rounds with
  | nil => intro extra; rfl
  | cons answers rounds ih =>
    intro extra
    have h : extra :: answers = (extra :: answers).dropLast ++ [answers.getLastD extra] := by
      rw [← List.getLast_eq_getLastD (List.cons_ne_nil _ _), List.dropLast_concat_getLast]
    rw [List.flatten_cons, ← List.cons_append, h, behind, List.flatten_cons, behindLast, List.append_assoc, List.append_assoc,
      List.singleton_append, ih]

theorem zip_dropLast {A B : Type} : ∀ {l : List A} {m : List B}, l.length < m.length → l.zip m.dropLast = l.zip m := by
  intro l
  induction l with
  | nil => intro m _; rfl
  | cons x l ih =>
    intro m h
    match m, h with
    | [_], h => simp at h
    | y :: z :: m, h => rw [List.dropLast_cons_cons, List.zip_cons_cons, List.zip_cons_cons, ih (by simpa using h)]

theorem pairwise₂_split {A C : Type} {R : A → C → Prop} : ∀ {as₁ as₂ : List A} {cs : List C}, Pairwise₂ R (as₁ ++ as₂) cs →
    ∃ cs₁ cs₂, cs = cs₁ ++ cs₂ ∧ Pairwise₂ R as₁ cs₁ ∧ Pairwise₂ R as₂ cs₂ := by
  intro as₁
  induction as₁ with
  | nil => intro as₂ cs h; exact ⟨[], cs, rfl, .nil, h⟩
  | cons a as₁ ih =>
    intro as₂ cs h
    cases h with
    | cons h1 h2 =>
      obtain ⟨cs₁, cs₂, rfl, k1, k2⟩ := ih h2
      exact ⟨_ :: cs₁, cs₂, rfl, .cons h1 k1, k2⟩

/-- **C96** A status packet too many, `extra`, before the answer of one of the motors: the turns of the motors before that
(`first`) get the answers of these, the turn of that motor (`q`) gets `extra`, and each turn after it gets the answer of the
motor before: no value, but the error that this one reports, or that the ID is wrong. The answer of the last motor is not read. -/
theorem c96_extra (g : GroupRead send start next client asked Value n) {first later : List (Byte × Nat)} {q : Byte × Nat}
    (ha : asked = first ++ q :: later) {before after : List LateAnswer} {extra : LateAnswer}
    (hb : before.length = first.length) (hs : after.map (·.sender) = (q :: later).map (·.1)) (hn : ((q :: later).map (·.1)).Nodup)
    {more : List LateAnswer} {writing : Nat} {durations : List Nat} {b : Bus}
    (h : Between (writing :: durations) ((before ++ extra :: after ++ more).flatMap LateAnswer.events) b) (hroom : Room b n)
    (hv : ∀ a ∈ before ++ extra :: after, a.Valid b.readBuffer.length)
    (hin : InTurn (b.serialPort.now + writing) (asked.map fun q => responseWait b.baudRate q.2) (before ++ (extra :: after).dropLast))
    (hlast : ∀ a ∈ after.getLastD extra :: more, ∀ p ∈ a.pieces,
      takenAll (b.serialPort.now + writing) (before ++ (extra :: after).dropLast) < p.1) :
    ∃ xs x c, Loops send start next client b (xs ++ x :: (later.zip after).map fun p => mistaken p.1.1 p.2) c ∧
      Pairwise₂ (TurnGets Value) (first.zip before) xs ∧ TurnGets Value (q, extra) x ∧
      c.serialPort.now = takenAll (b.serialPort.now + writing) (before ++ (extra :: after).dropLast) ∧
      c.writeBuffer.length = b.writeBuffer.length ∧ c.readBuffer.length = b.readBuffer.length ∧ c.baudRate = b.baudRate ∧
      Between durations ((after.getLastD extra :: more).flatMap LateAnswer.events) c := by
  have hcut : extra :: after = (extra :: after).dropLast ++ [after.getLastD extra] := by
    rw [← List.getLast_eq_getLastD (List.cons_ne_nil _ _), List.dropLast_concat_getLast]
  have hlen : after.length = later.length + 1 := by simpa using congrArg List.length hs
  obtain ⟨a', as, rfl⟩ : ∃ a' as, after = a' :: as := by
    cases after with
    | nil => simp at hlen
    | cons a' as => exact ⟨a', as, rfl⟩
  rw [hcut, ← List.append_assoc] at h hv
  rw [List.append_assoc _ [_]] at h
  obtain ⟨xs, c, k1, k2, k3, k4, k5, k6, k7⟩ := c96_turns g h hroom (fun a ha => hv a (List.mem_append_left _ ha)) hin hlast
  rw [ha, List.zip_append hb.symm, List.dropLast_cons_cons, List.zip_cons_cons] at k2
  obtain ⟨ys, zs, rfl, l1, l2⟩ := pairwise₂_split k2
  cases l2 with
  | @cons _ x _ ws l2 l3 =>
    have hdiff : ∀ r ∈ later.zip (a' :: as).dropLast, r.1.1 ≠ r.2.sender := by
      have hd := behind_differ (asked := later) (answers := as) (extra := a') ?_ ?_ ?_
      · exact hd
      · simpa using (List.cons.inj hs).2
      · exact (List.nodup_cons.mp hn).2
      · intro hh
        have h1 : a'.sender = q.1 := (List.cons.inj hs).1
        have h2 : q.1 ∉ later.map (·.1) := (List.nodup_cons.mp hn).1
        rw [← h1] at h2
        exact h2 (List.mem_of_mem_head? (by rw [hh]; rfl))
    rw [all_mistaken l3 hdiff] at k1
    rw [zip_dropLast (by omega)] at k1
    exact ⟨ys, x, c, k1, l1, l2, k3, k4, k5, k6, k7⟩

/-- The client when it has not been used for a while. -/
def paused (pause : Nat) (b : Bus) : Bus := { b with serialPort := { b.serialPort with now := b.serialPort.now + pause } }

theorem Between.paused {durations : List Nat} {gone more : List LateAnswer} {b : Bus} {pause : Nat}
    (h : Between durations ((gone ++ more).flatMap LateAnswer.events) b)
    (hg : ∀ a ∈ gone, ∀ p ∈ a.pieces, p.1 ≤ b.serialPort.now + pause)
    (hm : ∀ a ∈ more, ∀ p ∈ a.pieces, b.serialPort.now + pause < p.1) :
    Between durations (more.flatMap LateAnswer.events) (paused pause b) where
  winv := ⟨h.winv.1, h.winv.2⟩
  baud := h.baud
  baud0 := h.baud0
  room := h.room
  smooth := ⟨h.smooth.discard, h.smooth.noop, h.smooth.writes, h.smooth.calm⟩
  future := by
    have hf := h.future
    unfold newInput at hf ⊢
    rw [h.smooth.noop, if_neg (by decide)] at hf
    show (if b.serialPort.discardIsNoop then _ else notYetArrived (b.serialPort.now + pause) b.serialPort.rx) = _
    rw [h.smooth.noop, if_neg (by decide), ← notYetArrived_twice (Nat.le_add_right _ pause), hf, List.flatMap_append, notYetArrived_append,
      notYetArrived_all hm]
    have : notYetArrived (b.serialPort.now + pause) (gone.flatMap LateAnswer.events) = [] := by
      clear h hf hm
      induction gone with
      | nil => rfl
      | cons a gone ih =>
        rw [List.flatMap_cons, notYetArrived_append, notYetArrived_none (hg a List.mem_cons_self),
          ih fun a' ha' => hg a' (List.mem_cons_of_mem _ ha')]
        rfl
    rw [this, List.nil_append]

/-- **C96** A pause until everything that is left over has arrived ends it: if in the next loop each motor answers without an
error and with as many bytes as it was asked for, each turn gets the value of its own motor. -/
theorem c96_pause (g : GroupRead send start next client asked Value n) {left answers more : List LateAnswer} {pause writing : Nat}
    {durations : List Nat} {b : Bus} (h : Between (writing :: durations) ((left ++ (answers ++ more)).flatMap LateAnswer.events) b) (hroom : Room b n)
    (hgone : ∀ a ∈ left, ∀ p ∈ a.pieces, p.1 ≤ b.serialPort.now + pause)
    (hnew : ∀ a ∈ answers, ∀ p ∈ a.pieces, b.serialPort.now + pause < p.1)
    (hv : ∀ a ∈ answers, a.Valid b.readBuffer.length)
    (hs : answers.map (fun a => (a.sender, a.params.length)) = asked) (herr : ∀ a ∈ answers, a.error.toNat % 128 = 0)
    (hin : InTurn (b.serialPort.now + pause + writing) (asked.map fun q => responseWait b.baudRate q.2) answers)
    (hlater : ∀ a ∈ more, ∀ p ∈ a.pieces, takenAll (b.serialPort.now + pause + writing) answers < p.1) :
    ∃ xs c, Loops send start next client (paused pause b) xs c ∧
      Pairwise₂ (fun a x => ∃ v, Value v a.params ∧ x = .ok ⟨a.sender, decide (128 ≤ a.error.toNat), v⟩) answers xs ∧
      Between durations (more.flatMap LateAnswer.events) c := by
  have hge : b.serialPort.now + pause ≤ takenAll (b.serialPort.now + pause + writing) answers :=
    Nat.le_trans (Nat.le_add_right _ _) (takenAll_ge _ _)
  obtain ⟨xs, c, k1, k2, -, -, -, -, k7⟩ := c96_turns g (h.paused hgone fun a ha p hp => by
      rcases List.mem_append.mp ha with ha | ha
      · exact hnew a ha p hp
      · have := hlater a ha p hp; omega) hroom hv hin hlater
  refine ⟨xs, c, k1, ?_, k7⟩
  subst hs
  clear k1 k7 hin hlater hv hnew h hge g
  induction answers generalizing xs with
  | nil => cases k2; exact .nil
  | cons a answers ih =>
    cases k2 with
    | cons k k' =>
      refine .cons ?_ (ih (fun a ha => herr a (List.mem_cons_of_mem _ ha)) _ k')
      unfold TurnGets Judged at k
      rw [if_neg (by simpa using herr a List.mem_cons_self), if_neg (by simp), if_neg (by simp)] at k
      exact k

theorem behind_never {asked : List (Byte × Nat)} (hn : (asked.map (·.1)).Nodup) (h2 : 2 ≤ asked.length) :
    ∀ {rounds : List (List LateAnswer)} {extra : LateAnswer}, (asked.map (·.1)).head? ≠ some extra.sender →
      (∀ l ∈ rounds, l.map (·.sender) = asked.map (·.1)) →
      ∀ packets ∈ behind extra rounds, ∀ q ∈ asked.zip packets, q.1.1 ≠ q.2.sender := by
  intro rounds
  induction rounds with
  | nil => intro extra _ _ packets hr; simp [behind] at hr
  | cons l rounds ih =>
    intro extra he hs packets hr
    have hl := hs l List.mem_cons_self
    simp only [behind, List.mem_cons] at hr
    rcases hr with rfl | hr
    · exact behind_differ hl hn he
    · refine ih ?_ (fun r' hr' => hs r' (List.mem_cons_of_mem _ hr')) packets hr
      -- the last motor is not the first one
      match asked, h2, hn, hl with
      | [_], h, _, _ => exact absurd h (by simp)
      | q :: q' :: asked, _, hn, hl =>
        rw [List.map_cons, List.head?_cons]
        intro hh
        have hh := Option.some.inj hh
        rw [List.map_cons, List.nodup_cons] at hn
        apply hn.1
        rw [hh]
        match l, hl with
        | [_], hl => simp at hl
        | x :: y :: m, hl =>
          have h3 : (y :: m).map (·.sender) = (q' :: asked).map (·.1) := (List.cons.inj hl).2
          rw [← h3, List.getLastD_cons, List.getLastD_cons, ← List.getLast_eq_getLastD (List.cons_ne_nil _ _)]
          exact List.mem_map_of_mem (List.getLast_mem _)

/-- **C96** A loop that polls two or more motors, after one status packet too many: every motor answers every time, but no turn of
any round ever gets the answer of its motor; there is never a value. -/
theorem c96_polling (g : GroupRead send start next client asked Value n) (hn : (asked.map (·.1)).Nodup) (h2 : 2 ≤ asked.length) :
    ∀ {rounds : List (Nat × List LateAnswer)} {extra : LateAnswer} {b : Bus},
      (asked.map (·.1)).head? ≠ some extra.sender → (∀ r ∈ rounds, r.2.map (·.sender) = asked.map (·.1)) →
      Between (rounds.map (·.1)) ((extra :: (rounds.map (·.2)).flatten).flatMap LateAnswer.events) b → Room b n →
      (∀ a ∈ extra :: (rounds.map (·.2)).flatten, a.Valid b.readBuffer.length) →
      Polled (asked.map fun q => responseWait b.baudRate q.2) b.serialPort.now
        ((rounds.map (·.1)).zip (behind extra (rounds.map (·.2)))) [behindLast extra (rounds.map (·.2))] →
      ∃ xss c, LoopsAgain send start next client b xss c ∧ xss.map (·.2) =
        ((behind extra (rounds.map (·.2))).map fun packets => (asked.zip packets).map fun p => mistaken p.1.1 p.2) ∧
        xss.map (·.1) = begins b.serialPort.now ((rounds.map (·.1)).zip (behind extra (rounds.map (·.2)))) := by
  intro rounds extra b he hs h hroom hv hp
  have hlen : ∀ (rounds : List (Nat × List LateAnswer)) (extra : LateAnswer), (behind extra (rounds.map (·.2))).length = rounds.length := by
    intro rounds
    induction rounds with
    | nil => intro _; rfl
    | cons r rounds ih => intro extra; simp only [List.map_cons, behind, List.length_cons, ih]
  have hfst := List.map_fst_zip (l₁ := rounds.map (·.1)) (l₂ := behind extra (rounds.map (·.2))) (by rw [hlen]; simp)
  have hsnd := List.map_snd_zip (l₁ := rounds.map (·.1)) (l₂ := behind extra (rounds.map (·.2))) (by rw [hlen]; simp)
  have hflat : ((rounds.map (·.1)).zip (behind extra (rounds.map (·.2)))).flatMap (·.2) = (behind extra (rounds.map (·.2))).flatten := by
    rw [List.flatMap_def]
    exact congrArg List.flatten hsnd
  obtain ⟨xss, c, k1, k2, k3, -⟩ := c96_rounds g (b := b) (rounds := (rounds.map (·.1)).zip (behind extra (rounds.map (·.2))))
    (left := [behindLast extra (rounds.map (·.2))])
    (by rw [hflat, ← behind_flatten, hfst]; exact h) hroom (fun r hr a ha => hv a (by
      rw [behind_flatten]
      refine List.mem_append_left _ (List.mem_flatten.mpr ⟨r.2, ?_, ha⟩)
      rw [← hsnd]
      exact List.mem_map_of_mem hr)) hp
  refine ⟨xss, c, k1, ?_, k3⟩
  have key : ∀ {rs : List (Nat × List LateAnswer)} {xss : List (Nat × List (Except ReadError (Response α)))},
      Pairwise₂ (fun r xs => Pairwise₂ (TurnGets Value) (asked.zip r.2) xs.2) rs xss →
      (∀ r ∈ rs, ∀ q ∈ asked.zip r.2, q.1.1 ≠ q.2.sender) →
      xss.map (·.2) = (rs.map (·.2)).map fun packets => (asked.zip packets).map fun p => mistaken p.1.1 p.2 := by
    intro rs xss h
    induction h with
    | nil => intro _; rfl
    | cons h _ ih =>
      intro hd
      simp only [List.map_cons]
      rw [all_mistaken h (hd _ List.mem_cons_self), ih fun r hr => hd r (List.mem_cons_of_mem _ hr)]
  rw [key k2, hsnd]
  intro r hr
  exact behind_never hn h2 he (fun l hl => by
    obtain ⟨r, hr, rfl⟩ := List.mem_map.mp hl
    exact hs r hr) _ (by rw [← hsnd]; exact List.mem_map_of_mem hr)

/-! ## Motors that always take the same time -/

/-- The answer of the `k`th motor in the `j`th round: it comes `delay + k * gap` after the beginning of that. The round takes the
time `round`. -/
def pacedAnswer (start round delay gap : Nat) (ids : List Byte) (error : Nat → Nat → Byte) (params wire : Nat → Nat → List Byte)
    (j k : Nat) : LateAnswer :=
  ⟨ids.getD k 0#8, error j k, params j k, wire j k, [(start + j * round + delay + k * gap, frame (ids.getD k 0#8) (wire j k))]⟩

/-- What the first turn of the `j`th round gets. -/
def leftOver (extra : LateAnswer) (answer : Nat → Nat → LateAnswer) (n : Nat) : (j : Nat) → LateAnswer
  | 0 => extra
  | j + 1 => answer j (n + 1)

/-- The packets that the turns of the `j`th round get. -/
def pacedRound (extra : LateAnswer) (answer : Nat → Nat → LateAnswer) (n j : Nat) : List LateAnswer :=
  leftOver extra answer n j :: (List.range (n + 1)).map (answer j)

theorem complete_one {a : LateAnswer} {t now : Nat} {f : List Byte} (h : a.pieces = [(t, f)]) (hn : now ≤ t) : a.complete now = t := by
  unfold LateAnswer.complete
  rw [h]
  show max now t = t
  omega

theorem spaced_turns {answer : Nat → LateAnswer} {t gap : Nat} {f : Nat → List Byte} (ha : ∀ k, (answer k).pieces = [(t + k * gap, f k)]) :
    ∀ {waits : List Nat} {m k now : Nat}, waits.length = m → now ≤ t + k * gap → (∀ w ∈ waits.head?, t + k * gap ≤ now + w) →
      (∀ w ∈ waits, gap ≤ w) → InTurn now waits ((List.range' k m).map answer) ∧
        takenAll now ((List.range' k m).map answer) = if m = 0 then now else t + (k + m - 1) * gap := by
  intro waits
  induction waits with
  | nil => intro m k now hm _ _ _; cases hm; exact ⟨trivial, rfl⟩
  | cons w waits ih =>
    intro m k now hm hnow hw hg
    cases m with
    | zero => simp at hm
    | succ m =>
      have hk : t + (k + 1) * gap = t + k * gap + gap := by rw [Nat.add_mul]; omega
      have hc := complete_one (ha k) hnow
      obtain ⟨i1, i2⟩ := ih (m := m) (k := k + 1) (now := t + k * gap) (by simpa using hm) (by omega)
        (fun w' hw' => by have := hg w' (List.mem_cons_of_mem _ (List.mem_of_mem_head? hw')); omega)
        (fun w' hw' => hg w' (List.mem_cons_of_mem _ hw'))
      rw [List.range'_succ, List.map_cons]
      refine ⟨⟨fun p hp => ?_, by rw [hc]; exact i1⟩, ?_⟩
      · rw [ha k, List.mem_singleton] at hp
        subst hp
        exact hw w rfl
      · show takenAll ((answer k).complete now) _ = _
        rw [hc, i2]
        cases m with
        | zero => rfl
        | succ m => simp only [Nat.succ_ne_zero, if_false]; rw [show k + 1 + (m + 1) - 1 = k + (m + 1 + 1) - 1 by omega]

theorem behind_paced (extra : LateAnswer) (answer : Nat → Nat → LateAnswer) (n R : Nat) : ∀ j : Nat,
    behind (leftOver extra answer n j) ((List.range' j R).map fun j => (List.range (n + 2)).map (answer j)) =
      (List.range' j R).map (pacedRound extra answer n) ∧
    behindLast (leftOver extra answer n j) ((List.range' j R).map fun j => (List.range (n + 2)).map (answer j)) =
      leftOver extra answer n (j + R) := by
  induction R with
  | zero => intro j; exact ⟨rfl, rfl⟩
  | succ R ih =>
    intro j
    obtain ⟨h1, h2⟩ := ih (j + 1)
    have hl : (List.range (n + 2)).map (answer j) = (List.range (n + 1)).map (answer j) ++ [answer j (n + 1)] := by
      rw [show n + 2 = (n + 1) + 1 from rfl, List.range_succ, List.map_append]; rfl
    have hd : ((List.range (n + 2)).map (answer j)).getLastD (leftOver extra answer n j) = leftOver extra answer n (j + 1) := by
      rw [hl, List.getLastD_concat]; rfl
    rw [List.range'_succ, List.map_cons, List.map_cons]
    refine ⟨?_, ?_⟩
    · rw [behind, hd, h1, hl, ← List.cons_append, List.dropLast_concat]
      rfl
    · rw [behindLast, hd, h2]
      congr 1
      omega

theorem paced_polled {extra : LateAnswer} {answer : Nat → Nat → LateAnswer} {first delay gap n : Nat} {f : Nat → Nat → List Byte}
    {fe : List Byte} (he : extra.pieces = [(first + gap, fe)])
    (ha : ∀ j k, (answer j k).pieces = [(first + j * (delay + n * gap) + delay + k * gap, f j k)]) (hgap : 0 < gap)
    (hdelay : gap < delay) {waits : List Nat} (hlen : waits.length = n + 2) (hw : ∀ w ∈ waits, gap ≤ w ∧ delay ≤ gap + w) (R : Nat) :
    ∀ j : Nat, Polled waits (first + j * (delay + n * gap)) ((List.replicate R 0).zip ((List.range' j R).map (pacedRound extra answer n)))
        [leftOver extra answer n (j + R)] ∧
      begins (first + j * (delay + n * gap)) ((List.replicate R 0).zip ((List.range' j R).map (pacedRound extra answer n))) =
        (List.range' j R).map fun j => first + j * (delay + n * gap) := by
  have hleft : ∀ j, ∃ fe, (leftOver extra answer n j).pieces = [(first + j * (delay + n * gap) + gap, fe)] := by
    intro j
    cases j with
    | zero => exact ⟨fe, by rw [Nat.zero_mul]; exact he⟩
    | succ j =>
      refine ⟨f j (n + 1), ?_⟩
      show (answer j (n + 1)).pieces = _
      rw [ha, Nat.add_mul j 1, Nat.add_mul n 1]
      congr 2
      omega
  induction R with
  | zero =>
    intro j
    refine ⟨fun a h p hp => ?_, rfl⟩
    obtain rfl := List.mem_singleton.mp h
    obtain ⟨fe, h⟩ := hleft (j + 0)
    rw [h] at hp
    obtain rfl := List.mem_singleton.mp hp
    rw [Nat.add_zero]
    show _ < _ + gap
    omega
  | succ R ih =>
    intro j
    obtain ⟨i1, i2⟩ := ih (j + 1)
    obtain ⟨fe, hl⟩ := hleft j
    match waits, hlen, hw with
    | w :: waits, hlen, hw =>
      have hlen : waits.length = n + 1 := by simpa using hlen
      have hcomp := complete_one (now := first + j * (delay + n * gap) + 0) hl (by omega)
      have hturns := spaced_turns (answer := answer j) (t := first + j * (delay + n * gap) + delay) (gap := gap) (f := f j) (ha j)
        (waits := waits) (k := 0) (now := first + j * (delay + n * gap) + gap) hlen (by omega)
        (fun w' hw' => by have := hw w' (List.mem_cons_of_mem _ (List.mem_of_mem_head? hw')); omega)
        (fun w' hw' => (hw w' (List.mem_cons_of_mem _ hw')).1)
      rw [if_neg (by omega), show 0 + (n + 1) - 1 = n by omega, ← List.range_eq_range'] at hturns
      obtain ⟨t1, t2⟩ := hturns
      have hnext : first + j * (delay + n * gap) + delay + n * gap = first + (j + 1) * (delay + n * gap) := by
        rw [Nat.add_mul j 1]; omega
      have htaken : takenAll (first + j * (delay + n * gap) + 0) (pacedRound extra answer n j) = first + (j + 1) * (delay + n * gap) := by
        show takenAll ((leftOver extra answer n j).complete _) _ = _
        rw [hcomp, t2, hnext]
      rw [List.range'_succ, List.map_cons, List.replicate_succ, List.zip_cons_cons]
      refine ⟨⟨fun a h p hp => ?_, ⟨fun p hp => ?_, ?_⟩, ?_⟩, ?_⟩
      · rcases List.mem_cons.mp h with rfl | h
        · rw [hl] at hp
          obtain rfl := List.mem_singleton.mp hp
          show _ < _ + gap
          omega
        · obtain ⟨k, -, rfl⟩ := List.mem_map.mp h
          rw [ha] at hp
          obtain rfl := List.mem_singleton.mp hp
          show _ < _ + delay + k * gap
          omega
      · rw [hl] at hp
        obtain rfl := List.mem_singleton.mp hp
        have := (hw w List.mem_cons_self).1
        show _ + gap ≤ _ + 0 + w
        omega
      · rw [hcomp]; exact t1
      · rw [htaken, show j + (R + 1) = j + 1 + R by omega]; exact i1
      · rw [begins, htaken, i2]; rfl

/-- **C96** Two or more motors that always answer after the same time, `delay` for the first and `gap` more for each further one,
and a client that polls them again and again as fast as it can. After a single status packet too many, `gap` after the first
instruction, every turn of every round gets the answer of another motor: there is never a value. Each round begins when the
last but one of the motors has answered, so that nothing changes. -/
theorem c96_pace (g : GroupRead send start next client asked Value n) (hn : (asked.map (·.1)).Nodup) {m delay gap R : Nat}
    (hlen : asked.length = m + 2) {extra : LateAnswer} {error : Nat → Nat → Byte} {params wire : Nat → Nat → List Byte} {b : Bus} {fe : List Byte}
    (he : extra.pieces = [(b.serialPort.now + gap, fe)]) (hes : (asked.map (·.1)).head? ≠ some extra.sender) (hgap : 0 < gap)
    (hdelay : gap < delay) (hw : ∀ q ∈ asked, gap ≤ responseWait b.baudRate q.2 ∧ delay ≤ gap + responseWait b.baudRate q.2)
    {answer : Nat → Nat → LateAnswer}
    (hans : answer = pacedAnswer b.serialPort.now (delay + m * gap) delay gap (asked.map (·.1)) error params wire)
    (h : Between (List.replicate R 0) ((extra :: (List.range R).flatMap fun j => (List.range (m + 2)).map (answer j)).flatMap LateAnswer.events) b)
    (hroom : Room b n) (hv : ∀ a ∈ extra :: (List.range R).flatMap fun j => (List.range (m + 2)).map (answer j), a.Valid b.readBuffer.length) :
    ∃ c, LoopsAgain send start next client b ((List.range R).map fun j => (b.serialPort.now + j * (delay + m * gap),
      (asked.zip (pacedRound extra answer m j)).map fun p => mistaken p.1.1 p.2)) c := by
  have hpieces : ∀ j k, (answer j k).pieces = [(b.serialPort.now + j * (delay + m * gap) + delay + k * gap,
      frame ((asked.map (·.1)).getD k 0#8) (wire j k))] := fun j k => by rw [hans]; rfl
  obtain ⟨hpol, hbeg⟩ := paced_polled he hpieces hgap hdelay (waits := asked.map fun q => responseWait b.baudRate q.2) (by simpa using hlen)
    (fun w hw' => by obtain ⟨q, hq, rfl⟩ := List.mem_map.mp hw'; exact hw q hq) R 0
  obtain ⟨hb1, hb2⟩ := behind_paced extra answer m R 0
  let rounds : List (Nat × List LateAnswer) := (List.range R).map fun j => (0, (List.range (m + 2)).map (answer j))
  have h1 : rounds.map (·.1) = List.replicate R 0 := by
    show List.map _ (List.map _ _) = _
    rw [List.map_map]
    exact List.map_const'.trans (by rw [List.length_range])
  have h2 : rounds.map (·.2) = (List.range' 0 R).map fun j => (List.range (m + 2)).map (answer j) := by
    show List.map _ (List.map _ _) = _
    rw [List.map_map, List.range_eq_range' (n := R)]; rfl
  have hflat : (rounds.map (·.2)).flatten = (List.range R).flatMap fun j => (List.range (m + 2)).map (answer j) := by
    rw [h2, List.flatMap_def, List.range_eq_range' (n := R)]
  rw [Nat.zero_mul, Nat.add_zero] at hpol hbeg
  have hb1' : behind extra (rounds.map (·.2)) = (List.range' 0 R).map (pacedRound extra answer m) := by rw [h2]; exact hb1
  obtain ⟨xss, c, k1, k2, k3⟩ := c96_polling g hn (by omega) (rounds := rounds) (extra := extra) hes (fun r hr => by
      obtain ⟨j, -, rfl⟩ := List.mem_map.mp hr
      rw [hans]
      show List.map _ (List.map _ _) = _
      rw [List.map_map]
      refine List.ext_getElem (by simp [hlen]) fun i hi hi' => ?_
      simp only [List.getElem_map, List.getElem_range, Function.comp_apply, pacedAnswer]
      rw [List.getD_eq_getElem?_getD, List.getElem?_eq_getElem hi', List.getElem_map]
      rfl)
    (by rw [hflat, h1]; exact h) hroom (by rw [hflat]; exact hv) (by
      rw [hb1', h1, h2]
      have : behindLast extra ((List.range' 0 R).map fun j => (List.range (m + 2)).map (answer j)) = leftOver extra answer m (0 + R) := hb2
      rw [this]
      exact hpol)
  rw [hb1'] at k2 k3
  rw [h1, hbeg] at k3
  refine ⟨c, ?_⟩
  have : xss = (xss.map (·.1)).zip (xss.map (·.2)) := by
    clear k1 k2 k3
    induction xss with
    | nil => rfl
    | cons x xss ih => rw [List.map_cons, List.map_cons, List.zip_cons_cons, ← ih]
  rw [this, k2, k3, List.map_map] at k1
  rw [List.zip_map', ← List.range_eq_range'] at k1
  exact k1

end

/-! ## Cases -/

/-- A packet that comes in one piece. -/
def whole (t : Nat) (id error : Byte) (params : List Byte) : LateAnswer :=
  ⟨id, error, params, 0x55#8 :: error :: params, [(t, frame id (0x55#8 :: error :: params))]⟩

theorem whole_valid {cap t : Nat} {id error : Byte} {params : List Byte} (hu : codeUnstuff (0x55#8 :: error :: params) = 0x55#8 :: error :: params)
    (hl : params.length + 11 ≤ cap) (hc : params.length + 4 < 2 ^ 16) : (whole t id error params).Valid cap where
  whole := by simp [whole]
  pieces := by
    intro p hp
    obtain rfl := List.mem_singleton.mp hp
    show frame id _ ≠ []
    exact List.ne_nil_of_length_pos (by rw [Bus.frame_length]; omega)
  means := (unstuffs_iff _ _).2 hu
  short := by show params.length + 2 + 2 < _; omega
  fits := by
    show (frame id _).length ≤ cap
    rw [Bus.frame_length]
    show 9 + (params.length + 2) ≤ _
    omega

/-- Three motors are asked for two bytes; motor 7 was asked before, and its answer comes late. Motor 2 reports an error. -/
def strayBus : Bus :=
  lateBus [whole 5000000 1#8 0#8 [1#8, 1#8], whole 6000000 7#8 0#8 [7#8, 7#8], whole 7000000 2#8 4#8 [], whole 9000000 3#8 0#8 [3#8, 3#8]]

theorem threeMotors : GroupRead (Client.syncReadBytes [1#8, 2#8, 3#8] 132#16 2#16) (fun b => (⟨b, 2#16, [1#8, 2#8, 3#8], 0⟩ : SyncIter))
    SyncIter.nextBytes SyncIter.client [(1#8, 2), (2#8, 2), (3#8, 2)] (fun v ps => v = ps) 7 :=
  .syncReadBytes [1#8, 2#8, 3#8] 132#16 2#16

/-- What the loop gets: the value of motor 1, a wrong ID, and the error of motor 2 as if it was of motor 3. -/
example : (callTimes (ε := Empty) SyncIter.nextBytes 4 ⟨(Client.syncReadBytes [1#8, 2#8, 3#8] 132#16 2#16 strayBus).1, 2#16, [1#8, 2#8, 3#8], 0⟩).2 =
    .ok [some (.ok ⟨1#8, false, [1#8, 1#8]⟩), some (.error (.invalidMessage (.packetId 7#8 2#8))), some (.error (.motorError ⟨4#8⟩)), none] := by
  decide +kernel

theorem stray_valid : ∀ a ∈ [whole 5000000 1#8 0#8 [1#8, 1#8], whole 6000000 7#8 0#8 [7#8, 7#8], whole 7000000 2#8 4#8 [],
    whole 9000000 3#8 0#8 [3#8, 3#8]], a.Valid strayBus.readBuffer.length := by
  intro a ha
  simp only [List.mem_cons, List.not_mem_nil, or_false] at ha
  rcases ha with rfl | rfl | rfl | rfl <;> exact whole_valid (by decide +kernel) (by decide) (by decide)

example := c96_extra threeMotors (first := [(1#8, 2)]) (q := (2#8, 2)) (later := [(3#8, 2)]) rfl
  (before := [whole 5000000 1#8 0#8 [1#8, 1#8]]) (extra := whole 6000000 7#8 0#8 [7#8, 7#8])
  (after := [whole 7000000 2#8 4#8 [], whole 9000000 3#8 0#8 [3#8, 3#8]]) (more := []) rfl rfl (by decide) (durations := [0, 0, 0]) (b := strayBus)
  (lateBus_between (by decide +kernel)) ⟨by decide, by decide⟩ stray_valid
  ⟨by decide +kernel, by decide +kernel, by decide +kernel, trivial⟩ (by decide +kernel)

example := c96_turns threeMotors (packets := [whole 5000000 1#8 0#8 [1#8, 1#8], whole 6000000 7#8 0#8 [7#8, 7#8], whole 7000000 2#8 4#8 []])
  (more := [whole 9000000 3#8 0#8 [3#8, 3#8]]) (writing := 0) (durations := [0, 0, 0]) (b := strayBus)
  (lateBus_between (by decide +kernel)) ⟨by decide, by decide⟩ (fun a ha => stray_valid a (List.mem_append_left [_] ha))
  ⟨by decide +kernel, by decide +kernel, by decide +kernel, trivial⟩ (by decide +kernel)

/-- A loop after a pause of 10 ms; motor 3 sets the alert bit. -/
example := c96_pause threeMotors (left := [whole 6000000 7#8 0#8 [7#8, 7#8], whole 9000000 3#8 0#8 [3#8, 3#8]])
  (answers := [whole 12000000 1#8 0#8 [1#8, 2#8], whole 13000000 2#8 0#8 [3#8, 4#8], whole 14000000 3#8 128#8 [5#8, 6#8]])
  (more := [whole 16000000 3#8 0#8 [3#8, 3#8]]) (pause := 10000000) (writing := 0) (durations := [0, 0, 0])
  (b := lateBus [whole 6000000 7#8 0#8 [7#8, 7#8], whole 9000000 3#8 0#8 [3#8, 3#8], whole 12000000 1#8 0#8 [1#8, 2#8],
    whole 13000000 2#8 0#8 [3#8, 4#8], whole 14000000 3#8 128#8 [5#8, 6#8], whole 16000000 3#8 0#8 [3#8, 3#8]])
  (lateBus_between (by decide +kernel)) ⟨by decide, by decide⟩ (by decide +kernel) (by decide +kernel)
  (by
    intro a ha
    simp only [List.mem_cons, List.not_mem_nil, or_false] at ha
    rcases ha with rfl | rfl | rfl <;> exact whole_valid (by decide +kernel) (by decide) (by decide))
  (by decide +kernel) (by decide +kernel) ⟨by decide +kernel, by decide +kernel, by decide +kernel, trivial⟩ (by decide +kernel)

/-- Two motors that need 3 ms and 4 ms, and an answer of motor 9 after 1 ms. -/
def twoPaced (j k : Nat) : LateAnswer :=
  pacedAnswer 0 3000000 3000000 1000000 [1#8, 2#8] (fun _ _ => 0#8) (fun j _ => [BitVec.ofNat 8 j]) (fun j _ => [0x55#8, 0#8, BitVec.ofNat 8 j]) j k

def strayNine : LateAnswer := whole 1000000 9#8 0#8 [9#8]

def pacedBus : Bus := lateBus (strayNine :: (List.range 4).flatMap fun j => (List.range 2).map (twoPaced j))

theorem twoMotors : GroupRead (Client.bulkReadBytes [⟨1#8, 64#16, 1#16⟩, ⟨2#8, 65#16, 1#16⟩])
    (fun b => (⟨b, [⟨1#8, 64#16, 1#16⟩, ⟨2#8, 65#16, 1#16⟩], 0⟩ : BulkIter))
    BulkIter.next BulkIter.client [(1#8, 1), (2#8, 1)] (fun v ps => v = ps) 10 :=
  .bulkReadBytes [⟨1#8, 64#16, 1#16⟩, ⟨2#8, 65#16, 1#16⟩] (by decide)

theorem twoPaced_valid : ∀ a ∈ strayNine :: (List.range 4).flatMap fun j => (List.range 2).map (twoPaced j), a.Valid pacedBus.readBuffer.length := by
  intro a ha
  have : a = strayNine ∨ ∃ j < 4, ∃ k < 2, a = twoPaced j k := by
    rcases List.mem_cons.mp ha with rfl | ha
    · exact .inl rfl
    · obtain ⟨j, hj, ha⟩ := List.mem_flatMap.mp ha
      obtain ⟨k, hk, rfl⟩ := List.mem_map.mp ha
      exact .inr ⟨j, List.mem_range.mp hj, k, List.mem_range.mp hk, rfl⟩
  rcases this with rfl | ⟨j, hj, k, hk, rfl⟩
  · exact whole_valid (by decide +kernel) (by decide) (by decide)
  · refine whole_valid (id := [1#8, 2#8].getD k 0#8) ?_ (by show 1 + 11 ≤ 20; decide) (by show 1 + 4 < _; decide)
    have : ∀ j < 4, codeUnstuff [0x55#8, 0#8, BitVec.ofNat 8 j] = [0x55#8, 0#8, BitVec.ofNat 8 j] := by decide +kernel
    exact this j hj

theorem paced_between : Between (List.replicate 4 0) ((strayNine :: (List.range 4).flatMap fun j => (List.range 2).map (twoPaced j)).flatMap
    LateAnswer.events) pacedBus := lateBus_between (by decide +kernel)

example := c96_pace twoMotors (by decide) (m := 0) (delay := 3000000) (gap := 1000000) (R := 4) rfl (extra := strayNine) (b := pacedBus)
  (error := fun _ _ => 0#8) (params := fun j _ => [BitVec.ofNat 8 j]) (wire := fun j _ => [0x55#8, 0#8, BitVec.ofNat 8 j])
  rfl (by decide) (by decide) (by decide) (by decide +kernel) (answer := twoPaced) rfl paced_between ⟨by decide, by decide⟩ twoPaced_valid

def pacedRounds : List (Nat × List LateAnswer) := (List.range 4).map fun j => (0, (List.range 2).map (twoPaced j))

/-- The packets that each of the four rounds takes, and the one that is left. -/
def pacedTaken : List (Nat × List LateAnswer) :=
  [(0, [strayNine, twoPaced 0 0]), (0, [twoPaced 0 1, twoPaced 1 0]), (0, [twoPaced 1 1, twoPaced 2 0]), (0, [twoPaced 2 1, twoPaced 3 0])]

theorem paced_in_turn : Polled [responseWait 57600 1, responseWait 57600 1] 0 pacedTaken [twoPaced 3 1] := by
  refine ⟨by decide +kernel, ⟨by decide +kernel, by decide +kernel, trivial⟩, by decide +kernel, ⟨by decide +kernel, by decide +kernel, trivial⟩,
    by decide +kernel, ⟨by decide +kernel, by decide +kernel, trivial⟩, by decide +kernel, ⟨by decide +kernel, by decide +kernel, trivial⟩, ?_⟩
  exact (by decide +kernel : ∀ a ∈ [twoPaced 3 1], ∀ p ∈ a.pieces, 12000000 < p.1)

example := c96_polling twoMotors (by decide) (by decide) (rounds := pacedRounds) (extra := strayNine) (b := pacedBus) (by decide) (by decide +kernel)
  paced_between ⟨by decide, by decide⟩ twoPaced_valid paced_in_turn

example := c96_rounds twoMotors (left := [twoPaced 3 1]) (rounds := pacedTaken) (b := pacedBus) paced_between ⟨by decide, by decide⟩
  (fun r hr a ha => twoPaced_valid a (by
    have := List.mem_flatMap.mpr ⟨r, hr, ha⟩
    exact List.mem_append_left [twoPaced 3 1] this)) paced_in_turn

end Dxl.Props
