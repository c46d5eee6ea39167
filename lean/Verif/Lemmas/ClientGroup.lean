import Verif.Lemmas.GroupStory
import Verif.Lemmas.ClientThread
import Verif.Model.IntegrationTests

/-! # The thread of the client, after an instruction for several motors -/

namespace Dxl.Props
open Dxl Spec Spec.Line

/-! ## Code that reads -/

/-- `m` does nothing to the port but read. `g` is the bus in its state. -/
structure Reading {σ ε α : Type} (g : σ → Bus) (m : SO σ ε α) : Prop where
  watched : WatchedOn g m
  just : OnlyReadsOn g m

namespace Reading
variable {σ ε ε' α β : Type} {g : σ → Bus}

theorem bind {m : SO σ ε α} {k : α → SO σ ε β} (hm : Reading g m) (hk : ∀ a, Reading g (k a)) : Reading g (m >>= k) :=
  ⟨hm.1.bind fun a => (hk a).1, hm.2.bind fun a => (hk a).2⟩
theorem same {m : SO σ ε α} (h : ∀ s, g (m s).1 = g s) : Reading g m := ⟨.same h, .same h⟩
theorem pure (a : α) : Reading g (Pure.pure a : SO σ ε α) := same fun _ => rfl
theorem lift (o : Outcome ε α) : Reading g (SO.lift o : SO σ ε α) := same fun _ => rfl
theorem get : Reading g (SO.get : SO σ ε σ) := same fun _ => rfl
theorem panic : Reading g (SO.panic : SO σ ε α) := same fun _ => rfl
theorem hang : Reading g (SO.hang : SO σ ε α) := same fun _ => rfl
theorem attempt {m : SO σ ε α} (h : Reading g m) : Reading g (m.attempt : SO σ ε' (Except ε α)) := ⟨h.1.attempt, h.2.attempt⟩

end Reading

theorem readStatusTimeout_reading (t : Nat) : Reading (fun b => b) (Client.readStatusResponseTimeout t) :=
  .bind .get fun _ => .bind ⟨Bus.readPacketDeadline_watched _, Bus.readPacketDeadline_just _⟩ fun _ => .lift _

theorem readStatus_reading (n : U16) : Reading (fun b => b) (Client.readStatusResponse n) :=
  .bind .get fun _ => .bind (.lift _) fun _ => readStatusTimeout_reading _

theorem scanNext_reading {ε : Type} : Reading (fun b => b) (Client.scanNext (ε := ε)) := by
  refine .bind (.attempt (.bind .get fun _ => .bind (.lift _) fun _ => .bind (readStatusTimeout_reading _) fun _ => .lift _)) fun x => ?_
  rcases x with e | r
  · cases e with
    | io e => dsimp only; split <;> exact .pure _
    | _ => exact .pure _
  · exact .pure _

theorem scanLoop_reading {ε : Type} (fuel : Nat) : Reading (fun b => b) (Cli.scanLoop (ε := ε) fuel) := by
  induction fuel with
  | zero => exact .hang
  | succ fuel ih =>
    refine .bind scanNext_reading fun x => ?_
    cases x with
    | some s => exact .bind ih fun _ => .pure _
    | none => exact .pure _

theorem scanDrop_reading {ε : Type} (fuel : Nat) : Reading (fun b => b) (Client.scanDrop (ε := ε) fuel) := by
  induction fuel with
  | zero => exact .hang
  | succ fuel ih =>
    refine .bind scanNext_reading fun x => ?_
    cases x with
    | some s => exact ih
    | none => exact .pure _

namespace SyncIter
open Dxl.SyncIter

theorem onClient_reading {ε α : Type} {m : SO Bus ε α} (h : Reading (fun b => b) m) : Reading SyncIter.client (onClient m) :=
  ⟨fun s hs => h.1 s.client hs, fun s => h.2 s.client⟩

theorem pop_reading {ε : Type} : Reading SyncIter.client (popMotorId (ε := ε)) := by
  refine .same fun s => ?_
  unfold popMotorId
  split <;> rfl

theorem nextBytes_reading {ε : Type} : Reading SyncIter.client (nextBytes (ε := ε)) := by
  refine .bind pop_reading fun r => ?_
  cases r with
  | none => exact .pure _
  | some id =>
    exact .bind (.attempt (.bind .get fun s => .bind (onClient_reading (readStatus_reading _)) fun _ =>
      .bind (.lift _) fun _ => .lift _)) fun _ => .pure _

theorem next_reading {α : Type} (d : DataTy α) {ε : Type} : Reading SyncIter.client (next d (ε := ε)) := by
  refine .bind pop_reading fun r => ?_
  cases r with
  | none => exact .pure _
  | some id =>
    exact .bind (.attempt (.bind (onClient_reading (readStatus_reading _)) fun _ =>
      .bind (.lift _) fun _ => .lift _)) fun _ => .pure _

theorem dropBytes_reading {ε : Type} (fuel : Nat) : Reading SyncIter.client (dropBytes (ε := ε) fuel) := by
  induction fuel with
  | zero => exact .hang
  | succ n ih =>
    refine .bind pop_reading fun r => ?_
    cases r with
    | none => exact .pure _
    | some id =>
      exact .bind .get fun s => .bind (.attempt (onClient_reading (readStatus_reading _))) fun _ => ih

theorem drop_reading {α : Type} (d : DataTy α) {ε : Type} (fuel : Nat) : Reading SyncIter.client (drop d (ε := ε) fuel) := by
  induction fuel with
  | zero => exact .hang
  | succ n ih =>
    refine .bind (next_reading d) fun r => ?_
    cases r with
    | none => exact .pure _
    | some x => exact ih

end SyncIter

namespace BulkIter
open Dxl.BulkIter

theorem onClient_reading {ε α : Type} {m : SO Bus ε α} (h : Reading (fun b => b) m) : Reading BulkIter.client (onClient m) :=
  ⟨fun s hs => h.1 s.client hs, fun s => h.2 s.client⟩

theorem pop_reading {ε : Type} : Reading BulkIter.client (pop (ε := ε)) := by
  refine .same fun s => ?_
  unfold pop
  split <;> rfl

theorem next_reading {ε : Type} : Reading BulkIter.client (next (ε := ε)) := by
  refine .bind pop_reading fun r => ?_
  cases r with
  | none => exact .pure _
  | some id =>
    exact .bind (.attempt (.bind (onClient_reading (readStatus_reading _)) fun _ =>
      .bind (.lift _) fun _ => .lift _)) fun _ => .pure _

theorem dropLoop_reading {ε : Type} (reads : List BulkReadData) : Reading BulkIter.client (dropLoop (ε := ε) reads) := by
  induction reads with
  | nil => exact .pure _
  | cons r rest ih =>
    exact .bind (.attempt (onClient_reading (readStatus_reading _))) fun _ => ih

theorem drop_reading {ε : Type} : Reading BulkIter.client (drop (ε := ε)) := by
  refine .bind .get fun s => ?_
  split
  · exact dropLoop_reading _
  · exact .panic

end BulkIter

/-! ## One status packet -/

/-- The client has received these messages and not looked at them. -/
structure Keeps (b : Bus) (p : List Msg) : Prop where
  inv : b.Inv
  size : b.readBuffer.length = 128
  slow : b.baudRate ≠ 0
  fast : b.baudRate < 2 ^ 32
  pending : b.pending = bytes p

/-- A status packet. -/
abbrev GoodReply : List Byte → Prop := GoodOf fun _ _ => False

/-- What reading a status packet does to the messages. -/
inductive Takes (q : List Msg) (h : List Event') : Bus × Outcome ReadError StatusPacket → Prop
  | status {m : Msg} {rest : List Msg} {pkt : Packet} {id : Byte} {reply : ServoReply} {c : Bus} (hq : q ++ heard h = m :: rest)
      (hm : m.2 = replyFrame id reply) (hk : Carries pkt id 0x55#8 (reply.error :: reply.data)) (hn : ∀ e, Event'.failed e ∉ h)
      (hc : Keeps c rest) (hs : Survives (0x55#8 :: reply.error :: reply.data)) : Takes q h (c, Client.checkStatus pkt)
  | ended {h' : List Event'} {e : IoErr} {c : Bus} (hh : h = h' ++ [.failed e]) (hn : ∀ e, Event'.failed e ∉ h')
      (hq : q ++ heard h = []) (hc : Keeps c []) : Takes q h (c, .err (.io e))

theorem gots_quiet {h : List Event'} {gs : List (List Byte)} (he : h.map Event'.plain = gs.map .got) (e : IoErr) :
    Event'.failed e ∉ h := by
  intro hm
  have : Event'.plain (.failed e) ∈ h.map Event'.plain := List.mem_map.mpr ⟨_, hm, rfl⟩
  rw [he] at this
  simp [Event'.plain] at this

theorem readStatusTimeout_takes (t : Nat) {b : Bus} {p : List Msg} {es : List Seen} {h : List Event'} (hb : Keeps b p)
    (hg : ∀ m ∈ p ++ heard h, GoodReply m.2) (hsaw : Saw b.serialPort es (Client.readStatusResponseTimeout t b).1.serialPort)
    (he : h.map Event'.plain = es) : Takes p h (Client.readStatusResponseTimeout t b) := by
  have heq : Client.readStatusResponseTimeout t b = ((Bus.readPacketDeadline (b.serialPort.makeDeadline t) b).1,
      (Bus.readPacketDeadline (b.serialPort.makeDeadline t) b).2.bind Client.checkStatus) := by
    unfold Client.readStatusResponseTimeout
    rw [SO.get_bind, SO.bind_def]
    rcases Bus.readPacketDeadline (b.serialPort.makeDeadline t) b with ⟨c, o⟩
    cases o <;> rfl
  rw [heq] at hsaw ⊢
  generalize b.serialPort.makeDeadline t = D at *
  have hstep := Bus.readPacketDeadline_sound D b hb.inv
  have hjust := Bus.readPacketDeadline_just D b
  obtain ⟨es', hs, hsees⟩ := Bus.readPacketDeadline_sees D hb.inv.rInv (by rw [hb.size]; decide)
  obtain rfl := saw_unique hsaw hs
  rcases hx : Bus.readPacketDeadline D b with ⟨c, o⟩
  rw [hx] at hsees hstep hjust
  dsimp only at hstep hjust ⊢
  have hhold : ∀ q, c.pending = bytes q → Keeps c q := fun q hq =>
    ⟨hstep.inv, hstep.readSize.trans hb.size, hjust.baudRate ▸ hb.slow, hjust.baudRate ▸ hb.fast, hq⟩
  cases hsees with
  | @packet gs f rest c' hp hr hc hs =>
    rw [hb.size, hb.pending, ← heard_gots he, ← bytes_append'] at hp
    rcases messages_parse hg with ⟨-, hm, -⟩ | ⟨m, q, hq, hm⟩
    · rw [hm] at hp; cases hp
    rw [hm] at hp
    obtain ⟨rfl, rfl⟩ : m.2 = f ∧ bytes q = rest := by injection hp with a b; exact ⟨a, b⟩
    have hgm := hg m (by rw [hq]; simp)
    obtain ⟨k, f⟩ := m
    dsimp only at hgm ⊢
    cases hgm with
    | request h => exact h.elim
    | @reply id reply h1 h2 =>
      obtain ⟨pkt, h5, h6⟩ := frameOutcome_carries (id := id) (survives_unstuffs (stuffedForm_codeStuff _) h1)
      change Bus.frameOutcome (replyFrame id reply) = _ at h5
      rw [h5]
      exact .status hq rfl h6 (gots_quiet he) (hhold _ hc) h1
  | @tooBig gs req rest c' hp =>
    rw [hb.size, hb.pending, ← heard_gots he, ← bytes_append'] at hp
    rcases messages_parse hg with ⟨-, hm, -⟩ | ⟨m, q, hq, hm⟩ <;> rw [hm] at hp <;> cases hp
  | @ended gs e' c' hp hr hc hs =>
    obtain ⟨h₁, h₂, rfl, he₁, he₂⟩ := List.map_eq_append_iff.mp he
    obtain ⟨e₀, rfl⟩ : ∃ e₀, h₂ = [e₀] := by
      cases h₂ with
      | nil => simp at he₂
      | cons a t =>
        cases t with
        | nil => exact ⟨a, rfl⟩
        | cons => simp at he₂
    have hfail : e₀ = .failed e' := by
      cases e₀ <;> simp [Event'.plain] at he₂
      rw [he₂]
    subst hfail
    have hheard : heard (h₁ ++ [.failed e']) = heard h₁ := by rw [heard_append]; simp [heard]
    rw [hheard] at hg
    rw [hb.size, hb.pending, ← heard_gots he₁, ← bytes_append'] at hp
    rcases messages_parse hg with ⟨hq, -, hm⟩ | ⟨m, q, hq, hm⟩
    · refine .ended rfl (gots_quiet he₁) (by rw [hheard]; exact hq) (hhold [] ?_)
      rw [hc, hb.pending, ← heard_gots he₁, ← bytes_append', hm]
      rfl
    · rw [hm] at hp
      cases hp

theorem readStatus_takes (n : U16) {b : Bus} {p : List Msg} {es : List Seen} {h : List Event'} (hb : Keeps b p)
    (hg : ∀ m ∈ p ++ heard h, GoodReply m.2) (hsaw : Saw b.serialPort es (Client.readStatusResponse n b).1.serialPort)
    (he : h.map Event'.plain = es) : Takes p h (Client.readStatusResponse n b) := by
  obtain ⟨ns, -, heq⟩ := readStatusResponse_eq hb.slow hb.fast n
  rw [heq] at hsaw ⊢
  exact readStatusTimeout_takes _ hb hg hsaw he

/-! ## Iterators over the answers -/

theorem Takes.then_ {α : Type} {q : List Msg} {h : List Event'} {x : Bus × Outcome ReadError StatusPacket}
    {f : StatusPacket → Outcome ReadError α} (ht : Takes q h x)
    (hf : ∀ pkt id (e : Byte) (ps : List Byte), Carries pkt id 0x55#8 (e :: ps) → f ⟨pkt⟩ ≠ .hang) :
    (∃ a m rest, x.2.bind f = .ok a ∧ q ++ heard h = m :: rest ∧ Keeps x.1 rest) ∨ (∃ e, x.2.bind f = .err e) ∨ x.2.bind f = .panic := by
  cases ht with
  | ended => exact .inr (.inl ⟨_, rfl⟩)
  | @status m rest pkt id reply c hq hm hk hn hc hs =>
    dsimp only
    rw [checkStatus_carries hk, if_pos rfl]
    dsimp only
    split
    · simp only [Outcome.bind]
      cases ho : f ⟨pkt⟩ with
      | ok a => exact .inl ⟨a, m, rest, rfl, hq, hc⟩
      | err e => exact .inr (.inl ⟨e, rfl⟩)
      | panic => exact .inr (.inr rfl)
      | hang => exact absurd ho (hf _ _ _ _ hk)
    · exact .inr (.inl ⟨_, rfl⟩)

/-- The result of a fallible function as the item of an iterator. -/
def itemOf {α : Type} : Outcome ReadError α → Outcome Empty (Option (Except ReadError α))
  | .ok a => .ok (some (.ok a))
  | .err e => .ok (some (.error e))
  | .panic => .panic
  | .hang => .hang

/-- An iterator that takes one message for each item. -/
structure Feeds {σ α : Type} (g : σ → Bus) (left : σ → Nat) (next : SO σ Empty (Option (Except ReadError (Response α)))) : Prop where
  reading : Reading g next
  eats : ∀ {s : σ} {n : Nat} {p : List Msg} {es : List Seen} {h : List Event'}, left s = n + 1 → Keeps (g s) p →
    (∀ m ∈ p ++ heard h, GoodReply m.2) → Saw (g s).serialPort es (g (next s).1).serialPort → h.map Event'.plain = es →
    left (next s).1 = n ∧
    ((∃ a m rest, (next s).2 = .ok (some (.ok a)) ∧ p ++ heard h = m :: rest ∧ Keeps (g (next s).1) rest) ∨
      (∃ e, (next s).2 = .ok (some (.error e))) ∨ (next s).2 = .panic)

theorem checkAll_reading {σ α : Type} {g : σ → Bus} {next : SO σ Empty (Option (Except ReadError (Response α)))} (h : Reading g next)
    (ids : List Byte) : Reading g (IntegrationTests.checkAll next ids) := by
  induction ids with
  | nil => exact .bind h fun _ => .pure _
  | cons id ids ih =>
    refine .bind h fun x => ?_
    cases x with
    | none => exact .pure _
    | some x =>
      cases x with
      | error e => exact .panic
      | ok r => dsimp only; split <;> first | exact ih | exact .panic

/-- The loop ends with a panic, or there was a message for every motor. -/
theorem checkAll_needs {σ α : Type} {g : σ → Bus} {left : σ → Nat} {next : SO σ Empty (Option (Except ReadError (Response α)))}
    (hf : Feeds g left next) : ∀ (ids : List Byte) {s : σ} {p : List Msg} {es : List Seen} {h : List Event'}, left s = ids.length →
    Keeps (g s) p → (∀ m ∈ p ++ heard h, GoodReply m.2) →
    Saw (g s).serialPort es (g (IntegrationTests.checkAll next ids s).1).serialPort → h.map Event'.plain = es →
    (IntegrationTests.checkAll next ids s).2 = .panic ∨ ids.length ≤ (p ++ heard h).length := by
  intro ids
  induction ids with
  | nil => intros; exact .inr (Nat.zero_le _)
  | cons id ids ih =>
    intro s p es h hl hk hg hsaw he
    have htail : ∀ x : Option (Except ReadError (Response α)), Reading g (match x with
        | none => pure ()
        | some (.error _) => SO.panic
        | some (.ok r) => if r.motorId = id then IntegrationTests.checkAll next ids else SO.panic : SO σ Empty Unit) := by
      intro x
      cases x with
      | none => exact .pure _
      | some x =>
        cases x with
        | error e => exact .panic
        | ok r => dsimp only; split <;> first | exact checkAll_reading hf.reading ids | exact .panic
    obtain ⟨es₁, es₂, rfl, hs₁, hs₂⟩ := WatchedOn.split hf.reading.watched (fun x => (htail x).watched) hk.inv hsaw
    obtain ⟨h₁, h₂, rfl, he₁, he₂⟩ := List.map_eq_append_iff.mp he
    rw [heard_append, ← List.append_assoc] at hg ⊢
    obtain ⟨hl', hcase⟩ := hf.eats (n := ids.length) (by rw [hl]; rfl) hk (fun m hm => hg m (List.mem_append_left _ hm)) hs₁ he₁
    have hs₂' : Saw (g (next s).1).serialPort es₂ (g (IntegrationTests.checkAll next (id :: ids) s).1).serialPort := hs₂
    unfold IntegrationTests.checkAll at hs₂' ⊢
    rcases hx : next s with ⟨s₁, o⟩
    rw [hx] at hl' hcase hs₂'
    dsimp only at hl' hcase hs₂'
    rcases hcase with ⟨a, m, rest, rfl, hq, hk'⟩ | ⟨e, rfl⟩ | rfl
    · rw [SO.bind_ok hx] at hs₂' ⊢
      dsimp only at hs₂' ⊢
      split at hs₂'
      · rename_i hid
        rw [if_pos hid]
        rw [hq] at hg ⊢
        rcases ih hl' hk' (fun x hx => hg x (by
          rw [List.cons_append]; exact List.mem_cons_of_mem _ hx)) hs₂' he₂ with h | h
        · exact .inl h
        · right
          simp only [List.length_append, List.length_cons] at h ⊢
          omega
      · rename_i hid
        rw [if_neg hid]
        exact .inl rfl
    · rw [SO.bind_ok hx]
      exact .inl rfl
    · rw [SO.bind_panic hx]
      exact .inl rfl

theorem itemOf_cases {α : Type} {q : List Msg} {h : List Event'} {x : Bus × Outcome ReadError StatusPacket}
    {f : StatusPacket → Outcome ReadError α} (ht : Takes q h x)
    (hf : ∀ pkt id (e : Byte) (ps : List Byte), Carries pkt id 0x55#8 (e :: ps) → f ⟨pkt⟩ ≠ .hang) :
    (∃ a m rest, itemOf (x.2.bind f) = .ok (some (.ok a)) ∧ q ++ heard h = m :: rest ∧ Keeps x.1 rest) ∨
      (∃ e, itemOf (x.2.bind f) = .ok (some (.error e))) ∨ itemOf (x.2.bind f) = .panic := by
  rcases ht.then_ hf with ⟨a, m, rest, h1, h2, h3⟩ | ⟨e, h1⟩ | h1 <;> rw [h1]
  · exact .inl ⟨a, m, rest, rfl, h2, h3⟩
  · exact .inr (.inl ⟨e, rfl⟩)
  · exact .inr (.inr rfl)

theorem nextBytes_eq (s : Dxl.SyncIter) {id : Byte} (hi : s.motorIds[s.index]? = some id) :
    (Dxl.SyncIter.nextBytes s : _ × Outcome Empty _) =
      ({ s with index := s.index + 1, client := (Client.readStatusResponse s.count s.client).1 },
        itemOf ((Client.readStatusResponse s.count s.client).2.bind fun st =>
          (Dxl.SyncIter.checkResponse st id s.count).bind fun _ => (decodeStatusPacketBytes st).mapErr .motorError)) := by
  have hp : (Dxl.SyncIter.popMotorId s : _ × Outcome Empty _) = ({ s with index := s.index + 1 }, .ok (some id)) := by
    unfold Dxl.SyncIter.popMotorId
    rw [hi]
  unfold Dxl.SyncIter.nextBytes
  rw [SO.bind_ok hp]
  dsimp only
  rw [SO.bind_def]
  unfold SO.attempt Dxl.SyncIter.nextResponseBytes
  rw [SO.get_bind, SO.bind_def]
  simp only [Dxl.SyncIter.onClient, SO.zoom]
  rcases Client.readStatusResponse s.count s.client with ⟨c, o⟩
  cases o with
  | ok st =>
    dsimp only [Outcome.bind]
    rw [SO.bind_def, SO.lift_apply]
    cases Dxl.SyncIter.checkResponse st id s.count with
    | ok u =>
      dsimp only [Outcome.bind]
      rw [SO.lift_apply]
      cases (decodeStatusPacketBytes st) <;> rfl
    | _ => rfl
  | _ => rfl

theorem next_eq {α : Type} (d : DataTy α) (s : Dxl.SyncIter) {id : Byte} (hi : s.motorIds[s.index]? = some id) :
    (Dxl.SyncIter.next d s : _ × Outcome Empty _) =
      ({ s with index := s.index + 1, client := (Client.readStatusResponse d.size s.client).1 },
        itemOf ((Client.readStatusResponse d.size s.client).2.bind fun st =>
          (Dxl.SyncIter.checkResponse st id d.size).bind fun _ => decodeStatusPacket d st)) := by
  have hp : (Dxl.SyncIter.popMotorId s : _ × Outcome Empty _) = ({ s with index := s.index + 1 }, .ok (some id)) := by
    unfold Dxl.SyncIter.popMotorId
    rw [hi]
  unfold Dxl.SyncIter.next
  rw [SO.bind_ok hp]
  dsimp only
  rw [SO.bind_def]
  unfold SO.attempt Dxl.SyncIter.nextResponse
  rw [SO.bind_def]
  simp only [Dxl.SyncIter.onClient, SO.zoom]
  rcases Client.readStatusResponse d.size s.client with ⟨c, o⟩
  cases o with
  | ok st =>
    dsimp only [Outcome.bind]
    rw [SO.bind_def, SO.lift_apply]
    cases Dxl.SyncIter.checkResponse st id d.size with
    | ok u =>
      dsimp only [Outcome.bind]
      rw [SO.lift_apply]
      cases (decodeStatusPacket d st) <;> rfl
    | _ => rfl
  | _ => rfl

theorem bulkNext_eq (s : Dxl.BulkIter) {r : BulkReadData} (hi : s.reads[s.index]? = some r) :
    (Dxl.BulkIter.next s : _ × Outcome Empty _) =
      ({ s with index := s.index + 1, client := (Client.readStatusResponse r.count s.client).1 },
        itemOf ((Client.readStatusResponse r.count s.client).2.bind fun st =>
          (Dxl.SyncIter.checkResponse st r.motorId r.count).bind fun _ => (decodeStatusPacketBytes st).mapErr .motorError)) := by
  have hp : (Dxl.BulkIter.pop s : _ × Outcome Empty _) = ({ s with index := s.index + 1 }, .ok (some r)) := by
    unfold Dxl.BulkIter.pop
    rw [hi]
  unfold Dxl.BulkIter.next
  rw [SO.bind_ok hp]
  dsimp only
  rw [SO.bind_def]
  unfold SO.attempt Dxl.BulkIter.nextResponse
  rw [SO.bind_def]
  simp only [Dxl.BulkIter.onClient, SO.zoom]
  rcases Client.readStatusResponse r.count s.client with ⟨c, o⟩
  cases o with
  | ok st =>
    dsimp only [Outcome.bind]
    rw [SO.bind_def, SO.lift_apply]
    cases Dxl.SyncIter.checkResponse st r.motorId r.count with
    | ok u =>
      dsimp only [Outcome.bind]
      rw [SO.lift_apply]
      cases (decodeStatusPacketBytes st) <;> rfl
    | _ => rfl
  | _ => rfl

theorem decodeBytes_checked {pkt : Packet} {rid e : Byte} {ps : List Byte} (hc : Carries pkt rid 0x55#8 (e :: ps)) (id : Byte) (n : U16) :
    (Dxl.SyncIter.checkResponse ⟨pkt⟩ id n).bind (fun _ => (decodeStatusPacketBytes ⟨pkt⟩).mapErr ReadError.motorError) ≠ .hang := by
  have hc' : Carries (StatusPacket.mk pkt).packet rid 0x55#8 (e :: ps) := hc
  rw [checkResponse_carries hc', decodeBytes_carries hc']
  repeat' split
  all_goals simp [Outcome.bind]

theorem decode_checked {α : Type} {d : DataTy α} (hd : ∀ ps, ps.length = d.size.toNat → d.decode ps ≠ .hang) {pkt : Packet} {rid e : Byte} {ps : List Byte} (hc : Carries pkt rid 0x55#8 (e :: ps)) (id : Byte) :
    (Dxl.SyncIter.checkResponse ⟨pkt⟩ id d.size).bind (fun _ => decodeStatusPacket d ⟨pkt⟩) ≠ .hang := by
  have hc' : Carries (StatusPacket.mk pkt).packet rid 0x55#8 (e :: ps) := hc
  rw [checkResponse_carries hc', decode_carries d hc']
  by_cases h1 : rid = id
  · rw [if_neg (by simpa using h1)]
    by_cases h2 : ps.length = d.size.toNat
    · rw [if_neg (by simpa using h2)]
      have := hd ps h2
      simp only [Outcome.bind]
      split
      · cases hh : d.decode ps with
        | hang => exact absurd hh this
        | _ => simp [Outcome.mapErr, Bind.bind, Outcome.bind]
      · simp
    · rw [if_pos h2]; simp [Outcome.bind]
  · rw [if_pos h1]; simp [Outcome.bind]

theorem nextBytes_feeds : Feeds (α := List Byte) Dxl.SyncIter.client (fun s => s.motorIds.length - s.index) Dxl.SyncIter.nextBytes := by
  refine ⟨SyncIter.nextBytes_reading, fun {s n p es h} hl hk hg hsaw he => ?_⟩
  have hi : s.motorIds[s.index]? = some (s.motorIds[s.index]'(by omega)) := List.getElem?_eq_getElem _
  rw [nextBytes_eq s hi] at hsaw ⊢
  exact ⟨by dsimp only; omega, itemOf_cases (readStatus_takes _ hk hg hsaw he) fun _ _ _ _ hc => decodeBytes_checked hc _ _⟩

theorem next_feeds {α : Type} {d : DataTy α} (hd : ∀ ps, ps.length = d.size.toNat → d.decode ps ≠ .hang) :
    Feeds Dxl.SyncIter.client (fun s => s.motorIds.length - s.index) (Dxl.SyncIter.next d) := by
  refine ⟨SyncIter.next_reading d, fun {s n p es h} hl hk hg hsaw he => ?_⟩
  have hi : s.motorIds[s.index]? = some (s.motorIds[s.index]'(by omega)) := List.getElem?_eq_getElem _
  rw [next_eq d s hi] at hsaw ⊢
  exact ⟨by dsimp only; omega, itemOf_cases (readStatus_takes _ hk hg hsaw he) fun _ _ _ _ hc => decode_checked hd hc _⟩

theorem bulkNext_feeds : Feeds (α := List Byte) Dxl.BulkIter.client (fun s => s.reads.length - s.index) Dxl.BulkIter.next := by
  refine ⟨BulkIter.next_reading, fun {s n p es h} hl hk hg hsaw he => ?_⟩
  have hi : s.reads[s.index]? = some (s.reads[s.index]'(by omega)) := List.getElem?_eq_getElem _
  rw [bulkNext_eq s hi] at hsaw ⊢
  exact ⟨by dsimp only; omega, itemOf_cases (readStatus_takes _ hk hg hsaw he) fun _ _ _ _ hc => decodeBytes_checked hc _ _⟩

/-! ## The only answer -/

theorem replyFrame_inj {id id' : Byte} {r r' : ServoReply} (h : Survives (0x55#8 :: r.error :: r.data))
    (h' : Survives (0x55#8 :: r'.error :: r'.data)) (he : replyFrame id r = replyFrame id' r') : id = id' ∧ r = r' := by
  obtain ⟨pkt, h1, h2⟩ := frameOutcome_carries (id := id) (survives_unstuffs (stuffedForm_codeStuff _) h)
  obtain ⟨pkt', h3, h4⟩ := frameOutcome_carries (id := id') (survives_unstuffs (stuffedForm_codeStuff _) h')
  change Bus.frameOutcome (replyFrame id r) = _ at h1
  change Bus.frameOutcome (replyFrame id' r') = _ at h3
  rw [he, h3] at h1
  obtain rfl : pkt' = pkt := by injection h1
  obtain ⟨a1, -, -, a2⟩ := carries_accessors h2 Empty
  obtain ⟨b1, -, -, b2⟩ := carries_accessors h4 Empty
  rw [a1] at b1
  obtain ⟨a3, a4⟩ := a2 _ _ rfl
  obtain ⟨b3, b4⟩ := b2 _ _ rfl
  rw [a3] at b3
  rw [a4] at b4
  obtain ⟨e, d⟩ := r
  obtain ⟨e', d'⟩ := r'
  injection b1 with c1
  injection b3 with c2
  injection b4 with c3
  exact ⟨c1, by dsimp only at c2 c3; rw [c2, c3]⟩

/-- If the only message is an answer without an error, it is read. -/
theorem Takes.only {h : List Event'} {x : Bus × Outcome ReadError StatusPacket} (ht : Takes [] h x) {id : Byte} {ps : List Byte}
    (hs : Survives (0x55#8 :: 0#8 :: ps)) (hh : ∀ m ∈ heard h, m.2 = replyFrame id ⟨0#8, ps⟩) (hn : ∀ e, Event'.failed e ∉ h) :
    ∃ pkt, x.2 = .ok ⟨pkt⟩ ∧ Carries pkt id 0x55#8 (0#8 :: ps) := by
  cases ht with
  | @ended h' e c hh' =>
    subst hh'
    exact absurd (List.mem_append_right _ (List.mem_singleton_self _)) (hn e)
  | @status m rest pkt id' reply c hq hm hk _ hc hs' =>
    have hm' := hh m (by rw [List.nil_append] at hq; rw [hq]; simp)
    obtain ⟨rfl, rfl⟩ := replyFrame_inj hs' hs (hm.symm.trans hm')
    refine ⟨pkt, ?_, hk⟩
    dsimp only
    rw [checkStatus_carries hk, if_pos rfl]
    dsimp only
    rw [if_pos (by decide)]

theorem answered_bytes {pkt : Packet} {id : Byte} {ps : List Byte} (hc : Carries pkt id 0x55#8 (0#8 :: ps)) {n : U16} (hn : ps.length = n.toNat) :
    (Dxl.SyncIter.checkResponse ⟨pkt⟩ id n).bind (fun _ => (decodeStatusPacketBytes ⟨pkt⟩).mapErr ReadError.motorError) = .ok ⟨id, false, ps⟩ := by
  have hc' : Carries (StatusPacket.mk pkt).packet id 0x55#8 (0#8 :: ps) := hc
  rw [checkResponse_carries hc', decodeBytes_carries hc', if_neg (by simp), if_neg (by simpa using hn)]
  rfl

theorem answered_value {α : Type} {d : DataTy α} {v : α} {pkt : Packet} {id : Byte} {ps : List Byte} (hc : Carries pkt id 0x55#8 (0#8 :: ps))
    (hn : ps.length = d.size.toNat) (hd : d.decode ps = .ok v) :
    (Dxl.SyncIter.checkResponse ⟨pkt⟩ id d.size).bind (fun _ => decodeStatusPacket d ⟨pkt⟩) = .ok ⟨id, false, v⟩ := by
  have hc' : Carries (StatusPacket.mk pkt).packet id 0x55#8 (0#8 :: ps) := hc
  rw [checkResponse_carries hc', decode_carries d hc', if_neg (by simp), if_neg (by simpa using hn)]
  simp only [Outcome.bind, hd]
  rfl

/-! ## Scanning -/

/-- What `next` of a scan does to the messages. -/
inductive Scans (q : List Msg) (h : List Event') : Bus × Outcome Empty (Option (Except ReadError (Response Client.Ping))) → Prop
  | item {m : Msg} {rest : List Msg} {x : Except ReadError (Response Client.Ping)} {c : Bus} (hq : q ++ heard h = m :: rest)
      (hn : ∀ e, Event'.failed e ∉ h) (hc : Keeps c rest) : Scans q h (c, .ok (some x))
  | over {h' : List Event'} {c : Bus} (hh : h = h' ++ [.failed .timedOut]) (hn : ∀ e, Event'.failed e ∉ h') (hq : q ++ heard h = [])
      (hc : Keeps c []) : Scans q h (c, .ok none)

theorem scanNext_scans {b : Bus} {p : List Msg} {es : List Seen} {h : List Event'} (hb : Keeps b p)
    (hg : ∀ m ∈ p ++ heard h, GoodReply m.2) (ht : ∀ e, Event'.failed e ∈ h → e = .timedOut)
    (hsaw : Saw b.serialPort es (Client.scanNext (ε := Empty) b).1.serialPort) (he : h.map Event'.plain = es) :
    Scans p h (Client.scanNext (ε := Empty) b) := by
  obtain ⟨ns, h1, -⟩ := c21_transfer_time (ε := ReadError) (size := 14) (by omega) hb.fast hb.slow
  have hx : Client.scanNextResponse b = (Client.readStatusResponseTimeout (ns * 253 + Client.flatTimeout) >>= fun response =>
      SO.lift ((Client.toPingResponse response).mapErr .invalidMessage)) b := by
    unfold Client.scanNextResponse
    rw [SO.get_bind]
    rw [SO.bind_def, SO.lift_apply, h1]
  have hy : ((Client.scanNext (ε := Empty) b).1 = (Client.readStatusResponseTimeout (ns * 253 + Client.flatTimeout) b).1) := by
    unfold Client.scanNext
    rw [SO.bind_def]
    unfold SO.attempt
    rw [hx, SO.bind_def]
    rcases Client.readStatusResponseTimeout (ns * 253 + Client.flatTimeout) b with ⟨c, o⟩
    cases o with
    | ok st =>
      simp only [SO.lift_apply]
      cases Client.toPingResponse st <;> rfl
    | err e =>
      cases e with
      | io e => dsimp only; split <;> rfl
      | _ => rfl
    | _ => rfl
  rw [hy] at hsaw
  have htakes := readStatusTimeout_takes _ hb hg hsaw he
  unfold Client.scanNext
  rw [SO.bind_def]
  unfold SO.attempt
  rw [hx, SO.bind_def]
  generalize Client.readStatusResponseTimeout (ns * 253 + Client.flatTimeout) b = x at htakes
  cases htakes with
  | @status m rest pkt id reply c hq hm hk hn hc hs =>
    rw [checkStatus_carries hk, if_pos rfl]
    by_cases h0 : reply.error &&& 0x7F#8 = 0#8
    · simp only [if_pos h0, SO.lift_apply]
      have hk' : Carries (StatusPacket.mk pkt).packet id 0x55#8 (reply.error :: reply.data) := hk
      rcases ping_carries hk' with ⟨m, fw, -, h3⟩ | ⟨-, h3⟩
      · rw [h3]
        exact .item hq hn hc
      · rw [h3]
        exact .item hq hn hc
    · simp only [if_neg h0]
      exact .item hq hn hc
  | @ended h' e c hh hn hq hc =>
    obtain rfl := ht e (by rw [hh]; simp)
    exact .over hh hn hq hc

/-- All items of a scan: one for each message before the first timeout. -/
theorem scanLoop_scans : ∀ (fuel : Nat) {b : Bus} {p : List Msg} {es : List Seen} {h : List Event'}, Keeps b p →
    (∀ m ∈ p ++ heard h, GoodReply m.2) → (∀ e, Event'.failed e ∈ h → e = .timedOut) →
    Saw b.serialPort es (Cli.scanLoop (ε := Empty) fuel b).1.serialPort → h.map Event'.plain = es → (p ++ heard h).length < fuel →
    ∃ h' items, h = h' ++ [.failed .timedOut] ∧ (∀ e, Event'.failed e ∉ h') ∧ (Cli.scanLoop (ε := Empty) fuel b).2 = .ok items ∧
      items.length = (p ++ heard h').length ∧ Keeps (Cli.scanLoop (ε := Empty) fuel b).1 [] := by
  intro fuel
  induction fuel with
  | zero => intro b p es h _ _ _ _ _ hlt; omega
  | succ fuel ih =>
    intro b p es h hb hg ht hsaw he hlt
    obtain ⟨es₁, es₂, rfl, hs₁, hs₂⟩ := WatchedOn.split scanNext_reading.watched (fun x => by
      cases x with
      | some s => exact (Reading.bind (scanLoop_reading fuel) fun _ => .pure _).watched
      | none => exact (Reading.pure _).watched) hb.inv hsaw
    have hs₂' : Saw (Client.scanNext (ε := Empty) b).1.serialPort es₂ (Cli.scanLoop (ε := Empty) (fuel + 1) b).1.serialPort := hs₂
    obtain ⟨h₁, h₂, rfl, he₁, he₂⟩ := List.map_eq_append_iff.mp he
    rw [heard_append, ← List.append_assoc] at hg hlt
    have hscan := scanNext_scans hb (fun m hm => hg m (List.mem_append_left _ hm)) (fun e h => ht e (List.mem_append_left _ h)) hs₁ he₁
    have hstep : ∀ {c o}, Client.scanNext (ε := Empty) b = (c, .ok o) → Cli.scanLoop (ε := Empty) (fuel + 1) b = (match o with
        | some s => (do let items ← Cli.scanLoop fuel; pure (s :: items) : SO Bus Empty _)
        | none => pure []) c := fun h => SO.bind_ok h _
    rcases hx : Client.scanNext (ε := Empty) b with ⟨c, o⟩
    rw [hx] at hs₂' hscan
    cases hscan with
    | @item m rest x _ hq hn hc =>
      rw [hstep hx] at hs₂' ⊢
      dsimp only at hs₂' ⊢
      rw [hq] at hg hlt
      have hcall : ∀ {c' o'}, Cli.scanLoop (ε := Empty) fuel c = (c', .ok o') →
          (do let items ← Cli.scanLoop fuel; pure (x :: items) : SO Bus Empty _) c = (c', .ok (x :: o')) := fun h => by
        rw [SO.bind_ok h]; rfl
      have hport : ((do let items ← Cli.scanLoop fuel; pure (x :: items) : SO Bus Empty _) c).1 = (Cli.scanLoop (ε := Empty) fuel c).1 := by
        rw [SO.bind_def]
        rcases Cli.scanLoop (ε := Empty) fuel c with ⟨c', o'⟩
        cases o' <;> rfl
      rw [hport] at hs₂'
      obtain ⟨h', items, k1, k2, k3, k4, k5⟩ := ih hc (fun m hm => hg m (by rw [List.cons_append]; exact List.mem_cons_of_mem _ hm))
        (fun e h => ht e (List.mem_append_right _ h)) hs₂' he₂ (by
          simp only [List.length_append, List.length_cons] at hlt ⊢; omega)
      rcases hy : Cli.scanLoop (ε := Empty) fuel c with ⟨c', o'⟩
      rw [hy] at k3 k5
      obtain rfl : o' = .ok items := k3
      rw [hcall hy]
      refine ⟨h₁ ++ h', x :: items, by rw [k1, List.append_assoc], fun e h => ?_, rfl, ?_, k5⟩
      · rcases List.mem_append.mp h with h | h
        · exact hn e h
        · exact k2 e h
      · rw [heard_append, ← List.append_assoc, hq]
        simp only [List.length_cons, List.length_append] at k4 ⊢
        omega
    | @over h' _ hh hn hq hc =>
      rw [hstep hx] at hs₂' ⊢
      obtain rfl := saw_unique hs₂' (.nil _)
      obtain rfl := List.map_eq_nil_iff.mp he₂
      refine ⟨h', [], by rw [List.append_nil, hh], hn, rfl, ?_, hc⟩
      rw [hh, heard_append] at hq
      have hz : heard [Event'.failed .timedOut] = [] := rfl
      rw [hz, List.append_nil] at hq
      rw [hq]
      rfl

theorem scanDrop_scans : ∀ (fuel : Nat) {b : Bus} {p : List Msg} {es : List Seen} {h : List Event'}, Keeps b p →
    (∀ m ∈ p ++ heard h, GoodReply m.2) → (∀ e, Event'.failed e ∈ h → e = .timedOut) →
    Saw b.serialPort es (Client.scanDrop (ε := Empty) fuel b).1.serialPort → h.map Event'.plain = es → (p ++ heard h).length < fuel →
    (Client.scanDrop (ε := Empty) fuel b).2 = .ok () := by
  intro fuel
  induction fuel with
  | zero => intro b p es h _ _ _ _ _ hlt; omega
  | succ fuel ih =>
    intro b p es h hb hg ht hsaw he hlt
    obtain ⟨es₁, es₂, rfl, hs₁, hs₂⟩ := WatchedOn.split scanNext_reading.watched (fun x => by
      cases x with
      | some s => exact (scanDrop_reading fuel).watched
      | none => exact (Reading.pure _).watched) hb.inv hsaw
    have hs₂' : Saw (Client.scanNext (ε := Empty) b).1.serialPort es₂ (Client.scanDrop (ε := Empty) (fuel + 1) b).1.serialPort := hs₂
    obtain ⟨h₁, h₂, rfl, he₁, he₂⟩ := List.map_eq_append_iff.mp he
    rw [heard_append, ← List.append_assoc] at hg hlt
    have hscan := scanNext_scans hb (fun m hm => hg m (List.mem_append_left _ hm)) (fun e h => ht e (List.mem_append_left _ h)) hs₁ he₁
    have hstep : ∀ {c o}, Client.scanNext (ε := Empty) b = (c, .ok o) → Client.scanDrop (ε := Empty) (fuel + 1) b = (match o with
        | some s => (Client.scanDrop fuel : SO Bus Empty Unit)
        | none => pure ()) c := fun h => SO.bind_ok h _
    rcases hx : Client.scanNext (ε := Empty) b with ⟨c, o⟩
    rw [hx] at hs₂' hscan
    cases hscan with
    | @item m rest x _ hq hn hc =>
      rw [hstep hx] at hs₂' ⊢
      rw [hq] at hg hlt
      exact ih hc (fun m hm => hg m (by rw [List.cons_append]; exact List.mem_cons_of_mem _ hm))
        (fun e h => ht e (List.mem_append_right _ h)) hs₂' he₂ (by
          simp only [List.length_append, List.length_cons] at hlt ⊢; omega)
    | over hh hn hq hc =>
      rw [hstep hx]
      rfl

end Dxl.Props
