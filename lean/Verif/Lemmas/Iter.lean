import Verif.Lemmas.Turns

/-! # Iterators over responses -/

namespace Dxl
namespace Props
open Spec

/-- The time to transfer a message, in nanoseconds, rounded up. -/
def transferNs (size baud : Nat) : Nat := (size * 10 * 1000000000 + baud - 1) / baud

theorem leastTime_transferNs (size : Nat) {baud : Nat} (h : baud ≠ 0) : LeastTime size baud (transferNs size baud) := by
  have hb : 0 < baud := Nat.pos_of_ne_zero h
  unfold transferNs LeastTime LongEnough
  generalize size * 10 * 1000000000 = N
  have h1 := Nat.div_add_mod (N + baud - 1) baud
  have h2 := Nat.mod_lt (N + baud - 1) hb
  rw [Nat.mul_comm] at h1
  refine ⟨by omega, fun m hm => ?_⟩
  apply Nat.le_of_lt_succ
  rw [Nat.div_lt_iff_lt_mul hb, Nat.succ_mul]
  omega

/-- How long a response with `count` parameters is awaited. -/
def responseWait (baud count : Nat) : Nat := transferNs (11 + count) baud + 34000000

/-- One response after another is awaited from these motors, with these numbers of parameters; the results are `xs`. -/
inductive Collected {α : Type} (Value : α → List Byte → Prop) :
    Bus → List (Byte × Nat) → List (Except ReadError (Response α)) → Bus → Prop
  | done (b : Bus) : Collected Value b [] [] b
  | turn {b c d : Bus} {id : Byte} {count : Nat} {rest : List (Byte × Nat)} {x : Except ReadError (Response α)}
      {xs : List (Except ReadError (Response α))} :
      Turn b c (b.serialPort.now + responseWait b.baudRate count) (some id) count Value x →
      Collected Value c rest xs d → Collected Value b ((id, count) :: rest) (x :: xs) d

/-- What can go wrong so badly that the code panics: the baud rate is zero, or a malformed packet arrives. -/
def Hopeless (b : Bus) (count : Nat) : Prop :=
  b.baudRate = 0 ∨ Deadly b (b.serialPort.now + responseWait b.baudRate count)

/-- `next` is an iterator over the responses to the requests `todo`. -/
structure IsIterator {σ ε α : Type} (next : SO σ ε (Option (Except ReadError (Response α)))) (client : σ → Bus)
    (todo : σ → List (Byte × Nat)) (Value : α → List Byte → Prop) : Prop where
  finished : ∀ s, todo s = [] → next s = (s, .ok none)
  step : ∀ s id count rest, todo s = (id, count) :: rest → (client s).RInv → (client s).baudRate < 2 ^ 32 →
    (Hopeless (client s) count ∧ ∃ s', next s = (s', .panic)) ∨
    (¬ Hopeless (client s) count ∧ ∃ s' x, next s = (s', .ok (some x)) ∧ todo s' = rest ∧
      Turn (client s) (client s') ((client s).serialPort.now + responseWait (client s).baudRate count) (some id) count Value x)

/-- Call a function repeatedly. -/
def callTimes {σ ε β : Type} (m : SO σ ε β) : Nat → SO σ ε (List β)
  | 0 => pure []
  | k + 1 => do
    let x ← m
    let xs ← callTimes m k
    pure (x :: xs)

theorem callTimes_succ_ok {σ ε β : Type} {m : SO σ ε β} {s s' : σ} {x : β} (h : m s = (s', .ok x)) (k : Nat) :
    callTimes m (k + 1) s = ((callTimes m k s').1, (callTimes m k s').2 >>= fun xs => .ok (x :: xs)) := by
  rw [callTimes, SO.bind_ok h, SO.bind_def]
  rcases callTimes m k s' with ⟨s2, o⟩
  cases o <;> rfl

theorem callTimes_none {σ ε β : Type} {m : SO σ ε (Option β)} {s : σ} (h : m s = (s, .ok none)) :
    ∀ k, callTimes m k s = (s, .ok (List.replicate k none)) := by
  intro k
  induction k with
  | zero => rfl
  | succ k ih => rw [callTimes_succ_ok h, ih]; rfl

section generic
variable {σ ε α : Type} {next : SO σ ε (Option (Except ReadError (Response α)))} {client : σ → Bus}
  {todo : σ → List (Byte × Nat)} {Value : α → List Byte → Prop}

/-- Repeated calls of an iterator. -/
theorem IsIterator.calls (h : IsIterator next client todo Value) :
    ∀ (k : Nat) (s : σ), (client s).RInv → (client s).baudRate < 2 ^ 32 →
      (∃ s' xs, callTimes next k s = (s', .ok (xs.map some ++ List.replicate (k - (todo s).length) none)) ∧
        todo s' = (todo s).drop k ∧ Collected Value (client s) ((todo s).take k) xs (client s')) ∨
      (∃ s' c xs done id count rest, callTimes next k s = (s', .panic) ∧ todo s = done ++ (id, count) :: rest ∧ done.length < k ∧
        Collected Value (client s) done xs c ∧ Hopeless c count) := by
  intro k
  induction k with
  | zero => intro s _ _; exact .inl ⟨s, [], by simp [callTimes], rfl, .done _⟩
  | succ k ih =>
    intro s hr hb
    match ht : todo s with
    | [] =>
      left
      refine ⟨s, [], ?_, ht, .done _⟩
      rw [callTimes_none (h.finished s ht)]
      simp
    | (id, count) :: rest =>
      rcases h.step s id count rest ht hr hb with ⟨h1, s', h2⟩ | ⟨-, s', x, h2, h3, h4⟩
      · right
        exact ⟨s', client s, [], [], id, count, rest, by rw [callTimes, SO.bind_panic h2], rfl, by simp, .done _, h1⟩
      · rw [callTimes_succ_ok h2]
        rcases ih s' h4.rinv (by rw [h4.like.baudRate]; exact hb) with
          ⟨s2, xs, k1, k2, k3⟩ | ⟨s2, c, xs, done, id', count', rest', k1, k2, k3, k4, k5⟩
        · left
          rw [h3] at k1 k2 k3
          refine ⟨s2, x :: xs, ?_, k2, .turn h4 k3⟩
          rw [k1]
          simp
        · right
          rw [h3] at k2
          subst k2
          refine ⟨s2, c, x :: xs, (id, count) :: done, id', count', rest', by rw [k1]; rfl, by simp, by simpa using k3,
            .turn h4 k4, k5⟩

end generic

/-! ## Replies that come in time -/

/-- A reply of a motor, possibly after some garbage. -/
structure Reply where
  garbage : List Byte
  id : Byte
  wire : List Byte
  error : Byte
  params : List Byte

/-- The reply is well-formed, and its packet fits a buffer of `size` bytes. -/
structure Reply.Ok (size : Nat) (r : Reply) : Prop where
  garbage : ¬ header <:+: r.garbage
  length : r.wire.length + 2 < 2 ^ 16
  fits : (frame r.id r.wire).length ≤ size
  body : Unstuffs r.wire (0x55#8 :: r.error :: r.params)

/-- The bytes of a reply. -/
def Reply.bytes (r : Reply) : List Byte := r.garbage ++ frame r.id r.wire

/-- Each piece arrives, after `seen`, at most the given time after the previous ones. -/
def OnTime (b : Bus) : (seen : List Byte) → List (Nat × List Byte) → Prop
  | _, [] => True
  | seen, (wait, piece) :: rest =>
    (∀ T, b.serialPort.now ≤ T → seen <+: stream T b → seen ++ piece <+: stream (T + wait) b) ∧
      OnTime b (seen ++ piece) rest

theorem OnTime.later {b c : Bus} (hn : b.serialPort.now ≤ c.serialPort.now) {front : List Byte}
    (hs : ∀ T, c.serialPort.now ≤ T → stream T b = front ++ stream T c) :
    ∀ (l : List (Nat × List Byte)) (seen : List Byte), OnTime b (front ++ seen) l → OnTime c seen l := by
  intro l
  induction l with
  | nil => intro _ _; trivial
  | cons a rest ih =>
    obtain ⟨wait, piece⟩ := a
    rintro seen ⟨h1, h2⟩
    refine ⟨fun T hT hp => ?_, ih _ (by rwa [List.append_assoc] at h2)⟩
    have := h1 T (by omega) (by rw [hs T hT]; exact List.prefix_append_right_inj _ |>.mpr hp)
    rw [hs _ (by omega), List.append_assoc] at this
    exact (List.prefix_append_right_inj _).mp this

theorem reply_first {cap : Nat} {r : Reply} (h : r.Ok cap) {s : List Byte} (hp : r.bytes <+: s) :
    ∃ rest, s = r.bytes ++ rest ∧ StatusFirst cap s r.id r.error r.params rest := by
  obtain ⟨rest, rfl⟩ := hp
  exact ⟨rest, rfl, r.garbage, r.wire, rfl, h.garbage, h.length, h.fits, h.body⟩

theorem statusFirst_not_deadly {b : Bus} {D timeout : Nat} {id e : Byte} {ps rest : List Byte} (hb : b.RInv)
    (hD : D = b.serialPort.now + timeout) (h : StatusFirst b.readBuffer.length (stream D b) id e ps rest) : ¬ Deadly b D := by
  subst hD
  intro hd
  have := (c18_status_panics_iff_partial (timeout := timeout) hb).mpr hd
  obtain ⟨c, pkt, h1, -, -⟩ := status_complete hb h
  rw [h1] at this
  dsimp only at this
  split at this <;> simp at this

/-- Two lists of the same length, related element by element. -/
inductive Pairwise₂ {α β : Type} (R : α → β → Prop) : List α → List β → Prop
  | nil : Pairwise₂ R [] []
  | cons {a : α} {b : β} {as : List α} {bs : List β} : R a b → Pairwise₂ R as bs → Pairwise₂ R (a :: as) (b :: bs)

/-- The rounds of an exchange: who was asked for how many parameters, and the reply. -/
abbrev Round := (Byte × Nat) × Reply

/-- Replies to all requests, in time: what an iterator returns. -/
theorem IsIterator.delivers {σ ε α : Type} {next : SO σ ε (Option (Except ReadError (Response α)))} {client : σ → Bus}
    {todo : σ → List (Byte × Nat)} {Value : α → List Byte → Prop} (h : IsIterator next client todo Value) :
    ∀ (rounds : List Round) (later : List (Byte × Nat)) (s : σ), todo s = rounds.map (·.1) ++ later →
      (client s).RInv → (client s).baudRate < 2 ^ 32 → (client s).baudRate ≠ 0 →
      (∀ r ∈ rounds, r.2.Ok (client s).readBuffer.length) →
      OnTime (client s) [] (rounds.map fun r => (responseWait (client s).baudRate r.1.2, r.2.bytes)) →
      ∃ s' xs, callTimes next rounds.length s = (s', .ok (xs.map some)) ∧ todo s' = later ∧
        Pairwise₂ (fun (r : Round) x => Judged (some r.1.1) r.1.2 Value r.2.id r.2.error r.2.params x) rounds xs ∧
        (client s).serialPort.now ≤ (client s').serialPort.now ∧
        ∀ T, (client s').serialPort.now ≤ T →
          stream T (client s) = rounds.flatMap (fun r => r.2.bytes) ++ stream T (client s') := by
  intro rounds
  induction rounds with
  | nil =>
    intro later s ht _ _ _ _ _
    exact ⟨s, [], rfl, ht, .nil, Nat.le_refl _, fun T _ => rfl⟩
  | cons r rest ih =>
    intro later s ht hr hb h0 hok hon
    obtain ⟨⟨id, count⟩, reply⟩ := r
    have hrep := hok _ (List.mem_cons_self ..)
    obtain ⟨hon1, hon2⟩ := hon
    have hin := hon1 _ (Nat.le_refl _) (by simp)
    rw [List.nil_append] at hin
    obtain ⟨tail, e1, hsf⟩ := reply_first hrep hin
    have hnd := statusFirst_not_deadly hr rfl hsf
    rcases h.step s id count _ ht hr hb with ⟨h1, -⟩ | ⟨-, s', x, h2, h3, h4⟩
    · rcases h1 with h1 | h1
      · exact absurd h1 h0
      · exact absurd h1 hnd
    · obtain ⟨hj, hst⟩ := h4.answered _ _ _ _ hsf
      obtain ⟨front, c1, c2⟩ := h4.consumed _ _ _ _ hsf
      have : front = reply.bytes := by
        rw [e1] at c1
        exact (List.append_cancel_right c1).symm
      subst this
      have hlater := OnTime.later h4.now_le c2 _ [] (by rw [List.append_nil]; exact hon2)
      obtain ⟨s2, xs, k1, k2, k3, k4, k5⟩ := ih later s' h3 h4.rinv (by rw [h4.like.baudRate]; exact hb)
        (by rw [h4.like.baudRate]; exact h0)
        (fun r hr => by rw [h4.like.readSize]; exact hok r (List.mem_cons_of_mem _ hr))
        (by rw [h4.like.baudRate]; exact hlater)
      refine ⟨s2, x :: xs, ?_, k2, .cons hj k3, Nat.le_trans h4.now_le k4, ?_⟩
      · rw [List.length_cons, callTimes_succ_ok h2, k1]
        rfl
      · intro T hT
        rw [c2 T (by omega), k5 T hT]
        simp

/-! ## The iterators of the crate -/

/-- Code on a part of the state. -/
theorem zoom_look {σ α : Type} {g : σ → Bus} {p : Bus → σ → σ} {m : SO Bus ReadError StatusPacket}
    {k1 : StatusPacket → Outcome ReadError Unit} {k2 : StatusPacket → Outcome ReadError (Response α)} (s : σ) :
    (do let r ← SO.zoom g p m; SO.lift (k1 r); SO.lift (k2 r) : SO σ ReadError (Response α)) s =
      (p ((do let r ← m; SO.lift (k1 r >>= fun _ => k2 r) : SO Bus ReadError (Response α)) (g s)).1 s,
        ((do let r ← m; SO.lift (k1 r >>= fun _ => k2 r) : SO Bus ReadError (Response α)) (g s)).2) := by
  simp only [SO.bind_def, SO.zoom_apply]
  rcases m (g s) with ⟨c, o⟩
  cases o with
  | ok a =>
    simp only [SO.lift_apply]
    cases k1 a <;> rfl
  | _ => rfl

/-- The code common to all `next_response` functions. -/
def respond {α : Type} (count : U16) (k : StatusPacket → Outcome ReadError (Response α)) : SO Bus ReadError (Response α) := do
  let r ← Client.readStatusResponse count
  SO.lift (k r)

theorem respond_turn {α : Type} {want : Option Byte} {count : U16} {Value : α → List Byte → Prop}
    {k : StatusPacket → Outcome ReadError (Response α)} (hk : Judges want count.toNat Value k) {b : Bus} (hb : b.RInv)
    (hbaud : b.baudRate < 2 ^ 32) :
    ∃ c, (Hopeless b count.toNat ∧ respond count k b = (c, .panic)) ∨
      (¬ Hopeless b count.toNat ∧ ∃ x, respond count k b = (c, ofExcept x) ∧
        Turn b c (b.serialPort.now + responseWait b.baudRate count.toNat) want count.toNat Value x) := by
  by_cases h0 : b.baudRate = 0
  · refine ⟨b, .inl ⟨.inl h0, ?_⟩⟩
    unfold respond
    rw [SO.bind_panic (readStatusResponse_zero h0 count)]
  · obtain ⟨ns, hns, heq⟩ := readStatusResponse_eq h0 hbaud count
    have := leastTime_unique hns (leastTime_transferNs _ h0)
    subst this
    have e : respond count k b = awaitStatus (responseWait b.baudRate count.toNat) k b := by
      unfold respond awaitStatus responseWait
      rw [SO.bind_def, SO.bind_def, heq]
    rw [e]
    obtain ⟨c, h⟩ := await_turn hk (responseWait b.baudRate count.toNat) hb
    refine ⟨c, ?_⟩
    rcases h with ⟨h1, h2⟩ | ⟨h1, h2⟩
    · exact .inl ⟨.inr h1, h2⟩
    · refine .inr ⟨fun h => ?_, h2⟩
      rcases h with h | h
      · exact h0 h
      · exact h1 h

theorem attempt_ofExcept {σ ε ε' α : Type} {m : SO σ ε α} {s s' : σ} {x : Except ε α} (h : m s = (s', ofExcept x)) :
    (m.attempt : SO σ ε' (Except ε α)) s = (s', .ok x) := by
  unfold SO.attempt
  rw [h]
  cases x <;> rfl

theorem attempt_panic {σ ε ε' α : Type} {m : SO σ ε α} {s s' : σ} (h : m s = (s', .panic)) :
    (m.attempt : SO σ ε' (Except ε α)) s = (s', .panic) := by
  unfold SO.attempt
  rw [h]

/-- What a `SyncIter` has still to do. -/
def syncTodo (s : SyncIter) : List (Byte × Nat) := (s.motorIds.drop s.index).map fun id => (id, s.count.toNat)

/-- What a `BulkIter` has still to do. -/
def bulkTodo (s : BulkIter) : List (Byte × Nat) := (s.reads.drop s.index).map fun r => (r.motorId, r.count.toNat)

theorem getElem?_of_drop {β : Type} {l : List β} {i : Nat} {x : β} {rest : List β} (h : l.drop i = x :: rest) :
    l[i]? = some x ∧ l.drop (i + 1) = rest := by
  constructor
  · have : (l.drop i)[0]? = some x := by rw [h]; rfl
    simpa using this
  · rw [← List.drop_drop, h]
    rfl

theorem pop_todo {s : SyncIter} {id : Byte} {count : Nat} {rest : List (Byte × Nat)} (h : syncTodo s = (id, count) :: rest)
    (ε : Type) :
    SyncIter.popMotorId (ε := ε) s = ({ s with index := s.index + 1 }, .ok (some id)) ∧ count = s.count.toNat ∧
      syncTodo { s with index := s.index + 1 } = rest := by
  unfold syncTodo at *
  cases hd : s.motorIds.drop s.index with
  | nil => rw [hd] at h; simp at h
  | cons id' rest' =>
    rw [hd] at h
    simp only [List.map_cons, List.cons.injEq, Prod.mk.injEq] at h
    obtain ⟨⟨rfl, rfl⟩, rfl⟩ := h
    obtain ⟨h1, h2⟩ := getElem?_of_drop hd
    unfold SyncIter.popMotorId
    rw [h1]
    exact ⟨rfl, rfl, by rw [← h2]⟩

theorem pop_finished {s : SyncIter} (h : syncTodo s = []) (ε : Type) : SyncIter.popMotorId (ε := ε) s = (s, .ok none) := by
  unfold syncTodo at h
  unfold SyncIter.popMotorId
  rw [List.getElem?_eq_none]
  simpa using h

theorem syncBytes_iterator (ε : Type) : IsIterator (SyncIter.nextBytes (ε := ε)) SyncIter.client syncTodo IsBytes where
  finished s h := by
    unfold SyncIter.nextBytes
    rw [SO.bind_ok (pop_finished h ε)]
    rfl
  step s id count rest ht hr hb := by
    obtain ⟨h1, rfl, h3⟩ := pop_todo ht ε
    have e : SyncIter.nextResponseBytes id { s with index := s.index + 1 } =
        ({ s with index := s.index + 1, client := (respond s.count (lookBytes id s.count) s.client).1 },
          (respond s.count (lookBytes id s.count) s.client).2) := by
      unfold SyncIter.nextResponseBytes SyncIter.onClient
      rw [SO.get_bind]
      exact zoom_look _
    unfold SyncIter.nextBytes
    rw [SO.bind_ok h1]
    dsimp only
    obtain ⟨c, h⟩ := respond_turn (judges_bytes id s.count) hr hb
    rcases h with ⟨k1, k2⟩ | ⟨k1, x, k2, k3⟩
    · refine .inl ⟨k1, ?_⟩
      rw [k2] at e
      rw [SO.bind_panic (attempt_panic e)]
      exact ⟨_, rfl⟩
    · refine .inr ⟨k1, ?_⟩
      rw [k2] at e
      rw [SO.bind_ok (attempt_ofExcept e)]
      exact ⟨_, x, rfl, h3, k3⟩

theorem syncData_iterator {α : Type} {d : DataTy α} {valid : α → Prop} {f : α → List Byte} (hd : ImplData d valid f) (ε : Type) :
    IsIterator (SyncIter.next d (ε := ε)) SyncIter.client
      (fun s => (s.motorIds.drop s.index).map fun id => (id, d.size.toNat)) (IsEncoded valid f) where
  finished s h := by
    unfold SyncIter.next
    rw [SO.bind_ok (pop_finished (by simpa [syncTodo] using h) ε)]
    rfl
  step s id count rest ht hr hb := by
    have ht' : syncTodo { s with count := d.size } = (id, count) :: rest := ht
    obtain ⟨h1, rfl, h3⟩ := pop_todo ht' ε
    have h1' : SyncIter.popMotorId (ε := ε) s = ({ s with index := s.index + 1 }, .ok (some id)) := by
      unfold SyncIter.popMotorId at h1 ⊢
      dsimp only at h1
      cases hg : s.motorIds[s.index]? with
      | none => rw [hg] at h1; simp at h1
      | some id' => rw [hg] at h1; simp only [Prod.mk.injEq, Outcome.ok.injEq, Option.some.injEq] at h1 ⊢; exact ⟨trivial, h1.2⟩
    have e : SyncIter.nextResponse d id { s with index := s.index + 1 } =
        ({ s with index := s.index + 1, client := (respond d.size (lookData d id) s.client).1 },
          (respond d.size (lookData d id) s.client).2) := by
      unfold SyncIter.nextResponse SyncIter.onClient
      exact zoom_look _
    unfold SyncIter.next
    rw [SO.bind_ok h1']
    dsimp only
    obtain ⟨c, h⟩ := respond_turn (judges_data hd id) hr hb
    rcases h with ⟨k1, k2⟩ | ⟨k1, x, k2, k3⟩
    · refine .inl ⟨k1, ?_⟩
      rw [k2] at e
      rw [SO.bind_panic (attempt_panic e)]
      exact ⟨_, rfl⟩
    · refine .inr ⟨k1, ?_⟩
      rw [k2] at e
      rw [SO.bind_ok (attempt_ofExcept e)]
      exact ⟨_, x, rfl, h3, k3⟩

theorem bulkPop_todo {s : BulkIter} {id : Byte} {count : Nat} {rest : List (Byte × Nat)} (h : bulkTodo s = (id, count) :: rest)
    (ε : Type) :
    ∃ r : BulkReadData, BulkIter.pop (ε := ε) s = ({ s with index := s.index + 1 }, .ok (some r)) ∧ id = r.motorId ∧
      count = r.count.toNat ∧ bulkTodo { s with index := s.index + 1 } = rest := by
  unfold bulkTodo at *
  cases hd : s.reads.drop s.index with
  | nil => rw [hd] at h; simp at h
  | cons r rest' =>
    rw [hd] at h
    simp only [List.map_cons, List.cons.injEq, Prod.mk.injEq] at h
    obtain ⟨⟨rfl, rfl⟩, rfl⟩ := h
    obtain ⟨h1, h2⟩ := getElem?_of_drop hd
    refine ⟨r, ?_, rfl, rfl, by rw [← h2]⟩
    unfold BulkIter.pop
    rw [h1]

theorem bulk_iterator (ε : Type) : IsIterator (BulkIter.next (ε := ε)) BulkIter.client bulkTodo IsBytes where
  finished s h := by
    have hp : BulkIter.pop (ε := ε) s = (s, .ok none) := by
      unfold bulkTodo at h
      unfold BulkIter.pop
      rw [List.getElem?_eq_none]
      simpa using h
    unfold BulkIter.next
    rw [SO.bind_ok hp]
    rfl
  step s id count rest ht hr hb := by
    obtain ⟨r, h1, rfl, rfl, h3⟩ := bulkPop_todo ht ε
    have e : BulkIter.nextResponse r.motorId r.count { s with index := s.index + 1 } =
        ({ s with index := s.index + 1, client := (respond r.count (lookBytes r.motorId r.count) s.client).1 },
          (respond r.count (lookBytes r.motorId r.count) s.client).2) := by
      unfold BulkIter.nextResponse BulkIter.onClient
      exact zoom_look _
    unfold BulkIter.next
    rw [SO.bind_ok h1]
    dsimp only
    obtain ⟨c, h⟩ := respond_turn (judges_bytes r.motorId r.count) hr hb
    rcases h with ⟨k1, k2⟩ | ⟨k1, x, k2, k3⟩
    · refine .inl ⟨k1, ?_⟩
      rw [k2] at e
      rw [SO.bind_panic (attempt_panic e)]
      exact ⟨_, rfl⟩
    · refine .inr ⟨k1, ?_⟩
      rw [k2] at e
      rw [SO.bind_ok (attempt_ofExcept e)]
      exact ⟨_, x, rfl, h3, k3⟩

end Props
end Dxl
