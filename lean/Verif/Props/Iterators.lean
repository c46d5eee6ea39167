import Verif.Lemmas.Drops

/-!
# C39-C42: iterators over responses

An iterator awaits one response after another. `Turn b c D want count Value x` (in `Lemmas/Turns.lean`) says everything about
one response: the time, the calls to the port, which packet is taken from the stream, and what is made of it.
`Collected` chains the turns of several requests.
-/

namespace Dxl.Props
open Dxl Spec

/-- What `k` calls of `next` should return for the given requests (motor ID and number of bytes): an item for each request,
then `None`; every `Ok` item is from the motor that was asked and has the right number of bytes. -/
def Yields {α : Type} (Value : α → List Byte → Prop) (requests : List (Byte × Nat)) (k : Nat)
    (items : List (Option (Except ReadError (Response α)))) : Prop :=
  ∃ xs, items = xs.map some ++ List.replicate (k - requests.length) none ∧
    Pairwise₂ (fun (r : Byte × Nat) x => ∀ a, x = .ok a → a.motorId = r.1 ∧ ∃ ps, ps.length = r.2 ∧ Value a.data ps)
      (requests.take k) xs

theorem turn_ok {α : Type} {b c : Bus} {D count : Nat} {id : Byte} {Value : α → List Byte → Prop} {a : Response α}
    (h : Turn b c D (some id) count Value (.ok a)) : a.motorId = id ∧ ∃ ps, ps.length = count ∧ Value a.data ps := by
  obtain ⟨rid, e, ps, rest, hs⟩ := h.backed a rfl
  have := (h.answered _ _ _ _ hs).1
  unfold Judged at this
  split at this
  · simp at this
  · split at this
    · simp at this
    · rename_i hid
      split at this
      · simp at this
      · rename_i hl
        obtain ⟨v, hv, hx⟩ := this
        cases hx
        exact ⟨by simpa using (Classical.not_not.mp hid).symm, ps, Classical.not_not.mp hl, hv⟩

theorem Collected.items {α : Type} {Value : α → List Byte → Prop} {b c : Bus} {requests : List (Byte × Nat)}
    {xs : List (Except ReadError (Response α))} (h : Collected Value b requests xs c) :
    Pairwise₂ (fun (r : Byte × Nat) x => ∀ a, x = .ok a → a.motorId = r.1 ∧ ∃ ps, ps.length = r.2 ∧ Value a.data ps)
      requests xs := by
  induction h with
  | done => exact .nil
  | turn h1 _ ih =>
    refine .cons ?_ ih
    rintro a rfl
    exact turn_ok h1

/-- The panics: some response is awaited in vain because the baud rate is zero (C21) or a malformed packet comes (C18). -/
def Fails {α : Type} (Value : α → List Byte → Prop) (b : Bus) (requests : List (Byte × Nat)) : Prop :=
  ∃ (c : Bus) (xs : List (Except ReadError (Response α))) (before : List (Byte × Nat)) (id : Byte) (count : Nat)
    (after : List (Byte × Nat)), requests = before ++ (id, count) :: after ∧ Collected Value b before xs c ∧ Hopeless c count

theorem callTimes_keeps {σ ε β : Type} {m : SO σ ε β} {P : σ → Prop} (h : ∀ s, P s → P (m s).1) :
    ∀ (k : Nat) (s : σ), P s → P (callTimes m k s).1 := by
  intro k
  induction k with
  | zero => exact fun s hs => hs
  | succ k ih =>
    intro s hs
    have h1 := h s hs
    unfold callTimes
    rw [SO.bind_def]
    rcases hm : m s with ⟨s1, o⟩
    rw [hm] at h1
    cases o with
    | ok x =>
      dsimp only
      rw [SO.bind_def]
      have := ih s1 h1
      rcases hc : callTimes m k s1 with ⟨s2, o2⟩
      rw [hc] at this
      cases o2 <;> exact this
    | _ => exact h1

/-- An iterator over a list that has not run past its end. -/
theorem iterator_calls {σ α : Type} {next : SO σ ReadError (Option (Except ReadError (Response α)))} {client : σ → Bus}
    {todo : σ → List (Byte × Nat)} {Value : α → List Byte → Prop} {remaining : σ → Outcome ReadError Nat} {P : σ → Prop}
    (h : IsIterator next client todo Value) (hk : ∀ s, P s → P (next s).1) (hrem : ∀ s, P s → remaining s = .ok (todo s).length)
    (k : Nat) {s : σ} (hP : P s) (hr : (client s).RInv) (hb : (client s).baudRate < 2 ^ 32) :
    ∃ s', (∃ items, callTimes next k s = (s', .ok items) ∧ Yields Value (todo s) k items ∧
        remaining s' = .ok ((todo s).length - k) ∧
        ∃ xs, items.take (todo s).length = xs.map some ∧ Collected Value (client s) ((todo s).take k) xs (client s')) ∨
      (callTimes next k s = (s', .panic) ∧ Fails Value (client s) ((todo s).take k)) := by
  have hP' := callTimes_keeps hk k s hP
  rcases h.calls k s hr hb with ⟨s', xs, h1, h2, h3⟩ | ⟨s', c, xs, done, id, count, rest, h1, h2, h3, h4, h5⟩
  · rw [h1] at hP'
    refine ⟨s', .inl ⟨_, h1, ⟨xs, rfl, h3.items⟩, ?_, xs, ?_, h3⟩⟩
    · rw [hrem s' hP', h2, List.length_drop]
    · have hlen : ∀ {α β : Type} {R : α → β → Prop} {as : List α} {bs : List β}, Pairwise₂ R as bs → as.length = bs.length := by
        intro α β R as bs h
        induction h with
        | nil => rfl
        | cons _ _ ih => simp [ih]
      have := hlen h3.items
      rw [List.length_take] at this
      rw [List.take_append]
      by_cases hk : k ≤ (todo s).length
      · rw [List.take_of_length_le (by simp; omega), Nat.sub_eq_zero_of_le hk]
        simp
      · rw [List.take_of_length_le (by simp; omega)]
        simp only [List.length_map]
        rw [show (todo s).length - xs.length = 0 by omega]
        simp
  · refine ⟨s', .inr ⟨h1, c, xs, done, id, count, rest.take (k - done.length - 1), ?_, h4, h5⟩⟩
    rw [h2, List.take_append, List.take_of_length_le (by omega)]
    rw [show k - done.length = (k - done.length - 1) + 1 by omega, List.take_succ_cons]
    simp

/-! ## C39 -/

theorem sync_pop_bounded {ε : Type} (s : SyncIter) (h : s.index ≤ s.motorIds.length) :
    (SyncIter.popMotorId (ε := ε) s).1.index ≤ (SyncIter.popMotorId (ε := ε) s).1.motorIds.length := by
  unfold SyncIter.popMotorId
  cases hg : s.motorIds[s.index]? with
  | none => exact h
  | some id =>
    obtain ⟨h, -⟩ := List.getElem?_eq_some_iff.mp hg
    exact h

/-- The iterator has not run past the end of the list. -/
def SyncIter.Bounded (s : SyncIter) : Prop := s.index ≤ s.motorIds.length

def BulkIter.Bounded (s : BulkIter) : Prop := s.index ≤ s.reads.length

theorem onClient_bounded {ε α : Type} (m : SO Bus ε α) {s : SyncIter} (h : SyncIter.Bounded s) :
    SyncIter.Bounded (SyncIter.onClient m s).1 := by
  unfold SyncIter.onClient
  rw [SO.zoom_apply]
  exact h

/-- Code that only changes the client. -/
def OnlyClient {ε α : Type} (m : SO SyncIter ε α) : Prop := ∀ s, (m s).1.index = s.index ∧ (m s).1.motorIds = s.motorIds

theorem OnlyClient.bind {ε α β : Type} {m : SO SyncIter ε α} {f : α → SO SyncIter ε β} (h : OnlyClient m) (h' : ∀ a, OnlyClient (f a)) :
    OnlyClient (m >>= f) := by
  intro s
  have h1 := h s
  rw [SO.bind_def]
  rcases hm : m s with ⟨s1, o⟩
  rw [hm] at h1
  cases o with
  | ok a =>
    have h2 := h' a s1
    dsimp only at *
    exact ⟨h2.1.trans h1.1, h2.2.trans h1.2⟩
  | _ => exact h1

theorem onlyClient_onClient {ε α : Type} (m : SO Bus ε α) : OnlyClient (SyncIter.onClient m) := by
  intro s
  unfold SyncIter.onClient
  rw [SO.zoom_apply]
  exact ⟨rfl, rfl⟩

theorem onlyClient_lift {ε α : Type} (o : Outcome ε α) : OnlyClient (SO.lift o) := fun _ => ⟨rfl, rfl⟩

theorem onlyClient_attempt {ε ε' α : Type} {m : SO SyncIter ε α} (h : OnlyClient m) : OnlyClient (m.attempt : SO SyncIter ε' _) := by
  intro s
  have := h s
  unfold SO.attempt
  rcases hm : m s with ⟨s1, o⟩
  rw [hm] at this
  cases o <;> exact this

theorem nextBytes_bounded {ε : Type} (s : SyncIter) (h : SyncIter.Bounded s) : SyncIter.Bounded (SyncIter.nextBytes (ε := ε) s).1 := by
  unfold SyncIter.nextBytes
  rw [SO.bind_def]
  have h1 := sync_pop_bounded (ε := ε) s h
  rcases hm : SyncIter.popMotorId (ε := ε) s with ⟨s1, o⟩
  rw [hm] at h1
  cases o with
  | ok r =>
    cases r with
    | none => exact h1
    | some id =>
      have h2 : OnlyClient (SyncIter.nextResponseBytes id) := by
        unfold SyncIter.nextResponseBytes
        exact OnlyClient.bind (fun _ => ⟨rfl, rfl⟩) fun _ => .bind (onlyClient_onClient _) fun _ => .bind (onlyClient_lift _)
          fun _ => onlyClient_lift _
      have h3 := (OnlyClient.bind (onlyClient_attempt (ε' := ε) h2) fun r => (fun _ => ⟨rfl, rfl⟩ : OnlyClient (pure (some r)))) s1
      dsimp only at *
      unfold SyncIter.Bounded
      rw [h3.1, h3.2]
      exact h1
  | _ => exact h1

theorem nextData_bounded {ε α : Type} (d : DataTy α) (s : SyncIter) (h : SyncIter.Bounded s) :
    SyncIter.Bounded (SyncIter.next d (ε := ε) s).1 := by
  unfold SyncIter.next
  rw [SO.bind_def]
  have h1 := sync_pop_bounded (ε := ε) s h
  rcases hm : SyncIter.popMotorId (ε := ε) s with ⟨s1, o⟩
  rw [hm] at h1
  cases o with
  | ok r =>
    cases r with
    | none => exact h1
    | some id =>
      have h2 : OnlyClient (SyncIter.nextResponse d id) := by
        unfold SyncIter.nextResponse
        exact .bind (onlyClient_onClient _) fun _ => .bind (onlyClient_lift _) fun _ => onlyClient_lift _
      have h3 := (OnlyClient.bind (onlyClient_attempt (ε' := ε) h2) fun r => (fun _ => ⟨rfl, rfl⟩ : OnlyClient (pure (some r)))) s1
      dsimp only at *
      unfold SyncIter.Bounded
      rw [h3.1, h3.2]
      exact h1
  | _ => exact h1

/-- The requests that a `SyncReadBytes` or `SyncRead` has not come to yet: `size` bytes from each motor. -/
def syncRequests (s : SyncIter) (size : Nat) : List (Byte × Nat) := (s.motorIds.drop s.index).map fun id => (id, size)

/-- C39 in full: for every list of motors, every state of the bus, every input and every number of calls, the calls return one item
for each motor, in order, with the right ID and number of bytes, then `None`; `remaining` counts what is left. -/
def C39_statement : Prop :=
  (∀ (k : Nat) (s : SyncIter), SyncIter.Bounded s → s.client.RInv → s.client.baudRate < 2 ^ 32 →
    ∃ s' items, callTimes (SyncIter.nextBytes (ε := ReadError)) k s = (s', .ok items) ∧
      Yields IsBytes (syncRequests s s.count.toNat) k items ∧
      SyncIter.remaining (ε := ReadError) s' = .ok (s.motorIds.length - s.index - k)) ∧
  (∀ {α : Type} (d : DataTy α) (valid : α → Prop) (f : α → List Byte), ImplData d valid f →
    ∀ (k : Nat) (s : SyncIter), SyncIter.Bounded s → s.client.RInv → s.client.baudRate < 2 ^ 32 →
    ∃ s' items, callTimes (SyncIter.next d (ε := ReadError)) k s = (s', .ok items) ∧
      Yields (IsEncoded valid f) (syncRequests s d.size.toNat) k items ∧
      SyncIter.remaining (ε := ReadError) s' = .ok (s.motorIds.length - s.index - k))

/-- C39 for `SyncReadBytes`, except for panics, which happen exactly in the cases named in `Fails`. Moreover every item is
accounted for by `Collected`: when it was awaited, and which packet in the stream it is. -/
theorem c39_bytes_partial (k : Nat) {s : SyncIter} (hs : SyncIter.Bounded s) (hr : s.client.RInv) (hb : s.client.baudRate < 2 ^ 32) :
    ∃ s', (∃ items, callTimes (SyncIter.nextBytes (ε := ReadError)) k s = (s', .ok items) ∧
        Yields IsBytes (syncRequests s s.count.toNat) k items ∧
        SyncIter.remaining (ε := ReadError) s' = .ok (s.motorIds.length - s.index - k) ∧
        ∃ xs, items.take (s.motorIds.length - s.index) = xs.map some ∧
          Collected IsBytes s.client ((syncRequests s s.count.toNat).take k) xs s'.client) ∨
      (callTimes (SyncIter.nextBytes (ε := ReadError)) k s = (s', .panic) ∧
        Fails IsBytes s.client ((syncRequests s s.count.toNat).take k)) := by
  have hlen : (syncTodo s).length = s.motorIds.length - s.index := by simp [syncTodo]
  have := iterator_calls (remaining := SyncIter.remaining) (P := SyncIter.Bounded) (syncBytes_iterator ReadError)
    (nextBytes_bounded) (fun s hs => by
      have h : s.index ≤ s.motorIds.length := hs
      simp only [SyncIter.remaining, if_pos h, syncTodo, List.length_map, List.length_drop]) k hs hr hb
  rw [hlen] at this
  exact this

/-- C39 for `SyncRead`, in the same way. -/
theorem c39_data_partial {α : Type} {d : DataTy α} {valid : α → Prop} {f : α → List Byte} (hd : ImplData d valid f) (k : Nat)
    {s : SyncIter} (hs : SyncIter.Bounded s) (hr : s.client.RInv) (hb : s.client.baudRate < 2 ^ 32) :
    ∃ s', (∃ items, callTimes (SyncIter.next d (ε := ReadError)) k s = (s', .ok items) ∧
        Yields (IsEncoded valid f) (syncRequests s d.size.toNat) k items ∧
        SyncIter.remaining (ε := ReadError) s' = .ok (s.motorIds.length - s.index - k) ∧
        ∃ xs, items.take (s.motorIds.length - s.index) = xs.map some ∧
          Collected (IsEncoded valid f) s.client ((syncRequests s d.size.toNat).take k) xs s'.client) ∨
      (callTimes (SyncIter.next d (ε := ReadError)) k s = (s', .panic) ∧
        Fails (IsEncoded valid f) s.client ((syncRequests s d.size.toNat).take k)) := by
  have hlen : (syncRequests s d.size.toNat).length = s.motorIds.length - s.index := by simp [syncRequests]
  have := iterator_calls (remaining := SyncIter.remaining) (P := SyncIter.Bounded) (syncData_iterator hd ReadError)
    (nextData_bounded d) (fun s hs => by
      have h : s.index ≤ s.motorIds.length := hs
      simp only [SyncIter.remaining, if_pos h, List.length_map, List.length_drop]) k hs hr hb
  rw [show ((s.motorIds.drop s.index).map fun id => (id, d.size.toNat)) = syncRequests s d.size.toNat from rfl, hlen] at this
  exact this

/-- If a reply (of any motor) arrives in time for each motor, the items are these replies: those that are not from the right
motor, have the wrong size, or report an error become the corresponding error, all others become `Ok`. Nothing but the replies is
taken from the stream. -/
theorem c39_bytes_delivered (rounds : List Round) (later : List (Byte × Nat)) {s : SyncIter}
    (ht : syncRequests s s.count.toNat = rounds.map (·.1) ++ later) (hr : s.client.RInv) (hb : s.client.baudRate < 2 ^ 32)
    (h0 : s.client.baudRate ≠ 0) (hok : ∀ r ∈ rounds, r.2.Ok s.client.readBuffer.length)
    (hon : OnTime s.client [] (rounds.map fun r => (responseWait s.client.baudRate r.1.2, r.2.bytes))) :
    ∃ s' xs, callTimes (SyncIter.nextBytes (ε := ReadError)) rounds.length s = (s', .ok (xs.map some)) ∧
      syncRequests s' s'.count.toNat = later ∧
      Pairwise₂ (fun (r : Round) x => Judged (some r.1.1) r.1.2 IsBytes r.2.id r.2.error r.2.params x) rounds xs ∧
      s.client.serialPort.now ≤ s'.client.serialPort.now ∧
      ∀ T, s'.client.serialPort.now ≤ T →
        stream T s.client = rounds.flatMap (fun r => r.2.bytes) ++ stream T s'.client :=
  (syncBytes_iterator ReadError).delivers rounds later s ht hr hb h0 hok hon

/-- The same for `SyncRead`. -/
theorem c39_data_delivered {α : Type} {d : DataTy α} {valid : α → Prop} {f : α → List Byte} (hd : ImplData d valid f)
    (rounds : List Round) (later : List (Byte × Nat)) {s : SyncIter}
    (ht : syncRequests s d.size.toNat = rounds.map (·.1) ++ later) (hr : s.client.RInv) (hb : s.client.baudRate < 2 ^ 32)
    (h0 : s.client.baudRate ≠ 0) (hok : ∀ r ∈ rounds, r.2.Ok s.client.readBuffer.length)
    (hon : OnTime s.client [] (rounds.map fun r => (responseWait s.client.baudRate r.1.2, r.2.bytes))) :
    ∃ s' xs, callTimes (SyncIter.next d (ε := ReadError)) rounds.length s = (s', .ok (xs.map some)) ∧
      syncRequests s' d.size.toNat = later ∧
      Pairwise₂ (fun (r : Round) x => Judged (some r.1.1) r.1.2 (IsEncoded valid f) r.2.id r.2.error r.2.params x) rounds xs ∧
      s.client.serialPort.now ≤ s'.client.serialPort.now ∧
      ∀ T, s'.client.serialPort.now ≤ T →
        stream T s.client = rounds.flatMap (fun r => r.2.bytes) ++ stream T s'.client :=
  (syncData_iterator hd ReadError).delivers rounds later s ht hr hb h0 hok hon

/-- C39 does not hold in full: a malformed packet makes the iterator panic. -/
theorem c39_refuted : ¬ C39_statement := by
  intro h
  obtain ⟨s', items, h1, -⟩ := h.1 1 ⟨busWith (frame 1#8 []), 2#16, [1#8], 0⟩ (by unfold SyncIter.Bounded; decide)
    (busWith_rInv _) (by decide)
  have h2 : (match (callTimes (SyncIter.nextBytes (ε := ReadError)) 1 ⟨busWith (frame 1#8 []), 2#16, [1#8], 0⟩).2 with
    | .panic => true | _ => false) = true := by decide +kernel
  rw [h1] at h2
  simp at h2

/-! ## C41 -/

/-- Requests that a `BulkReadBytes` has not come to yet. -/
def bulkRequests (s : BulkIter) : List (Byte × Nat) := (s.reads.drop s.index).map fun r => (r.motorId, r.count.toNat)

theorem bulk_bounded {ε : Type} (s : BulkIter) (h : BulkIter.Bounded s) : BulkIter.Bounded (BulkIter.next (ε := ε) s).1 := by
  unfold BulkIter.next
  rw [SO.bind_def]
  unfold BulkIter.pop
  cases hg : s.reads[s.index]? with
  | none => exact h
  | some r =>
    obtain ⟨hlt, -⟩ := List.getElem?_eq_some_iff.mp hg
    dsimp only
    rw [SO.bind_def]
    unfold SO.attempt BulkIter.nextResponse BulkIter.onClient
    rw [SO.bind_def, SO.zoom_apply]
    dsimp only
    rcases Client.readStatusResponse r.count s.client with ⟨c, o⟩
    cases o with
    | ok st =>
      dsimp only
      rw [SO.bind_def]
      simp only [SO.lift_apply]
      cases SyncIter.checkResponse st r.motorId r.count with
      | ok _ => dsimp only; cases (decodeStatusPacketBytes st).mapErr ReadError.motorError <;> exact hlt
      | _ => exact hlt
    | _ => exact hlt

/-- C41 in full. -/
def C41_statement : Prop :=
  ∀ (k : Nat) (s : BulkIter), BulkIter.Bounded s → s.client.RInv → s.client.baudRate < 2 ^ 32 →
    ∃ s' items, callTimes (BulkIter.next (ε := ReadError)) k s = (s', .ok items) ∧
      Yields IsBytes (bulkRequests s) k items ∧
      BulkIter.remaining (ε := ReadError) s' = .ok (s.reads.length - s.index - k)

/-- C41 except for panics, which happen exactly in the cases named in `Fails`. -/
theorem c41_bytes_partial (k : Nat) {s : BulkIter} (hs : BulkIter.Bounded s) (hr : s.client.RInv) (hb : s.client.baudRate < 2 ^ 32) :
    ∃ s', (∃ items, callTimes (BulkIter.next (ε := ReadError)) k s = (s', .ok items) ∧
        Yields IsBytes (bulkRequests s) k items ∧
        BulkIter.remaining (ε := ReadError) s' = .ok (s.reads.length - s.index - k) ∧
        ∃ xs, items.take (s.reads.length - s.index) = xs.map some ∧
          Collected IsBytes s.client ((bulkRequests s).take k) xs s'.client) ∨
      (callTimes (BulkIter.next (ε := ReadError)) k s = (s', .panic) ∧ Fails IsBytes s.client ((bulkRequests s).take k)) := by
  have hlen : (bulkTodo s).length = s.reads.length - s.index := by simp [bulkTodo]
  have := iterator_calls (remaining := BulkIter.remaining) (P := BulkIter.Bounded) (bulk_iterator ReadError)
    (bulk_bounded) (fun s hs => by
      have h : s.index ≤ s.reads.length := hs
      simp only [BulkIter.remaining, if_pos h, bulkTodo, List.length_map, List.length_drop]) k hs hr hb
  rw [hlen] at this
  exact this

/-- If a reply arrives in time for each read, the items are these replies. -/
theorem c41_bytes_delivered (rounds : List Round) (later : List (Byte × Nat)) {s : BulkIter}
    (ht : bulkRequests s = rounds.map (·.1) ++ later) (hr : s.client.RInv) (hb : s.client.baudRate < 2 ^ 32)
    (h0 : s.client.baudRate ≠ 0) (hok : ∀ r ∈ rounds, r.2.Ok s.client.readBuffer.length)
    (hon : OnTime s.client [] (rounds.map fun r => (responseWait s.client.baudRate r.1.2, r.2.bytes))) :
    ∃ s' xs, callTimes (BulkIter.next (ε := ReadError)) rounds.length s = (s', .ok (xs.map some)) ∧
      bulkRequests s' = later ∧
      Pairwise₂ (fun (r : Round) x => Judged (some r.1.1) r.1.2 IsBytes r.2.id r.2.error r.2.params x) rounds xs ∧
      s.client.serialPort.now ≤ s'.client.serialPort.now ∧
      ∀ T, s'.client.serialPort.now ≤ T →
        stream T s.client = rounds.flatMap (fun r => r.2.bytes) ++ stream T s'.client :=
  (bulk_iterator ReadError).delivers rounds later s ht hr hb h0 hok hon

/-- C41 does not hold in full: a malformed packet makes the iterator panic. -/
theorem c41_refuted : ¬ C41_statement := by
  intro h
  obtain ⟨s', items, h1, -⟩ := h 1 ⟨busWith (frame 1#8 []), [⟨1#8, 0#16, 2#16⟩], 0⟩ (by unfold BulkIter.Bounded; decide)
    (busWith_rInv _) (by decide)
  have h2 : (match (callTimes (BulkIter.next (ε := ReadError)) 1 ⟨busWith (frame 1#8 []), [⟨1#8, 0#16, 2#16⟩], 0⟩).2 with
    | .panic => true | _ => false) = true := by decide +kernel
  rw [h1] at h2
  simp at h2

/-! ## C40 -/

/-- C40 in full: the four destructors terminate (that is, a finite number of iterations suffices). For the iterators over several
motors, one response is awaited for each motor that is left. -/
def C40_statement : Prop :=
  (∀ s : SyncIter, s.client.RInv → s.client.baudRate < 2 ^ 32 →
    ∃ fuel, (SyncIter.dropBytes (ε := ReadError) fuel s).2 ≠ .hang ∧
      ∀ s', SyncIter.dropBytes (ε := ReadError) fuel s = (s', .ok ()) →
        ∃ xs, Collected IsBytes s.client (syncRequests s s.count.toNat) xs s'.client) ∧
  (∀ {α : Type} (d : DataTy α) (valid : α → Prop) (f : α → List Byte), ImplData d valid f →
    ∀ s : SyncIter, s.client.RInv → s.client.baudRate < 2 ^ 32 →
    ∃ fuel, (SyncIter.drop d (ε := ReadError) fuel s).2 ≠ .hang ∧
      ∀ s', SyncIter.drop d (ε := ReadError) fuel s = (s', .ok ()) →
        ∃ xs, Collected (IsEncoded valid f) s.client (syncRequests s d.size.toNat) xs s'.client) ∧
  (∀ s : BulkIter, BulkIter.Bounded s → s.client.RInv → s.client.baudRate < 2 ^ 32 →
    (BulkIter.drop (ε := ReadError) s).2 ≠ .hang ∧
      ∀ s', BulkIter.drop (ε := ReadError) s = (s', .ok ()) →
        ∃ xs, Collected IsBytes s.client (bulkRequests s) xs s'.client) ∧
  (∀ b : Bus, b.RInv → b.baudRate < 2 ^ 32 → ∃ fuel, (Client.scanDrop (ε := ReadError) fuel b).2 ≠ .hang)

/-- Dropping a `SyncReadBytes`: any bound on the number of iterations greater than the number of motors left will do, and one
response is awaited for each of them (or the code panics). -/
theorem c40_sync_bytes_partial {fuel : Nat} {s : SyncIter} (hf : s.motorIds.length - s.index < fuel) (hr : s.client.RInv)
    (hb : s.client.baudRate < 2 ^ 32) :
    ∃ s', (SyncIter.dropBytes (ε := ReadError) fuel s = (s', .ok ()) ∧
        ∃ xs, Collected IsBytes s.client (syncRequests s s.count.toNat) xs s'.client) ∨
      (SyncIter.dropBytes (ε := ReadError) fuel s = (s', .panic) ∧ Fails IsBytes s.client (syncRequests s s.count.toNat)) := by
  rcases sync_dropBytes_isDrop.drops fuel s (by simpa [syncTodo] using hf) hr hb with
    ⟨s', xs, h1, -, h3⟩ | ⟨s', c, xs, done, id, count, rest, h1, h2, h3, h4⟩
  · exact ⟨s', .inl ⟨h1, xs, h3⟩⟩
  · exact ⟨s', .inr ⟨h1, c, xs, done, id, count, rest, h2, h3, h4⟩⟩

/-- Dropping a `SyncRead`. -/
theorem c40_sync_data_partial {α : Type} {d : DataTy α} {valid : α → Prop} {f : α → List Byte} (hd : ImplData d valid f) {fuel : Nat}
    {s : SyncIter} (hf : s.motorIds.length - s.index < fuel) (hr : s.client.RInv) (hb : s.client.baudRate < 2 ^ 32) :
    ∃ s', (SyncIter.drop d (ε := ReadError) fuel s = (s', .ok ()) ∧
        ∃ xs, Collected (IsEncoded valid f) s.client (syncRequests s d.size.toNat) xs s'.client) ∨
      (SyncIter.drop d (ε := ReadError) fuel s = (s', .panic) ∧ Fails (IsEncoded valid f) s.client (syncRequests s d.size.toNat)) := by
  rcases (sync_drop_isDrop hd).drops fuel s (by simpa using hf) hr hb with
    ⟨s', xs, h1, -, h3⟩ | ⟨s', c, xs, done, id, count, rest, h1, h2, h3, h4⟩
  · exact ⟨s', .inl ⟨h1, xs, h3⟩⟩
  · exact ⟨s', .inr ⟨h1, c, xs, done, id, count, rest, h2, h3, h4⟩⟩

/-- Dropping a `BulkReadBytes`. -/
theorem c40_bulk_partial {s : BulkIter} (hs : BulkIter.Bounded s) (hr : s.client.RInv) (hb : s.client.baudRate < 2 ^ 32) :
    ∃ s', (BulkIter.drop (ε := ReadError) s = (s', .ok ()) ∧
        ∃ xs, Collected IsBytes s.client (bulkRequests s) xs s'.client) ∨
      (BulkIter.drop (ε := ReadError) s = (s', .panic) ∧ Fails IsBytes s.client (bulkRequests s)) := by
  have e : BulkIter.drop (ε := ReadError) s = BulkIter.dropLoop (s.reads.drop s.index) s := by
    unfold BulkIter.drop
    have hs' : s.index ≤ s.reads.length := hs
    rw [SO.get_bind, if_pos hs']
  rw [e]
  rcases dropLoop_drops (ε := ReadError) (s.reads.drop s.index) s hr hb with
    ⟨s', xs, h1, h3⟩ | ⟨s', c, xs, done, id, count, rest, h1, h2, h3, h4⟩
  · exact ⟨s', .inl ⟨h1, xs, h3⟩⟩
  · exact ⟨s', .inr ⟨h1, c, xs, done, id, count, rest, h2, h3, h4⟩⟩

/-- If the replies come in time, dropping a `SyncReadBytes` takes exactly these from the stream. -/
theorem c40_sync_bytes_discards (rounds : List Round) {fuel : Nat} {s : SyncIter} (hf : s.motorIds.length - s.index < fuel)
    (ht : syncRequests s s.count.toNat = rounds.map (·.1)) (hr : s.client.RInv) (hb : s.client.baudRate < 2 ^ 32)
    (h0 : s.client.baudRate ≠ 0) (hok : ∀ r ∈ rounds, r.2.Ok s.client.readBuffer.length)
    (hon : OnTime s.client [] (rounds.map fun r => (responseWait s.client.baudRate r.1.2, r.2.bytes))) :
    ∃ s', SyncIter.dropBytes (ε := ReadError) fuel s = (s', .ok ()) ∧ s.client.serialPort.now ≤ s'.client.serialPort.now ∧
      ∀ T, s'.client.serialPort.now ≤ T →
        stream T s.client = rounds.flatMap (fun r => r.2.bytes) ++ stream T s'.client :=
  sync_dropBytes_isDrop.discards rounds (by simpa [syncTodo] using hf) ht hr hb h0 hok hon

/-- Dropping a `Scan` terminates if the read buffer has room for a packet and the port does not fail forever. -/
theorem c40_scan_partial {b : Bus} (hr : b.RInv) (hb : b.baudRate < 2 ^ 32) (hN : 10 ≤ b.readBuffer.length)
    (ht : ∀ e, b.serialPort.tail = .broken e → e = .timedOut) {fuel : Nat} (hf : b.work < fuel) :
    (Client.scanDrop (ε := ReadError) fuel b).2 = .ok () ∨ (Client.scanDrop (ε := ReadError) fuel b).2 = .panic := by
  induction fuel generalizing b with
  | zero => omega
  | succ fuel ih =>
    unfold Client.scanDrop
    by_cases h0 : b.baudRate = 0
    · right
      have : Client.scanNext (ε := ReadError) b = (b, .panic) := by
        unfold Client.scanNext
        rw [SO.bind_panic (attempt_panic (scanNextResponse_zero h0))]
      rw [SO.bind_panic this]
    · obtain ⟨c, h⟩ := scanNext_turn (ε := ReadError) hr h0 hb
      obtain ⟨k1, k2⟩ := scanNext_fst (ε := ReadError) h0 hb
      rcases h with ⟨-, h⟩ | ⟨-, x, h, hturn⟩
      · right; rw [SO.bind_panic h]
      · rw [SO.bind_ok h]
        rw [h] at k1 k2
        cases hx : scanItem x with
        | none => left; rfl
        | some y =>
          rw [hx] at k2
          have hw := Bus.read_work (b.serialPort.now + scanWait b.baudRate) hr hN ht (k2 (by simp))
          have htail : ∀ e, c.serialPort.tail = .broken e → e = .timedOut := by
            have := Bus.read_kept (Port.kept_tail b.serialPort.tail) (b.serialPort.now + scanWait b.baudRate) hr rfl
            rw [← k1] at this
            rw [show c.serialPort.tail = b.serialPort.tail from this]
            exact ht
          rw [← k1] at hw
          exact ih hturn.rinv (by rw [hturn.like.baudRate]; exact hb) (by rw [hturn.like.readSize]; exact hN) htail
            (by dsimp only at hw; omega)

/-- A bus where every read fails with an error that is not a time-out: the device was unplugged. -/
def unpluggedBus : Bus := { quietBus true 40 with serialPort := { quietPort with tail := .broken (.other 5) } }

/-- Dropping a `Scan` on a port that was unplugged never terminates. -/
theorem c40_scan_hangs {b : Bus} (hr : b.RInv) (hb : b.baudRate < 2 ^ 32) (h0 : b.baudRate ≠ 0)
    (hbad : b.readBuffer.length < 10 ∨ (10 ≤ b.readBuffer.length ∧ parse b.readBuffer.length b.pending = .more ∧ b.serialPort.rx = [] ∧
      ∃ e, e ≠ .timedOut ∧ b.serialPort.tail = .broken e)) (fuel : Nat) :
    (Client.scanDrop (ε := ReadError) fuel b).2 = .hang := by
  induction fuel generalizing b with
  | zero => rfl
  | succ fuel ih =>
    obtain ⟨c, h⟩ := scanNext_turn (ε := ReadError) hr h0 hb
    obtain ⟨k1, k2⟩ := scanNext_fst (ε := ReadError) h0 hb
    have hnd : ¬ Deadly b (b.serialPort.now + scanWait b.baudRate) := by
      rintro ⟨h1, g, id, rest, hg, hs⟩
      rcases hbad with hbad | ⟨-, hbad, hrx, -⟩
      · omega
      · rw [stream_eq (by omega), hrx] at hs
        simp only [Spec.arriving, List.append_nil] at hs
        have hp : ∀ (wire : List Byte), wire.length ≤ 1 → b.pending = g ++ frame id wire ++ rest → False := by
          intro wire hw hs
          have := parse_good_frame (cap := b.readBuffer.length) (rest := rest) (wire := wire) id hg (by omega)
            (by rw [Bus.frame_length]; omega)
          rw [← List.append_assoc, ← hs, hbad] at this
          simp at this
        rcases hs with hs | hs
        · exact hp [] (by simp) hs
        · exact hp [0x55#8] (by simp) hs
    rcases h with ⟨h, -⟩ | ⟨-, x, h, hturn⟩
    · exact absurd h hnd
    · unfold Client.scanDrop
      rw [SO.bind_ok h]
      have hc : (Client.scanNext (ε := ReadError) b).1 = c := by rw [h]
      rw [hc] at k1
      cases hx : scanItem x with
      | none =>
        exfalso
        have hxe : x = .error (.io .timedOut) := by
          unfold scanItem at hx
          split at hx
          · rfl
          · simp at hx
        subst hxe
        rcases hbad with hbad | ⟨hN, hbad, hrx, e, he, htail⟩
        · have hs := Bus.readPacketDeadline_small (b.serialPort.now + scanWait b.baudRate) hbad
          have he : Client.scanNextResponse b = (b, .err (.bufferFull ⟨10, b.readBuffer.length⟩)) := by
            rw [scanNextResponse_eq h0 hb]
            unfold awaitStatus Client.readStatusResponseTimeout
            rw [SO.bind_def, SO.get_bind]
            simp only [Port.makeDeadline]
            rw [SO.bind_err hs]
          have := attempt_ofExcept (ε' := ReadError) (x := .error (ReadError.bufferFull ⟨10, b.readBuffer.length⟩)) he
          unfold Client.scanNext at h
          rw [SO.bind_ok this] at h
          simp [scanItem, pure] at h
        · have := ((hturn.io hN .timedOut).mp rfl).2
          unfold readEnd at this
          rw [if_neg (by omega), hrx, htail] at this
          exact he this.symm
      | some y =>
        dsimp only
        refine ih hturn.rinv (by rw [hturn.like.baudRate]; exact hb) (by rw [hturn.like.baudRate]; exact h0) ?_
        rcases hbad with hbad | ⟨hN, hbad, hrx, e, he, htail⟩
        · left; rw [hturn.like.readSize]; exact hbad
        · right
          rw [hturn.like.readSize]
          have hres := Bus.readPacketDeadline_stream (b.serialPort.now + scanWait b.baudRate) hr hN
          obtain ⟨c', o, e1, -, -, -, e2⟩ := hres
          have hc' : c' = c := by rw [k1, e1]
          subst hc'
          have hread : readable (b.serialPort.now + scanWait b.baudRate) b.serialPort = [] := by
            unfold readable
            rw [if_neg (by omega), hrx]
            rfl
          rw [hread, List.append_nil, hbad] at e2
          obtain ⟨-, e3, -⟩ := e2
          refine ⟨hN, by rw [e3, parse_skip]; exact hbad, ?_, e, he, ?_⟩
          · have := Bus.read_kept (P := fun p => p.rx = []) (by
              intro cap D p p' o h hp
              unfold Port.read at h
              dsimp only at h
              rw [hp] at h
              dsimp only at h
              repeat' split at h
              all_goals (cases h; first | exact hp | rfl)) (b.serialPort.now + scanWait b.baudRate) hr hrx
            rw [e1] at this
            exact this
          · have := Bus.read_kept (Port.kept_tail (.broken e)) (b.serialPort.now + scanWait b.baudRate) hr htail
            rw [e1] at this
            exact this

/-- C40 does not hold in full: dropping a `Scan` after the device was unplugged loops forever. -/
theorem c40_refuted : ¬ C40_statement := by
  intro h
  obtain ⟨fuel, hf⟩ := h.2.2.2 unpluggedBus (by constructor <;> simp [unpluggedBus, quietBus]) (by decide)
  exact hf (c40_scan_hangs (by constructor <;> simp [unpluggedBus, quietBus]) (by decide) (by decide)
    (.inr ⟨by decide, by decide, rfl, .other 5, by decide, rfl⟩) fuel)

/-! ## C42 -/

/-- `scan_next` returns `None` exactly if reading timed out: there is no packet in the bytes that come before the deadline, and the
port reports a time-out rather than an error. -/
theorem c42_none_iff {b : Bus} (hr : b.RInv) (hb : b.baudRate < 2 ^ 32) :
    (Client.scanNext (ε := ReadError) b).2 = .ok none ↔
      b.baudRate ≠ 0 ∧ 10 ≤ b.readBuffer.length ∧
      parse b.readBuffer.length (stream (b.serialPort.now + scanWait b.baudRate) b) = .more ∧
      readEnd (b.serialPort.now + scanWait b.baudRate) b.serialPort = .timedOut := by
  by_cases h0 : b.baudRate = 0
  · have : Client.scanNext (ε := ReadError) b = (b, .panic) := by
      unfold Client.scanNext
      rw [SO.bind_panic (attempt_panic (scanNextResponse_zero h0))]
    rw [this]
    simp [h0]
  · obtain ⟨c, h⟩ := scanNext_turn (ε := ReadError) hr h0 hb
    have hsmall : b.readBuffer.length < 10 → (Client.scanNext (ε := ReadError) b).2 ≠ .ok none := by
      intro hlt
      have := c40_scan_hangs hr hb h0 (.inl hlt) 1
      unfold Client.scanDrop at this
      intro h
      rcases hm : Client.scanNext (ε := ReadError) b with ⟨c, o⟩
      rw [hm] at h
      dsimp only at h
      subst h
      rw [SO.bind_ok hm] at this
      simp [pure] at this
    by_cases hN : 10 ≤ b.readBuffer.length
    · rcases h with ⟨h1, h⟩ | ⟨-, x, h, hturn⟩
      · rw [h]
        constructor
        · intro h; simp at h
        · rintro ⟨-, -, h2, -⟩
          obtain ⟨-, g, id, rest, hg, hs⟩ := h1
          have hp : ∀ (wire : List Byte), wire.length ≤ 1 →
              stream (b.serialPort.now + scanWait b.baudRate) b = g ++ frame id wire ++ rest → False := by
            intro wire hw hs
            have := parse_good_frame (cap := b.readBuffer.length) (rest := rest) (wire := wire) id hg (by omega)
              (by rw [Bus.frame_length]; omega)
            rw [← List.append_assoc, ← hs, h2] at this
            simp at this
          exfalso
          rcases hs with hs | hs
          · exact hp [] (by simp) hs
          · exact hp [0x55#8] (by simp) hs
      · rw [h]
        have hio := hturn.io hN .timedOut
        constructor
        · intro hx
          simp only [Outcome.ok.injEq] at hx
          have hxe : x = .error (.io .timedOut) := by
            unfold scanItem at hx
            split at hx
            · rfl
            · simp at hx
          obtain ⟨h1, h2⟩ := hio.mp hxe
          exact ⟨h0, hN, h1, h2.symm⟩
        · rintro ⟨-, -, h1, h2⟩
          rw [hio.mpr ⟨h1, h2.symm⟩]
          rfl
    · constructor
      · intro h'; exact absurd h' (hsmall (by omega))
      · rintro ⟨-, h', -⟩; exact absurd h' hN

/-- What a scan returns for replies to a ping: the model number and firmware version of the motor, or the error it reports. -/
theorem c42_scan_delivered (replies : List Reply) {b : Bus} (hr : b.RInv) (hb : b.baudRate < 2 ^ 32) (h0 : b.baudRate ≠ 0)
    (hok : ∀ r ∈ replies, r.Ok b.readBuffer.length)
    (hon : OnTime b [] (replies.map fun r => (scanWait b.baudRate, r.bytes))) :
    ∃ c xs, callTimes (Client.scanNext (ε := ReadError)) replies.length b = (c, .ok (xs.map some)) ∧
      Pairwise₂ (fun (r : Reply) x => Judged none 3 IsPing r.id r.error r.params x) replies xs ∧
      c.RInv ∧ Bus.Like b c ∧ b.serialPort.now ≤ c.serialPort.now ∧
      (∀ T, c.serialPort.now ≤ T → stream T b = replies.flatMap Reply.bytes ++ stream T c) ∧
      (Port.Calm b.serialPort → Port.Calm c.serialPort) := by
  induction replies generalizing b with
  | nil => exact ⟨b, [], rfl, .nil, hr, .refl b, Nat.le_refl _, fun _ _ => rfl, id⟩
  | cons reply rest ih =>
    have hrep := hok _ (List.mem_cons_self ..)
    obtain ⟨hon1, hon2⟩ := hon
    have hin := hon1 _ (Nat.le_refl _) (by simp)
    rw [List.nil_append] at hin
    obtain ⟨tail, e1, hsf⟩ := reply_first hrep hin
    have hnd := statusFirst_not_deadly hr rfl hsf
    obtain ⟨c, h⟩ := scanNext_turn (ε := ReadError) hr h0 hb
    rcases h with ⟨h1, -⟩ | ⟨-, x, h2, h4⟩
    · exact absurd h1 hnd
    · obtain ⟨hj, hst⟩ := h4.answered _ _ _ _ hsf
      obtain ⟨front, c1, c2⟩ := h4.consumed _ _ _ _ hsf
      have : front = reply.bytes := by
        rw [e1] at c1
        exact (List.append_cancel_right c1).symm
      subst this
      have hx : scanItem x = some x := by
        have := judged_not_io hj .timedOut
        unfold scanItem
        split
        · exact absurd rfl this
        · rfl
      rw [hx] at h2
      have hlater := OnTime.later h4.now_le c2 _ [] (by rw [List.append_nil]; exact hon2)
      obtain ⟨c', xs, k1, k2, k3, k4, k5, k6, k7⟩ := ih h4.rinv (by rw [h4.like.baudRate]; exact hb)
        (by rw [h4.like.baudRate]; exact h0)
        (fun r hr => by rw [h4.like.readSize]; exact hok r (List.mem_cons_of_mem _ hr))
        (by rw [h4.like.baudRate]; exact hlater)
      refine ⟨c', x :: xs, ?_, .cons hj k2, k3, h4.like.trans k4, Nat.le_trans h4.now_le k5, ?_, ?_⟩
      · rw [List.length_cons, callTimes_succ_ok h2, k1]
        rfl
      · intro T hT
        rw [c2 T (by omega), k6 T hT]
        simp
      · intro hcalm
        apply k7
        have e := (scanNext_fst (ε := ReadError) h0 hb).1
        rw [h2] at e
        rw [show c = _ from e]
        exact Bus.read_kept Port.kept_calm _ hr hcalm

/-- What a scan says about a motor that answers with this ID, error byte, and model number and firmware version. -/
def ScanSays (m : Byte × Byte × Client.Ping) : Except ReadError (Response Client.Ping) :=
  if m.2.1.toNat % 128 ≠ 0 then .error (.motorError ⟨m.2.1⟩) else .ok ⟨m.1, decide (128 ≤ m.2.1.toNat), m.2.2⟩

/-- The reply of this motor. With an error, the parameters do not matter. -/
def RepliesTo (m : Byte × Byte × Client.Ping) (r : Reply) : Prop :=
  r.id = m.1 ∧ r.error = m.2.1 ∧ (m.2.1.toNat % 128 = 0 → r.params = le16 m.2.2.model ++ [m.2.2.firmware])

theorem scan_values {motors : List (Byte × Byte × Client.Ping)} {replies : List Reply} (hmotors : Pairwise₂ RepliesTo motors replies) :
    ∀ {xs : List (Except ReadError (Response Client.Ping))},
    Pairwise₂ (fun (r : Reply) x => Judged none 3 IsPing r.id r.error r.params x) replies xs →
      motors.length = replies.length ∧ xs = motors.map ScanSays := by
  induction hmotors with
  | nil => intro xs h; cases h; exact ⟨rfl, rfl⟩
  | cons hm _ ih =>
    intro xs h
    cases h with
    | cons hj h =>
      obtain ⟨i1, i2⟩ := ih h
      refine ⟨by simp [i1], ?_⟩
      rw [i2, List.map_cons]
      congr 1
      rename_i m r _ _ _ _ _
      obtain ⟨id, e, ping⟩ := m
      obtain ⟨h1, h2, h3⟩ := hm
      dsimp only at h1 h2 h3 ⊢
      unfold Judged at hj
      unfold ScanSays
      dsimp only
      by_cases he : e.toNat % 128 = 0
      · have h3 := h3 he
        rw [if_neg (by simpa [h2] using he), if_neg (by simp), if_neg (by rw [h3]; simp [le16])] at hj
        rw [if_neg (by simpa using he)]
        obtain ⟨v, hv, hx⟩ := hj
        rw [hx, h2, h1]
        unfold IsPing at hv
        rw [h3] at hv
        obtain ⟨e1, e2⟩ := List.append_inj hv (by simp [le16])
        have e3 := le16_inj e1
        cases ping
        cases v
        simp at *
        exact ⟨e3.symm, e2.symm⟩
      · rw [if_pos (by rw [h2]; exact he)] at hj
        rw [if_pos he, hj, h2]

/-- Nothing is left to read, and nothing will come. -/
structure Drained (b : Bus) : Prop where
  rinv : b.RInv
  calm : Port.Calm b.serialPort
  empty : b.pending ++ allBytes b.serialPort.rx = []

theorem drained_none {b : Bus} (h : Drained b) (hb : b.baudRate < 2 ^ 32) (h0 : b.baudRate ≠ 0) (hN : 10 ≤ b.readBuffer.length) :
    ∃ c, Client.scanNext (ε := ReadError) b = (c, .ok none) ∧ Drained c ∧ Bus.Like b c := by
  have hs : stream (b.serialPort.now + scanWait b.baudRate) b = [] := by
    rw [stream_eq (by omega)]
    have h2 := Port.arriving_prefix (b.serialPort.now + scanWait b.baudRate) b.serialPort.rx
    obtain ⟨e1, e2⟩ := List.append_eq_nil_iff.mp h.empty
    rw [e2] at h2
    rw [e1, List.prefix_nil.mp h2]
    rfl
  have hnone : (Client.scanNext (ε := ReadError) b).2 = .ok none := by
    rw [c42_none_iff h.rinv hb]
    refine ⟨h0, hN, ?_, Port.calm_readEnd h.calm _⟩
    rw [hs]
    exact parse_garbage (by decide) _
  refine ⟨(Client.scanNext (ε := ReadError) b).1, Prod.ext rfl hnone, ?_⟩
  rw [(scanNext_fst (ε := ReadError) h0 hb).1]
  obtain ⟨c, o, h1, h2, h3, h4, h5⟩ := Bus.readPacketDeadline_stream (b.serialPort.now + scanWait b.baudRate) h.rinv hN
  have hk := Bus.read_kept Port.kept_calm (b.serialPort.now + scanWait b.baudRate) h.rinv h.calm
  rw [h1] at hk ⊢
  refine ⟨⟨h3, hk, ?_⟩, h2⟩
  have : c.pending ++ allBytes c.serialPort.rx <:+ b.pending ++ allBytes b.serialPort.rx := by
    split at h5
    · exact h5.2.2.2
    · exact h5.2.2.2
    · exact h5.2.2
  rw [h.empty] at this
  exact List.suffix_nil.mp this

theorem callTimes_snoc {σ ε β : Type} {m : SO σ ε β} (k : Nat) {s s' s'' : σ} {l : List β} {x : β}
    (h1 : callTimes m k s = (s', .ok l)) (h2 : m s' = (s'', .ok x)) : callTimes m (k + 1) s = (s'', .ok (l ++ [x])) := by
  induction k generalizing s l with
  | zero =>
    cases h1
    rw [callTimes_succ_ok h2]
    rfl
  | succ k ih =>
    rw [callTimes] at h1
    obtain ⟨s1, y, l1, l2⟩ := SO.bind_eq_ok.mp h1
    obtain ⟨s2, ys, l3, l4⟩ := SO.bind_eq_ok.mp l2
    cases l4
    rw [callTimes_succ_ok l1, ih l3]
    rfl

theorem arriving_finally {rx : List RxEvent} (h : ∀ e ∈ rx, ∃ t bs, e = .data t bs) :
    ∃ T₀, ∀ T, T₀ ≤ T → arriving T rx = allBytes rx := by
  induction rx with
  | nil => exact ⟨0, fun _ _ => rfl⟩
  | cons e rest ih =>
    obtain ⟨T₀, ih⟩ := ih fun e he => h e (by simp [he])
    obtain ⟨t, bs, rfl⟩ := h e (by simp)
    refine ⟨max t T₀, fun T hT => ?_⟩
    unfold arriving allBytes
    rw [if_pos (by omega), ih T (by omega)]

/-- A scan of exactly `n` replies: exactly these `n` responses or errors of motors, in order, and then `None`, as often as it is
called. -/
theorem c42_scan_exact (motors : List (Byte × Byte × Client.Ping)) {b : Bus} (hr : b.RInv)
    (hb : b.baudRate < 2 ^ 32) (h0 : b.baudRate ≠ 0) (hN : 10 ≤ b.readBuffer.length) (replies : List Reply)
    (hmotors : Pairwise₂ RepliesTo motors replies)
    (hok : ∀ r ∈ replies, r.Ok b.readBuffer.length)
    (hon : OnTime b [] (replies.map fun r => (scanWait b.baudRate, r.bytes)))
    (hcalm : Port.Calm b.serialPort) (hall : b.pending ++ allBytes b.serialPort.rx = replies.flatMap Reply.bytes) (k : Nat) :
    ∃ c, callTimes (Client.scanNext (ε := ReadError)) (motors.length + k) b =
      (c, .ok (motors.map (fun m => some (ScanSays m)) ++ List.replicate k none)) := by
  obtain ⟨c, xs, h1, h2, h3, h4, h5, h6, h7⟩ := c42_scan_delivered replies hr hb h0 hok hon
  obtain ⟨hlen, rfl⟩ := scan_values hmotors h2
  -- nothing is left
  have hdrained : Drained c := by
    refine ⟨h3, h7 hcalm, ?_⟩
    obtain ⟨T₁, e1⟩ := arriving_finally hcalm.2
    obtain ⟨T₂, e2⟩ := arriving_finally (h7 hcalm).2
    have e := h6 (max (max T₁ T₂) c.serialPort.now) (by omega)
    rw [stream_eq (by omega), stream_eq (by omega), e1 _ (by omega), e2 _ (by omega), hall] at e
    have := congrArg List.length e
    rw [List.length_append] at this
    exact List.eq_nil_of_length_eq_zero (by omega)
  have hlast : ∀ k, ∃ c', callTimes (Client.scanNext (ε := ReadError)) (motors.length + k) b =
      (c', .ok (motors.map (fun m => some (ScanSays m)) ++ List.replicate k none)) ∧ Drained c' ∧ Bus.Like b c' := by
    intro k
    induction k with
    | zero =>
      refine ⟨c, ?_, hdrained, h4⟩
      rw [hlen, Nat.add_zero, h1, List.map_map, List.replicate_zero, List.append_nil]
      rfl
    | succ k ih =>
      obtain ⟨c', i1, i2, i3⟩ := ih
      obtain ⟨c'', j1, j2, j3⟩ := drained_none i2 (by rw [i3.baudRate]; exact hb) (by rw [i3.baudRate]; exact h0)
        (by rw [i3.readSize]; exact hN)
      refine ⟨c'', ?_, j2, i3.trans j3⟩
      rw [← Nat.add_assoc, callTimes_snoc _ i1 j1, List.append_assoc, List.replicate_succ']
  obtain ⟨c', h, -, -⟩ := hlast k
  exact ⟨c', h⟩

/-! ## The hypothesis about time -/

theorem arriving_mono {T T' : Nat} (h : T ≤ T') : ∀ rx : List RxEvent, arriving T rx <+: arriving T' rx := by
  intro rx
  induction rx with
  | nil => exact List.prefix_refl _
  | cons e rest ih =>
    cases e with
    | data t bs =>
      unfold arriving
      by_cases ht : t ≤ T
      · rw [if_pos ht, if_pos (by omega)]
        exact (List.prefix_append_right_inj _).mpr ih
      · rw [if_neg ht]
        exact List.nil_prefix
    | fail t e => exact List.nil_prefix

theorem stream_mono {T T' : Nat} {b : Bus} (h : b.serialPort.now ≤ T) (h' : T ≤ T') : stream T b <+: stream T' b := by
  rw [stream_eq h, stream_eq (by omega)]
  exact (List.prefix_append_right_inj _).mpr (arriving_mono h' _)

/-- Replies that have already arrived are in time. -/
theorem onTime_of_arrived {b : Bus} : ∀ (pieces : List (Nat × List Byte)) (seen : List Byte),
    seen ++ pieces.flatMap (·.2) <+: stream b.serialPort.now b → OnTime b seen pieces := by
  intro pieces
  induction pieces with
  | nil => intro _ _; trivial
  | cons a rest ih =>
    obtain ⟨wait, piece⟩ := a
    intro seen h
    rw [List.flatMap_cons, ← List.append_assoc] at h
    refine ⟨fun T hT _ => ?_, ih _ h⟩
    exact ((List.prefix_append _ _).trans h).trans (stream_mono (Nat.le_refl _) (by omega))

/-- Times, limits and bytes: each piece arrives at most the limit after the previous one. -/
def Spaced : Nat → List (Nat × Nat × List Byte) → Prop
  | _, [] => True
  | prev, (t, wait, bytes) :: rest => prev ≤ t ∧ t ≤ prev + wait ∧ bytes ≠ [] ∧ Spaced t rest

theorem arriving_all {T : Nat} (rest : List RxEvent) : ∀ (l : List (Nat × List Byte)), (∀ c ∈ l, c.1 ≤ T) →
    arriving T (l.map (fun c => .data c.1 c.2) ++ rest) = l.flatMap (·.2) ++ arriving T rest := by
  intro l
  induction l with
  | nil => intro _; rfl
  | cons c l ih =>
    intro h
    rw [List.map_cons, List.cons_append, arriving, if_pos (h c (List.mem_cons_self ..)),
      ih fun c hc => h c (List.mem_cons_of_mem _ hc)]
    simp

theorem arriving_late {T t : Nat} {bs : List Byte} (rest : List RxEvent) (ht : T < t) : ∀ (l : List (Nat × List Byte)),
    (arriving T (l.map (fun c => .data c.1 c.2) ++ .data t bs :: rest)).length ≤ (l.flatMap (·.2)).length := by
  intro l
  induction l with
  | nil => rw [List.map_nil, List.nil_append, arriving, if_neg (by omega)]; simp
  | cons c l ih =>
    rw [List.map_cons, List.cons_append, arriving]
    split
    · simp only [List.length_append, List.flatMap_cons]
      omega
    · simp

/-- Pieces that arrive at these times are in time. -/
theorem onTime_of_spaced {b : Bus} (hp : b.pending = []) (chunks : List (Nat × Nat × List Byte)) (rest : List RxEvent)
    (hrx : b.serialPort.rx = chunks.map (fun c => .data c.1 c.2.2) ++ rest) (hs : Spaced b.serialPort.now chunks) :
    OnTime b [] (chunks.map fun c => c.2) := by
  suffices h : ∀ (chunks : List (Nat × Nat × List Byte)) (done : List (Nat × List Byte)) (prev : Nat),
      b.serialPort.rx = done.map (fun c => .data c.1 c.2) ++ (chunks.map (fun c => .data c.1 c.2.2) ++ rest) →
      (∀ c ∈ done, c.1 ≤ prev) → Spaced prev chunks →
      ((done = [] ∧ prev = b.serialPort.now) ∨ ∃ init bs, done = init ++ [(prev, bs)] ∧ bs ≠ []) →
      OnTime b (done.flatMap (·.2)) (chunks.map fun c => c.2) from
    h chunks [] _ hrx (by simp) hs (.inl ⟨rfl, rfl⟩)
  intro chunks
  induction chunks with
  | nil => intros; trivial
  | cons c chunks ih =>
    obtain ⟨t, wait, bytes⟩ := c
    intro done prev hrx hdone hs hlast
    obtain ⟨s1, s2, s3, s4⟩ := hs
    refine ⟨fun T hT hseen => ?_, ?_⟩
    · have hprev : prev ≤ T := by
        rcases hlast with ⟨-, rfl⟩ | ⟨init, bs, rfl, hbs⟩
        · exact hT
        · apply Nat.le_of_not_lt
          intro hlt
          have h1 := hseen.length_le
          rw [stream_eq hT, hp, hrx, List.nil_append, List.map_append, List.append_assoc, List.map_singleton,
            List.singleton_append] at h1
          have h2 := arriving_late (bs := bs) ((((t, wait, bytes) :: chunks).map (fun c => RxEvent.data c.1 c.2.2)) ++ rest) hlt init
          have h3 := List.length_pos_iff.mpr hbs
          simp only [List.flatMap_append, List.flatMap_cons, List.flatMap_nil, List.append_nil, List.length_append] at h1
          omega
      rw [stream_eq (by omega), hp, hrx, List.nil_append, arriving_all _ _ (fun c hc => by have := hdone c hc; omega),
        List.map_cons, List.cons_append]
      refine (List.prefix_append_right_inj _).mpr ?_
      rw [arriving, if_pos (by omega)]
      exact List.prefix_append _ _
    · have := ih (done ++ [(t, bytes)]) t (by rw [hrx]; simp) (by
        intro c hc
        rcases List.mem_append.mp hc with hc | hc
        · have := hdone c hc; omega
        · simp at hc; rw [hc]; exact Nat.le_refl _) s4 (.inr ⟨done, bytes, rfl, s3⟩)
      rw [List.flatMap_append] at this
      simpa using this

/-! ## Concrete cases -/

deriving instance DecidableEq for Except

def replyOne : Reply := ⟨sampleGarbage, 1#8, [0x55#8, 0x00#8, 0x11#8, 0x22#8], 0x00#8, [0x11#8, 0x22#8]⟩
def replyTwo : Reply := ⟨[], 2#8, [0x55#8, 0x80#8, 0x33#8, 0x44#8], 0x80#8, [0x33#8, 0x44#8]⟩

/-- Replies of two motors, the first after some garbage, the second (with an alert) 33 ms later. -/
def twoReplies : Bus := busWithChunks [(3000000, replyOne.bytes), (36000000, replyTwo.bytes)]

theorem replyOne_ok : replyOne.Ok 20 where
  garbage := by decide
  length := by decide
  fits := by decide
  body := by rw [unstuffs_iff]; decide +kernel

theorem replyTwo_ok : replyTwo.Ok 20 where
  garbage := by decide
  length := by decide
  fits := by decide
  body := by rw [unstuffs_iff]; decide +kernel

/-- The hypotheses about time hold for them. -/
theorem twoReplies_onTime : OnTime twoReplies [] [(responseWait 57600 2, replyOne.bytes), (responseWait 57600 2, replyTwo.bytes)] := by
  have := onTime_of_spaced (b := twoReplies) (by decide)
    [(3000000, responseWait 57600 2, replyOne.bytes), (36000000, responseWait 57600 2, replyTwo.bytes)] [] rfl (by
      refine ⟨?_, ?_, ?_, ?_, ?_, ?_, trivial⟩ <;> decide +kernel)
  exact this

/-- C39: both items, in order, and then `None`. -/
example : (callTimes (SyncIter.nextBytes (ε := ReadError)) 3 ⟨twoReplies, 2#16, [1#8, 2#8], 0⟩).2 =
    .ok [some (.ok ⟨1#8, false, [0x11#8, 0x22#8]⟩), some (.ok ⟨2#8, true, [0x33#8, 0x44#8]⟩), none] := by
  decide +kernel

/-- C39: the replies come from other motors than asked, or not at all. -/
example : (callTimes (SyncIter.nextBytes (ε := ReadError)) 4 ⟨twoReplies, 2#16, [2#8, 2#8, 3#8], 0⟩).2 =
    .ok [some (.error (.invalidMessage (.packetId 1#8 2#8))), some (.ok ⟨2#8, true, [0x33#8, 0x44#8]⟩),
      some (.error (.io .timedOut)), none] := by
  decide +kernel

/-- C39 as a typed read; the theorem applies to this case. -/
example : ∃ s', ∃ xs : List (Except ReadError (Response (BitVec 16))),
    callTimes (SyncIter.next (DataTy.unsigned 2) (ε := ReadError)) 2 ⟨twoReplies, 2#16, [1#8, 2#8], 0⟩ =
      (s', .ok (xs.map some)) ∧ syncRequests s' 2 = [] ∧ xs.length = 2 := by
  obtain ⟨s', xs, h1, h2, h3, -, -⟩ := c39_data_delivered (d := DataTy.unsigned 2) (.unsigned (by decide) _ fun v => littleEndian_iff.mpr rfl)
    [((1#8, 2), replyOne), ((2#8, 2), replyTwo)] [] (s := ⟨twoReplies, 2#16, [1#8, 2#8], 0⟩) (by decide)
    (by constructor <;> simp [twoReplies, busWithChunks, quietBus]) (by decide) (by decide)
    (by
      intro r hr
      rcases List.mem_cons.mp hr with rfl | hr
      · exact replyOne_ok
      · rcases List.mem_cons.mp hr with rfl | hr
        · exact replyTwo_ok
        · simp at hr)
    twoReplies_onTime
  refine ⟨s', xs, h1, h2, ?_⟩
  cases h3 with
  | cons _ h => cases h with
    | cons _ h => cases h; rfl

/-- C41: different numbers of bytes. -/
example : (callTimes (BulkIter.next (ε := ReadError)) 3 ⟨twoReplies, [⟨1#8, 7#16, 2#16⟩, ⟨2#8, 9#16, 5#16⟩], 0⟩).2 =
    .ok [some (.ok ⟨1#8, false, [0x11#8, 0x22#8]⟩), some (.error (.invalidMessage (.parameterCount 2 (.exact 5)))), none] := by
  decide +kernel

/-- C40: after one item, dropping takes the other reply too. -/
example : (SyncIter.dropBytes (ε := ReadError) 2 (SyncIter.nextBytes (ε := ReadError) ⟨twoReplies, 2#16, [1#8, 2#8], 0⟩).1).2 = .ok () ∧
    wholeStream (SyncIter.dropBytes (ε := ReadError) 2
      (SyncIter.nextBytes (ε := ReadError) ⟨twoReplies, 2#16, [1#8, 2#8], 0⟩).1).1.client = [] := by
  decide +kernel

/-- C42: two motors and a broken packet between their replies. -/
example : (callTimes (Client.scanNext (ε := ReadError)) 4 (busWithChunks [(3000000, frame 1#8 [0x55#8, 0x00#8, 0x06#8, 0x04#8, 0x26#8]),
      (4000000, (frame 1#8 [0x55#8, 0x00#8, 0x06#8, 0x04#8, 0x26#8]).set 9 0x07#8),
      (90000000, frame 7#8 [0x55#8, 0x80#8, 0x24#8, 0x04#8, 0x2D#8])])).2 =
    .ok [some (.ok ⟨1#8, false, ⟨0x0406#16, 0x26#8⟩⟩), some (.error (.invalidMessage (.checksum 0x5D65#16 0xDD72#16))),
      some (.ok ⟨7#8, true, ⟨0x0424#16, 0x2D#8⟩⟩), none] := by
  decide +kernel

/-! ## Each theorem with hypotheses on a concrete case -/

theorem twoReplies_rInv : twoReplies.RInv := by constructor <;> simp [twoReplies, busWithChunks, quietBus]

theorem twoReplies_ok : ∀ r ∈ [((1#8, 2), replyOne), ((2#8, 2), replyTwo)], r.2.Ok twoReplies.readBuffer.length := by
  intro r hr
  rcases List.mem_cons.mp hr with rfl | hr
  · exact replyOne_ok
  · rcases List.mem_cons.mp hr with rfl | hr
    · exact replyTwo_ok
    · simp at hr

example := c39_bytes_partial 3 (s := ⟨twoReplies, 2#16, [9#8, 1#8, 2#8], 1⟩) (Nat.le_of_ble_eq_true rfl) twoReplies_rInv (by decide)

example := c39_data_partial (implUnsigned (n := 2) (by decide)) 3 (s := ⟨twoReplies, 2#16, [9#8, 1#8, 2#8], 1⟩) (Nat.le_of_ble_eq_true rfl)
  twoReplies_rInv (by decide)

example := c39_bytes_delivered [((1#8, 2), replyOne), ((2#8, 2), replyTwo)] [(3#8, 2)] (s := ⟨twoReplies, 2#16, [1#8, 2#8, 3#8], 0⟩)
  (by decide) twoReplies_rInv (by decide) (by decide) twoReplies_ok twoReplies_onTime

example := c41_bytes_partial 3 (s := ⟨twoReplies, [⟨1#8, 7#16, 2#16⟩, ⟨2#8, 9#16, 5#16⟩], 0⟩) (Nat.le_of_ble_eq_true rfl) twoReplies_rInv (by decide)

example := c41_bytes_delivered [((1#8, 2), replyOne), ((2#8, 2), replyTwo)] []
  (s := ⟨twoReplies, [⟨1#8, 7#16, 2#16⟩, ⟨2#8, 9#16, 2#16⟩], 0⟩)
  (by decide) twoReplies_rInv (by decide) (by decide) twoReplies_ok twoReplies_onTime

example := c40_sync_bytes_partial (fuel := 3) (s := ⟨twoReplies, 2#16, [1#8, 2#8], 0⟩) (by decide) twoReplies_rInv (by decide)

example := c40_sync_data_partial (implSigned (n := 2) (by decide)) (fuel := 3) (s := ⟨twoReplies, 2#16, [1#8, 2#8], 0⟩) (by decide)
  twoReplies_rInv (by decide)

example := c40_bulk_partial (s := ⟨twoReplies, [⟨1#8, 7#16, 2#16⟩, ⟨2#8, 9#16, 5#16⟩], 1⟩) (Nat.le_of_ble_eq_true rfl) twoReplies_rInv (by decide)

example := c40_sync_bytes_discards [((1#8, 2), replyOne), ((2#8, 2), replyTwo)] (fuel := 3) (s := ⟨twoReplies, 2#16, [1#8, 2#8], 0⟩)
  (by decide) (by decide) twoReplies_rInv (by decide) (by decide) twoReplies_ok twoReplies_onTime

example := c40_scan_partial twoReplies_rInv (by decide) (by decide) (fun e h => by cases h) (fuel := 1000) (by decide +kernel)

example := c40_scan_hangs (b := unpluggedBus) (by constructor <;> simp [unpluggedBus, quietBus]) (by decide) (by decide)
  (.inr ⟨by decide, by decide +kernel, rfl, .other 5, by decide, rfl⟩) 1000

example := c42_none_iff twoReplies_rInv (by decide)

/-- The answers of two motors to a broadcast ping. -/
def pingReplies : List Reply :=
  [⟨sampleGarbage, 1#8, [0x55#8, 0x00#8, 0x06#8, 0x04#8, 0x26#8], 0x00#8, [0x06#8, 0x04#8, 0x26#8]⟩,
    ⟨[], 7#8, [0x55#8, 0x80#8, 0x24#8, 0x04#8, 0x2D#8], 0x80#8, [0x24#8, 0x04#8, 0x2D#8]⟩]

def pingedBus : Bus := busWithChunks ((pingReplies.zip [3000000, 30000000]).map fun r => (r.2, r.1.bytes))

theorem pingReplies_ok : ∀ r ∈ pingReplies, r.Ok 20 := by
  intro r hr
  simp only [pingReplies, List.mem_cons, List.not_mem_nil, or_false] at hr
  rcases hr with rfl | rfl
  · exact ⟨by decide, by decide, by decide, (unstuffs_iff _ _).2 (by decide +kernel)⟩
  · exact ⟨by decide, by decide, by decide, (unstuffs_iff _ _).2 (by decide +kernel)⟩

theorem pingedBus_onTime : OnTime pingedBus [] (pingReplies.map fun r => (scanWait 57600, r.bytes)) := by
  have := onTime_of_spaced (b := pingedBus) (by decide)
    ((pingReplies.zip [3000000, 30000000]).map fun r => (r.2, scanWait 57600, r.1.bytes)) [] rfl (by
      refine ⟨?_, ?_, ?_, ?_, ?_, ?_, trivial⟩ <;> decide +kernel)
  exact this

example := c42_scan_delivered pingReplies (b := pingedBus) (by constructor <;> simp [pingedBus, busWithChunks, quietBus]) (by decide)
  (by decide) pingReplies_ok pingedBus_onTime

end Dxl.Props
