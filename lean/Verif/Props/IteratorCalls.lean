import Verif.Props.Calls
import Verif.Props.Iterators

/-! # C65: what every step of an iterator over responses does

`next` of the iterators over the responses to a sync read, a bulk read and a scan, for every state of the bus, every behaviour of the
serial port and everything that arrives. -/

namespace Dxl.Props
open Spec

/-- What a call of `next` comes to, if `count` parameters from the motor `want` are awaited until `D`. -/
def Steps {σ ε α : Type} (next : SO σ ε (Option (Except ReadError (Response α)))) (client : σ → Bus) (s : σ) (D : Nat)
    (want : Option Byte) (count : Nat) (Value : α → List Byte → Prop)
    (item : Except ReadError (Response α) → Option (Except ReadError (Response α))) : Prop :=
  ∃ s' v left, Verdict (client s).readBuffer.length (stream D (client s)) (readEnd D (client s).serialPort) v left ∧
    match v with
    | .ok (rid, e, ps) => ∃ x, next s = (s', .ok (item x)) ∧ Judged want count Value rid e ps x ∧ stream D (client s') = left ∧
        Waited (client s) (client s') D
    | .err r => next s = (s', .ok (item (.error r))) ∧ Leaves D (client s') v left ∧ Waited (client s) (client s') D
    | .panic => next s = (s', .panic)
    | .hang => False

theorem drop_of_getElem? {β : Type} {l : List β} {i : Nat} {x : β} (h : l[i]? = some x) : l.drop i = x :: l.drop (i + 1) := by
  obtain ⟨hi, rfl⟩ := List.getElem?_eq_some_iff.mp h
  exact List.drop_eq_getElem_cons hi

/-- An iterator over a list of requests. -/
theorem iterator_next {σ ε α : Type} {next : SO σ ε (Option (Except ReadError (Response α)))} {client : σ → Bus}
    {todo : σ → List (Byte × Nat)} {Value : α → List Byte → Prop} (h : IsIterator next client todo Value) {s : σ} {id : Byte}
    {count : Nat} {rest : List (Byte × Nat)} (ht : todo s = (id, count) :: rest) (hr : (client s).RInv)
    (hb : (client s).baudRate < 2 ^ 32) (h0 : (client s).baudRate ≠ 0) :
    Steps next client s ((client s).serialPort.now + responseWait (client s).baudRate count) (some id) count Value some := by
  rcases h.step s id count rest ht hr hb with ⟨h1, s', h2⟩ | ⟨-, s', x, h2, -, h3⟩
  · obtain ⟨left, hv⟩ := (verdict_panic_iff _ _ _).mpr (h1.resolve_left h0)
    exact ⟨s', .panic, left, hv, h2⟩
  · obtain ⟨v, left, k1, k2, k3⟩ := h3.decided
    refine ⟨s', v, left, k1, ?_⟩
    cases v with
    | ok y => exact ⟨x, h2, k3, k2, h3.toWaited⟩
    | err r => dsimp only at k3; subst k3; exact ⟨h2, k2, h3.toWaited⟩
    | panic => exact k3.elim
    | hang => exact k3.elim

/-- **C65** Every outcome of `next` of `SyncReadBytes`. -/
theorem c65_sync_bytes (ε : Type) {s : SyncIter} {id : Byte} (hi : s.motorIds[s.index]? = some id) (hr : s.client.RInv)
    (hb : s.client.baudRate < 2 ^ 32) :
    (s.client.baudRate = 0 → ∃ s', SyncIter.nextBytes (ε := ε) s = (s', .panic)) ∧
    (s.client.baudRate ≠ 0 → Steps (SyncIter.nextBytes (ε := ε)) SyncIter.client s
      (s.client.serialPort.now + responseWait s.client.baudRate s.count.toNat) (some id) s.count.toNat IsBytes some) := by
  have ht : syncTodo s = (id, s.count.toNat) :: (s.motorIds.drop (s.index + 1)).map fun id => (id, s.count.toNat) := by
    unfold syncTodo
    rw [drop_of_getElem? hi]
    rfl
  refine ⟨fun h0 => ?_, fun h0 => iterator_next (syncBytes_iterator ε) ht hr hb h0⟩
  rcases (syncBytes_iterator ε).step s _ _ _ ht hr hb with ⟨-, h⟩ | ⟨h1, -⟩
  · exact h
  · exact absurd (.inl h0) h1

/-- **C65** Every outcome of `next` of `SyncRead`. -/
theorem c65_sync_data {α : Type} {d : DataTy α} {valid : α → Prop} {f : α → List Byte} (hd : ImplData d valid f) (ε : Type)
    {s : SyncIter} {id : Byte} (hi : s.motorIds[s.index]? = some id) (hr : s.client.RInv) (hb : s.client.baudRate < 2 ^ 32) :
    (s.client.baudRate = 0 → ∃ s', SyncIter.next d (ε := ε) s = (s', .panic)) ∧
    (s.client.baudRate ≠ 0 → Steps (SyncIter.next d (ε := ε)) SyncIter.client s
      (s.client.serialPort.now + responseWait s.client.baudRate d.size.toNat) (some id) d.size.toNat (IsEncoded valid f) some) := by
  have ht : (s.motorIds.drop s.index).map (fun id => (id, d.size.toNat)) =
      (id, d.size.toNat) :: (s.motorIds.drop (s.index + 1)).map fun id => (id, d.size.toNat) := by
    rw [drop_of_getElem? hi]
    rfl
  refine ⟨fun h0 => ?_, fun h0 => iterator_next (syncData_iterator hd ε) ht hr hb h0⟩
  rcases (syncData_iterator hd ε).step s _ _ _ ht hr hb with ⟨-, h⟩ | ⟨h1, -⟩
  · exact h
  · exact absurd (.inl h0) h1

/-- **C65** Every outcome of `next` of `BulkReadBytes`. -/
theorem c65_bulk (ε : Type) {s : BulkIter} {r : BulkReadData} (hi : s.reads[s.index]? = some r) (hr : s.client.RInv)
    (hb : s.client.baudRate < 2 ^ 32) :
    (s.client.baudRate = 0 → ∃ s', BulkIter.next (ε := ε) s = (s', .panic)) ∧
    (s.client.baudRate ≠ 0 → Steps (BulkIter.next (ε := ε)) BulkIter.client s
      (s.client.serialPort.now + responseWait s.client.baudRate r.count.toNat) (some r.motorId) r.count.toNat IsBytes some) := by
  have ht : bulkTodo s = (r.motorId, r.count.toNat) ::
      (s.reads.drop (s.index + 1)).map fun r => (r.motorId, r.count.toNat) := by
    unfold bulkTodo
    rw [drop_of_getElem? hi]
    rfl
  refine ⟨fun h0 => ?_, fun h0 => iterator_next (bulk_iterator ε) ht hr hb h0⟩
  rcases (bulk_iterator ε).step s _ _ _ ht hr hb with ⟨-, h⟩ | ⟨h1, -⟩
  · exact h
  · exact absurd (.inl h0) h1

/-- **C65** After the last response `next` returns `None` at once. -/
theorem c65_finished (ε : Type) {α : Type} (d : DataTy α) :
    (∀ s : SyncIter, s.motorIds.length ≤ s.index → SyncIter.nextBytes (ε := ε) s = (s, .ok none)) ∧
    (∀ s : SyncIter, s.motorIds.length ≤ s.index → SyncIter.next d (ε := ε) s = (s, .ok none)) ∧
    (∀ s : BulkIter, s.reads.length ≤ s.index → BulkIter.next (ε := ε) s = (s, .ok none)) := by
  refine ⟨fun s h => (syncBytes_iterator ε).finished s ?_, fun s h => ?_, fun s h => (bulk_iterator ε).finished s ?_⟩
  · unfold syncTodo; rw [List.drop_eq_nil_of_le h]; rfl
  · unfold SyncIter.next
    rw [SO.bind_ok (pop_finished (by unfold syncTodo; rw [List.drop_eq_nil_of_le h]; rfl) ε)]
    rfl
  · unfold bulkTodo; rw [List.drop_eq_nil_of_le h]; rfl

/-- What a scan makes of the result of waiting: it ends with a timeout. -/
def endsScan (x : Except ReadError (Response Client.Ping)) : Option (Except ReadError (Response Client.Ping)) :=
  match x with
  | .error (.io .timedOut) => none
  | .error e => some (.error e)
  | .ok r => some (.ok r)

/-- **C65** Every outcome of `next` of `Scan`: each answer is awaited for the time of 253 answers and 34 ms. -/
theorem c65_scan (ε : Type) {b : Bus} (hr : b.RInv) (hb : b.baudRate < 2 ^ 32) :
    (b.baudRate = 0 → Client.scanNext (ε := ε) b = (b, .panic)) ∧
    (b.baudRate ≠ 0 → Steps (Client.scanNext (ε := ε)) id b (b.serialPort.now + scanWait b.baudRate) none 3 IsPing
      endsScan) := by
  refine ⟨fun h0 => ?_, fun h0 => ?_⟩
  · unfold Client.scanNext
    rw [SO.bind_panic (attempt_panic (scanNextResponse_zero h0))]
  · obtain ⟨c, ⟨h1, h2⟩ | ⟨-, x, h2, h3⟩⟩ := scanNext_turn (ε := ε) hr h0 hb
    · obtain ⟨left, hv⟩ := (verdict_panic_iff _ _ _).mpr h1
      exact ⟨c, .panic, left, hv, h2⟩
    · obtain ⟨v, left, k1, k2, k3⟩ := h3.decided
      have hx : scanItem x = endsScan x := by
        unfold scanItem endsScan
        rcases x with (e | _)
        · cases e with
          | io e => cases e <;> rfl
          | _ => rfl
        · rfl
      rw [hx] at h2
      refine ⟨c, v, left, k1, ?_⟩
      cases v with
      | ok y => exact ⟨x, h2, k3, k2, h3.toWaited⟩
      | err r => dsimp only at k3; subst k3; exact ⟨h2, k2, h3.toWaited⟩
      | panic => exact k3.elim
      | hang => exact k3.elim

/-! ## Cases -/

/-- Motors 1, 2 and 3 are asked for a byte; motor 9 answers first, motor 2 with an error, motor 3 with too much. -/
def threeAsked : SyncIter where
  client := busWithChunks [(5, frame 9#8 [0x55#8, 0x00#8, 0x2A#8]), (6, frame 2#8 [0x55#8, 0x04#8]),
    (7, frame 3#8 [0x55#8, 0x80#8, 0x2A#8, 0x2B#8])]
  count := 1#16
  motorIds := [1#8, 2#8, 3#8]
  index := 0

example : (callTimes (SyncIter.nextBytes (ε := ReadError)) 4 threeAsked).2 =
    .ok [some (.error (.invalidMessage (.packetId 9#8 1#8))), some (.error (.motorError ⟨0x04#8⟩)),
      some (.error (.invalidMessage (.parameterCount 2 (.exact 1)))), none] := by decide +kernel

/-- The echo of a ping, and a malformed answer. -/
example : (SyncIter.nextBytes (ε := ReadError) { threeAsked with client := busWithChunks [(5, frame 1#8 [0x01#8])] }).2 =
      .ok (some (.error (.invalidMessage (.instruction 0x01#8 0x55#8)))) ∧
    (SyncIter.nextBytes (ε := ReadError) { threeAsked with client := busWithChunks [(5, frame 1#8 [0x55#8])] }).2 = .panic := by
  refine ⟨?_, ?_⟩ <;> decide +kernel

/-- A motor answers a scan with an error; then comes garbage, and the scan ends. -/
example : (callTimes (Client.scanNext (ε := ReadError)) 2
      (busWithChunks [(5, frame 7#8 [0x55#8, 0x01#8, 0x06#8, 0x04#8, 0x26#8]), (9, [0xFF#8, 0x00#8])])).2 =
    .ok [some (.error (.motorError ⟨0x01#8⟩)), none] := by decide +kernel

/-! Each theorem with hypotheses on a concrete case. -/

example := c65_sync_bytes Unit (s := threeAsked) rfl (by constructor <;> simp [threeAsked, busWithChunks, quietBus]) (by decide)

example := c65_sync_data (implSigned (n := 1) (by decide)) Unit (s := { threeAsked with index := 2 }) rfl
  (by constructor <;> simp [threeAsked, busWithChunks, quietBus]) (by decide)

example := c65_bulk Unit (s := ⟨twoReplies, [⟨1#8, 7#16, 2#16⟩, ⟨2#8, 9#16, 5#16⟩], 1⟩) rfl twoReplies_rInv (by decide)

example := (c65_finished Unit (DataTy.unsigned 2)).1 { threeAsked with index := 3 } (by decide)

end Dxl.Props
