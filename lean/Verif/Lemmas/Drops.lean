import Verif.Lemmas.Iter

/-! # Dropping iterators, and scanning -/

namespace Dxl

namespace Port

/-- A property of the port that reads preserve. -/
def Kept (P : Port → Prop) : Prop := ∀ {cap D p p' o}, Port.read cap D p = (p', o) → P p → P p'

theorem Reads.kept {P : Port → Prop} (hP : Kept P) {D : Nat} {p p' : Port} {bs : List Byte} (h : Reads D p bs p') : P p → P p' := by
  induction h with
  | nil => exact id
  | step _ h1 _ ih =>
    exact fun hp => ih (hP h1 hp)

theorem kept_tail (t : Tail) : Kept fun p => p.tail = t := by
  intro cap D p p' o h hp
  unfold Port.read at h
  dsimp only at h
  repeat' split at h
  all_goals (cases h; exact hp)

/-- Only bytes will arrive, no errors, and then nothing. -/
def Calm (p : Port) : Prop := p.tail = .silent ∧ ∀ e ∈ p.rx, ∃ t bs, e = .data t bs

theorem kept_calm : Kept Calm := by
  intro cap D p p' o h hp
  refine ⟨kept_tail .silent h hp.1, ?_⟩
  have h2 := hp.2
  unfold Port.read at h
  dsimp only at h
  split at h
  · cases h; exact h2
  · split at h
    · split at h <;> (cases h; exact h2)
    · rename_i t bs rest heq
      split at h
      · split at h
        · cases h
          intro e he
          exact h2 e (by rw [heq]; exact List.mem_cons_of_mem _ he)
        · cases h
          intro e he
          rcases List.mem_cons.mp he with rfl | he
          · exact ⟨_, _, rfl⟩
          · exact h2 e (by rw [heq]; exact List.mem_cons_of_mem _ he)
      · cases h; exact h2
    · rename_i t e rest heq
      obtain ⟨_, _, h⟩ := h2 (.fail t e) (by rw [heq]; exact List.mem_cons_self ..)
      simp at h

theorem calm_obstacle (D : Nat) : ∀ rx : List RxEvent, (∀ e ∈ rx, ∃ t bs, e = .data t bs) → Spec.obstacle D rx .silent = .timedOut := by
  intro rx
  induction rx with
  | nil => intro _; rfl
  | cons e rest ih =>
    intro h
    obtain ⟨t, bs, rfl⟩ := h e (List.mem_cons_self ..)
    unfold Spec.obstacle
    split
    · exact ih fun e he => h e (List.mem_cons_of_mem _ he)
    · rfl

theorem calm_readEnd {p : Port} (h : Calm p) (D : Nat) : Spec.readEnd D p = .timedOut := by
  unfold Spec.readEnd
  split
  · rfl
  · rw [h.1]; exact calm_obstacle D _ h.2

theorem arriving_prefix (D : Nat) : ∀ rx : List RxEvent, Spec.arriving D rx <+: Spec.allBytes rx := by
  intro rx
  induction rx with
  | nil => exact List.prefix_refl _
  | cons e rest ih =>
    cases e with
    | data t bs =>
      unfold Spec.arriving Spec.allBytes
      split
      · exact (List.prefix_append_right_inj _).mpr ih
      · exact List.nil_prefix
    | fail t e => exact List.nil_prefix

theorem read_total {cap D : Nat} {p p' : Port} {bs : List Byte} (h : Port.read cap D p = (p', .ok bs)) :
    bs.length + p'.measure ≤ p.measure := by
  simp only [Port.read] at h
  split at h
  · simp at h
  · split at h
    · split at h <;> simp at h
    · rename_i hrx
      split at h
      · split at h
        · simp only [Prod.mk.injEq, Outcome.ok.injEq] at h
          rw [← h.1, ← h.2]
          simp only [measure, hrx, List.map_cons, List.sum_cons]
          omega
        · simp only [Prod.mk.injEq, Outcome.ok.injEq] at h
          rw [← h.1, ← h.2]
          simp only [measure, hrx, List.map_cons, List.sum_cons, List.length_take, List.length_drop]
          omega
      · simp at h
    · split at h <;> simp at h

theorem Reads.total {D : Nat} {p p' : Port} {bs : List Byte} (h : Reads D p bs p') : bs.length + p'.measure ≤ p.measure := by
  induction h with
  | nil => simp
  | step _ h1 _ ih =>
    have := read_total h1
    rw [List.length_append]
    omega

/-- A read that fails with anything but a time-out takes something from the script, or will always fail. -/
theorem read_err_measure {cap D : Nat} {p p' : Port} {e : IoErr} (h : Port.read cap D p = (p', .err e)) (he : e ≠ .timedOut)
    (ht : p.tail ≠ .broken e) : p'.measure < p.measure := by
  unfold Port.read at h
  dsimp only at h
  repeat' split at h
  all_goals (simp only [Prod.mk.injEq, Outcome.err.injEq, reduceCtorEq, and_false] at h)
  · exact absurd h.2.symm he
  · exact absurd h.2.symm he
  · rename_i heq
    exact absurd (by rw [heq, h.2]) ht
  · exact absurd h.2.symm he
  · obtain ⟨rfl, -⟩ := h
    rename_i heq _
    simp only [measure, heq, List.map_cons, List.sum_cons]
    omega
  · exact absurd h.2.symm he

end Port

namespace Bus

/-- Work left to do for a reader: pending bytes, and the script of the port. -/
def work (b : Bus) : Nat := b.pending.length + b.serialPort.measure

theorem read_kept {P : Port → Prop} (hP : Port.Kept P) {b : Bus} (D : Nat) (hb : b.RInv) (h : P b.serialPort) :
    P (readPacketDeadline D b).1.serialPort := by
  by_cases hN : 10 ≤ b.readBuffer.length
  · have := readPacketDeadline_result D hb hN
    rcases hr : readPacketDeadline D b with ⟨c, o⟩
    rw [hr] at this
    cases this with
    | packet h1 _ h3 => dsimp only; rw [h3.port]; exact h1.kept hP h
    | tooBig h1 _ h3 => dsimp only; rw [h3.port]; exact h1.kept hP h
    | ended h1 _ _ h4 h5 =>
      dsimp only
      rw [h5.port]
      exact hP h4 (h1.kept hP h)
  · rw [readPacketDeadline_small D (by omega)]; exact h

/-- Each read takes something, unless it times out or the port is broken. -/
theorem read_work {b : Bus} (D : Nat) (hb : b.RInv) (hN : 10 ≤ b.readBuffer.length)
    (ht : ∀ e, b.serialPort.tail = .broken e → e = .timedOut) (hn : (readPacketDeadline D b).2 ≠ .err (.io .timedOut)) :
    (readPacketDeadline D b).1.work < b.work := by
  have hres := readPacketDeadline_result D hb hN
  rcases hr : readPacketDeadline D b with ⟨c, o⟩
  rw [hr] at hres hn
  unfold work
  cases hres with
  | packet h1 h2 h3 =>
    have hp := parse_packet h2
    have ht := h1.total
    have hl := parse_length h2
    dsimp only
    rw [h3.pending, h3.port]
    simp only [List.length_append] at hl
    have := hp.2.2.1
    omega
  | tooBig h1 h2 h3 =>
    have ht := h1.total
    have hp := parse_tooBig h2
    dsimp only
    rw [h3.pending, h3.port]
    have hl : ∀ {cap req : Nat} {s rest : List Byte}, Spec.parse cap s = .tooBig req rest → rest.length < s.length := by
      intro cap req s rest h
      unfold Spec.parse at h
      have hs := (skip_suffix s).length_le
      repeat' split at h
      all_goals cases h
      rw [List.length_drop]
      omega
    have := hl h2
    simp only [List.length_append] at this
    omega
  | ended h1 h2 hc h4 h5 =>
    rename_i bs p p' cap e
    have he : e ≠ .timedOut := fun h => hn (by rw [h])
    have htail : p.tail = b.serialPort.tail := h1.kept (Port.kept_tail _) rfl
    have hm := Port.read_err_measure h4 he (fun h => he (ht e (by rw [← htail]; exact h)))
    have ht := h1.total
    dsimp only
    rw [h5.pending, h5.port]
    have hs := (skip_suffix (b.pending ++ bs)).length_le
    simp only [List.length_append] at hs
    omega

end Bus

namespace Props
open Spec

/-! ## Replies in time -/

/-- Someone collecting replies that come in time gets them, and they are taken out of the stream. -/
theorem Collected.delivers {α : Type} {Value : α → List Byte → Prop} :
    ∀ (rounds more : List Round) {b c : Bus} {xs : List (Except ReadError (Response α))},
      Collected Value b (rounds.map (·.1)) xs c → b.RInv →
      (∀ r ∈ rounds, r.2.Ok b.readBuffer.length) →
      OnTime b [] ((rounds ++ more).map fun r => (responseWait b.baudRate r.1.2, r.2.bytes)) →
      Pairwise₂ (fun (r : Round) x => Judged (some r.1.1) r.1.2 Value r.2.id r.2.error r.2.params x) rounds xs ∧
        c.RInv ∧ Bus.Like b c ∧ b.serialPort.now ≤ c.serialPort.now ∧
        (∀ T, c.serialPort.now ≤ T → stream T b = rounds.flatMap (fun r => r.2.bytes) ++ stream T c) ∧
        OnTime c [] (more.map fun r => (responseWait b.baudRate r.1.2, r.2.bytes)) := by
  intro rounds more
  induction rounds with
  | nil =>
    intro b c xs h hr _ hon
    cases h
    exact ⟨.nil, hr, .refl b, Nat.le_refl _, fun T _ => rfl, hon⟩
  | cons r rest ih =>
    intro b d xs h hr hok hon
    obtain ⟨⟨id, count⟩, reply⟩ := r
    cases h with
    | turn h4 h5 =>
      rename_i c x xs
      have hrep := hok _ (List.mem_cons_self ..)
      obtain ⟨hon1, hon2⟩ := hon
      have hin := hon1 _ (Nat.le_refl _) (by simp)
      rw [List.nil_append] at hin
      obtain ⟨tail, e1, hsf⟩ := reply_first hrep hin
      obtain ⟨hj, hst⟩ := h4.answered _ _ _ _ hsf
      obtain ⟨front, c1, c2⟩ := h4.consumed _ _ _ _ hsf
      have : front = reply.bytes := by
        rw [e1] at c1
        exact (List.append_cancel_right c1).symm
      subst this
      have hlater := OnTime.later h4.now_le c2 _ [] (by rw [List.append_nil]; exact hon2)
      obtain ⟨k1, k2, k3, k4, k5, k6⟩ := ih h5 h4.rinv
        (fun r hr => by rw [h4.like.readSize]; exact hok r (List.mem_cons_of_mem _ hr))
        (by rw [h4.like.baudRate]; exact hlater)
      refine ⟨.cons hj k1, k2, h4.like.trans k3, Nat.le_trans h4.now_le k4, ?_, by rw [← h4.like.baudRate]; exact k6⟩
      intro T hT
      rw [c2 T (by omega), k5 T hT]
      simp

/-- A reply in time means there is no reason to panic. -/
theorem onTime_not_hopeless {b : Bus} {r : Round} {more : List Round} (hr : b.RInv) (h0 : b.baudRate ≠ 0)
    (hok : r.2.Ok b.readBuffer.length)
    (hon : OnTime b [] ((r :: more).map fun r => (responseWait b.baudRate r.1.2, r.2.bytes))) : ¬ Hopeless b r.1.2 := by
  rintro (h | h)
  · exact h0 h
  · obtain ⟨hon1, -⟩ := hon
    have hin := hon1 _ (Nat.le_refl _) (by simp)
    rw [List.nil_append] at hin
    obtain ⟨tail, e1, hsf⟩ := reply_first hok hin
    exact statusFirst_not_deadly hr rfl hsf h

/-! ## Dropping -/

theorem readStatus_turn (id : Byte) {count : U16} {b : Bus} (hb : b.RInv) (hbaud : b.baudRate < 2 ^ 32) :
    ∃ c o, Client.readStatusResponse count b = (c, o) ∧ ((Hopeless b count.toNat ∧ o = .panic) ∨
      (¬ Hopeless b count.toNat ∧ (∃ y, o = ofExcept y) ∧ ∃ x,
        Turn b c (b.serialPort.now + responseWait b.baudRate count.toNat) (some id) count.toNat IsBytes x)) := by
  rcases hr : Client.readStatusResponse count b with ⟨c, o⟩
  refine ⟨c, o, rfl, ?_⟩
  by_cases hh : Hopeless b count.toNat
  · refine .inl ⟨hh, ?_⟩
    by_cases h0 : b.baudRate = 0
    · rw [readStatusResponse_zero h0] at hr
      cases hr
      rfl
    · obtain ⟨ns, hns, heq⟩ := readStatusResponse_eq h0 hbaud count
      have := leastTime_unique hns (leastTime_transferNs _ h0)
      subst this
      rcases hh with hh | hh
      · exact absurd hh h0
      · have := (c18_status_panics_iff_partial (timeout := transferNs (11 + count.toNat) b.baudRate + 34000000) hb).mpr hh
        rw [← heq, hr] at this
        exact this
  · refine .inr ⟨hh, ?_⟩
    obtain ⟨c', h⟩ := respond_turn (judges_bytes id count) hb hbaud
    rcases h with ⟨h, -⟩ | ⟨-, x, h1, h2⟩
    · exact absurd h hh
    · unfold respond at h1
      rw [SO.bind_def, hr] at h1
      cases o with
      | ok a =>
        have hc : c = c' := congrArg Prod.fst h1
        exact ⟨⟨.ok a, rfl⟩, x, by rw [hc]; exact h2⟩
      | err e =>
        have hc : c = c' := congrArg Prod.fst h1
        exact ⟨⟨.error e, rfl⟩, x, by rw [hc]; exact h2⟩
      | panic => cases x <;> simp [ofExcept] at h1
      | hang => cases x <;> simp [ofExcept] at h1

/-- `drop` awaits a response for each of the requests `todo`. -/
structure IsDrop {σ ε : Type} (α : Type) (drop : Nat → SO σ ε Unit) (client : σ → Bus)
    (todo : σ → List (Byte × Nat)) (Value : α → List Byte → Prop) : Prop where
  finished : ∀ fuel s, todo s = [] → drop (fuel + 1) s = (s, .ok ())
  step : ∀ fuel s id count rest, todo s = (id, count) :: rest → (client s).RInv → (client s).baudRate < 2 ^ 32 →
    (Hopeless (client s) count ∧ ∃ s', drop (fuel + 1) s = (s', .panic)) ∨
    (¬ Hopeless (client s) count ∧ ∃ s' x, drop (fuel + 1) s = drop fuel s' ∧ todo s' = rest ∧
      Turn (client s) (client s') ((client s).serialPort.now + responseWait (client s).baudRate count) (some id) count Value x)

section
variable {σ ε α : Type} {drop : Nat → SO σ ε Unit} {client : σ → Bus}
  {todo : σ → List (Byte × Nat)} {Value : α → List Byte → Prop}

theorem IsDrop.drops (h : IsDrop α drop client todo Value) :
    ∀ (fuel : Nat) (s : σ), (todo s).length < fuel → (client s).RInv → (client s).baudRate < 2 ^ 32 →
      (∃ s' xs, drop fuel s = (s', .ok ()) ∧ todo s' = [] ∧ Collected Value (client s) (todo s) xs (client s')) ∨
      (∃ s' c xs done id count rest, drop fuel s = (s', .panic) ∧ todo s = done ++ (id, count) :: rest ∧
        Collected Value (client s) done xs c ∧ Hopeless c count) := by
  intro fuel
  induction fuel with
  | zero => intro s h; omega
  | succ fuel ih =>
    intro s hf hr hb
    match ht : todo s with
    | [] => exact .inl ⟨s, [], h.finished fuel s ht, ht, .done _⟩
    | (id, count) :: rest =>
      rcases h.step fuel s id count rest ht hr hb with ⟨h1, s', h2⟩ | ⟨-, s', x, h2, h3, h4⟩
      · exact .inr ⟨s', client s, [], [], id, count, rest, h2, rfl, .done _, h1⟩
      · rw [h2]
        rw [ht, List.length_cons] at hf
        rcases ih s' (by rw [h3]; omega) h4.rinv (by rw [h4.like.baudRate]; exact hb) with
          ⟨s2, xs, k1, k2, k3⟩ | ⟨s2, c, xs, done, id', count', rest', k1, k2, k4, k5⟩
        · rw [h3] at k3
          exact .inl ⟨s2, x :: xs, k1, k2, .turn h4 k3⟩
        · rw [h3] at k2
          subst k2
          exact .inr ⟨s2, c, x :: xs, (id, count) :: done, id', count', rest', k1, rfl, .turn h4 k4, k5⟩

/-- With all replies in time. -/
theorem IsDrop.discards (h : IsDrop α drop client todo Value) (rounds : List Round) {fuel : Nat} {s : σ}
    (hf : (todo s).length < fuel) (ht : todo s = rounds.map (·.1)) (hr : (client s).RInv) (hb : (client s).baudRate < 2 ^ 32)
    (h0 : (client s).baudRate ≠ 0) (hok : ∀ r ∈ rounds, r.2.Ok (client s).readBuffer.length)
    (hon : OnTime (client s) [] (rounds.map fun r => (responseWait (client s).baudRate r.1.2, r.2.bytes))) :
    ∃ s', drop fuel s = (s', .ok ()) ∧ (client s).serialPort.now ≤ (client s').serialPort.now ∧
      ∀ T, (client s').serialPort.now ≤ T →
        stream T (client s) = rounds.flatMap (fun r => r.2.bytes) ++ stream T (client s') := by
  rcases h.drops fuel s hf hr hb with ⟨s', xs, h1, h2, h3⟩ | ⟨s', c, xs, done, id, count, rest, h1, h2, h3, h4⟩
  · rw [ht] at h3
    obtain ⟨-, -, -, k4, k5, -⟩ := h3.delivers rounds [] hr hok (by simpa using hon)
    exact ⟨s', h1, k4, k5⟩
  · exfalso
    rw [ht] at h2
    obtain ⟨d, r, e1, e2, e3⟩ := List.map_eq_append_iff.mp h2
    obtain ⟨r1, rest', e4, e5, e6⟩ := List.map_eq_cons_iff.mp e3
    subst e1 e2 e4
    have hc := h3.delivers d (r1 :: rest') hr (fun r hr => hok r (by simp [hr])) hon
    obtain ⟨-, k2, k3, -, -, k6⟩ := hc
    rw [← k3.baudRate] at k6
    refine onTime_not_hopeless k2 (by rw [k3.baudRate]; exact h0) (by rw [k3.readSize]; exact hok r1 (by simp)) k6 ?_
    rw [e5]
    exact h4

end

theorem sync_drop_isDrop {α ε : Type} {d : DataTy α} {valid : α → Prop} {f : α → List Byte} (hd : ImplData d valid f) :
    IsDrop α (SyncIter.drop d (ε := ε)) SyncIter.client
      (fun s => (s.motorIds.drop s.index).map fun id => (id, d.size.toNat)) (IsEncoded valid f) where
  finished fuel s h := by
    rw [SyncIter.drop, SO.bind_ok ((syncData_iterator hd ε).finished s h)]
    rfl
  step fuel s id count rest ht hr hb := by
    rcases (syncData_iterator hd ε).step s id count rest ht hr hb with ⟨h1, s', h2⟩ | ⟨h1, s', x, h2, h3, h4⟩
    · exact .inl ⟨h1, s', by rw [SyncIter.drop, SO.bind_panic h2]⟩
    · exact .inr ⟨h1, s', x, by rw [SyncIter.drop, SO.bind_ok h2], h3, h4⟩

theorem onClient_apply {ε α : Type} {m : SO Bus ε α} {s : SyncIter} {c : Bus} {o : Outcome ε α} (h : m s.client = (c, o)) :
    SyncIter.onClient m s = ({ s with client := c }, o) := by
  unfold SyncIter.onClient
  rw [SO.zoom_apply, h]

theorem sync_dropBytes_isDrop {ε : Type} :
    IsDrop (List Byte) (SyncIter.dropBytes (ε := ε)) SyncIter.client syncTodo IsBytes where
  finished fuel s h := by
    rw [SyncIter.dropBytes, SO.bind_ok (pop_finished h ε)]
    rfl
  step fuel s id count rest ht hr hb := by
    obtain ⟨h1, rfl, h3⟩ := pop_todo ht ε
    obtain ⟨c, o, k1, k2⟩ := readStatus_turn id (count := s.count) hr hb
    have e := onClient_apply (s := { s with index := s.index + 1 }) k1
    rw [SyncIter.dropBytes, SO.bind_ok h1]
    dsimp only
    rw [SO.get_bind]
    rcases k2 with ⟨l1, rfl⟩ | ⟨l1, ⟨y, rfl⟩, x, l2⟩
    · refine .inl ⟨l1, ?_⟩
      rw [SO.bind_panic (attempt_panic e)]
      exact ⟨_, rfl⟩
    · refine .inr ⟨l1, { s with index := s.index + 1, client := c }, x, ?_, ?_, ?_⟩
      · rw [SO.bind_ok (attempt_ofExcept e)]
      · exact h3
      · exact l2

theorem bulkOnClient_apply {ε α : Type} {m : SO Bus ε α} {s : BulkIter} {c : Bus} {o : Outcome ε α} (h : m s.client = (c, o)) :
    BulkIter.onClient m s = ({ s with client := c }, o) := by
  unfold BulkIter.onClient
  rw [SO.zoom_apply, h]

theorem dropLoop_drops {ε : Type} : ∀ (reads : List BulkReadData) (s : BulkIter), s.client.RInv → s.client.baudRate < 2 ^ 32 →
    (∃ s' xs, BulkIter.dropLoop (ε := ε) reads s = (s', .ok ()) ∧ 
      Collected IsBytes s.client (reads.map fun r => (r.motorId, r.count.toNat)) xs s'.client) ∨
    (∃ s' c xs done id count rest, BulkIter.dropLoop (ε := ε) reads s = (s', .panic) ∧
      reads.map (fun r => (r.motorId, r.count.toNat)) = done ++ (id, count) :: rest ∧
      Collected IsBytes s.client done xs c ∧ Hopeless c count) := by
  intro reads
  induction reads with
  | nil => intro s _ _; exact .inl ⟨s, [], rfl, .done _⟩
  | cons r rest ih =>
    intro s hr hb
    obtain ⟨c, o, k1, k2⟩ := readStatus_turn r.motorId (count := r.count) hr hb
    have e := bulkOnClient_apply k1
    rw [BulkIter.dropLoop]
    rcases k2 with ⟨l1, rfl⟩ | ⟨l1, ⟨y, rfl⟩, x, l2⟩
    · refine .inr ⟨{ s with client := c }, s.client, [], [], r.motorId, r.count.toNat, _, ?_, rfl, .done _, l1⟩
      · rw [SO.bind_panic (attempt_panic e)]
    · rw [SO.bind_ok (attempt_ofExcept e)]
      rcases ih { s with client := c } l2.rinv (by rw [l2.like.baudRate]; exact hb) with
        ⟨s2, xs, k1, k3⟩ | ⟨s2, c, xs, done, id', count', rest', k1, k2, k4, k5⟩
      · exact .inl ⟨s2, x :: xs, k1, .turn l2 k3⟩
      · refine .inr ⟨s2, c, x :: xs, (r.motorId, r.count.toNat) :: done, id', count', rest', k1, ?_, .turn l2 k4, k5⟩
        rw [List.map_cons, k2]
        rfl

/-! ## Scanning -/

/-- How long a scan waits for the next reply. -/
def scanWait (baud : Nat) : Nat := transferNs 14 baud * 253 + 34000000

theorem scanNextResponse_eq {b : Bus} (h0 : b.baudRate ≠ 0) (hbaud : b.baudRate < 2 ^ 32) :
    Client.scanNextResponse b =
      awaitStatus (scanWait b.baudRate) (fun s => (Client.toPingResponse s).mapErr .invalidMessage) b := by
  obtain ⟨ns, h1, h2⟩ := c21_transfer_time (ε := ReadError) (size := 14) (by omega) hbaud h0
  have := leastTime_unique h2 (leastTime_transferNs _ h0)
  subst this
  unfold Client.scanNextResponse awaitStatus
  rw [SO.get_bind, h1, SO.lift_ok_bind]
  rfl

theorem scanNextResponse_zero {b : Bus} (h0 : b.baudRate = 0) : Client.scanNextResponse b = (b, .panic) := by
  unfold Client.scanNextResponse
  rw [SO.get_bind, h0, c21_zero_baud_panics (by omega)]
  rfl

/-- What a scan makes of the result. -/
def scanItem (x : Except ReadError (Response Client.Ping)) : Option (Except ReadError (Response Client.Ping)) :=
  match x with
  | .error (.io .timedOut) => none
  | x => some x

theorem scanNext_turn {ε : Type} {b : Bus} (hb : b.RInv) (h0 : b.baudRate ≠ 0) (hbaud : b.baudRate < 2 ^ 32) :
    ∃ c, (Deadly b (b.serialPort.now + scanWait b.baudRate) ∧ Client.scanNext (ε := ε) b = (c, .panic)) ∨
      (¬ Deadly b (b.serialPort.now + scanWait b.baudRate) ∧ ∃ x, Client.scanNext (ε := ε) b = (c, .ok (scanItem x)) ∧
        Turn b c (b.serialPort.now + scanWait b.baudRate) none 3 IsPing x) := by
  obtain ⟨c, h⟩ := await_turn judges_ping (scanWait b.baudRate) hb
  rw [← scanNextResponse_eq h0 hbaud] at h
  refine ⟨c, ?_⟩
  unfold Client.scanNext
  rcases h with ⟨h1, h2⟩ | ⟨h1, x, h2, h3⟩
  · exact .inl ⟨h1, by rw [SO.bind_panic (attempt_panic h2)]⟩
  · refine .inr ⟨h1, x, ?_, h3⟩
    rw [SO.bind_ok (attempt_ofExcept h2)]
    cases x with
    | ok r => rfl
    | error e =>
      cases e with
      | io e => cases e <;> rfl
      | _ => rfl

theorem scanNext_fst {ε : Type} {b : Bus} (h0 : b.baudRate ≠ 0) (hbaud : b.baudRate < 2 ^ 32) :
    (Client.scanNext (ε := ε) b).1 = (Bus.readPacketDeadline (b.serialPort.now + scanWait b.baudRate) b).1 ∧
    ((Client.scanNext (ε := ε) b).2 ≠ .ok none →
      (Bus.readPacketDeadline (b.serialPort.now + scanWait b.baudRate) b).2 ≠ .err (.io .timedOut)) := by
  have e : Client.scanNextResponse b =
      ((Bus.readPacketDeadline (b.serialPort.now + scanWait b.baudRate) b).1, 
        (Bus.readPacketDeadline (b.serialPort.now + scanWait b.baudRate) b).2 >>= fun p => Client.checkStatus p >>= fun s =>
          (Client.toPingResponse s).mapErr .invalidMessage) := by
    rw [scanNextResponse_eq h0 hbaud]
    unfold awaitStatus Client.readStatusResponseTimeout
    simp only [Port.makeDeadline, SO.bind_def, SO.get]
    rcases Bus.readPacketDeadline (b.serialPort.now + scanWait b.baudRate) b with ⟨c, o⟩
    cases o with
    | ok p =>
      change _ = (c, Client.checkStatus p >>= fun s => (Client.toPingResponse s).mapErr .invalidMessage)
      simp only [SO.lift_apply]
      cases Client.checkStatus p <;> rfl
    | _ => rfl
  constructor
  · unfold Client.scanNext
    rw [SO.bind_def]
    unfold SO.attempt
    rw [e]
    cases (Bus.readPacketDeadline (b.serialPort.now + scanWait b.baudRate) b).2 >>= fun p => Client.checkStatus p >>= fun s =>
          (Client.toPingResponse s).mapErr .invalidMessage with
    | ok => rfl
    | err e =>
      cases e with
      | io e => cases e <;> rfl
      | _ => rfl
    | _ => rfl
  · intro h h'
    apply h
    unfold Client.scanNext
    rw [h'] at e
    rw [SO.bind_ok (attempt_ofExcept (x := .error (.io .timedOut)) e)]
    rfl

end Props
end Dxl
