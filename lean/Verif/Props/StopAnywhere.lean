import Verif.Model.SizeHint
import Verif.Props.Prompt

/-! # C86: stopping a loop over responses, and how many items an iterator announces -/

namespace Dxl.Props
open Spec

/-- What a sync read without data types does for a motor: pass on the client as reading a response left it, and count the motor. -/
theorem syncNextBytes_state {ε : Type} {s s1 : SyncIter} {o : Option (Except ReadError (Response (List Byte)))} (h : s.index < s.motorIds.length)
    (hn : SyncIter.nextBytes (ε := ε) s = (s1, .ok o)) :
    s1 = { s with client := (Client.readStatusResponse s.count s.client).1, index := s.index + 1 } ∧ o.isSome = true ∧
      (∃ x, SO.attempt (ε' := ε) (Client.readStatusResponse s.count) s.client = ((Client.readStatusResponse s.count s.client).1, .ok x)) := by
  have hpop : SyncIter.popMotorId (ε := ε) s = ({ s with index := s.index + 1 }, .ok (some s.motorIds[s.index])) := by
    unfold SyncIter.popMotorId
    rw [List.getElem?_eq_getElem h]
  unfold SyncIter.nextBytes at hn
  rw [SO.bind_ok hpop] at hn
  dsimp only at hn
  rw [SO.bind_def] at hn
  unfold SO.attempt SyncIter.nextResponseBytes at hn
  rw [SO.get_bind, SO.bind_def] at hn
  unfold SyncIter.onClient at hn
  rw [SO.zoom_apply] at hn
  unfold SO.attempt
  generalize Client.readStatusResponse s.count s.client = z at hn ⊢
  rcases z with ⟨c, r⟩
  cases r with
  | ok r =>
    simp only [SO.bind_def, SO.lift_apply] at hn
    cases hc : SyncIter.checkResponse r s.motorIds[s.index] s.count with
    | ok u =>
      rw [hc] at hn
      simp only [] at hn
      cases hd : (decodeStatusPacketBytes r).mapErr ReadError.motorError with
      | ok v => rw [hd] at hn; cases hn; exact ⟨rfl, rfl, _, rfl⟩
      | err e => rw [hd] at hn; cases hn; exact ⟨rfl, rfl, _, rfl⟩
      | panic => rw [hd] at hn; cases hn
      | hang => rw [hd] at hn; cases hn
    | err e => rw [hc] at hn; cases hn; exact ⟨rfl, rfl, _, rfl⟩
    | panic => rw [hc] at hn; cases hn
    | hang => rw [hc] at hn; cases hn
  | err e => cases hn; exact ⟨rfl, rfl, _, rfl⟩
  | panic => cases hn
  | hang => cases hn

theorem syncNext_state {ε α : Type} {d : DataTy α} {s s1 : SyncIter} {o : Option (Except ReadError (Response α))}
    (h : s.index < s.motorIds.length) (hn : SyncIter.next d (ε := ε) s = (s1, .ok o)) :
    s1 = { s with client := (Client.readStatusResponse d.size s.client).1, index := s.index + 1 } ∧ o.isSome = true := by
  have hpop : SyncIter.popMotorId (ε := ε) s = ({ s with index := s.index + 1 }, .ok (some s.motorIds[s.index])) := by
    unfold SyncIter.popMotorId
    rw [List.getElem?_eq_getElem h]
  unfold SyncIter.next at hn
  rw [SO.bind_ok hpop] at hn
  dsimp only at hn
  rw [SO.bind_def] at hn
  unfold SO.attempt SyncIter.nextResponse at hn
  rw [SO.bind_def] at hn
  unfold SyncIter.onClient at hn
  rw [SO.zoom_apply] at hn
  generalize Client.readStatusResponse d.size s.client = z at hn ⊢
  rcases z with ⟨c, r⟩
  cases r with
  | ok r =>
    simp only [SO.bind_def, SO.lift_apply] at hn
    cases hc : SyncIter.checkResponse r s.motorIds[s.index] d.size with
    | ok u =>
      rw [hc] at hn
      simp only [] at hn
      cases hd : decodeStatusPacket d r with
      | ok v => rw [hd] at hn; cases hn; exact ⟨rfl, rfl⟩
      | err e => rw [hd] at hn; cases hn; exact ⟨rfl, rfl⟩
      | panic => rw [hd] at hn; cases hn
      | hang => rw [hd] at hn; cases hn
    | err e => rw [hc] at hn; cases hn; exact ⟨rfl, rfl⟩
    | panic => rw [hc] at hn; cases hn
    | hang => rw [hc] at hn; cases hn
  | err e => cases hn; exact ⟨rfl, rfl⟩
  | panic => cases hn
  | hang => cases hn

theorem bulkNext_state {ε : Type} {s s1 : BulkIter} {o : Option (Except ReadError (Response (List Byte)))} (h : s.index < s.reads.length)
    (hn : BulkIter.next (ε := ε) s = (s1, .ok o)) :
    s1 = { s with client := (Client.readStatusResponse s.reads[s.index].count s.client).1, index := s.index + 1 } ∧ o.isSome = true ∧
      (∃ x, SO.attempt (ε' := ε) (Client.readStatusResponse s.reads[s.index].count) s.client =
        ((Client.readStatusResponse s.reads[s.index].count s.client).1, .ok x)) := by
  have hpop : BulkIter.pop (ε := ε) s = ({ s with index := s.index + 1 }, .ok (some s.reads[s.index])) := by
    unfold BulkIter.pop
    rw [List.getElem?_eq_getElem h]
  unfold BulkIter.next at hn
  rw [SO.bind_ok hpop] at hn
  dsimp only at hn
  rw [SO.bind_def] at hn
  unfold SO.attempt BulkIter.nextResponse at hn
  rw [SO.bind_def] at hn
  unfold BulkIter.onClient at hn
  rw [SO.zoom_apply] at hn
  unfold SO.attempt
  generalize Client.readStatusResponse s.reads[s.index].count s.client = z at hn ⊢
  rcases z with ⟨c, r⟩
  cases r with
  | ok r =>
    simp only [SO.bind_def, SO.lift_apply] at hn
    cases hc : SyncIter.checkResponse r s.reads[s.index].motorId s.reads[s.index].count with
    | ok u =>
      rw [hc] at hn
      simp only [] at hn
      cases hd : (decodeStatusPacketBytes r).mapErr ReadError.motorError with
      | ok v => rw [hd] at hn; cases hn; exact ⟨rfl, rfl, _, rfl⟩
      | err e => rw [hd] at hn; cases hn; exact ⟨rfl, rfl, _, rfl⟩
      | panic => rw [hd] at hn; cases hn
      | hang => rw [hd] at hn; cases hn
    | err e => rw [hc] at hn; cases hn; exact ⟨rfl, rfl, _, rfl⟩
    | panic => rw [hc] at hn; cases hn
    | hang => rw [hc] at hn; cases hn
  | err e => cases hn; exact ⟨rfl, rfl, _, rfl⟩
  | panic => cases hn
  | hang => cases hn

/-- The pieces of a run of several calls that all return. -/
theorem callTimes_succ_inv {σ ε β : Type} {m : SO σ ε β} {s s' : σ} {k : Nat} {xs : List β}
    (h : callTimes m (k + 1) s = (s', .ok xs)) :
    ∃ s1 x ys, m s = (s1, .ok x) ∧ callTimes m k s1 = (s', .ok ys) ∧ xs = x :: ys := by
  rcases hm : m s with ⟨s1, o⟩
  cases o with
  | ok x =>
    rw [callTimes_succ_ok hm] at h
    rcases hk : callTimes m k s1 with ⟨s2, o2⟩
    rw [hk] at h
    cases o2 with
    | ok ys => cases h; exact ⟨s1, x, ys, rfl, hk, rfl⟩
    | _ => cases h
  | _ => rw [callTimes, SO.bind_def, hm] at h; cases h

/-- Stopping anywhere: if what is left over after one item is the same as what was left over before it, then the same holds after
any number of items. -/
theorem stop_anywhere {σ ε β γ : Type} {next : SO σ ε (Option β)} {left : σ → γ}
    (step : ∀ s s' x, next s = (s', .ok x) → left s' = left s) :
    ∀ (k : Nat) (s s' : σ) (items : List (Option β)), callTimes next k s = (s', .ok items) → left s' = left s := by
  intro k
  induction k with
  | zero => intro s s' items h; cases h; rfl
  | succ k ih =>
    intro s s' items h
    obtain ⟨s1, x, ys, h1, h2, -⟩ := callTimes_succ_inv h
    exact (ih s1 s' ys h2).trans (step s s1 x h1)

/-- How many items come: if the number to come goes down by one with each item, and at zero there are no more. -/
theorem announced {σ ε β : Type} {next : SO σ ε (Option β)} {left : σ → Nat}
    (done : ∀ s, left s = 0 → next s = (s, .ok none))
    (step : ∀ s s' x, left s ≠ 0 → next s = (s', .ok x) → x.isSome = true ∧ left s' + 1 = left s) :
    ∀ (k : Nat) (s s' : σ) (items : List (Option β)), callTimes next k s = (s', .ok items) →
      items.map Option.isSome = List.replicate (min k (left s)) true ++ List.replicate (k - left s) false ∧ left s' = left s - k := by
  intro k
  induction k with
  | zero => intro s s' items h; cases h; simp
  | succ k ih =>
    intro s s' items h
    obtain ⟨s1, x, ys, h1, h2, rfl⟩ := callTimes_succ_inv h
    by_cases h0 : left s = 0
    · rw [done s h0] at h1
      cases h1
      obtain ⟨e1, e2⟩ := ih s s' ys h2
      rw [h0] at e1 e2 ⊢
      refine ⟨?_, by omega⟩
      simp only [List.map_cons, e1]
      simp [List.replicate_succ]
    · obtain ⟨hx, hl⟩ := step s s1 x h0 h1
      obtain ⟨e1, e2⟩ := ih s1 s' ys h2
      refine ⟨?_, by omega⟩
      have a : min (k + 1) (left s) = min k (left s1) + 1 := by omega
      have b : k + 1 - left s = k - left s1 := by omega
      rw [List.map_cons, e1, hx, a, b, List.replicate_succ, List.cons_append]

theorem dropBytes_done {ε : Type} {s : SyncIter} (h : s.motorIds.length ≤ s.index) (n : Nat) :
    SyncIter.dropBytes (ε := ε) (n + 1) s = (s, .ok ()) := by
  have hpop : SyncIter.popMotorId (ε := ε) s = (s, .ok none) := by
    unfold SyncIter.popMotorId
    rw [List.getElem?_eq_none h]
  rw [SyncIter.dropBytes, SO.bind_ok hpop]
  rfl

theorem dropBytes_step {ε : Type} {s : SyncIter} (h : s.index < s.motorIds.length) (n : Nat) {x : Except ReadError StatusPacket}
    (hx : SO.attempt (ε' := ε) (Client.readStatusResponse s.count) s.client = ((Client.readStatusResponse s.count s.client).1, .ok x)) :
    SyncIter.dropBytes (ε := ε) (n + 1) s =
      SyncIter.dropBytes n { s with client := (Client.readStatusResponse s.count s.client).1, index := s.index + 1 } := by
  have hpop : SyncIter.popMotorId (ε := ε) s = ({ s with index := s.index + 1 }, .ok (some s.motorIds[s.index])) := by
    unfold SyncIter.popMotorId
    rw [List.getElem?_eq_getElem h]
  rw [SyncIter.dropBytes, SO.bind_ok hpop]
  dsimp only
  rw [SO.get_bind]
  have e : SO.attempt (ε' := ε) (SyncIter.onClient (Client.readStatusResponse s.count)) { s with index := s.index + 1 } =
      ({ s with client := (Client.readStatusResponse s.count s.client).1, index := s.index + 1 }, .ok x) := by
    unfold SO.attempt SyncIter.onClient at *
    rw [SO.zoom_apply]
    generalize Client.readStatusResponse s.count s.client = z at hx ⊢
    rcases z with ⟨c, r⟩
    cases r with
    | ok r => cases hx; rfl
    | err e => cases hx; rfl
    | panic => cases hx
    | hang => cases hx
  rw [SO.bind_ok e]

/-- More iterations than are needed make no difference. -/
theorem dropBytes_fuel {ε : Type} : ∀ (n : Nat) (s : SyncIter), s.motorIds.length - s.index < n →
    SyncIter.dropBytes (ε := ε) (n + 1) s = SyncIter.dropBytes n s := by
  intro n
  induction n with
  | zero => intro s h; omega
  | succ n ih =>
    intro s hn
    by_cases h : s.index < s.motorIds.length
    · rcases hx : SO.attempt (ε' := ε) (Client.readStatusResponse s.count) s.client with ⟨c, o⟩
      have hpop : SyncIter.popMotorId (ε := ε) s = ({ s with index := s.index + 1 }, .ok (some s.motorIds[s.index])) := by
        unfold SyncIter.popMotorId
        rw [List.getElem?_eq_getElem h]
      rw [SyncIter.dropBytes, SO.bind_ok hpop]
      conv => rhs; rw [SyncIter.dropBytes, SO.bind_ok hpop]
      dsimp only
      rw [SO.get_bind, SO.get_bind, SO.bind_def, SO.bind_def]
      have hin : ((SO.attempt (ε' := ε) (SyncIter.onClient (Client.readStatusResponse s.count))) { s with index := s.index + 1 }).1.index
            = s.index + 1 ∧
          ((SO.attempt (ε' := ε) (SyncIter.onClient (Client.readStatusResponse s.count))) { s with index := s.index + 1 }).1.motorIds
            = s.motorIds := by
        unfold SO.attempt SyncIter.onClient
        rw [SO.zoom_apply]
        rcases Client.readStatusResponse s.count s.client with ⟨c, r⟩
        cases r <;> exact ⟨rfl, rfl⟩
      rcases hq : (SO.attempt (ε' := ε) (SyncIter.onClient (Client.readStatusResponse s.count))) { s with index := s.index + 1 } with ⟨s2, o2⟩
      rw [hq] at hin
      cases o2 with
      | ok y => exact ih s2 (by rw [hin.1, hin.2]; omega)
      | _ => rfl
    · rw [dropBytes_done (by omega), dropBytes_done (by omega)]

theorem dropBytes_enough {ε : Type} {s : SyncIter} {n : Nat} (h : s.motorIds.length - s.index < n) :
    SyncIter.dropBytes (ε := ε) n s = SyncIter.dropBytes (s.motorIds.length - s.index + 1) s := by
  obtain ⟨m, rfl⟩ : ∃ m, n = s.motorIds.length - s.index + 1 + m := ⟨n - (s.motorIds.length - s.index + 1), by omega⟩
  clear h
  induction m with
  | zero => rfl
  | succ m ih => rw [← Nat.add_assoc, dropBytes_fuel _ s (by omega), ih]

theorem drop_done {ε α : Type} {d : DataTy α} {s : SyncIter} (h : s.motorIds.length ≤ s.index) (n : Nat) :
    SyncIter.drop d (ε := ε) (n + 1) s = (s, .ok ()) := by
  rw [SyncIter.drop, SO.bind_ok ((c65_finished ε d).2.1 s h)]
  rfl

theorem drop_step {ε α : Type} {d : DataTy α} {s s1 : SyncIter} {x : Except ReadError (Response α)} (n : Nat)
    (h : SyncIter.next d (ε := ε) s = (s1, .ok (some x))) : SyncIter.drop d (ε := ε) (n + 1) s = SyncIter.drop d n s1 := by
  rw [SyncIter.drop, SO.bind_ok h]

theorem drop_fuel {ε α : Type} {d : DataTy α} : ∀ (n : Nat) (s : SyncIter), s.motorIds.length - s.index < n →
    SyncIter.drop d (ε := ε) (n + 1) s = SyncIter.drop d n s := by
  intro n
  induction n with
  | zero => intro s h; omega
  | succ n ih =>
    intro s hn
    by_cases h : s.index < s.motorIds.length
    · rcases hx : SyncIter.next d (ε := ε) s with ⟨s1, o⟩
      cases o with
      | ok x =>
        obtain ⟨e, hsome⟩ := syncNext_state h hx
        cases x with
        | none => cases hsome
        | some x => rw [drop_step _ hx, drop_step _ hx]; exact ih s1 (by rw [e]; show s.motorIds.length - (s.index + 1) < n; omega)
      | _ => simp only [SyncIter.drop, SO.bind_def, hx]
    · rw [drop_done (by omega), drop_done (by omega)]

theorem drop_enough {ε α : Type} {d : DataTy α} {s : SyncIter} {n : Nat} (h : s.motorIds.length - s.index < n) :
    SyncIter.drop d (ε := ε) n s = SyncIter.drop d (s.motorIds.length - s.index + 1) s := by
  obtain ⟨m, rfl⟩ : ∃ m, n = s.motorIds.length - s.index + 1 + m := ⟨n - (s.motorIds.length - s.index + 1), by omega⟩
  clear h
  induction m with
  | zero => rfl
  | succ m ih => rw [← Nat.add_assoc, drop_fuel _ s (by omega), ih]

theorem dropLoop_step {ε : Type} {s : BulkIter} {r : BulkReadData} {rest : List BulkReadData} {x : Except ReadError StatusPacket}
    (hx : SO.attempt (ε' := ε) (Client.readStatusResponse r.count) s.client = ((Client.readStatusResponse r.count s.client).1, .ok x)) :
    BulkIter.dropLoop (ε := ε) (r :: rest) s = BulkIter.dropLoop rest { s with client := (Client.readStatusResponse r.count s.client).1 } := by
  rw [BulkIter.dropLoop]
  have e : SO.attempt (ε' := ε) (BulkIter.onClient (Client.readStatusResponse r.count)) s =
      ({ s with client := (Client.readStatusResponse r.count s.client).1 }, .ok x) := by
    unfold SO.attempt BulkIter.onClient at *
    rw [SO.zoom_apply]
    generalize Client.readStatusResponse r.count s.client = z at hx ⊢
    rcases z with ⟨c, r⟩
    cases r with
    | ok r => cases hx; rfl
    | err e => cases hx; rfl
    | panic => cases hx
    | hang => cases hx
  rw [SO.bind_ok e]

/-- The loop that throws away responses only looks at the client. -/
theorem dropLoop_client {ε : Type} : ∀ (l : List BulkReadData) (s s' : BulkIter), s.client = s'.client →
    (BulkIter.dropLoop (ε := ε) l s).1.client = (BulkIter.dropLoop (ε := ε) l s').1.client ∧
    (BulkIter.dropLoop (ε := ε) l s).2 = (BulkIter.dropLoop (ε := ε) l s').2 := by
  intro l
  induction l with
  | nil => intro s s' h; exact ⟨h, rfl⟩
  | cons r rest ih =>
    intro s s' h
    rw [BulkIter.dropLoop, SO.bind_def, SO.bind_def]
    unfold SO.attempt BulkIter.onClient
    rw [SO.zoom_apply, SO.zoom_apply, h]
    rcases Client.readStatusResponse r.count s'.client with ⟨c, o⟩
    cases o with
    | ok x => exact ih _ _ rfl
    | err x => exact ih _ _ rfl
    | panic => exact ⟨rfl, rfl⟩
    | hang => exact ⟨rfl, rfl⟩

/-- **C86** However many items of a sync read the caller takes before it drops the iterator, and whatever those items are, dropping the
iterator then leaves the same iterator, client, port and clock, and ends in the same way, as dropping it at once. -/
theorem c86_sync_bytes_stop {ε : Type} {k : Nat} {s s1 : SyncIter} {items : List (Option (Except ReadError (Response (List Byte))))}
    (h : callTimes (SyncIter.nextBytes (ε := ε)) k s = (s1, .ok items)) {n n1 : Nat} (hn : s.motorIds.length - s.index < n)
    (hn1 : s1.motorIds.length - s1.index < n1) :
    SyncIter.dropBytes (ε := ε) n1 s1 = SyncIter.dropBytes (ε := ε) n s := by
  rw [dropBytes_enough hn, dropBytes_enough hn1]
  refine stop_anywhere (left := fun s => SyncIter.dropBytes (ε := ε) (s.motorIds.length - s.index + 1) s) ?_ k s s1 items h
  intro s s' x hx
  by_cases hs : s.index < s.motorIds.length
  · obtain ⟨e, -, y, hy⟩ := syncNextBytes_state hs hx
    subst e
    show SyncIter.dropBytes (s.motorIds.length - (s.index + 1) + 1) _ = _
    have : s.motorIds.length - s.index = s.motorIds.length - (s.index + 1) + 1 := by omega
    rw [this, dropBytes_step hs _ hy]
  · rw [(c65_finished ε (DataTy.unsigned 1)).1 s (by omega)] at hx
    cases hx
    rfl

/-- The same for `SyncRead`. -/
theorem c86_sync_stop {ε α : Type} {d : DataTy α} {k : Nat} {s s1 : SyncIter} {items : List (Option (Except ReadError (Response α)))}
    (h : callTimes (SyncIter.next d (ε := ε)) k s = (s1, .ok items)) {n n1 : Nat} (hn : s.motorIds.length - s.index < n)
    (hn1 : s1.motorIds.length - s1.index < n1) :
    SyncIter.drop d (ε := ε) n1 s1 = SyncIter.drop d (ε := ε) n s := by
  rw [drop_enough hn, drop_enough hn1]
  refine stop_anywhere (left := fun s => SyncIter.drop d (ε := ε) (s.motorIds.length - s.index + 1) s) ?_ k s s1 items h
  intro s s' x hx
  by_cases hs : s.index < s.motorIds.length
  · obtain ⟨e, hsome⟩ := syncNext_state hs hx
    cases x with
    | none => cases hsome
    | some x =>
      have h1 : s.motorIds.length - s.index = s.motorIds.length - (s.index + 1) + 1 := by omega
      have h2 : s'.motorIds.length - s'.index = s.motorIds.length - (s.index + 1) := by rw [e]
      rw [h1, h2, drop_step _ hx]
  · rw [(c65_finished ε d).2.1 s (by omega)] at hx
    cases hx
    rfl

/-- The same for `BulkReadBytes`. -/
theorem c86_bulk_stop {ε : Type} {k : Nat} {s s1 : BulkIter} {items : List (Option (Except ReadError (Response (List Byte))))}
    (hs : s.index ≤ s.reads.length) (h : callTimes (BulkIter.next (ε := ε)) k s = (s1, .ok items)) :
    (BulkIter.drop (ε := ε) s1).1.client = (BulkIter.drop (ε := ε) s).1.client ∧ (BulkIter.drop (ε := ε) s1).2 = (BulkIter.drop (ε := ε) s).2 := by
  have key : ∀ (k : Nat) (s s1 : BulkIter) (items : _), s.index ≤ s.reads.length →
      callTimes (BulkIter.next (ε := ε)) k s = (s1, .ok items) →
      s1.index ≤ s1.reads.length ∧
      ((BulkIter.dropLoop (ε := ε) (s1.reads.drop s1.index) s1).1.client, (BulkIter.dropLoop (ε := ε) (s1.reads.drop s1.index) s1).2) =
        ((BulkIter.dropLoop (ε := ε) (s.reads.drop s.index) s).1.client, (BulkIter.dropLoop (ε := ε) (s.reads.drop s.index) s).2) := by
    intro k
    induction k with
    | zero => intro s s1 items hs h; cases h; exact ⟨hs, rfl⟩
    | succ k ih =>
      intro s s1 items hs h
      obtain ⟨s2, x, ys, h1, h2, -⟩ := callTimes_succ_inv h
      by_cases hlt : s.index < s.reads.length
      · obtain ⟨e, -, y, hy⟩ := bulkNext_state hlt h1
        obtain ⟨i1, i2⟩ := ih s2 s1 ys (by rw [e]; exact hlt) h2
        refine ⟨i1, i2.trans ?_⟩
        subst e
        rw [List.drop_eq_getElem_cons hlt, dropLoop_step hy]
        have := dropLoop_client (ε := ε) (s.reads.drop (s.index + 1))
          { s with client := (Client.readStatusResponse s.reads[s.index].count s.client).1, index := s.index + 1 }
          { s with client := (Client.readStatusResponse s.reads[s.index].count s.client).1 } rfl
        dsimp only at this ⊢
        rw [this.1, this.2]
      · rw [(c65_finished ε (DataTy.unsigned 1)).2.2 s (by omega)] at h1
        cases h1
        exact ih s s1 ys hs h2
  obtain ⟨i1, i2⟩ := key k s s1 items hs h
  have ed : ∀ t : BulkIter, t.index ≤ t.reads.length → BulkIter.drop (ε := ε) t = BulkIter.dropLoop (t.reads.drop t.index) t := by
    intro t ht
    unfold BulkIter.drop
    rw [SO.get_bind, if_pos ht]
  rw [ed s hs, ed s1 i1]
  exact ⟨(Prod.mk.inj i2).1, (Prod.mk.inj i2).2⟩

/-- The same for a scan, as long as it has not come to its end. -/
theorem c86_scan_stop {ε : Type} {k : Nat} {b c : Bus} {items : List (Except ReadError (Response Client.Ping))}
    (h : callTimes (Client.scanNext (ε := ε)) k b = (c, .ok (items.map some))) (n : Nat) :
    Client.scanDrop (ε := ε) n c = Client.scanDrop (ε := ε) (n + k) b := by
  induction k generalizing b items with
  | zero => cases (Prod.mk.inj h).1; rfl
  | succ k ih =>
    obtain ⟨b1, x, ys, h1, h2, h3⟩ := callTimes_succ_inv h
    cases items with
    | nil => cases h3
    | cons i items =>
      cases h3
      rw [ih h2]
      show _ = Client.scanDrop (n + k + 1) b
      rw [Client.scanDrop, SO.bind_ok h1]

/-- **C86** An iterator over the responses to a sync read announces at least none and at most exactly the number of items that come:
the next calls return that many items, and then `None`. -/
theorem c86_sync_bytes_size {ε : Type} {s s1 : SyncIter} (hs : s.index ≤ s.motorIds.length) {k : Nat}
    {items : List (Option (Except ReadError (Response (List Byte))))} (h : callTimes (SyncIter.nextBytes (ε := ε)) k s = (s1, .ok items)) :
    ∃ m, SyncIter.sizeHint (ε := ε) s = .ok (0, some m) ∧
      items.map Option.isSome = List.replicate (min k m) true ++ List.replicate (k - m) false ∧
      SyncIter.sizeHint (ε := ε) s1 = .ok (0, some (m - k)) := by
  obtain ⟨h1, h2⟩ := announced (left := fun s : SyncIter => s.motorIds.length - s.index)
    (fun s h0 => (c65_finished ε (DataTy.unsigned 1)).1 s (by omega))
    (fun s s' x h0 hx => by
      obtain ⟨e, hsome, -⟩ := syncNextBytes_state (by omega) hx
      exact ⟨hsome, by rw [e]; show s.motorIds.length - (s.index + 1) + 1 = _; omega⟩) k s s1 items h
  have hb : SyncIter.Bounded s1 := by
    have : ∀ (k : Nat) (s s1 : SyncIter) (items : _), SyncIter.Bounded s →
        callTimes (SyncIter.nextBytes (ε := ε)) k s = (s1, .ok items) → SyncIter.Bounded s1 := by
      intro k
      induction k with
      | zero => intro s s1 items hs h; cases h; exact hs
      | succ k ih =>
        intro s s1 items hs h
        obtain ⟨s2, x, ys, q1, q2, -⟩ := callTimes_succ_inv h
        exact ih s2 s1 ys (by have := nextBytes_bounded (ε := ε) s hs; rw [q1] at this; exact this) q2
    exact this k s s1 items hs h
  refine ⟨s.motorIds.length - s.index, ?_, h1, ?_⟩
  · unfold SyncIter.sizeHint SyncIter.remaining; rw [if_pos hs]; rfl
  · unfold SyncIter.sizeHint SyncIter.remaining; rw [if_pos (id hb : _ ≤ _)]; show Outcome.ok (0, some _) = _; rw [h2]

/-- The same for `SyncRead`. -/
theorem c86_sync_size {ε α : Type} {d : DataTy α} {s s1 : SyncIter} (hs : s.index ≤ s.motorIds.length) {k : Nat}
    {items : List (Option (Except ReadError (Response α)))} (h : callTimes (SyncIter.next d (ε := ε)) k s = (s1, .ok items)) :
    ∃ m, SyncIter.sizeHint (ε := ε) s = .ok (0, some m) ∧
      items.map Option.isSome = List.replicate (min k m) true ++ List.replicate (k - m) false ∧
      SyncIter.sizeHint (ε := ε) s1 = .ok (0, some (m - k)) := by
  obtain ⟨h1, h2⟩ := announced (left := fun s : SyncIter => s.motorIds.length - s.index)
    (fun s h0 => (c65_finished ε d).2.1 s (by omega))
    (fun s s' x h0 hx => by
      obtain ⟨e, hsome⟩ := syncNext_state (by omega) hx
      exact ⟨hsome, by rw [e]; show s.motorIds.length - (s.index + 1) + 1 = _; omega⟩) k s s1 items h
  have hb : SyncIter.Bounded s1 := by
    have : ∀ (k : Nat) (s s1 : SyncIter) (items : _), SyncIter.Bounded s →
        callTimes (SyncIter.next d (ε := ε)) k s = (s1, .ok items) → SyncIter.Bounded s1 := by
      intro k
      induction k with
      | zero => intro s s1 items hs h; cases h; exact hs
      | succ k ih =>
        intro s s1 items hs h
        obtain ⟨s2, x, ys, q1, q2, -⟩ := callTimes_succ_inv h
        exact ih s2 s1 ys (by have := nextData_bounded (ε := ε) d s hs; rw [q1] at this; exact this) q2
    exact this k s s1 items hs h
  refine ⟨s.motorIds.length - s.index, ?_, h1, ?_⟩
  · unfold SyncIter.sizeHint SyncIter.remaining; rw [if_pos hs]; rfl
  · unfold SyncIter.sizeHint SyncIter.remaining; rw [if_pos (id hb : _ ≤ _)]; show Outcome.ok (0, some _) = _; rw [h2]

/-- The same for `BulkReadBytes`. -/
theorem c86_bulk_size {ε : Type} {s s1 : BulkIter} (hs : s.index ≤ s.reads.length) {k : Nat}
    {items : List (Option (Except ReadError (Response (List Byte))))} (h : callTimes (BulkIter.next (ε := ε)) k s = (s1, .ok items)) :
    ∃ m, BulkIter.sizeHint (ε := ε) s = .ok (0, some m) ∧
      items.map Option.isSome = List.replicate (min k m) true ++ List.replicate (k - m) false ∧
      BulkIter.sizeHint (ε := ε) s1 = .ok (0, some (m - k)) := by
  obtain ⟨h1, h2⟩ := announced (left := fun s : BulkIter => s.reads.length - s.index)
    (fun s h0 => (c65_finished ε (DataTy.unsigned 1)).2.2 s (by omega))
    (fun s s' x h0 hx => by
      obtain ⟨e, hsome, -⟩ := bulkNext_state (by omega) hx
      exact ⟨hsome, by rw [e]; show s.reads.length - (s.index + 1) + 1 = _; omega⟩) k s s1 items h
  have hb : BulkIter.Bounded s1 := by
    have : ∀ (k : Nat) (s s1 : BulkIter) (items : _), BulkIter.Bounded s →
        callTimes (BulkIter.next (ε := ε)) k s = (s1, .ok items) → BulkIter.Bounded s1 := by
      intro k
      induction k with
      | zero => intro s s1 items hs h; cases h; exact hs
      | succ k ih =>
        intro s s1 items hs h
        obtain ⟨s2, x, ys, q1, q2, -⟩ := callTimes_succ_inv h
        exact ih s2 s1 ys (by have := bulk_bounded (ε := ε) s hs; rw [q1] at this; exact this) q2
    exact this k s s1 items hs h
  refine ⟨s.reads.length - s.index, ?_, h1, ?_⟩
  · unfold BulkIter.sizeHint BulkIter.remaining; rw [if_pos hs]; rfl
  · unfold BulkIter.sizeHint BulkIter.remaining; rw [if_pos (id hb : _ ≤ _)]; show Outcome.ok (0, some _) = _; rw [h2]

/-- **C86** Dropping an iterator that has come to its end does nothing: no byte is read, no time passes. -/
theorem c86_ended {ε α : Type} (d : DataTy α) :
    (∀ (s : SyncIter) n, s.motorIds.length ≤ s.index → SyncIter.dropBytes (ε := ε) (n + 1) s = (s, .ok ())) ∧
    (∀ (s : SyncIter) n, s.motorIds.length ≤ s.index → SyncIter.drop d (ε := ε) (n + 1) s = (s, .ok ())) ∧
    (∀ s : BulkIter, s.reads.length = s.index → BulkIter.drop (ε := ε) s = (s, .ok ())) := by
  refine ⟨fun s n h => dropBytes_done h n, fun s n h => drop_done h n, fun s h => ?_⟩
  unfold BulkIter.drop
  rw [SO.get_bind, if_pos (by omega), List.drop_eq_nil_of_le (by omega)]
  rfl

/-- Two motors answer a sync read of two bytes, one byte stays on the line. -/
def twoAnswers : Bus := busWithChunks [(1000, frame 1#8 [0x55#8, 0x00#8, 0x01#8, 0x02#8]),
  (2000, frame 2#8 [0x55#8, 0x00#8, 0x03#8, 0x04#8]), (2000, [0x99#8])]

theorem twoAnswers_bytes : (callTimes (SyncIter.nextBytes (ε := ReadError)) 1 ⟨twoAnswers, 2#16, [1#8, 2#8], 0⟩).2 =
    .ok [some (.ok ⟨1#8, false, [0x01#8, 0x02#8]⟩)] := by decide +kernel

theorem twoAnswers_data : (callTimes (SyncIter.next (DataTy.unsigned 2) (ε := ReadError)) 3 ⟨twoAnswers, 2#16, [1#8, 2#8], 0⟩).2 =
    .ok [some (.ok ⟨1#8, false, 0x0201#16⟩), some (.ok ⟨2#8, false, 0x0403#16⟩), none] := by decide +kernel

theorem twoAnswers_bulk : (callTimes (BulkIter.next (ε := ReadError)) 1 ⟨twoAnswers, [⟨1#8, 7#16, 2#16⟩, ⟨2#8, 9#16, 2#16⟩], 0⟩).2 =
    .ok [some (.ok ⟨1#8, false, [0x01#8, 0x02#8]⟩)] := by decide +kernel

theorem twoAnswers_bytes_left : (callTimes (SyncIter.nextBytes (ε := ReadError)) 1 ⟨twoAnswers, 2#16, [1#8, 2#8], 0⟩).1.motorIds.length -
    (callTimes (SyncIter.nextBytes (ε := ReadError)) 1 ⟨twoAnswers, 2#16, [1#8, 2#8], 0⟩).1.index < 9 := by decide +kernel

theorem twoAnswers_data_left :
    (callTimes (SyncIter.next (DataTy.unsigned 2) (ε := ReadError)) 3 ⟨twoAnswers, 2#16, [1#8, 2#8], 0⟩).1.motorIds.length -
    (callTimes (SyncIter.next (DataTy.unsigned 2) (ε := ReadError)) 3 ⟨twoAnswers, 2#16, [1#8, 2#8], 0⟩).1.index < 9 := by decide +kernel

example := c86_sync_bytes_stop (from_outcome twoAnswers_bytes) (n := 3) (n1 := 9) (by decide) twoAnswers_bytes_left

example := c86_sync_stop (from_outcome twoAnswers_data) (n := 3) (n1 := 9) (by decide) twoAnswers_data_left

example := c86_bulk_stop (by decide) (from_outcome twoAnswers_bulk)

example := c86_sync_bytes_size (by decide) (from_outcome twoAnswers_bytes)

example := c86_sync_size (by decide) (from_outcome twoAnswers_data)

example := c86_bulk_size (by decide) (from_outcome twoAnswers_bulk)

example := (c86_ended (ε := ReadError) (DataTy.unsigned 1)).1 ⟨twoAnswers, 2#16, [1#8, 2#8], 2⟩ 0 (by decide)

/-- Dropping at once: both answers are taken off the line, the byte after them is not. -/
example : (SyncIter.dropBytes (ε := ReadError) 3 ⟨twoAnswers, 2#16, [1#8, 2#8], 0⟩).1.client.serialPort.now = 2000 ∧
    (SyncIter.dropBytes (ε := ReadError) 3 ⟨twoAnswers, 2#16, [1#8, 2#8], 0⟩).2 = .ok () ∧
    stream 5000 (SyncIter.dropBytes (ε := ReadError) 3 ⟨twoAnswers, 2#16, [1#8, 2#8], 0⟩).1.client = [0x99#8] := by
  decide +kernel

/-- One motor answers a scan at once, another one long after the wait is over. -/
def lateAnswer : Bus := busWithChunks [(1000, frame 1#8 [0x55#8, 0x00#8, 0x06#8, 0x04#8, 0x26#8]),
  (900000000, frame 2#8 [0x55#8, 0x00#8, 0x06#8, 0x04#8, 0x26#8])]

theorem lateAnswer_first : (callTimes (Client.scanNext (ε := ReadError)) 1 lateAnswer).2 =
    .ok ([.ok ⟨1#8, false, ⟨0x0406#16, 0x26#8⟩⟩].map some) := by decide +kernel

example := c86_scan_stop (from_outcome lateAnswer_first) 2

/-- **C86** A scan, other than the other iterators, can return `None` and then another item: each call waits anew. -/
theorem c86_scan_not_fused : ∃ (b : Bus) (x y : Except ReadError (Response Client.Ping)),
    (callTimes (Client.scanNext (ε := ReadError)) 3 b).2 = .ok [some x, none, some y] :=
  ⟨lateAnswer, .ok ⟨1#8, false, ⟨0x0406#16, 0x26#8⟩⟩, .ok ⟨2#8, false, ⟨0x0406#16, 0x26#8⟩⟩, by decide +kernel⟩

end Dxl.Props
