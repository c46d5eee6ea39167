import Verif.Model.AnyClient
import Verif.Model.Unwind
import Verif.Props.AnyPortMore
import Verif.Props.Unwind

/-! # C107: loops over responses, with any serial port -/

namespace Dxl.Props
open Dxl Spec

variable {P : PortImpl}

/-- Waiting for one response after the other, with these counts; each wait ends with a response, an error or a panic. -/
inductive Visits (w fuel : Nat) : List U16 → BusOf P → BusOf P → Prop
  | nil (b) : Visits w fuel [] b b
  | cons {c cs b b1 b' o} : BusOf.readStatusResponse w c fuel b = (b1, o) → o ≠ .hang → Visits w fuel cs b1 b' →
      Visits w fuel (c :: cs) b b'

/-- The same, and each wait ends with a response or an error. -/
inductive Awaited (w fuel : Nat) : List U16 → BusOf P → BusOf P → Prop
  | nil (b) : Awaited w fuel [] b b
  | cons {c cs b b1 b' o} : BusOf.readStatusResponse w c fuel b = (b1, o) → o ≠ .hang → o ≠ .panic → Awaited w fuel cs b1 b' →
      Awaited w fuel (c :: cs) b b'

/-- Waiting for some of the responses, the last of which ends as `stop` says. -/
def StopsAt (w fuel : Nat) (counts : List U16) (b b' : BusOf P) (stop : Outcome (ReadErrorOf P.Error) StatusPacket → Prop) : Prop :=
  ∃ done c rest b1 o, counts = done ++ c :: rest ∧ Visits w fuel done b b1 ∧ BusOf.readStatusResponse w c fuel b1 = (b', o) ∧ stop o

/-- How the scope of an iterator that has these responses to wait for ends. The destructor panics on waits that end as `stop` says. -/
inductive EndsWith {ω : Type} (w fuel : Nat) (stop : Outcome (ReadErrorOf P.Error) StatusPacket → Prop) (counts : List U16)
    (b b' : BusOf P) : ScopeEnd ω → Prop
  | returned (a : ω) : Awaited w fuel counts b b' → EndsWith w fuel stop counts b b' (.returned a)
  | unwound : Visits w fuel counts b b' ∨ StopsAt w fuel counts b b' stop → EndsWith w fuel stop counts b b' .unwound
  | aborted : StopsAt w fuel counts b b' stop → EndsWith w fuel stop counts b b' .aborted
  | hung : StopsAt w fuel counts b b' (· = .hang) → EndsWith w fuel stop counts b b' .hung

theorem Awaited.visits {w fuel : Nat} {cs : List U16} {b b' : BusOf P} (h : Awaited w fuel cs b b') : Visits w fuel cs b b' := by
  induction h with
  | nil b => exact .nil b
  | cons h1 h2 _ _ ih => exact .cons h1 h2 ih

theorem Awaited.append {w fuel : Nat} {cs ds : List U16} {b b1 b' : BusOf P} (h : Awaited w fuel cs b b1)
    (h' : Awaited w fuel ds b1 b') : Awaited w fuel (cs ++ ds) b b' := by
  induction h with
  | nil b => exact h'
  | cons h1 h2 h3 _ ih => exact .cons h1 h2 h3 (ih h')

theorem Visits.append {w fuel : Nat} {cs ds : List U16} {b b1 b' : BusOf P} (h : Visits w fuel cs b b1)
    (h' : Visits w fuel ds b1 b') : Visits w fuel (cs ++ ds) b b' := by
  induction h with
  | nil b => exact h'
  | cons h1 h2 _ ih => exact .cons h1 h2 (ih h')

theorem StopsAt.after {w fuel : Nat} {cs ds : List U16} {b b1 b' : BusOf P} {stop : Outcome (ReadErrorOf P.Error) StatusPacket → Prop}
    (h : Visits w fuel cs b b1) (h' : StopsAt w fuel ds b1 b' stop) : StopsAt w fuel (cs ++ ds) b b' stop := by
  obtain ⟨done, c, rest, b2, o, rfl, h2, h3⟩ := h'
  exact ⟨cs ++ done, c, rest, b2, o, by simp, h.append h2, h3⟩

/-- What one call of `next` makes of a wait: a panic or a wait without end is passed on, an error is the item, and a response becomes an
item (or a panic, if the check of it does). -/
def ItemOf {E ι : Type} (o : Outcome (ReadErrorOf E) StatusPacket) (r : Outcome Empty (Option (Except (ReadErrorOf E) ι))) : Prop :=
  match o with
  | .ok _ => (∃ x, r = .ok (some x)) ∨ r = .panic
  | .err e => r = .ok (some (.error e))
  | .panic => r = .panic
  | .hang => r = .hang

/-- An iterator that has responses with the counts `left` to wait for. -/
structure WaitsFor {σ ι : Type} (w fuel : Nat) (stop : Outcome (ReadErrorOf P.Error) StatusPacket → Prop)
    (next : SO σ Empty (Option (Except (ReadErrorOf P.Error) ι))) (drop : SO σ Empty Unit)
    (client : σ → BusOf P) (left : σ → List U16) (ok : σ → Prop) : Prop where
  none : ∀ s, ok s → left s = [] → next s = (s, .ok .none)
  some : ∀ s c cs, ok s → left s = c :: cs → ok (next s).1 ∧ left (next s).1 = cs ∧
    client (next s).1 = (BusOf.readStatusResponse w c fuel (client s)).1 ∧
    ItemOf (BusOf.readStatusResponse w c fuel (client s)).2 (next s).2
  drop : ∀ s, ok s → match drop s with
    | (s', .ok _) => Awaited w fuel (left s) (client s) (client s')
    | (_, .err _) => False
    | (s', .panic) => StopsAt w fuel (left s) (client s) (client s') stop
    | (s', .hang) => StopsAt w fuel (left s) (client s) (client s') (· = .hang)

section
variable {σ ι ω : Type} {w fuel : Nat} {stop : Outcome (ReadErrorOf P.Error) StatusPacket → Prop}
  {next : SO σ Empty (Option (Except (ReadErrorOf P.Error) ι))} {drop : SO σ Empty Unit}
  {client : σ → BusOf P} {left : σ → List U16} {ok : σ → Prop}

theorem WaitsFor.run (h : WaitsFor w fuel stop next drop client left ok) (code : LoopCode (Except (ReadErrorOf P.Error) ι) ω) :
    ∀ s, ok s → match code.run next s with
    | (s', .ok _) => ok s' ∧ ∃ done, left s = done ++ left s' ∧ Awaited w fuel done (client s) (client s')
    | (_, .err _) => False
    | (s', .panic) => ok s' ∧ ∃ done, left s = done ++ left s' ∧ Visits w fuel done (client s) (client s')
    | (s', .hang) => StopsAt w fuel (left s) (client s) (client s') (· = .hang) := by
  induction code with
  | returns a => exact fun s hs => ⟨hs, [], rfl, .nil _⟩
  | panics => exact fun s hs => ⟨hs, [], rfl, .nil _⟩
  | asks k ih =>
    intro s hs
    unfold LoopCode.run
    rw [SO.bind_def]
    cases hl : left s with
    | nil =>
      rw [h.none s hs hl]
      have := ih .none s hs
      rw [hl] at this
      exact this
    | cons c cs =>
      obtain ⟨h1, h2, h3, h4⟩ := h.some s c cs hs hl
      rcases hn : next s with ⟨s1, o⟩
      rw [hn] at h1 h2 h3 h4
      dsimp only at h1 h2 h3 h4
      rcases hr : BusOf.readStatusResponse w c fuel (client s) with ⟨b1, r⟩
      rw [hr] at h3 h4
      dsimp only at h3 h4
      subst h3
      have go : ∀ x, o = .ok (.some x) → r ≠ .hang → r ≠ .panic → (match (k (.some x)).run next s1 with
          | (s', .ok _) => ok s' ∧ ∃ done, c :: cs = done ++ left s' ∧ Awaited w fuel done (client s) (client s')
          | (_, .err _) => False
          | (s', .panic) => ok s' ∧ ∃ done, c :: cs = done ++ left s' ∧ Visits w fuel done (client s) (client s')
          | (s', .hang) => StopsAt w fuel (c :: cs) (client s) (client s') (· = .hang)) := by
        intro x _ hh hp
        have h5 := ih (.some x) s1 h1
        rcases hx : (k (.some x)).run next s1 with ⟨s', a | e | _ | _⟩ <;> rw [hx] at h5 <;> dsimp only at h5 ⊢
        · obtain ⟨h6, done, h7, h8⟩ := h5
          exact ⟨h6, c :: done, by rw [← h2, h7]; rfl, .cons hr hh hp h8⟩
        · obtain ⟨h6, done, h7, h8⟩ := h5
          exact ⟨h6, c :: done, by rw [← h2, h7]; rfl, .cons hr hh h8⟩
        · rw [h2] at h5
          exact StopsAt.after (cs := [c]) (.cons hr hh (.nil _)) h5
      cases r with
      | ok st =>
        obtain ⟨x, rfl⟩ | rfl := h4
        · exact go x rfl (by simp) (by simp)
        · exact ⟨h1, [c], by rw [h2]; rfl, .cons hr (by simp) (.nil _)⟩
      | err e =>
        have h4 : o = .ok (.some (.error e)) := h4
        subst h4
        exact go _ rfl (by simp) (by simp)
      | panic =>
        have h4 : o = .panic := h4
        subst h4
        exact ⟨h1, [c], by rw [h2]; rfl, .cons hr (by simp) (.nil _)⟩
      | hang =>
        have h4 : o = .hang := h4
        subst h4
        exact ⟨[], c, cs, client s, _, rfl, .nil _, hr, rfl⟩

theorem WaitsFor.scope (h : WaitsFor w fuel stop next drop client left ok) (code : LoopCode (Except (ReadErrorOf P.Error) ι) ω) (s : σ)
    (hs : ok s) : EndsWith w fuel stop (left s) (client s) (client (scopeOf next drop code s).1) (scopeOf next drop code s).2 := by
  have h1 := h.run code s hs
  unfold scopeOf
  rcases hc : code.run next s with ⟨s1, a | e | _ | _⟩ <;> rw [hc] at h1 <;> dsimp only at h1 ⊢
  · obtain ⟨h2, done, h3, h4⟩ := h1
    have h5 := h.drop s1 h2
    rw [h3]
    rcases hd : drop s1 with ⟨s2, _ | e | _ | _⟩ <;> rw [hd] at h5 <;> dsimp only at h5 ⊢
    · exact .returned _ (h4.append h5)
    · exact .unwound (.inr (StopsAt.after h4.visits h5))
    · exact .hung (StopsAt.after h4.visits h5)
  · obtain ⟨h2, done, h3, h4⟩ := h1
    have h5 := h.drop s1 h2
    rw [h3]
    rcases hd : drop s1 with ⟨s2, _ | e | _ | _⟩ <;> rw [hd] at h5 <;> dsimp only at h5 ⊢
    · exact .unwound (.inl (h4.append h5.visits))
    · exact .aborted (StopsAt.after h4 h5)
    · exact .hung (StopsAt.after h4 h5)
  · exact .hung h1

end

/-! ## The iterators -/

/-- What `next` makes of the response of the motor whose turn it is. -/
def ItemFor {E : Type} (motorId : Byte) (count : U16) (s : StatusPacket) (r : Outcome Empty (Option (Except (ReadErrorOf E) (Response (List Byte))))) :
    Prop :=
  ∀ id e ps, Carries s.packet id 0x55#8 (e :: ps) → r = .ok (some (
    if id ≠ motorId then .error (.invalidMessage (.packetId id motorId))
    else if ps.length ≠ count.toNat then .error (.invalidMessage (.parameterCount ps.length (.exact count.toNat)))
    else if e.toNat % 128 ≠ 0 then .error (.motorError ⟨e⟩)
    else .ok ⟨motorId, decide (128 ≤ e.toNat), ps⟩))


/-- The waits that are left to a sync read. -/
def syncLeft (s : SyncIterOf P) : List U16 := (s.motorIds.drop s.index).map fun _ => s.count

/-- The waits that are left to a bulk read. -/
def bulkLeft (s : BulkIterOf P) : List U16 := (s.reads.drop s.index).map BulkReadData.count

def toItem {E α : Type} : Outcome (ReadErrorOf E) α → Outcome Empty (Option (Except (ReadErrorOf E) α))
  | .ok a => .ok (some (.ok a))
  | .err e => .ok (some (.error e))
  | .panic => .panic
  | .hang => .hang

theorem idx_not_hang {ε : Type} (l : List Byte) (i : Nat) : (idx l i : Outcome ε Byte) ≠ .hang := by
  unfold idx
  split <;> simp

theorem sliceFrom_not_hang {ε : Type} (l : List Byte) (i : Nat) : (sliceFrom l i : Outcome ε (List Byte)) ≠ .hang := by
  unfold sliceFrom slice
  split <;> simp

theorem bind_not_hang {ε α β : Type} {x : Outcome ε α} {f : α → Outcome ε β} (hx : x ≠ .hang) (hf : ∀ a, f a ≠ .hang) :
    (x >>= f) ≠ .hang := by
  cases x with
  | ok a => exact hf a
  | err e => exact fun h => nomatch h
  | panic => exact fun h => nomatch h
  | hang => exact absurd rfl hx

theorem mapErr_not_hang {ε ε' α : Type} {x : Outcome ε α} (f : ε → ε') (hx : x ≠ .hang) : x.mapErr f ≠ .hang := by
  cases x with
  | hang => exact absurd rfl hx
  | _ => exact fun h => nomatch h

theorem checkResponse_not_hang (st : StatusPacket) (id : Byte) (count : U16) : SyncIter.checkResponse st id count ≠ .hang := by
  unfold SyncIter.checkResponse
  refine bind_not_hang (idx_not_hang _ _) fun _ => bind_not_hang (mapErr_not_hang _ ?_) fun _ =>
    bind_not_hang (sliceFrom_not_hang _ _) fun _ => mapErr_not_hang _ ?_
  · unfold checkPacketId; split <;> simp
  · unfold checkCount; split <;> simp

theorem decodeBytes_not_hang (st : StatusPacket) : decodeStatusPacketBytes st ≠ .hang := by
  unfold decodeStatusPacketBytes
  refine bind_not_hang (idx_not_hang _ _) fun _ => bind_not_hang ?_ fun _ => bind_not_hang (idx_not_hang _ _) fun _ =>
    bind_not_hang ?_ fun _ => bind_not_hang (sliceFrom_not_hang _ _) fun _ => fun h => nomatch h
  · unfold MotorError.check; split <;> simp
  · unfold StatusPacket.alert
    exact bind_not_hang (idx_not_hang _ _) fun _ => fun h => nomatch h

/-- The check of a response and what is made of it. -/
def checkedItem {E : Type} (st : StatusPacket) (id : Byte) (count : U16) : Outcome (ReadErrorOf E) (Response (List Byte)) :=
  ((SyncIter.checkResponse st id count).mapErr BusOf.readError).bind fun _ => (decodeStatusPacketBytes st).mapErr .motorError

theorem checkedItem_not_hang {E : Type} (st : StatusPacket) (id : Byte) (count : U16) : checkedItem (E := E) st id count ≠ .hang :=
  bind_not_hang (mapErr_not_hang _ (checkResponse_not_hang st id count)) fun _ => mapErr_not_hang _ (decodeBytes_not_hang st)

theorem toItem_cases {E α : Type} {x : Outcome (ReadErrorOf E) α} (h : x ≠ .hang) : (∃ y, toItem x = .ok (some y)) ∨ toItem x = .panic := by
  cases x with
  | ok a => exact .inl ⟨_, rfl⟩
  | err e => exact .inl ⟨_, rfl⟩
  | panic => exact .inr rfl
  | hang => exact absurd rfl h

theorem checkedItem_for {E : Type} (st : StatusPacket) (id : Byte) (count : U16) :
    ItemFor (E := E) id count st (toItem (checkedItem st id count)) := by
  intro rid e ps h
  unfold checkedItem
  rw [checkResponse_carries h, decodeBytes_carries h]
  by_cases h1 : rid = id
  · subst h1
    by_cases h2 : ps.length = count.toNat
    · by_cases h3 : e.toNat % 128 = 0
      · simp [h2, h3, toItem, Outcome.mapErr, Outcome.bind]
      · simp [h2, h3, toItem, Outcome.mapErr, Outcome.bind]
    · simp [h2, toItem, Outcome.mapErr, Outcome.bind, BusOf.readError]
  · simp [h1, toItem, Outcome.mapErr, Outcome.bind, BusOf.readError]

theorem toItem_bind {E α : Type} (o : Outcome (ReadErrorOf E) StatusPacket) (f : StatusPacket → Outcome (ReadErrorOf E) α)
    (hf : ∀ st, f st ≠ .hang) : ItemOf o (toItem (o.bind f)) := by
  cases o with
  | ok st => exact toItem_cases (hf st)
  | _ => rfl

theorem any_nextBytes_eq (w fuel : Nat) (s : SyncIterOf P) {id : Byte} (hi : s.motorIds[s.index]? = some id) :
    SyncIterOf.nextBytes (ε := Empty) w fuel s =
      ({ s with index := s.index + 1, client := (BusOf.readStatusResponse w s.count fuel s.client).1 },
        toItem ((BusOf.readStatusResponse w s.count fuel s.client).2.bind fun st => checkedItem st id s.count)) := by
  have hp : (SyncIterOf.popMotorId s : _ × Outcome Empty _) = ({ s with index := s.index + 1 }, .ok (some id)) := by
    unfold SyncIterOf.popMotorId
    rw [hi]
  unfold SyncIterOf.nextBytes
  rw [SO.bind_ok hp]
  dsimp only
  rw [SO.bind_def]
  unfold SO.attempt SyncIterOf.nextResponseBytes
  rw [SO.get_bind, SO.bind_def]
  simp only [SyncIterOf.onClient, SO.zoom]
  rcases BusOf.readStatusResponse w s.count fuel s.client with ⟨c, o⟩
  cases o with
  | ok st =>
    dsimp only [Outcome.bind, checkedItem]
    rw [SO.bind_def, SO.lift_apply]
    cases SyncIter.checkResponse st id s.count with
    | ok u =>
      dsimp only [Outcome.bind, Outcome.mapErr]
      rw [SO.lift_apply]
      cases decodeStatusPacketBytes st <;> rfl
    | _ => rfl
  | _ => rfl

theorem any_next_eq {α : Type} (w : Nat) (d : DataTy α) (fuel : Nat) (s : SyncIterOf P) {id : Byte}
    (hi : s.motorIds[s.index]? = some id) :
    SyncIterOf.next (ε := Empty) w d fuel s =
      ({ s with index := s.index + 1, client := (BusOf.readStatusResponse w d.size fuel s.client).1 },
        toItem ((BusOf.readStatusResponse w d.size fuel s.client).2.bind fun st =>
          ((SyncIter.checkResponse st id d.size).mapErr BusOf.readError).bind fun _ =>
            (decodeStatusPacket d st).mapErr BusOf.readError)) := by
  have hp : (SyncIterOf.popMotorId s : _ × Outcome Empty _) = ({ s with index := s.index + 1 }, .ok (some id)) := by
    unfold SyncIterOf.popMotorId
    rw [hi]
  unfold SyncIterOf.next
  rw [SO.bind_ok hp]
  dsimp only
  rw [SO.bind_def]
  unfold SO.attempt SyncIterOf.nextResponse
  rw [SO.bind_def]
  simp only [SyncIterOf.onClient, SO.zoom]
  rcases BusOf.readStatusResponse w d.size fuel s.client with ⟨c, o⟩
  cases o with
  | ok st =>
    dsimp only [Outcome.bind]
    rw [SO.bind_def, SO.lift_apply]
    cases SyncIter.checkResponse st id d.size with
    | ok u =>
      dsimp only [Outcome.bind, Outcome.mapErr]
      rw [SO.lift_apply]
      cases decodeStatusPacket d st <;> rfl
    | _ => rfl
  | _ => rfl

theorem any_nextBulk_eq (w fuel : Nat) (s : BulkIterOf P) {r : BulkReadData} (hi : s.reads[s.index]? = some r) :
    BulkIterOf.next (ε := Empty) w fuel s =
      ({ s with index := s.index + 1, client := (BusOf.readStatusResponse w r.count fuel s.client).1 },
        toItem ((BusOf.readStatusResponse w r.count fuel s.client).2.bind fun st => checkedItem st r.motorId r.count)) := by
  have hp : (BulkIterOf.pop s : _ × Outcome Empty _) = ({ s with index := s.index + 1 }, .ok (some r)) := by
    unfold BulkIterOf.pop
    rw [hi]
  unfold BulkIterOf.next
  rw [SO.bind_ok hp]
  dsimp only
  rw [SO.bind_def]
  unfold SO.attempt BulkIterOf.nextResponse
  rw [SO.bind_def]
  simp only [BulkIterOf.onClient, SO.zoom]
  rcases BusOf.readStatusResponse w r.count fuel s.client with ⟨c, o⟩
  cases o with
  | ok st =>
    dsimp only [Outcome.bind, checkedItem]
    rw [SO.bind_def, SO.lift_apply]
    cases SyncIter.checkResponse st r.motorId r.count with
    | ok u =>
      dsimp only [Outcome.bind, Outcome.mapErr]
      rw [SO.lift_apply]
      cases decodeStatusPacketBytes st <;> rfl
    | _ => rfl
  | _ => rfl

/-- **C107** One call of `next` of a sync read: at the end it is none and nothing changes. Otherwise it is the turn of the next motor, also if
this call fails; the client waits for one response, and nothing else. An error is the item, a panic or a wait without end is one of the call,
and a response is checked: it must be of this motor, with the right number of bytes and no error. -/
theorem c107_next_bytes (w fuel : Nat) (s : SyncIterOf P) :
    (s.motorIds.length ≤ s.index → SyncIterOf.nextBytes (ε := Empty) w fuel s = (s, .ok none)) ∧
    ∀ id, s.motorIds[s.index]? = some id →
      (SyncIterOf.nextBytes (ε := Empty) w fuel s).1 =
        { s with index := s.index + 1, client := (BusOf.readStatusResponse w s.count fuel s.client).1 } ∧
      ItemOf (BusOf.readStatusResponse w s.count fuel s.client).2 (SyncIterOf.nextBytes w fuel s).2 ∧
      ∀ st, (BusOf.readStatusResponse w s.count fuel s.client).2 = .ok st →
        ItemFor id s.count st (SyncIterOf.nextBytes (P := P) w fuel s).2 := by
  constructor
  · intro h
    unfold SyncIterOf.nextBytes
    rw [SO.bind_def]
    unfold SyncIterOf.popMotorId
    rw [List.getElem?_eq_none h]
    rfl
  · intro id h
    rw [any_nextBytes_eq w fuel s h]
    refine ⟨rfl, toItem_bind _ _ fun st => checkedItem_not_hang _ _ _, fun st hst => ?_⟩
    rw [hst]
    exact checkedItem_for _ _ _

/-- **C107** The same for a sync read of a data type, up to what its decoding makes of the data. -/
theorem c107_next {α : Type} (w : Nat) {d : DataTy α} (hd : ∀ ps, d.decode ps ≠ .hang) (fuel : Nat) (s : SyncIterOf P) :
    (s.motorIds.length ≤ s.index → SyncIterOf.next (ε := Empty) w d fuel s = (s, .ok none)) ∧
    ∀ id, s.motorIds[s.index]? = some id →
      (SyncIterOf.next (ε := Empty) w d fuel s).1 =
        { s with index := s.index + 1, client := (BusOf.readStatusResponse w d.size fuel s.client).1 } ∧
      ItemOf (BusOf.readStatusResponse w d.size fuel s.client).2 (SyncIterOf.next w d fuel s).2 := by
  constructor
  · intro h
    unfold SyncIterOf.next
    rw [SO.bind_def]
    unfold SyncIterOf.popMotorId
    rw [List.getElem?_eq_none h]
    rfl
  · intro id h
    rw [any_next_eq w d fuel s h]
    refine ⟨rfl, toItem_bind _ _ fun st => ?_⟩
    refine bind_not_hang (mapErr_not_hang _ (checkResponse_not_hang _ _ _)) fun _ => mapErr_not_hang _ ?_
    unfold decodeStatusPacket
    refine bind_not_hang (idx_not_hang _ _) fun _ => bind_not_hang (mapErr_not_hang _ ?_) fun _ => bind_not_hang (idx_not_hang _ _) fun _ =>
      bind_not_hang ?_ fun _ => bind_not_hang (sliceFrom_not_hang _ _) fun _ => bind_not_hang (mapErr_not_hang _ (hd _)) fun _ =>
        fun h => nomatch h
    · unfold MotorError.check; split <;> simp
    · unfold StatusPacket.alert
      exact bind_not_hang (idx_not_hang _ _) fun _ => fun h => nomatch h

theorem any_next_panics {α : Type} (w : Nat) (d : DataTy α) (fuel : Nat) (s : SyncIterOf P) {id : Byte} (h : s.motorIds[s.index]? = some id)
    (st : StatusPacket) (hst : (BusOf.readStatusResponse w d.size fuel s.client).2 = .ok st)
    (hp : (SyncIterOf.next (ε := Empty) w d fuel s).2 = .panic) :
    ∀ id' e ps, Carries st.packet id' 0x55#8 (e :: ps) → d.decode ps = .panic := by
  intro id' e ps hc
  rw [any_next_eq w d fuel s h, hst] at hp
  dsimp only [Outcome.bind] at hp
  rw [checkResponse_carries hc, decode_carries d hc] at hp
  cases hdec : d.decode ps with
  | panic => rfl
  | _ =>
    exfalso
    rw [hdec] at hp
    revert hp
    by_cases h1 : id' = id
    · by_cases h2 : ps.length = d.size.toNat
      · by_cases h3 : e.toNat % 128 = 0 <;> simp [h1, h2, h3, toItem, Outcome.mapErr]
      · simp [h1, h2, toItem, Outcome.mapErr]
    · simp [h1, toItem, Outcome.mapErr]

/-- The item made of what the decoding makes of the data. -/
inductive Decoded {E α : Type} (motorId : Byte) (alert : Bool) : Outcome InvalidMessage α →
    Outcome Empty (Option (Except (ReadErrorOf E) (Response α))) → Prop
  | value (a : α) : Decoded motorId alert (.ok a) (.ok (some (.ok ⟨motorId, alert, a⟩)))
  | error (e : InvalidMessage) : Decoded motorId alert (.err e) (.ok (some (.error (.invalidMessage e))))
  | panics : Decoded motorId alert .panic .panic
  | hangs : Decoded motorId alert .hang .hang

/-- **C107** A response to a sync read of a data type is checked for the motor, the number of bytes and the error byte, in this
order, and only then are the data decoded: the item is the value, or the error of the decoding, or the call panics with it. -/
theorem c107_next_item {α : Type} (w : Nat) (d : DataTy α) (fuel : Nat) (s : SyncIterOf P) {motorId : Byte}
    (h : s.motorIds[s.index]? = some motorId) {st : StatusPacket} (hst : (BusOf.readStatusResponse w d.size fuel s.client).2 = .ok st)
    {id e : Byte} {ps : List Byte} (hc : Carries st.packet id 0x55#8 (e :: ps)) :
    (id ≠ motorId → (SyncIterOf.next (ε := Empty) w d fuel s).2 = .ok (some (.error (.invalidMessage (.packetId id motorId))))) ∧
    (id = motorId → ps.length ≠ d.size.toNat → (SyncIterOf.next (ε := Empty) w d fuel s).2 =
      .ok (some (.error (.invalidMessage (.parameterCount ps.length (.exact d.size.toNat)))))) ∧
    (id = motorId → ps.length = d.size.toNat → e.toNat % 128 ≠ 0 →
      (SyncIterOf.next (ε := Empty) w d fuel s).2 = .ok (some (.error (.motorError ⟨e⟩)))) ∧
    (id = motorId → ps.length = d.size.toNat → e.toNat % 128 = 0 →
      Decoded motorId (decide (128 ≤ e.toNat)) (d.decode ps) (SyncIterOf.next (ε := Empty) w d fuel s).2) := by
  rw [any_next_eq w d fuel s h, hst]
  dsimp only [Outcome.bind]
  rw [checkResponse_carries hc, decode_carries d hc]
  refine ⟨fun h1 => ?_, fun h1 h2 => ?_, fun h1 h2 h3 => ?_, fun h1 h2 h3 => ?_⟩
  · simp [h1, toItem, Outcome.mapErr, BusOf.readError]
  · simp [h1, h2, toItem, Outcome.mapErr, BusOf.readError]
  · simp [h1, h2, h3, toItem, Outcome.mapErr, BusOf.readError]
  · cases hdec : d.decode ps with
    | ok a => simp [h1, h2, h3, toItem, Outcome.mapErr]; exact .value a
    | err x => simp [h1, h2, h3, toItem, Outcome.mapErr, BusOf.readError]; exact .error x
    | panic => simp [h1, h2, h3, toItem, Outcome.mapErr]; exact .panics
    | hang => simp [h1, h2, h3, toItem, Outcome.mapErr]; exact .hangs

/-- **C107** The same for a bulk read, where each motor has its own count. -/
theorem c107_next_bulk (w fuel : Nat) (s : BulkIterOf P) :
    (s.reads.length ≤ s.index → BulkIterOf.next (ε := Empty) w fuel s = (s, .ok none)) ∧
    ∀ r, s.reads[s.index]? = some r →
      (BulkIterOf.next (ε := Empty) w fuel s).1 =
        { s with index := s.index + 1, client := (BusOf.readStatusResponse w r.count fuel s.client).1 } ∧
      ItemOf (BusOf.readStatusResponse w r.count fuel s.client).2 (BulkIterOf.next w fuel s).2 ∧
      ∀ st, (BusOf.readStatusResponse w r.count fuel s.client).2 = .ok st →
        ItemFor r.motorId r.count st (BulkIterOf.next (P := P) w fuel s).2 := by
  constructor
  · intro h
    unfold BulkIterOf.next
    rw [SO.bind_def]
    unfold BulkIterOf.pop
    rw [List.getElem?_eq_none h]
    rfl
  · intro r h
    rw [any_nextBulk_eq w fuel s h]
    refine ⟨rfl, toItem_bind _ _ fun st => checkedItem_not_hang _ _ _, fun st hst => ?_⟩
    rw [hst]
    exact checkedItem_for _ _ _

theorem any_dropBytes (w fuel n : Nat) : ∀ s : SyncIterOf P, s.motorIds.length - s.index < n →
    match SyncIterOf.dropBytes (ε := Empty) w fuel n s with
    | (s', .ok _) => Awaited w fuel (syncLeft s) s.client s'.client
    | (_, .err _) => False
    | (s', .panic) => StopsAt w fuel (syncLeft s) s.client s'.client (· = .panic)
    | (s', .hang) => StopsAt w fuel (syncLeft s) s.client s'.client (· = .hang) := by
  induction n with
  | zero => intro s h; omega
  | succ n ih =>
    intro s hn
    unfold SyncIterOf.dropBytes
    rw [SO.bind_def]
    unfold SyncIterOf.popMotorId
    by_cases hi : s.index < s.motorIds.length
    · have hl : syncLeft s = s.count :: syncLeft { s with index := s.index + 1 } := by
        unfold syncLeft
        rw [List.drop_eq_getElem_cons hi]
        rfl
      rw [List.getElem?_eq_getElem hi, hl]
      dsimp only
      rw [SO.get_bind, SO.bind_def]
      unfold SO.attempt SyncIterOf.onClient SO.zoom
      dsimp only
      rcases hr : BusOf.readStatusResponse w s.count fuel s.client with ⟨c, o⟩
      have h5 := ih { s with index := s.index + 1, client := c } (by dsimp only; omega)
      have hk : syncLeft { s with index := s.index + 1, client := c } = syncLeft { s with index := s.index + 1 } := rfl
      rw [hk] at h5
      have go : o ≠ .hang → o ≠ .panic → (match SyncIterOf.dropBytes (ε := Empty) w fuel n { s with index := s.index + 1, client := c } with
          | (s', .ok _) => Awaited w fuel (s.count :: syncLeft { s with index := s.index + 1 }) s.client s'.client
          | (_, .err _) => False
          | (s', .panic) => StopsAt w fuel (s.count :: syncLeft { s with index := s.index + 1 }) s.client s'.client (· = .panic)
          | (s', .hang) => StopsAt w fuel (s.count :: syncLeft { s with index := s.index + 1 }) s.client s'.client (· = .hang)) := by
        intro hh hp
        rcases hx : SyncIterOf.dropBytes (ε := Empty) w fuel n { s with index := s.index + 1, client := c } with ⟨s', _ | e | _ | _⟩ <;>
          rw [hx] at h5 <;> dsimp only at h5 ⊢
        · exact .cons hr hh hp h5
        · exact StopsAt.after (cs := [s.count]) (.cons hr hh (.nil _)) h5
        · exact StopsAt.after (cs := [s.count]) (.cons hr hh (.nil _)) h5
      cases o with
      | ok st => exact go (by simp) (by simp)
      | err e => exact go (by simp) (by simp)
      | panic => exact ⟨[], s.count, _, s.client, _, rfl, .nil _, hr, rfl⟩
      | hang => exact ⟨[], s.count, _, s.client, _, rfl, .nil _, hr, rfl⟩
    · rw [List.getElem?_eq_none (by omega)]
      have hl : syncLeft s = [] := by unfold syncLeft; rw [List.drop_eq_nil_of_le (by omega)]; rfl
      rw [hl]
      exact .nil _

theorem any_dropLoop (w fuel : Nat) (rs : List BulkReadData) : ∀ s : BulkIterOf P,
    match BulkIterOf.dropLoop (ε := Empty) w fuel rs s with
    | (s', .ok _) => Awaited w fuel (rs.map BulkReadData.count) s.client s'.client
    | (_, .err _) => False
    | (s', .panic) => StopsAt w fuel (rs.map BulkReadData.count) s.client s'.client (· = .panic)
    | (s', .hang) => StopsAt w fuel (rs.map BulkReadData.count) s.client s'.client (· = .hang) := by
  induction rs with
  | nil => exact fun s => .nil _
  | cons r rs ih =>
    intro s
    unfold BulkIterOf.dropLoop
    rw [SO.bind_def]
    unfold SO.attempt BulkIterOf.onClient SO.zoom
    dsimp only
    rcases hr : BusOf.readStatusResponse w r.count fuel s.client with ⟨c, o⟩
    have h5 := ih { s with client := c }
    have go : o ≠ .hang → o ≠ .panic → (match BulkIterOf.dropLoop (ε := Empty) w fuel rs { s with client := c } with
        | (s', .ok _) => Awaited w fuel ((r :: rs).map BulkReadData.count) s.client s'.client
        | (_, .err _) => False
        | (s', .panic) => StopsAt w fuel ((r :: rs).map BulkReadData.count) s.client s'.client (· = .panic)
        | (s', .hang) => StopsAt w fuel ((r :: rs).map BulkReadData.count) s.client s'.client (· = .hang)) := by
      intro hh hp
      rcases hx : BulkIterOf.dropLoop (ε := Empty) w fuel rs { s with client := c } with ⟨s', _ | e | _ | _⟩ <;>
        rw [hx] at h5 <;> dsimp only at h5 ⊢
      · exact .cons hr hh hp h5
      · exact StopsAt.after (cs := [r.count]) (.cons hr hh (.nil _)) h5
      · exact StopsAt.after (cs := [r.count]) (.cons hr hh (.nil _)) h5
    cases o with
    | ok st => exact go (by simp) (by simp)
    | err e => exact go (by simp) (by simp)
    | panic => exact ⟨[], r.count, _, s.client, _, rfl, .nil _, hr, rfl⟩
    | hang => exact ⟨[], r.count, _, s.client, _, rfl, .nil _, hr, rfl⟩

/-- **C107** Whatever the port does, and whatever code uses the iterator of a sync read: if the scope returns, the client has waited for each
response once, in order, and nothing else. If it is left by a panic, either all of them have been waited for, or the destructor has panicked
in such a wait. It is aborted only by a panic in a wait of the destructor, and it does not end only if a wait does not. -/
theorem c107_sync_bytes {ω : Type} (w fuel n : Nat) (code : LoopCode (Except (ReadErrorOf P.Error) (Response (List Byte))) ω)
    (s : SyncIterOf P) (hn : s.motorIds.length - s.index < n) :
    EndsWith w fuel (· = .panic) (List.replicate (s.motorIds.length - s.index) s.count) s.client
      (scopeOf (SyncIterOf.nextBytes w fuel) (SyncIterOf.dropBytes w fuel n) code s).1.client
      (scopeOf (SyncIterOf.nextBytes w fuel) (SyncIterOf.dropBytes w fuel n) code s).2 := by
  have hl : List.replicate (s.motorIds.length - s.index) s.count = syncLeft s := by
    unfold syncLeft
    rw [List.map_const', List.length_drop]
  rw [hl]
  refine WaitsFor.scope (client := SyncIterOf.client) (left := syncLeft) (ok := fun s => s.motorIds.length - s.index < n)
    ⟨fun s _ h => ?_, fun s c cs hs h => ?_, fun s hs => ?_⟩ code s hn
  · refine (c107_next_bytes w fuel s).1 ?_
    unfold syncLeft at h
    have := congrArg List.length h
    simp at this
    omega
  · have hi : s.index < s.motorIds.length := by
      have := congrArg List.length h
      unfold syncLeft at this
      simp at this
      omega
    have hl : syncLeft s = s.count :: syncLeft { s with index := s.index + 1 } := by
      unfold syncLeft
      rw [List.drop_eq_getElem_cons hi]
      rfl
    rw [hl] at h
    obtain ⟨rfl, rfl⟩ := List.cons.inj h
    obtain ⟨h1, h2, -⟩ := (c107_next_bytes w fuel s).2 _ (List.getElem?_eq_getElem hi)
    rw [h1]
    exact ⟨by dsimp only; omega, rfl, rfl, h2⟩
  · have h := any_dropBytes w fuel n s hs
    rcases hx : SyncIterOf.dropBytes (ε := Empty) w fuel n s with ⟨s', _ | e | _ | _⟩ <;> rw [hx] at h <;> exact h

/-- Waits in which a destructor that decodes panics: the wait does, or there is a response with data on which the decoding does. -/
def PanicsOn {E α : Type} (d : DataTy α) (o : Outcome (ReadErrorOf E) StatusPacket) : Prop :=
  o = .panic ∨ ∃ st, o = .ok st ∧ ∀ id e ps, Carries st.packet id 0x55#8 (e :: ps) → d.decode ps = .panic

theorem any_drop {α : Type} (w : Nat) {d : DataTy α} (hd : ∀ ps, d.decode ps ≠ .hang) (fuel n : Nat) : ∀ s : SyncIterOf P,
    s.motorIds.length - s.index < n →
    match SyncIterOf.drop (ε := Empty) w d fuel n s with
    | (s', .ok _) => Awaited w fuel (List.replicate (s.motorIds.length - s.index) d.size) s.client s'.client
    | (_, .err _) => False
    | (s', .panic) => StopsAt w fuel (List.replicate (s.motorIds.length - s.index) d.size) s.client s'.client (PanicsOn d)
    | (s', .hang) => StopsAt w fuel (List.replicate (s.motorIds.length - s.index) d.size) s.client s'.client (· = .hang) := by
  induction n with
  | zero => intro s h; omega
  | succ n ih =>
    intro s hn
    unfold SyncIterOf.drop
    rw [SO.bind_def]
    by_cases hi : s.index < s.motorIds.length
    · have hl : s.motorIds.length - s.index = (s.motorIds.length - (s.index + 1)) + 1 := by omega
      have hget := List.getElem?_eq_getElem hi
      have hpanic := any_next_panics w d fuel s hget
      obtain ⟨h1, h2⟩ := (c107_next w hd fuel s).2 _ hget
      rw [hl, List.replicate_succ]
      rcases hr : BusOf.readStatusResponse w d.size fuel s.client with ⟨c, o⟩
      rw [hr] at h1 h2 hpanic
      dsimp only at h1 h2 hpanic
      have h5 := ih { s with index := s.index + 1, client := c } (by dsimp only; omega)
      rcases hx : SyncIterOf.next (ε := Empty) w d fuel s with ⟨s1, r⟩
      rw [hx] at h1 h2 hpanic
      dsimp only at h1 h2 hpanic
      subst h1
      have go : o ≠ .hang → o ≠ .panic →
          (match SyncIterOf.drop (ε := Empty) w d fuel n { s with index := s.index + 1, client := c } with
          | (s', .ok _) => Awaited w fuel (d.size :: List.replicate (s.motorIds.length - (s.index + 1)) d.size) s.client s'.client
          | (_, .err _) => False
          | (s', .panic) => StopsAt w fuel (d.size :: List.replicate (s.motorIds.length - (s.index + 1)) d.size) s.client s'.client (PanicsOn d)
          | (s', .hang) => StopsAt w fuel (d.size :: List.replicate (s.motorIds.length - (s.index + 1)) d.size) s.client s'.client (· = .hang)) := by
        intro hh hp
        rcases hy : SyncIterOf.drop (ε := Empty) w d fuel n { s with index := s.index + 1, client := c } with ⟨s', _ | e | _ | _⟩ <;>
          rw [hy] at h5 <;> dsimp only at h5 ⊢
        · exact .cons hr hh hp h5
        · exact StopsAt.after (cs := [d.size]) (.cons hr hh (.nil _)) h5
        · exact StopsAt.after (cs := [d.size]) (.cons hr hh (.nil _)) h5
      cases o with
      | ok st =>
        obtain ⟨x, rfl⟩ | rfl := h2
        · exact go (by simp) (by simp)
        · exact ⟨[], d.size, _, s.client, _, rfl, .nil _, hr, .inr ⟨st, rfl, hpanic st rfl rfl⟩⟩
      | err e =>
        have h2 : r = .ok (some (.error e)) := h2
        subst h2
        exact go (by simp) (by simp)
      | panic =>
        have h2 : r = .panic := h2
        subst h2
        exact ⟨[], d.size, _, s.client, _, rfl, .nil _, hr, .inl rfl⟩
      | hang =>
        have h2 : r = .hang := h2
        subst h2
        exact ⟨[], d.size, _, s.client, _, rfl, .nil _, hr, rfl⟩
    · rw [(c107_next w hd fuel s).1 (by omega)]
      have hl : s.motorIds.length - s.index = 0 := by omega
      rw [hl]
      exact .nil _

theorem any_next_some {α : Type} (w : Nat) {d : DataTy α} (hd : ∀ ps, d.decode ps ≠ .hang) (fuel : Nat) (s : SyncIterOf P)
    (hi : s.index < s.motorIds.length) (s1 : SyncIterOf P) : SyncIterOf.next (ε := Empty) w d fuel s ≠ (s1, .ok none) := by
  intro h
  obtain ⟨-, h2⟩ := (c107_next w hd fuel s).2 _ (List.getElem?_eq_getElem hi)
  rcases hr : BusOf.readStatusResponse w d.size fuel s.client with ⟨c, o⟩
  rw [hr, h] at h2
  cases o with
  | ok st =>
    obtain ⟨x, h2⟩ | h2 := h2
    · simp at h2
    · simp at h2
  | err e => exact absurd (show (Outcome.ok none : Outcome Empty _) = .ok (some (Except.error (α := Response α) e)) from h2) (by simp)
  | panic => exact absurd (show (Outcome.ok none : Outcome Empty (Option (Except (ReadErrorOf P.Error) (Response α)))) = .panic from h2) (by simp)
  | hang => exact absurd (show (Outcome.ok none : Outcome Empty (Option (Except (ReadErrorOf P.Error) (Response α)))) = .hang from h2) (by simp)

/-- Calls of `next` of a sync read of a data type return these items. -/
inductive TypedItems {α : Type} (w : Nat) (d : DataTy α) (fuel : Nat) :
    List (Except (ReadErrorOf P.Error) (Response α)) → SyncIterOf P → SyncIterOf P → Prop
  | nil (s) : TypedItems w d fuel [] s s
  | cons {x xs s s1 s'} : SyncIterOf.next (ε := Empty) w d fuel s = (s1, .ok (some x)) → TypedItems w d fuel xs s1 s' →
      TypedItems w d fuel (x :: xs) s s'

/-- The call of `next` after which a destructor has nothing more to do, and how it then ends. -/
inductive LastCall {ι : Type} : Outcome Empty (Option ι) → Outcome Empty Unit → Prop
  | none : LastCall (.ok .none) (.ok ())
  | panics : LastCall .panic .panic
  | hangs : LastCall .hang .hang

/-- **C107** The destructor of a sync read of a data type is calls of `next`: it ignores items, errors too, until there is none
left, and then has taken one for each motor that was left; or until a call panics or does not end, and then it does the same. -/
theorem c107_sync_drop {α : Type} (w : Nat) {d : DataTy α} (hd : ∀ ps, d.decode ps ≠ .hang) (fuel n : Nat) (s : SyncIterOf P)
    (hn : s.motorIds.length - s.index < n) :
    ∃ xs c, TypedItems w d fuel xs s c ∧ c.motorIds = s.motorIds ∧ c.index = s.index + xs.length ∧
      (SyncIterOf.drop (ε := Empty) w d fuel n s).1 = (SyncIterOf.next (ε := Empty) w d fuel c).1 ∧
      LastCall (SyncIterOf.next (ε := Empty) w d fuel c).2 (SyncIterOf.drop (ε := Empty) w d fuel n s).2 ∧
      ((SyncIterOf.drop (ε := Empty) w d fuel n s).2 = .ok () → xs.length = s.motorIds.length - s.index) := by
  induction n generalizing s with
  | zero => omega
  | succ n ih =>
    unfold SyncIterOf.drop
    rw [SO.bind_def]
    by_cases hi : s.index < s.motorIds.length
    · obtain ⟨h1, -⟩ := (c107_next w hd fuel s).2 _ (List.getElem?_eq_getElem hi)
      rcases hx : SyncIterOf.next (ε := Empty) w d fuel s with ⟨s1, (_ | x) | e | _ | _⟩ <;> rw [hx] at h1 <;> dsimp only at h1 ⊢
      · exact absurd hx (any_next_some w hd fuel s hi s1)
      · obtain ⟨xs, c, g1, g2, g3, g4, g5, g6⟩ := ih s1 (by subst h1; dsimp only; omega)
        refine ⟨x :: xs, c, .cons hx g1, by rw [g2, h1], by rw [g3, h1, List.length_cons]; dsimp only; omega, g4, g5, fun h => ?_⟩
        rw [List.length_cons, g6 h, h1]
        dsimp only
        omega
      · exact nomatch e
      · exact ⟨[], s, .nil s, rfl, rfl, by rw [hx], by rw [hx]; exact .panics, by simp⟩
      · exact ⟨[], s, .nil s, rfl, rfl, by rw [hx], by rw [hx]; exact .hangs, by simp⟩
    · have h := (c107_next w hd fuel s).1 (by omega)
      rw [h]
      exact ⟨[], s, .nil s, rfl, rfl, by rw [h]; rfl, by rw [h]; exact .none, fun _ => by simp; omega⟩

/-- **C107** The same for a sync read of a data type. Its destructor decodes, so that it also panics on data on which the decoding does. -/
theorem c107_sync {α ω : Type} (w : Nat) {d : DataTy α} (hd : ∀ ps, d.decode ps ≠ .hang) (fuel n : Nat)
    (code : LoopCode (Except (ReadErrorOf P.Error) (Response α)) ω) (s : SyncIterOf P) (hn : s.motorIds.length - s.index < n) :
    EndsWith w fuel (PanicsOn d) (List.replicate (s.motorIds.length - s.index) d.size) s.client
      (scopeOf (SyncIterOf.next w d fuel) (SyncIterOf.drop w d fuel n) code s).1.client
      (scopeOf (SyncIterOf.next w d fuel) (SyncIterOf.drop w d fuel n) code s).2 := by
  refine WaitsFor.scope (client := SyncIterOf.client) (left := fun s => List.replicate (s.motorIds.length - s.index) d.size)
    (ok := fun s => s.motorIds.length - s.index < n) ⟨fun s _ h => ?_, fun s c cs hs h => ?_, fun s hs => ?_⟩ code s hn
  · refine (c107_next w hd fuel s).1 ?_
    have := congrArg List.length h
    simp at this
    omega
  · have hi : s.index < s.motorIds.length := by
      have := congrArg List.length h
      simp at this
      omega
    have hl : s.motorIds.length - s.index = (s.motorIds.length - (s.index + 1)) + 1 := by omega
    rw [hl, List.replicate_succ] at h
    obtain ⟨rfl, rfl⟩ := List.cons.inj h
    obtain ⟨h1, h2⟩ := (c107_next w hd fuel s).2 _ (List.getElem?_eq_getElem hi)
    rw [h1]
    exact ⟨by dsimp only; omega, rfl, rfl, h2⟩
  · have h := any_drop w hd fuel n s hs
    rcases hx : SyncIterOf.drop (ε := Empty) w d fuel n s with ⟨s', _ | e | _ | _⟩ <;> rw [hx] at h <;> exact h

/-- **C107** The same for a bulk read. -/
theorem c107_bulk {ω : Type} (w fuel : Nat) (code : LoopCode (Except (ReadErrorOf P.Error) (Response (List Byte))) ω)
    (s : BulkIterOf P) (hs : s.index ≤ s.reads.length) :
    EndsWith w fuel (· = .panic) ((s.reads.drop s.index).map BulkReadData.count) s.client
      (scopeOf (BulkIterOf.next w fuel) (BulkIterOf.drop w fuel) code s).1.client
      (scopeOf (BulkIterOf.next w fuel) (BulkIterOf.drop w fuel) code s).2 := by
  refine WaitsFor.scope (client := BulkIterOf.client) (left := bulkLeft) (ok := fun s => s.index ≤ s.reads.length)
    ⟨fun s _ h => ?_, fun s c cs hs h => ?_, fun s hs => ?_⟩ code s hs
  · refine (c107_next_bulk w fuel s).1 ?_
    unfold bulkLeft at h
    have := congrArg List.length h
    simp at this
    omega
  · have hi : s.index < s.reads.length := by
      have := congrArg List.length h
      unfold bulkLeft at this
      simp at this
      omega
    have hl : bulkLeft s = s.reads[s.index].count :: bulkLeft { s with index := s.index + 1 } := by
      unfold bulkLeft
      rw [List.drop_eq_getElem_cons hi]
      rfl
    rw [hl] at h
    obtain ⟨rfl, rfl⟩ := List.cons.inj h
    obtain ⟨h1, h2, -⟩ := (c107_next_bulk w fuel s).2 _ (List.getElem?_eq_getElem hi)
    rw [h1]
    exact ⟨by dsimp only; omega, rfl, rfl, h2⟩
  · unfold BulkIterOf.drop
    rw [SO.get_bind, if_pos hs]
    have h := any_dropLoop w fuel (s.reads.drop s.index) s
    rcases hx : BulkIterOf.dropLoop (ε := Empty) w fuel (s.reads.drop s.index) s with ⟨s', _ | e | _ | _⟩ <;> rw [hx] at h <;> exact h

/-- **C107** One call of `next` of a scan: what the port calls a timeout ends it, every other error is an item, and a panic or a wait without
end is one of the call. The client waits for one response, 253 times as long as one takes. -/
theorem c107_scan_next (w fuel : Nat) (b : BusOf P) :
    (match BusOf.scanNextResponse w fuel b with
    | (b', .ok r) => BusOf.scanNext (ε := Empty) w fuel b = (b', .ok (some (.ok r)))
    | (b', .err (.io e)) => BusOf.scanNext (ε := Empty) w fuel b =
        (b', .ok (if P.isTimeoutError e = true then none else some (.error (.io e))))
    | (b', .err e) => BusOf.scanNext (ε := Empty) w fuel b = (b', .ok (some (.error e)))
    | (b', .panic) => BusOf.scanNext (ε := Empty) w fuel b = (b', .panic)
    | (b', .hang) => BusOf.scanNext (ε := Empty) w fuel b = (b', .hang)) ∧
    ∀ time, messageTransferTime 14 b.rest.baudRate = (.ok time : Outcome (ReadErrorOf P.Error) Nat) →
      (BusOf.scanNextResponse w fuel b).1 = (BusOf.readStatusResponseTimeout w (time * 253 + 34000000) fuel b).1 := by
  constructor
  · unfold BusOf.scanNext
    rw [SO.bind_def]
    unfold SO.attempt
    rcases BusOf.scanNextResponse w fuel b with ⟨b', r | e | _ | _⟩
    · rfl
    · cases e with
      | io e => dsimp only; split <;> rfl
      | _ => rfl
    · rfl
    · rfl
  · intro time h
    unfold BusOf.scanNextResponse
    rw [SO.get_bind, h, SO.lift_ok_bind, SO.bind_def]
    have hf : Client.flatTimeout = 34000000 := rfl
    rw [hf]
    rcases BusOf.readStatusResponseTimeout w (time * 253 + 34000000) fuel b with ⟨c, st | e | _ | _⟩ <;> rfl

/-! ## A scan -/

/-- Calls of `next` that return, with these items. -/
inductive ScanAsks (w fuel : Nat) : List (Option (Except (ReadErrorOf P.Error) (Response Client.Ping))) → BusOf P → BusOf P → Prop
  | nil (b) : ScanAsks w fuel [] b b
  | cons {x xs b b1 b'} : BusOf.scanNext (ε := Empty) w fuel b = (b1, .ok x) → ScanAsks w fuel xs b1 b' → ScanAsks w fuel (x :: xs) b b'

/-- Code asked for these items, and then came to a value, or panicked. -/
inductive Came {ι ω : Type} : LoopCode ι ω → List (Option ι) → Option ω → Prop
  | returns (a) : Came (.returns a) [] (some a)
  | panics : Came .panics [] none
  | asks {k x xs o} : Came (k x) xs o → Came (.asks k) (x :: xs) o

/-- Code asked for these items and asks for one more. -/
inductive Wants {ι ω : Type} : LoopCode ι ω → List (Option ι) → Prop
  | now (k) : Wants (.asks k) []
  | asks {k x xs} : Wants (k x) xs → Wants (.asks k) (x :: xs)

/-- The code of a scan: it has come to its end, or a call of `next` panics or does not end. -/
inductive ScanRan {ω : Type} (w fuel : Nat) (code : LoopCode (Except (ReadErrorOf P.Error) (Response Client.Ping)) ω) (b : BusOf P) :
    BusOf P → Outcome Empty ω → Prop
  | returns {xs a b'} : Came code xs (some a) → ScanAsks w fuel xs b b' → ScanRan w fuel code b b' (.ok a)
  | panics {xs b'} : Came code xs none → ScanAsks w fuel xs b b' → ScanRan w fuel code b b' .panic
  | stops {xs c b'} : Wants code xs → ScanAsks w fuel xs b c → BusOf.scanNext (ε := Empty) w fuel c = (b', .panic) →
      ScanRan w fuel code b b' .panic
  | hangs {xs c b'} : Wants code xs → ScanAsks w fuel xs b c → BusOf.scanNext (ε := Empty) w fuel c = (b', .hang) →
      ScanRan w fuel code b b' .hang

/-- The destructor of a scan takes items `xs`, and then there is none, or the next call panics or does not end, or there are too many. -/
inductive ScanDropped (w fuel n : Nat) (b : BusOf P) : BusOf P → Outcome Empty Unit → Prop
  | ends {xs : List (Except (ReadErrorOf P.Error) (Response Client.Ping))} {c b'} :
      ScanAsks w fuel (xs.map some) b c → xs.length < n → BusOf.scanNext (ε := Empty) w fuel c = (b', .ok none) →
      ScanDropped w fuel n b b' (.ok ())
  | panics {xs : List (Except (ReadErrorOf P.Error) (Response Client.Ping))} {c b'} :
      ScanAsks w fuel (xs.map some) b c → xs.length < n → BusOf.scanNext (ε := Empty) w fuel c = (b', .panic) →
      ScanDropped w fuel n b b' .panic
  | hangs {xs : List (Except (ReadErrorOf P.Error) (Response Client.Ping))} {c b'} :
      ScanAsks w fuel (xs.map some) b c → xs.length < n → BusOf.scanNext (ε := Empty) w fuel c = (b', .hang) →
      ScanDropped w fuel n b b' .hang
  | goesOn {xs : List (Except (ReadErrorOf P.Error) (Response Client.Ping))} {b'} :
      ScanAsks w fuel (xs.map some) b b' → xs.length = n → ScanDropped w fuel n b b' .hang

/-- How the scope of a scan ends, from how its code and its destructor do. -/
inductive ScanEnds {ω : Type} : Outcome Empty ω → Outcome Empty Unit → ScopeEnd ω → Prop
  | returned (a) : ScanEnds (.ok a) (.ok ()) (.returned a)
  | dropPanics (a) : ScanEnds (.ok a) .panic .unwound
  | unwound : ScanEnds .panic (.ok ()) .unwound
  | aborted : ScanEnds .panic .panic .aborted
  | hung (o) : ScanEnds o .hang .hung

theorem ScanDropped.more {w fuel n : Nat} {b b1 b' : BusOf P} {x : Except (ReadErrorOf P.Error) (Response Client.Ping)}
    {o : Outcome Empty Unit} (h : BusOf.scanNext (ε := Empty) w fuel b = (b1, .ok (some x))) (hd : ScanDropped w fuel n b1 b' o) :
    ScanDropped w fuel (n + 1) b b' o := by
  cases hd with
  | ends h1 h2 h3 => exact .ends (xs := x :: _) (.cons h h1) (by simpa using h2) h3
  | panics h1 h2 h3 => exact .panics (xs := x :: _) (.cons h h1) (by simpa using h2) h3
  | hangs h1 h2 h3 => exact .hangs (xs := x :: _) (.cons h h1) (by simpa using h2) h3
  | goesOn h1 h2 => exact .goesOn (xs := x :: _) (.cons h h1) (by simpa using h2)

theorem any_scanDrop (w fuel n : Nat) : ∀ b : BusOf P, ScanDropped w fuel n b (BusOf.scanDrop (ε := Empty) w fuel n b).1
    (BusOf.scanDrop (ε := Empty) w fuel n b).2 := by
  induction n with
  | zero => exact fun b => .goesOn (xs := []) (.nil b) rfl
  | succ n ih =>
    intro b
    unfold BusOf.scanDrop
    rw [SO.bind_def]
    rcases hx : BusOf.scanNext (ε := Empty) w fuel b with ⟨b1, (_ | x) | e | _ | _⟩
    · exact .ends (xs := []) (.nil b) (by simp) hx
    · exact (ih b1).more hx
    · exact nomatch e
    · exact .panics (xs := []) (.nil b) (by simp) hx
    · exact .hangs (xs := []) (.nil b) (by simp) hx

theorem any_scanRun {ω : Type} (w fuel : Nat) (code : LoopCode (Except (ReadErrorOf P.Error) (Response Client.Ping)) ω) :
    ∀ b : BusOf P, ScanRan w fuel code b (code.run (BusOf.scanNext w fuel) b).1 (code.run (BusOf.scanNext w fuel) b).2 := by
  induction code with
  | returns a => exact fun b => .returns (.returns a) (.nil b)
  | panics => exact fun b => .panics .panics (.nil b)
  | asks k ih =>
    intro b
    unfold LoopCode.run
    rw [SO.bind_def]
    rcases hx : BusOf.scanNext (ε := Empty) w fuel b with ⟨b1, x | e | _ | _⟩
    · dsimp only
      have h := ih x b1
      rcases hy : (k x).run (BusOf.scanNext w fuel) b1 with ⟨b', o⟩
      rw [hy] at h
      cases h with
      | returns h1 h2 => exact .returns (.asks h1) (.cons hx h2)
      | panics h1 h2 => exact .panics (.asks h1) (.cons hx h2)
      | stops h1 h2 h3 => exact .stops (.asks h1) (.cons hx h2) h3
      | hangs h1 h2 h3 => exact .hangs (.asks h1) (.cons hx h2) h3
    · exact nomatch e
    · exact .stops (.now k) (.nil b) hx
    · exact .hangs (.now k) (.nil b) hx

/-- **C107** Whatever the port does and whatever code uses a scan: the code gets what the calls of `next` return, until it ends or such a call
panics or does not end. Then the destructor takes items until there is none. If it panics after a panic, the process is aborted. The scope
does not end if a call of `next` does not, or if there is no end of items (for every bound `n`). -/
theorem c107_scan {ω : Type} (w fuel n : Nat) (code : LoopCode (Except (ReadErrorOf P.Error) (Response Client.Ping)) ω) (b : BusOf P) :
    ∃ c o, ScanRan w fuel code b c o ∧
      ((o = .hang ∧ scopeOf (BusOf.scanNext w fuel) (BusOf.scanDrop w fuel n) code b = (c, .hung)) ∨
       o ≠ .hang ∧ ∃ o', ScanDropped w fuel n c (scopeOf (BusOf.scanNext w fuel) (BusOf.scanDrop w fuel n) code b).1 o' ∧
         ScanEnds o o' (scopeOf (BusOf.scanNext w fuel) (BusOf.scanDrop w fuel n) code b).2) := by
  have h := any_scanRun w fuel code b
  unfold scopeOf
  rcases hy : code.run (BusOf.scanNext w fuel) b with ⟨c, a | e | _ | _⟩ <;> rw [hy] at h <;> dsimp only at h ⊢
  · refine ⟨c, .ok a, h, .inr ⟨by simp, ?_⟩⟩
    have h2 := any_scanDrop w fuel n c
    rcases hz : BusOf.scanDrop (ε := Empty) w fuel n c with ⟨b', _ | e | _ | _⟩ <;> rw [hz] at h2 <;> dsimp only at h2 ⊢
    · exact ⟨_, h2, .returned a⟩
    · exact nomatch e
    · exact ⟨_, h2, .dropPanics a⟩
    · exact ⟨_, h2, .hung _⟩
  · exact nomatch e
  · refine ⟨c, .panic, h, .inr ⟨by simp, ?_⟩⟩
    have h2 := any_scanDrop w fuel n c
    rcases hz : BusOf.scanDrop (ε := Empty) w fuel n c with ⟨b', _ | e | _ | _⟩ <;> rw [hz] at h2 <;> dsimp only at h2 ⊢
    · exact ⟨_, h2, .unwound⟩
    · exact nomatch e
    · exact ⟨_, h2, .aborted⟩
    · exact ⟨_, h2, .hung _⟩
  · exact ⟨c, .hang, h, .inl ⟨rfl, rfl⟩⟩

/-! ## Cases -/

/-- A port that blocks for ever when there is nothing to read. -/
def blocking (stream : List Byte) : PortImpl :=
  demoImpl (fun _ old p => match old, stream.drop p with
    | _ :: t, x :: _ => (p + 1, x :: t, .ok 1)
    | _, _ => (p, old, .hang)) fun D old p => by
    cases old with
    | nil => rfl
    | cons a t => cases stream.drop p <;> rfl

/-- A sync read of two motors. -/
def twoOnPort (P : PortImpl) (p : P.Port) : SyncIterOf P := ⟨busOf P p, 1#16, [7#8, 8#8], 0⟩

def twoOnLine : List Byte := frame 7#8 [0x55#8, 0#8, 3#8] ++ frame 8#8 [0x55#8, 1#8, 3#8]

/-- Code that takes one item and returns whether it was a response. -/
def takeOne {E : Type} : LoopCode (Except E (Response (List Byte))) Bool :=
  .asks fun x => match x with | some (.ok _) => .returns true | _ => .returns false

example := c107_next_bytes 64 40 (twoOnPort (dripping twoOnLine) (0 : Nat))
example := c107_next 64 fussyData_ends 40 (twoOnPort (dripping twoOnLine) (0 : Nat))
example := c107_sync 64 fussyData_ends 40 3 (.asks fun _ => .returns 5) (twoOnPort (dripping twoOnLine) (0 : Nat)) (by decide)
example := c107_sync_drop 64 fussyData_ends 40 3 (twoOnPort (dripping twoOnLine) (0 : Nat)) (by decide)
/-- The first answer is a response with the data `3`. -/
theorem twoOnPort_first : ∃ st, (BusOf.readStatusResponse 64 fussyData.size 40 (twoOnPort (dripping twoOnLine) (0 : Nat)).client).2 = .ok st ∧
    Carries st.packet 7#8 0x55#8 [0#8, 3#8] := by
  refine ⟨⟨⟨header ++ [7#8, 5#8, 0#8, 0x55#8, 0#8, 3#8]⟩⟩, ?_, 5#8, 0#8, by decide⟩
  have h : (match (BusOf.readStatusResponse 64 fussyData.size 40 (twoOnPort (dripping twoOnLine) (0 : Nat)).client).2 with
    | .ok st => some st | _ => none) = some ⟨⟨header ++ [7#8, 5#8, 0#8, 0x55#8, 0#8, 3#8]⟩⟩ := by decide +kernel
  split at h
  · rename_i hx; rw [hx]; simpa using h
  · simp at h
example : Decoded 7#8 false (fussyData.decode [3#8])
    (SyncIterOf.next (ε := Empty) 64 fussyData 40 (twoOnPort (dripping twoOnLine) (0 : Nat))).2 := by
  obtain ⟨st, h1, h2⟩ := twoOnPort_first
  exact (c107_next_item 64 fussyData 40 _ rfl h1 h2).2.2.2 rfl (by decide) (by decide)
/-- The second value is one on which the decoding panics: the code has returned, and the destructor panics. -/
example : (scopeOf (SyncIterOf.next 64 fussyData 40) (SyncIterOf.drop 64 fussyData 40 3) (.asks fun _ => .returns true)
    (twoOnPort (dripping (frame 7#8 [0x55#8, 0#8, 3#8] ++ frame 8#8 [0x55#8, 0#8, 0xF0#8])) (0 : Nat))).2 = .unwound := by decide +kernel
example := c107_next_bulk 64 40 (P := dripping twoOnLine) ⟨busOf _ (0 : Nat), [⟨7#8, 0#16, 1#16⟩, ⟨8#8, 0#16, 1#16⟩], 0⟩
example (b : BusOf (dripping twoOnLine)) := c107_scan_next 64 40 b
example (b : BusOf (dripping twoOnLine)) := c107_scan 64 40 9 (.asks fun _ => .panics (ω := Nat)) b
/-- A motor is found. -/
example : (match (BusOf.scanNext (ε := Empty) 64 40 (busOf (dripping (frame 7#8 [0x55#8, 0#8, 1#8, 2#8, 3#8])) (0 : Nat))).2 with
    | .ok (some (.ok r)) => some r.motorId
    | _ => none) = some 7#8 := by decide +kernel
example := c107_sync_bytes 64 40 3 takeOne (twoOnPort (dripping twoOnLine) (0 : Nat)) (by decide)

/-- What the port of the caller has delivered at the end of the scope, and how it ends. -/
def deliveredBy (s : SyncIterOf (dripping twoOnLine)) : Nat × ScopeEnd Bool :=
  let r := scopeOf (SyncIterOf.nextBytes 64 40) (SyncIterOf.dropBytes 64 40 3) takeOne s
  (r.1.client.port, r.2)

/-- The code takes one of two responses, and the destructor the other: all bytes have been read. -/
example : deliveredBy (twoOnPort (dripping twoOnLine) (0 : Nat)) = (24, .returned true) := by decide +kernel
/-- The second answer is missing, and the port blocks: the code has its response, but the destructor does not end. -/
example : (scopeOf (SyncIterOf.nextBytes 64 40) (SyncIterOf.dropBytes 64 40 3) takeOne
    (twoOnPort (blocking (frame 7#8 [0x55#8, 0#8, 3#8])) (0 : Nat))).2 = .hung := by decide +kernel
/-- A bulk read of two motors. -/
def twoBulk (P : PortImpl) (p : P.Port) : BulkIterOf P := ⟨busOf P p, [⟨7#8, 0#16, 1#16⟩, ⟨8#8, 0#16, 2#16⟩], 0⟩

example := c107_bulk 64 40 takeOne (twoBulk (blocking twoOnLine) (0 : Nat)) (by decide)

end Dxl.Props
