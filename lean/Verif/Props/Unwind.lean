import Verif.Spec.Unwind
import Verif.Props.StopAnywhere

/-! # C89: panics while an iterator over responses exists -/

namespace Dxl.Props
open Spec

/-- A response is awaited until `D`, which leaves the client `c`. `bad`: what came makes the call panic, because it is malformed, or
because it is a fitting answer of the motor `want` with `count` parameters on which the decoding function of the data type panics. -/
structure Awaits (b : Bus) (D : Nat) (want : Byte) (count : Nat) (Dies : List Byte → Prop) (bad : Bool) (c : Bus) : Prop where
  waited : Waited b c D
  verdict : ∃ v left, Verdict b.readBuffer.length (stream D b) (readEnd D b.serialPort) v left ∧ Leaves D c v left ∧
    (bad = true ↔ v = .panic ∨ ∃ e ps, v = .ok (want, e, ps) ∧ ps.length = count ∧ Dies ps)

/-- The same with the time that is waited, `wait` after now. Without a baud rate, there is no such time. -/
def AwaitsFor (wait : Nat → Nat → Nat) (Dies : List Byte → Prop) (b : Bus) (r : Byte × Nat) (bad : Bool) (c : Bus) : Prop :=
  (b.baudRate = 0 ∧ c = b ∧ bad = true) ∨
    (b.baudRate ≠ 0 ∧ Awaits b (b.serialPort.now + wait b.baudRate r.2) r.1 r.2 Dies bad c)

/-- One response after the other is awaited, also after a panic. -/
inductive Sequel (wait : Nat → Nat → Nat) (Dies : List Byte → Prop) : Bus → List (Byte × Nat) → List Bool → Bus → Prop
  | done (b : Bus) : Sequel wait Dies b [] [] b
  | turn {b c d : Bus} {r : Byte × Nat} {rest : List (Byte × Nat)} {bad : Bool} {bads : List Bool} :
      AwaitsFor wait Dies b r bad c → Sequel wait Dies c rest bads d → Sequel wait Dies b (r :: rest) (bad :: bads) d

theorem AwaitsFor.keeps {wait : Nat → Nat → Nat} {Dies : List Byte → Prop} {b c : Bus} {r : Byte × Nat} {bad : Bool}
    (h : AwaitsFor wait Dies b r bad c) (hr : b.RInv) : c.RInv ∧ c.baudRate = b.baudRate := by
  rcases h with ⟨-, rfl, -⟩ | ⟨-, h⟩
  · exact ⟨hr, rfl⟩
  · exact ⟨h.waited.rinv, h.waited.like.baudRate⟩

theorem Sequel.length {wait : Nat → Nat → Nat} {Dies : List Byte → Prop} {b c : Bus} {rs : List (Byte × Nat)} {bads : List Bool}
    (h : Sequel wait Dies b rs bads c) : bads.length = rs.length := by
  induction h with
  | done => rfl
  | turn _ _ ih => simp [ih]

/-- What the client does for a response, with everything that can come. -/
theorem readStatus_awaits {count : U16} {b : Bus} (hb : b.RInv) (hbaud : b.baudRate < 2 ^ 32) :
    (b.baudRate = 0 ∧ Client.readStatusResponse count b = (b, .panic)) ∨
    (b.baudRate ≠ 0 ∧ ∃ c o v left, Client.readStatusResponse count b = (c, o) ∧
      Waited b c (b.serialPort.now + responseWait b.baudRate count.toNat) ∧
      Verdict b.readBuffer.length (stream (b.serialPort.now + responseWait b.baudRate count.toNat) b)
        (readEnd (b.serialPort.now + responseWait b.baudRate count.toNat) b.serialPort) v left ∧
      Leaves (b.serialPort.now + responseWait b.baudRate count.toNat) c v left ∧
      match v with
      | .err x => o = .err x
      | .panic => o = .panic
      | .hang => False
      | .ok (rid, error, ps) => ∃ pkt, o = .ok ⟨pkt⟩ ∧ Carries pkt rid 0x55#8 (error :: ps) ∧ error.toNat % 128 = 0) := by
  by_cases h0 : b.baudRate = 0
  · exact .inl ⟨h0, readStatusResponse_zero h0 count⟩
  · refine .inr ⟨h0, ?_⟩
    obtain ⟨ns, hns, heq⟩ := readStatusResponse_eq h0 hbaud count
    have := leastTime_unique hns (leastTime_transferNs _ h0)
    subst this
    obtain ⟨c, o, v, left, h1, -, h2, h3, h4⟩ := response_verdict (timeout := responseWait b.baudRate count.toNat) hb
    refine ⟨c, o, v, left, heq.trans h1, ?_, h2, h3, h4⟩
    have hw := waited_read hb (D := b.serialPort.now + responseWait b.baudRate count.toNat) (Nat.le_add_right _ _)
    have hst := readStatusResponseTimeout_state (responseWait b.baudRate count.toNat) b
    rw [h1] at hst
    rw [← hst] at hw
    exact hw

/-- The same for an iterator that looks at the response. -/
theorem respond_awaits {α : Type} {want : Byte} {count : U16} {Dies : List Byte → Prop}
    {k : StatusPacket → Outcome ReadError (Response α)}
    (hk : ∀ s rid e ps, Carries s.packet rid 0x55#8 (e :: ps) → e.toNat % 128 = 0 →
      ((rid = want ∧ ps.length = count.toNat ∧ Dies ps) ∧ k s = .panic) ∨
        (¬ (rid = want ∧ ps.length = count.toNat ∧ Dies ps) ∧ ∃ x, k s = ofExcept x))
    {b : Bus} (hb : b.RInv) (hbaud : b.baudRate < 2 ^ 32) :
    ∃ bad c, AwaitsFor responseWait Dies b (want, count.toNat) bad c ∧
      if bad = true then respond count k b = (c, .panic) else ∃ x, respond count k b = (c, ofExcept x) := by
  rcases readStatus_awaits (count := count) hb hbaud with ⟨h0, h1⟩ | ⟨h0, c, o, v, left, h1, h2, h3, h4, h5⟩
  · refine ⟨true, b, .inl ⟨h0, rfl, rfl⟩, ?_⟩
    rw [if_pos rfl]
    unfold respond
    rw [SO.bind_panic h1]
  · cases v with
    | err x =>
      dsimp only at h5
      subst h5
      refine ⟨false, c, .inr ⟨h0, h2, _, left, h3, h4, by simp⟩, ?_⟩
      rw [if_neg (by simp)]
      refine ⟨.error x, ?_⟩
      unfold respond
      rw [SO.bind_def, h1]
      rfl
    | panic =>
      dsimp only at h5
      subst h5
      refine ⟨true, c, .inr ⟨h0, h2, _, left, h3, h4, by simp⟩, ?_⟩
      rw [if_pos rfl]
      unfold respond
      rw [SO.bind_panic h1]
    | hang => exact h5.elim
    | ok y =>
      obtain ⟨rid, e, ps⟩ := y
      obtain ⟨pkt, rfl, hc, he⟩ := h5
      have hkk := hk ⟨pkt⟩ rid e ps hc he
      have hresp : respond count k b = (c, k ⟨pkt⟩) := by
        unfold respond
        rw [SO.bind_ok h1, SO.lift_apply]
      rcases hkk with ⟨hd, hkk⟩ | ⟨hd, hkk⟩
      · obtain ⟨rfl, hl, hd⟩ := hd
        refine ⟨true, c, .inr ⟨h0, h2, _, left, h3, h4, ?_⟩, ?_⟩
        · simp only [true_iff]
          exact .inr ⟨e, ps, rfl, hl, hd⟩
        · rw [if_pos rfl, hresp, hkk]
      · refine ⟨false, c, .inr ⟨h0, h2, _, left, h3, h4, ?_⟩, ?_⟩
        · simp only [Bool.false_eq_true, false_iff]
          rintro (h | ⟨e', ps', h, hl, hd'⟩)
          · cases h
          · cases h
            exact hd ⟨rfl, hl, hd'⟩
        · rw [if_neg (by simp), hresp]
          obtain ⟨x, hkk⟩ := hkk
          exact ⟨x, by rw [hkk]⟩

theorem look_data_dies {α : Type} {d : DataTy α} (hd : ∀ ps, d.decode ps ≠ .hang) (id : Byte) :
    ∀ s rid e ps, Carries s.packet rid 0x55#8 (e :: ps) → e.toNat % 128 = 0 →
      ((rid = id ∧ ps.length = d.size.toNat ∧ d.decode ps = .panic) ∧ lookData d id s = .panic) ∨
        (¬ (rid = id ∧ ps.length = d.size.toNat ∧ d.decode ps = .panic) ∧ ∃ x, lookData d id s = ofExcept x) := by
  intro s rid e ps hc he
  unfold lookData
  rw [checkResponse_carries hc, decode_carries d hc, if_pos he]
  by_cases hr : rid = id
  · rw [if_neg (by simpa using hr)]
    by_cases hl : ps.length = d.size.toNat
    · rw [if_neg (by simpa using hl)]
      cases hdec : d.decode ps with
      | ok v => exact .inr ⟨by simp, .ok ⟨rid, decide (128 ≤ e.toNat), v⟩, rfl⟩
      | err x => exact .inr ⟨by simp, .error _, rfl⟩
      | panic => exact .inl ⟨⟨hr, hl, rfl⟩, rfl⟩
      | hang => exact absurd hdec (hd ps)
    · rw [if_pos hl]
      exact .inr ⟨fun h => hl h.2.1, .error _, rfl⟩
  · rw [if_pos hr]
    exact .inr ⟨fun h => hr h.1, .error _, rfl⟩

/-- Bytes are not decoded. -/
def Never (_ : List Byte) : Prop := False

theorem look_bytes_dies (id : Byte) (count : U16) :
    ∀ s rid e ps, Carries s.packet rid 0x55#8 (e :: ps) → e.toNat % 128 = 0 →
      ((rid = id ∧ ps.length = count.toNat ∧ Never ps) ∧ lookBytes id count s = .panic) ∨
        (¬ (rid = id ∧ ps.length = count.toNat ∧ Never ps) ∧ ∃ x, lookBytes id count s = ofExcept x) := by
  intro s rid e ps hc he
  obtain ⟨x, h, -⟩ := judges_bytes id count s rid e ps hc he
  exact .inr ⟨fun h => h.2.2, x, h⟩

/-- Looking at bytes does not panic: if a call panics, then while reading. -/
theorem respond_bytes_panic {count : U16} {id : Byte} {b c : Bus} (hr : b.RInv) (hb : b.baudRate < 2 ^ 32)
    (hx : respond count (lookBytes id count) b = (c, .panic)) : Client.readStatusResponse count b = (c, .panic) := by
  unfold respond at hx
  rw [SO.bind_def] at hx
  rcases hz : Client.readStatusResponse count b with ⟨c', o⟩
  rw [hz] at hx
  cases o with
  | ok p =>
    rcases readStatus_awaits (count := count) hr hb with ⟨h0, k1⟩ | ⟨h0, c2, o2, v, left, k1, k2, k3, k4, k5⟩
    · rw [hz] at k1; cases k1
    · rw [hz] at k1
      cases k1
      cases v with
      | ok y =>
        obtain ⟨rid, er, ps⟩ := y
        obtain ⟨pkt, hp, hc, he⟩ := k5
        cases hp
        obtain ⟨x, hx2, -⟩ := judges_bytes id count ⟨pkt⟩ rid er ps hc he
        dsimp only at hx
        rw [SO.lift_apply, hx2] at hx
        cases x <;> cases hx
      | err _ => cases k5
      | panic => cases k5
      | hang => exact k5.elim
  | err x => cases hx
  | panic => cases hx; rfl
  | hang => cases hx

theorem respond_bytes_ok {count : U16} {id : Byte} {b c : Bus} {x : Except ReadError (Response (List Byte))}
    (hx : respond count (lookBytes id count) b = (c, ofExcept x)) : ∃ y, Client.readStatusResponse count b = (c, ofExcept y) := by
  unfold respond at hx
  rw [SO.bind_def] at hx
  rcases hz : Client.readStatusResponse count b with ⟨c', o⟩
  rw [hz] at hx
  cases o with
  | ok p => exact ⟨.ok p, by rw [← (Prod.mk.inj hx).1]; rfl⟩
  | err e => exact ⟨.error e, by rw [← (Prod.mk.inj hx).1]; rfl⟩
  | panic => cases x <;> cases hx
  | hang => cases x <;> cases hx

/-- The iterator and its destructor await the responses `todo` one after the other. -/
structure Walks {σ ι : Type} (next : SO σ Empty (Option ι)) (drop : SO σ Empty Unit) (client : σ → Bus)
    (todo : σ → List (Byte × Nat)) (Dies : List Byte → Prop) (Sane : σ → Prop) : Prop where
  idle : ∀ s, todo s = [] → next s = (s, .ok none)
  ended : ∀ s, Sane s → todo s = [] → ∃ t, drop s = (t, .ok ()) ∧ client t = client s
  step : ∀ s r rest, Sane s → todo s = r :: rest → (client s).RInv → (client s).baudRate < 2 ^ 32 →
    ∃ bad c, AwaitsFor responseWait Dies (client s) r bad c ∧
      if bad = true then ∃ s' t, next s = (s', .panic) ∧ client s' = c ∧ todo s' = rest ∧ Sane s' ∧ drop s = (t, .panic) ∧ client t = c
      else ∃ s' x, next s = (s', .ok (some x)) ∧ client s' = c ∧ todo s' = rest ∧ Sane s' ∧
        client (drop s).1 = client (drop s').1 ∧ (drop s).2 = (drop s').2

section
variable {σ ι ω : Type} {next : SO σ Empty (Option ι)} {drop : SO σ Empty Unit} {client : σ → Bus}
  {todo : σ → List (Byte × Nat)} {Dies : List Byte → Prop} {Sane : σ → Prop}

/-- How many responses have been awaited at the end: after the first `k`, a destructor has gone on to the end or to the first panic. -/
def awaitedUntil (bads : List Bool) (k : Nat) : Nat := k + ((bads.drop k).takeWhile (!·)).length + 1

/-- What a destructor does. -/
theorem Walks.drops (h : Walks next drop client todo Dies Sane) : ∀ (l : List (Byte × Nat)) (s : σ), todo s = l → Sane s →
    (client s).RInv → (client s).baudRate < 2 ^ 32 →
    ∃ bads d, Sequel responseWait Dies (client s) l bads d ∧
      (drop s).2 = (if bads.any id then .panic else .ok ()) ∧
      Sequel responseWait Dies (client s) (l.take (awaitedUntil bads 0)) (bads.take (awaitedUntil bads 0)) (client (drop s).1) := by
  intro l
  induction l with
  | nil =>
    intro s ht hs hr hb
    obtain ⟨t, h1, h2⟩ := h.ended s hs ht
    refine ⟨[], client s, .done _, by rw [h1]; rfl, ?_⟩
    rw [h1]
    dsimp only
    rw [h2]
    exact .done _
  | cons r rest ih =>
    intro s ht hs hr hb
    obtain ⟨bad, c, ha, hstep⟩ := h.step s r rest hs ht hr hb
    obtain ⟨k1, k2⟩ := ha.keeps hr
    cases bad with
    | true =>
      rw [if_pos rfl] at hstep
      obtain ⟨s', t, -, h2, h3, h4, h5, h6⟩ := hstep
      obtain ⟨bads, d, i1, -, -⟩ := ih s' h3 h4 (by rw [h2]; exact k1) (by rw [h2, k2]; exact hb)
      rw [h2] at i1
      refine ⟨true :: bads, d, .turn ha i1, by rw [h5]; rfl, ?_⟩
      rw [h5]
      dsimp only
      rw [h6]
      exact .turn ha (by simpa using Sequel.done c)
    | false =>
      rw [if_neg (by simp)] at hstep
      obtain ⟨s', x, -, h2, h3, h4, h5, h6⟩ := hstep
      obtain ⟨bads, d, i1, i2, i3⟩ := ih s' h3 h4 (by rw [h2]; exact k1) (by rw [h2, k2]; exact hb)
      rw [h2] at i1 i3
      refine ⟨false :: bads, d, .turn ha i1, by rw [h6, i2]; rfl, ?_⟩
      rw [h5]
      have e : awaitedUntil (false :: bads) 0 = awaitedUntil bads 0 + 1 := by simp [awaitedUntil]
      rw [e, List.take_succ_cons, List.take_succ_cons]
      exact .turn ha i3

/-- What `scopeOf` makes of the end of the code. -/
theorem scopeOf_ok {code : LoopCode ι ω} {s s' : σ} {a : ω} (h : code.run next s = (s', .ok a)) (trouble : Bool)
    (hd : (drop s').2 = if trouble then .panic else .ok ()) :
    scopeOf next drop code s = ((drop s').1, settled (some a) trouble) := by
  unfold scopeOf
  rw [h]
  dsimp only
  rcases hx : drop s' with ⟨t, o⟩
  rw [hx] at hd
  dsimp only at hd
  subst hd
  cases trouble <;> rfl

theorem scopeOf_panic {code : LoopCode ι ω} {s s' : σ} (h : code.run next s = (s', .panic)) (trouble : Bool)
    (hd : (drop s').2 = if trouble then .panic else .ok ()) :
    scopeOf next drop code s = ((drop s').1, settled none trouble) := by
  unfold scopeOf
  rw [h]
  dsimp only
  rcases hx : drop s' with ⟨t, o⟩
  rw [hx] at hd
  dsimp only at hd
  subst hd
  cases trouble <;> rfl

theorem scopeOf_asks {k : Option ι → LoopCode ι ω} {s s' : σ} {x : Option ι} (h : next s = (s', .ok x)) :
    scopeOf next drop (.asks k) s = scopeOf next drop (k x) s' := by
  unfold scopeOf
  rw [LoopCode.run, SO.bind_ok h]

/-- What becomes of code that uses an iterator: `bads` says which of the responses `todo` make a call panic. -/
def Unwinds (next : SO σ Empty (Option ι)) (drop : SO σ Empty Unit) (client : σ → Bus)
    (Dies : List Byte → Prop) (todo : List (Byte × Nat)) (code : LoopCode ι ω) (s : σ) : Prop :=
  ∃ bads d, Sequel responseWait Dies (client s) todo bads d ∧
    ∃ k s1 seen, callTimes next k s = (s1, .ok seen) ∧ true ∉ bads.take k ∧
      ((∃ own, Concludes code seen own ∧ (scopeOf next drop code s).2 = settled own ((bads.drop k).any id) ∧
          Sequel responseWait Dies (client s) (todo.take (awaitedUntil bads k)) (bads.take (awaitedUntil bads k))
            (client (scopeOf next drop code s).1)) ∨
        (WantsMore code seen ∧ bads[k]? = some true ∧
          (scopeOf next drop code s).2 = settled none ((bads.drop (k + 1)).any id) ∧
          Sequel responseWait Dies (client s) (todo.take (awaitedUntil bads (k + 1))) (bads.take (awaitedUntil bads (k + 1)))
            (client (scopeOf next drop code s).1)))

theorem awaitedUntil_cons (x : Bool) (bads : List Bool) (k : Nat) : awaitedUntil (x :: bads) (k + 1) = awaitedUntil bads k + 1 := by
  simp only [awaitedUntil, List.drop_succ_cons]
  omega

theorem Walks.unwinds (h : Walks next drop client todo Dies Sane) : ∀ (code : LoopCode ι ω) (s : σ), Sane s → (client s).RInv →
    (client s).baudRate < 2 ^ 32 → Unwinds next drop client Dies (todo s) code s := by
  intro code
  induction code with
  | returns a =>
    intro s hs hr hb
    obtain ⟨bads, d, h1, h2, h3⟩ := h.drops _ s rfl hs hr hb
    have e := scopeOf_ok (next := next) (drop := drop) (code := .returns a) (s := s) (s' := s) (a := a) rfl (bads.any id) h2
    refine ⟨bads, d, h1, 0, s, [], rfl, by simp, .inl ⟨some a, .returns a, ?_, ?_⟩⟩
    · rw [e]; rfl
    · rw [e]; exact h3
  | panics =>
    intro s hs hr hb
    obtain ⟨bads, d, h1, h2, h3⟩ := h.drops _ s rfl hs hr hb
    have e := scopeOf_panic (next := next) (drop := drop) (code := (.panics : LoopCode ι ω)) (s := s) (s' := s) rfl (bads.any id) h2
    refine ⟨bads, d, h1, 0, s, [], rfl, by simp, .inl ⟨none, .panics, ?_, ?_⟩⟩
    · rw [e]; rfl
    · rw [e]; exact h3
  | asks k ih =>
    intro s hs hr hb
    cases ht : todo s with
    | nil =>
      have hn := h.idle s ht
      obtain ⟨bads, d, h1, n, s1, seen, h2, h3, h4⟩ := ih none s hs hr hb
      rw [ht] at h1 h4
      cases h1
      refine ⟨[], _, .done _, n + 1, s1, none :: seen, ?_, by simp, ?_⟩
      · rw [callTimes_succ_ok hn, h2]; rfl
      · rw [scopeOf_asks hn]
        rcases h4 with ⟨own, k1, k2, k3⟩ | ⟨-, k2, -⟩
        · refine .inl ⟨own, .asks k1, ?_, ?_⟩
          · rw [k2]; simp
          · simpa using k3
        · simp at k2
    | cons r rest =>
      obtain ⟨bad, c, ha, hstep⟩ := h.step s r rest hs ht hr hb
      obtain ⟨k1, k2⟩ := ha.keeps hr
      cases bad with
      | true =>
        rw [if_pos rfl] at hstep
        obtain ⟨s', t, h1, h2, h3, h4, -, -⟩ := hstep
        obtain ⟨bads, d, i1, i2, i3⟩ := h.drops _ s' h3 h4 (by rw [h2]; exact k1) (by rw [h2, k2]; exact hb)
        have hrun : (LoopCode.asks k).run next s = (s', .panic) := by rw [LoopCode.run, SO.bind_panic h1]
        have e := scopeOf_panic (drop := drop) hrun (bads.any id) i2
        rw [h2] at i1 i3
        refine ⟨true :: bads, d, .turn ha i1, 0, s, [], rfl, by simp, .inr ⟨.now k, rfl, ?_, ?_⟩⟩
        · rw [e]; rfl
        · rw [e, awaitedUntil_cons]
          exact .turn ha i3
      | false =>
        rw [if_neg (by simp)] at hstep
        obtain ⟨s', x, h1, h2, h3, h4, -, -⟩ := hstep
        obtain ⟨bads, d, i1, n, s1, seen, i2, i3, i4⟩ := ih (some x) s' h4 (by rw [h2]; exact k1) (by rw [h2, k2]; exact hb)
        rw [h2, h3] at i1 i4
        refine ⟨false :: bads, d, .turn ha i1, n + 1, s1, some x :: seen, ?_, by simpa using i3, ?_⟩
        · rw [callTimes_succ_ok h1, i2]; rfl
        · rw [scopeOf_asks h1]
          rcases i4 with ⟨own, j1, j2, j3⟩ | ⟨j1, j2, j3, j4⟩
          · refine .inl ⟨own, .asks j1, j2, ?_⟩
            rw [awaitedUntil_cons]
            exact .turn ha j3
          · refine .inr ⟨.later j1, by simpa using j2, j3, ?_⟩
            rw [awaitedUntil_cons]
            exact .turn ha j4

end

/-! ## The iterators -/

theorem syncBytes_walks (n : Nat) : Walks SyncIter.nextBytes (SyncIter.dropBytes n) SyncIter.client syncTodo Never
    (fun s => s.motorIds.length - s.index < n) where
  idle s h := (syncBytes_iterator Empty).finished s h
  ended s hs h := by
    have hl : s.motorIds.length ≤ s.index := by
      unfold syncTodo at h
      simpa using h
    obtain ⟨m, rfl⟩ : ∃ m, n = m + 1 := ⟨n - 1, by omega⟩
    exact ⟨s, dropBytes_done hl m, rfl⟩
  step s r rest hs ht hr hb := by
    obtain ⟨id, count⟩ := r
    obtain ⟨h1, rfl, h3⟩ := pop_todo ht Empty
    have hlt : s.index < s.motorIds.length := by
      apply Nat.lt_of_not_le
      intro hle
      unfold syncTodo at ht
      rw [List.drop_eq_nil_of_le hle] at ht
      cases ht
    have e : SyncIter.nextResponseBytes id { s with index := s.index + 1 } =
        ({ s with index := s.index + 1, client := (respond s.count (lookBytes id s.count) s.client).1 },
          (respond s.count (lookBytes id s.count) s.client).2) := by
      unfold SyncIter.nextResponseBytes SyncIter.onClient
      rw [SO.get_bind]
      exact zoom_look _
    obtain ⟨bad, c, ha, hx⟩ := respond_awaits (look_bytes_dies id s.count) hr hb
    refine ⟨bad, c, ha, ?_⟩
    cases bad with
    | true =>
      rw [if_pos rfl] at hx ⊢
      rw [hx] at e
      have hnext : SyncIter.nextBytes (ε := Empty) s = ({ s with index := s.index + 1, client := c }, .panic) := by
        unfold SyncIter.nextBytes
        rw [SO.bind_ok h1]
        dsimp only
        rw [SO.bind_panic (attempt_panic e)]
      refine ⟨_, { s with index := s.index + 1, client := c }, hnext, rfl, h3, ?_, ?_, rfl⟩
      · show s.motorIds.length - (s.index + 1) < n
        omega
      · obtain ⟨m, rfl⟩ : ∃ m, n = m + 1 := ⟨n - 1, by omega⟩
        rw [SyncIter.dropBytes, SO.bind_ok h1]
        dsimp only
        rw [SO.get_bind]
        have hread := respond_bytes_panic hr hb hx
        have hz : SyncIter.onClient (Client.readStatusResponse s.count) { s with index := s.index + 1 } =
            ({ s with index := s.index + 1, client := c }, .panic) := by
          unfold SyncIter.onClient
          rw [SO.zoom_apply, hread]
        rw [SO.bind_panic (attempt_panic hz)]
    | false =>
      rw [if_neg (by simp)] at hx ⊢
      obtain ⟨x, hx⟩ := hx
      rw [hx] at e
      have hnext : SyncIter.nextBytes (ε := Empty) s = ({ s with index := s.index + 1, client := c }, .ok (some x)) := by
        unfold SyncIter.nextBytes
        rw [SO.bind_ok h1]
        dsimp only
        rw [SO.bind_ok (attempt_ofExcept e)]
        rfl
      refine ⟨_, x, hnext, rfl, h3, ?_, ?_⟩
      · show s.motorIds.length - (s.index + 1) < n
        omega
      · have hst := c86_sync_bytes_stop (k := 1) (s := s) (ε := Empty) (by rw [callTimes_succ_ok hnext]; rfl) hs (n1 := n)
          (by show s.motorIds.length - (s.index + 1) < n; omega)
        rw [← hst]
        exact ⟨rfl, rfl⟩

theorem sync_walks {α : Type} {d : DataTy α} (hd : ∀ ps, d.decode ps ≠ .hang) (n : Nat) :
    Walks (SyncIter.next d) (SyncIter.drop d n) SyncIter.client
      (fun s => (s.motorIds.drop s.index).map fun id => (id, d.size.toNat)) (fun ps => d.decode ps = .panic)
      (fun s => s.motorIds.length - s.index < n) where
  idle s h := (c65_finished Empty d).2.1 s (by simpa using h)
  ended s hs h := by
    have hl : s.motorIds.length ≤ s.index := by simpa using h
    obtain ⟨m, rfl⟩ : ∃ m, n = m + 1 := ⟨n - 1, by omega⟩
    exact ⟨s, drop_done hl m, rfl⟩
  step s r rest hs ht hr hb := by
    obtain ⟨id, count⟩ := r
    have ht' : syncTodo { s with count := d.size } = (id, count) :: rest := ht
    obtain ⟨h1', rfl, h3⟩ := pop_todo ht' Empty
    have h1 : SyncIter.popMotorId (ε := Empty) s = ({ s with index := s.index + 1 }, .ok (some id)) := by
      unfold SyncIter.popMotorId at h1' ⊢
      dsimp only at h1'
      cases hg : s.motorIds[s.index]? with
      | none => rw [hg] at h1'; simp at h1'
      | some id' => rw [hg] at h1'; simp only [Prod.mk.injEq, Outcome.ok.injEq, Option.some.injEq] at h1' ⊢; exact ⟨trivial, h1'.2⟩
    have hlt : s.index < s.motorIds.length := by
      apply Nat.lt_of_not_le
      intro hle
      rw [List.drop_eq_nil_of_le hle] at ht
      cases ht
    have e : SyncIter.nextResponse d id { s with index := s.index + 1 } =
        ({ s with index := s.index + 1, client := (respond d.size (lookData d id) s.client).1 },
          (respond d.size (lookData d id) s.client).2) := by
      unfold SyncIter.nextResponse SyncIter.onClient
      exact zoom_look _
    obtain ⟨bad, c, ha, hx⟩ := respond_awaits (look_data_dies hd id) hr hb
    refine ⟨bad, c, ha, ?_⟩
    cases bad with
    | true =>
      rw [if_pos rfl] at hx ⊢
      rw [hx] at e
      have hnext : SyncIter.next d (ε := Empty) s = ({ s with index := s.index + 1, client := c }, .panic) := by
        unfold SyncIter.next
        rw [SO.bind_ok h1]
        dsimp only
        rw [SO.bind_panic (attempt_panic e)]
      refine ⟨_, { s with index := s.index + 1, client := c }, hnext, rfl, h3, ?_, ?_, rfl⟩
      · show s.motorIds.length - (s.index + 1) < n
        omega
      · obtain ⟨m, rfl⟩ : ∃ m, n = m + 1 := ⟨n - 1, by omega⟩
        rw [SyncIter.drop, SO.bind_panic hnext]
    | false =>
      rw [if_neg (by simp)] at hx ⊢
      obtain ⟨x, hx⟩ := hx
      rw [hx] at e
      have hnext : SyncIter.next d (ε := Empty) s = ({ s with index := s.index + 1, client := c }, .ok (some x)) := by
        unfold SyncIter.next
        rw [SO.bind_ok h1]
        dsimp only
        rw [SO.bind_ok (attempt_ofExcept e)]
        rfl
      refine ⟨_, x, hnext, rfl, h3, ?_, ?_⟩
      · show s.motorIds.length - (s.index + 1) < n
        omega
      · have hst := c86_sync_stop (k := 1) (s := s) (ε := Empty) (by rw [callTimes_succ_ok hnext]; rfl) hs (n1 := n)
          (by show s.motorIds.length - (s.index + 1) < n; omega)
        rw [← hst]
        exact ⟨rfl, rfl⟩

theorem bulk_walks : Walks BulkIter.next BulkIter.drop BulkIter.client bulkTodo Never (fun s => s.index ≤ s.reads.length) where
  idle s h := (bulk_iterator Empty).finished s h
  ended s hs h := by
    have hl : s.reads.length ≤ s.index := by
      unfold bulkTodo at h
      simpa using h
    refine ⟨s, ?_, rfl⟩
    unfold BulkIter.drop
    rw [SO.get_bind, if_pos hs, List.drop_eq_nil_of_le hl]
    rfl
  step s r rest hs ht hr hb := by
    obtain ⟨id, count⟩ := r
    obtain ⟨q, h1, rfl, rfl, h3⟩ := bulkPop_todo ht Empty
    have hq : s.reads.drop s.index = q :: s.reads.drop (s.index + 1) := by
      unfold BulkIter.pop at h1
      cases hg : s.reads[s.index]? with
      | none => rw [hg] at h1; simp at h1
      | some q' =>
        rw [hg] at h1
        simp only [Prod.mk.injEq, Outcome.ok.injEq, Option.some.injEq] at h1
        rw [drop_of_getElem? hg, h1.2]
    have hlt : s.index < s.reads.length := by
      apply Nat.lt_of_not_le
      intro hle
      rw [List.drop_eq_nil_of_le hle] at hq
      cases hq
    have e : BulkIter.nextResponse q.motorId q.count { s with index := s.index + 1 } =
        ({ s with index := s.index + 1, client := (respond q.count (lookBytes q.motorId q.count) s.client).1 },
          (respond q.count (lookBytes q.motorId q.count) s.client).2) := by
      unfold BulkIter.nextResponse BulkIter.onClient
      exact zoom_look _
    have hdrop : ∀ t : BulkIter, t.index ≤ t.reads.length →
        BulkIter.drop (ε := Empty) t = BulkIter.dropLoop (t.reads.drop t.index) t := by
      intro t h
      unfold BulkIter.drop
      rw [SO.get_bind, if_pos h]
    obtain ⟨bad, c, ha, hx⟩ := respond_awaits (look_bytes_dies q.motorId q.count) hr hb
    refine ⟨bad, c, ha, ?_⟩
    cases bad with
    | true =>
      rw [if_pos rfl] at hx ⊢
      rw [hx] at e
      have hnext : BulkIter.next (ε := Empty) s = ({ s with index := s.index + 1, client := c }, .panic) := by
        unfold BulkIter.next
        rw [SO.bind_ok h1]
        dsimp only
        rw [SO.bind_panic (attempt_panic e)]
      refine ⟨_, { s with client := c }, hnext, rfl, h3, hlt, ?_, rfl⟩
      rw [hdrop s hs, hq, BulkIter.dropLoop, SO.bind_panic (attempt_panic (bulkOnClient_apply (respond_bytes_panic hr hb hx)))]
    | false =>
      rw [if_neg (by simp)] at hx ⊢
      obtain ⟨x, hx⟩ := hx
      rw [hx] at e
      have hnext : BulkIter.next (ε := Empty) s = ({ s with index := s.index + 1, client := c }, .ok (some x)) := by
        unfold BulkIter.next
        rw [SO.bind_ok h1]
        dsimp only
        rw [SO.bind_ok (attempt_ofExcept e)]
        rfl
      refine ⟨_, x, hnext, rfl, h3, hlt, ?_⟩
      obtain ⟨y, hy⟩ := respond_bytes_ok hx
      rw [hdrop s hs, hdrop { s with index := s.index + 1, client := c } hlt, hq, BulkIter.dropLoop,
        SO.bind_ok (attempt_ofExcept (bulkOnClient_apply hy))]
      exact dropLoop_client _ _ _ rfl

/-! ## Scanning -/

/-- What a scan awaits: any answer to a ping. -/
def scanWaits (baud _count : Nat) : Nat := scanWait baud

theorem scan_awaits {b : Bus} (hr : b.RInv) (hb : b.baudRate < 2 ^ 32) :
    ∃ bad, AwaitsFor scanWaits Never b (0#8, 0) bad (Client.scanNext (ε := Empty) b).1 ∧
      if bad = true then (Client.scanNext (ε := Empty) b).2 = .panic else ∃ x, (Client.scanNext (ε := Empty) b).2 = .ok x := by
  by_cases h0 : b.baudRate = 0
  · rw [(c65_scan Empty hr hb).1 h0]
    exact ⟨true, .inl ⟨h0, rfl, rfl⟩, rfl⟩
  · obtain ⟨c, o, v, left, h1, -, h3, h4, h5⟩ := response_verdict (timeout := scanWait b.baudRate) hr
    have hst := readStatusResponseTimeout_state (scanWait b.baudRate) b
    have hw := waited_read hr (D := b.serialPort.now + scanWait b.baudRate) (Nat.le_add_right _ _)
    rw [← hst, h1] at hw
    have hfst := (scanNext_fst (ε := Empty) h0 hb).1
    rw [← hst, h1] at hfst
    have key : ∀ bad : Bool, (bad = true ↔ v = .panic) → AwaitsFor scanWaits Never b (0#8, 0) bad (Client.scanNext (ε := Empty) b).1 := by
      intro bad hbad
      rw [hfst]
      refine .inr ⟨h0, hw, v, left, h3, h4, ?_⟩
      rw [hbad]
      constructor
      · exact .inl
      · rintro (h | ⟨_, _, _, _, h⟩)
        · exact h
        · exact h.elim
    have hiff := verdict_panic_iff b.readBuffer.length (stream (b.serialPort.now + scanWait b.baudRate) b)
      (readEnd (b.serialPort.now + scanWait b.baudRate) b.serialPort)
    obtain ⟨c', h⟩ := scanNext_turn (ε := Empty) hr h0 hb
    rcases h with ⟨k1, k2⟩ | ⟨k1, x, k2, -⟩
    · obtain ⟨left', hv⟩ := hiff.mpr k1
      exact ⟨true, key true (by simp [(c62_verdict_unique h3 hv).1]), by rw [if_pos rfl, k2]⟩
    · refine ⟨false, key false ?_, ?_⟩
      · simp only [Bool.false_eq_true, false_iff]
        rintro rfl
        exact k1 (hiff.mp ⟨_, h3⟩)
      · rw [if_neg (by simp), k2]
        exact ⟨_, rfl⟩

/-- What a scan may still do when it is dropped, and how its scope ends then: it takes items until there is none; or it takes items and
then something comes that makes it panic; or it takes as many items as are counted here (`fuel`), and goes on. -/
def ScanLeft {ω : Type} (fuel : Nat) (b : Bus) (own : Option ω) (last : Bus × ScopeEnd ω) : Prop :=
  (∃ (items : List (Except ReadError (Response Client.Ping))) (c : Bus),
    callTimes (Client.scanNext (ε := Empty)) (items.length + 1) b = (c, .ok (items.map some ++ [none])) ∧ last = (c, settled own false)) ∨
  (∃ (items : List (Except ReadError (Response Client.Ping))) (c d : Bus),
    callTimes (Client.scanNext (ε := Empty)) items.length b = (c, .ok (items.map some)) ∧ AwaitsFor scanWaits Never c (0#8, 0) true d ∧
      last = (d, settled own true)) ∨
  (∃ (items : List (Except ReadError (Response Client.Ping))) (c : Bus), items.length = fuel ∧
    callTimes (Client.scanNext (ε := Empty)) items.length b = (c, .ok (items.map some)) ∧ last = (c, .hung))

/-- The end of the scope of a scan, when its code has ended. -/
def scanEnd {ω : Type} (own : Option ω) (x : Bus × Outcome Empty Unit) : Bus × ScopeEnd ω :=
  (x.1, match x.2 with
    | .ok _ => settled own false
    | .panic => settled own true
    | .hang => .hung)

theorem scanDrop_left {ω : Type} (own : Option ω) : ∀ (fuel : Nat) (b : Bus), b.RInv → b.baudRate < 2 ^ 32 →
    ScanLeft fuel b own (scanEnd own (Client.scanDrop fuel b)) := by
  intro fuel
  induction fuel with
  | zero => intro b hr hb; exact .inr (.inr ⟨[], b, rfl, rfl, rfl⟩)
  | succ fuel ih =>
    intro b hr hb
    obtain ⟨bad, h1, h2⟩ := scan_awaits hr hb
    have hk := h1.keeps hr
    rcases hx : Client.scanNext (ε := Empty) b with ⟨c, o⟩
    rw [hx] at h1 h2 hk
    cases bad with
    | true =>
      rw [if_pos rfl] at h2
      dsimp only at h2
      subst h2
      refine .inr (.inl ⟨[], b, c, rfl, h1, ?_⟩)
      rw [Client.scanDrop, SO.bind_panic hx]
      rfl
    | false =>
      rw [if_neg (by simp)] at h2
      obtain ⟨x, h2⟩ := h2
      dsimp only at h2
      subst h2
      cases x with
      | none =>
        refine .inl ⟨[], c, ?_, ?_⟩
        · show callTimes _ (0 + 1) b = _
          rw [callTimes_succ_ok hx]
          rfl
        · rw [Client.scanDrop, SO.bind_ok hx]
          rfl
      | some x =>
        have hd : Client.scanDrop (ε := Empty) (fuel + 1) b = Client.scanDrop fuel c := by rw [Client.scanDrop, SO.bind_ok hx]
        rw [hd]
        rcases ih c hk.1 (by rw [hk.2]; exact hb) with ⟨items, d, k1, k2⟩ | ⟨items, d, e, k1, k2, k3⟩ | ⟨items, d, k1, k2, k3⟩
        · refine .inl ⟨x :: items, d, ?_, k2⟩
          rw [List.length_cons, callTimes_succ_ok hx, k1]
          rfl
        · refine .inr (.inl ⟨x :: items, d, e, ?_, k2, k3⟩)
          rw [List.length_cons, callTimes_succ_ok hx, k1]
          rfl
        · refine .inr (.inr ⟨x :: items, d, by simp [k1], ?_, k3⟩)
          rw [List.length_cons, callTimes_succ_ok hx, k2]
          rfl

theorem scopeOf_scan {ω : Type} {fuel : Nat} {code : LoopCode (Except ReadError (Response Client.Ping)) ω} {b c : Bus}
    {o : Outcome Empty ω} (h : code.run Client.scanNext b = (c, o)) :
    (∀ a, o = .ok a → scopeOf Client.scanNext (Client.scanDrop fuel) code b = scanEnd (some a) (Client.scanDrop fuel c)) ∧
    (o = .panic → scopeOf Client.scanNext (Client.scanDrop fuel) code b = scanEnd none (Client.scanDrop fuel c)) := by
  unfold scopeOf
  rw [h]
  constructor
  · rintro a rfl
    dsimp only
    rcases Client.scanDrop fuel c with ⟨d, o⟩
    cases o with
    | err e => nomatch e
    | _ => rfl
  · rintro rfl
    dsimp only
    rcases Client.scanDrop fuel c with ⟨d, o⟩
    cases o with
    | err e => nomatch e
    | _ => rfl

/-! ## The property -/

/-- **C89** Code that loops over the responses to a sync read, and returns or panics where it likes: how its scope ends is decided by
the responses that are malformed (or by a baud rate of zero) and by the code. If none of those that are still awaited when the code
ends is malformed, the destructor returns, the caller gets the value or the panic of the code, and all responses have been awaited. If
one is, the destructor panics there and no response is awaited any more; if the code had panicked, that aborts the process. If the
code runs into the first one itself, it panics, the destructor goes on with the responses after that, and a second malformed one
aborts the process. -/
theorem c89_sync_bytes {ω : Type} (code : LoopCode (Except ReadError (Response (List Byte))) ω) {n : Nat} {s : SyncIter}
    (hn : s.motorIds.length - s.index < n) (hr : s.client.RInv) (hb : s.client.baudRate < 2 ^ 32) :
    Unwinds SyncIter.nextBytes (SyncIter.dropBytes n) SyncIter.client Never
      ((s.motorIds.drop s.index).map fun id => (id, s.count.toNat)) code s :=
  (syncBytes_walks n).unwinds code s hn hr hb

/-- **C89** The same for a sync read of a data type, whose destructor decodes: an answer on which the decoding function panics counts as
malformed. -/
theorem c89_sync {α ω : Type} {d : DataTy α} (hd : ∀ ps, d.decode ps ≠ .hang)
    (code : LoopCode (Except ReadError (Response α)) ω) {n : Nat} {s : SyncIter}
    (hn : s.motorIds.length - s.index < n) (hr : s.client.RInv) (hb : s.client.baudRate < 2 ^ 32) :
    Unwinds (SyncIter.next d) (SyncIter.drop d n) SyncIter.client (fun ps => d.decode ps = .panic)
      ((s.motorIds.drop s.index).map fun id => (id, d.size.toNat)) code s :=
  (sync_walks hd n).unwinds code s hn hr hb

/-- **C89** The same for a bulk read. -/
theorem c89_bulk {ω : Type} (code : LoopCode (Except ReadError (Response (List Byte))) ω) {s : BulkIter}
    (hs : s.index ≤ s.reads.length) (hr : s.client.RInv) (hb : s.client.baudRate < 2 ^ 32) :
    Unwinds BulkIter.next BulkIter.drop BulkIter.client Never
      ((s.reads.drop s.index).map fun r => (r.motorId, r.count.toNat)) code s :=
  bulk_walks.unwinds code s hs hr hb

/-- **C89** A scan: its code returns, panics, or runs into a malformed answer; then the destructor takes items until there is none, or
until something malformed comes, which aborts the process after a panic. -/
theorem c89_scan {ω : Type} (fuel : Nat) (code : LoopCode (Except ReadError (Response Client.Ping)) ω) {b : Bus} (hr : b.RInv)
    (hb : b.baudRate < 2 ^ 32) :
    ∃ k c seen, callTimes (Client.scanNext (ε := Empty)) k b = (c, .ok seen) ∧
      ((∃ own, Concludes code seen own ∧ ScanLeft fuel c own (scopeOf Client.scanNext (Client.scanDrop fuel) code b)) ∨
        (WantsMore code seen ∧ ∃ d, AwaitsFor scanWaits Never c (0#8, 0) true d ∧
          ScanLeft fuel d none (scopeOf Client.scanNext (Client.scanDrop fuel) code b))) := by
  induction code generalizing b with
  | returns a =>
    refine ⟨0, b, [], rfl, .inl ⟨some a, .returns a, ?_⟩⟩
    rw [(scopeOf_scan (c := b) (o := .ok a) rfl).1 a rfl]
    exact scanDrop_left _ fuel b hr hb
  | panics =>
    refine ⟨0, b, [], rfl, .inl ⟨none, .panics, ?_⟩⟩
    rw [(scopeOf_scan (c := b) (o := .panic) rfl).2 rfl]
    exact scanDrop_left _ fuel b hr hb
  | asks k ih =>
    obtain ⟨bad, h1, h2⟩ := scan_awaits hr hb
    have hk := h1.keeps hr
    rcases hx : Client.scanNext (ε := Empty) b with ⟨c, o⟩
    rw [hx] at h1 h2 hk
    cases bad with
    | true =>
      rw [if_pos rfl] at h2
      dsimp only at h2
      subst h2
      refine ⟨0, b, [], rfl, .inr ⟨.now k, c, h1, ?_⟩⟩
      have hrun : (LoopCode.asks k).run Client.scanNext b = (c, .panic) := by rw [LoopCode.run, SO.bind_panic hx]
      rw [(scopeOf_scan hrun).2 rfl]
      exact scanDrop_left _ fuel c hk.1 (by rw [hk.2]; exact hb)
    | false =>
      rw [if_neg (by simp)] at h2
      obtain ⟨x, h2⟩ := h2
      dsimp only at h2
      subst h2
      obtain ⟨m, d, seen, i1, i2⟩ := ih x hk.1 (by rw [hk.2]; exact hb)
      refine ⟨m + 1, d, x :: seen, by rw [callTimes_succ_ok hx, i1]; rfl, ?_⟩
      rw [scopeOf_asks hx]
      rcases i2 with ⟨own, j1, j2⟩ | ⟨j1, j2⟩
      · exact .inl ⟨own, .asks j1, j2⟩
      · exact .inr ⟨.later j1, j2⟩

/-- Whatever happened, the client can be used afterwards. -/
theorem Sequel.keeps {wait : Nat → Nat → Nat} {Dies : List Byte → Prop} {b c : Bus} {rs : List (Byte × Nat)} {bads : List Bool}
    (h : Sequel wait Dies b rs bads c) (hr : b.RInv) : c.RInv ∧ Bus.Like b c ∧ b.serialPort.now ≤ c.serialPort.now := by
  induction h with
  | done => exact ⟨hr, .refl _, Nat.le_refl _⟩
  | turn h1 _ ih =>
    obtain ⟨k1, k2, k3⟩ := ih (h1.keeps hr).1
    rcases h1 with ⟨-, rfl, -⟩ | ⟨-, h⟩
    · exact ⟨k1, k2, k3⟩
    · exact ⟨k1, h.waited.like.trans k2, Nat.le_trans h.waited.now_le k3⟩

theorem Unwinds.keeps {σ ι ω : Type} {next : SO σ Empty (Option ι)} {drop : SO σ Empty Unit} {client : σ → Bus}
    {Dies : List Byte → Prop} {todo : List (Byte × Nat)} {code : LoopCode ι ω} {s : σ}
    (h : Unwinds next drop client Dies todo code s) (hr : (client s).RInv) :
    (client (scopeOf next drop code s).1).RInv ∧ Bus.Like (client s) (client (scopeOf next drop code s).1) ∧
      (scopeOf next drop code s).2 ≠ .hung := by
  have hs : ∀ (own : Option ω) t, settled own t ≠ .hung := by intro own t; cases own <;> cases t <;> simp [settled]
  obtain ⟨bads, d, -, k, s1, seen, -, -, ⟨own, -, h1, h2⟩ | ⟨-, -, h1, h2⟩⟩ := h
  · exact ⟨(h2.keeps hr).1, (h2.keeps hr).2.1, by rw [h1]; exact hs _ _⟩
  · exact ⟨(h2.keeps hr).1, (h2.keeps hr).2.1, by rw [h1]; exact hs _ _⟩

/-- **C89** Whatever the code does and whatever comes, the scope of a sync or bulk read ends, and the client is in order then, as a
caller finds it who catches the panic. -/
theorem c89_usable {α ω : Type} {d : DataTy α} (hd : ∀ ps, d.decode ps ≠ .hang) :
    (∀ (code : LoopCode (Except ReadError (Response (List Byte))) ω) (n : Nat) (s : SyncIter), s.motorIds.length - s.index < n →
      s.client.RInv → s.client.baudRate < 2 ^ 32 →
      (scopeOf SyncIter.nextBytes (SyncIter.dropBytes n) code s).1.client.RInv ∧
        Bus.Like s.client (scopeOf SyncIter.nextBytes (SyncIter.dropBytes n) code s).1.client ∧
        (scopeOf SyncIter.nextBytes (SyncIter.dropBytes n) code s).2 ≠ .hung) ∧
    (∀ (code : LoopCode (Except ReadError (Response α)) ω) (n : Nat) (s : SyncIter), s.motorIds.length - s.index < n →
      s.client.RInv → s.client.baudRate < 2 ^ 32 →
      (scopeOf (SyncIter.next d) (SyncIter.drop d n) code s).1.client.RInv ∧
        Bus.Like s.client (scopeOf (SyncIter.next d) (SyncIter.drop d n) code s).1.client ∧
        (scopeOf (SyncIter.next d) (SyncIter.drop d n) code s).2 ≠ .hung) ∧
    (∀ (code : LoopCode (Except ReadError (Response (List Byte))) ω) (s : BulkIter), s.index ≤ s.reads.length →
      s.client.RInv → s.client.baudRate < 2 ^ 32 →
      (scopeOf BulkIter.next BulkIter.drop code s).1.client.RInv ∧
        Bus.Like s.client (scopeOf BulkIter.next BulkIter.drop code s).1.client ∧
        (scopeOf BulkIter.next BulkIter.drop code s).2 ≠ .hung) :=
  ⟨fun code _ _ hn hr hb => (c89_sync_bytes code hn hr hb).keeps hr, fun code _ _ hn hr hb => (c89_sync hd code hn hr hb).keeps hr,
    fun code _ hs hr hb => (c89_bulk code hs hr hb).keeps hr⟩

theorem sequel_zero {Dies : List Byte → Prop} {wait : Nat → Nat → Nat} {b c : Bus} (h0 : b.baudRate = 0) {rs : List (Byte × Nat)}
    {bads : List Bool} (h : Sequel wait Dies b rs bads c) : bads = List.replicate rs.length true ∧ c = b := by
  induction h with
  | done => exact ⟨rfl, rfl⟩
  | turn h1 _ ih =>
    rcases h1 with ⟨-, rfl, rfl⟩ | ⟨h, -⟩
    · obtain ⟨k1, k2⟩ := ih h0
      exact ⟨by rw [k1]; rfl, k2⟩
    · exact absurd h0 h

/-- How the scope of an iterator over the responses of `m` motors ends without a baud rate. -/
def withoutBaud {ι ω : Type} (m : Nat) : LoopCode ι ω → ScopeEnd ω
  | .returns _ => .unwound
  | .panics => .aborted
  | .asks _ => if m = 1 then .unwound else .aborted

theorem Unwinds.zero {σ ι ω : Type} {next : SO σ Empty (Option ι)} {drop : SO σ Empty Unit} {client : σ → Bus}
    {Dies : List Byte → Prop} {todo : List (Byte × Nat)} {code : LoopCode ι ω} {s : σ}
    (h : Unwinds next drop client Dies todo code s) (h0 : (client s).baudRate = 0) (ht : todo ≠ []) :
    (scopeOf next drop code s).2 = withoutBaud todo.length code ∧ client (scopeOf next drop code s).1 = client s := by
  obtain ⟨bads, d, h1, k, s1, seen, h2, h3, h4⟩ := h
  obtain ⟨rfl, -⟩ := sequel_zero h0 h1
  have hl : 0 < todo.length := List.length_pos_iff.mpr ht
  have hk : k = 0 := by
    apply Nat.eq_zero_of_not_pos
    intro hk
    apply h3
    obtain ⟨m, hm⟩ : ∃ m, todo.length = m + 1 := ⟨todo.length - 1, by omega⟩
    obtain ⟨k', rfl⟩ : ∃ k', k = k' + 1 := ⟨k - 1, by omega⟩
    rw [hm, List.replicate_succ, List.take_succ_cons]
    exact List.mem_cons_self ..
  subst hk
  cases h2
  rcases h4 with ⟨own, k1, k2, k3⟩ | ⟨k1, -, k2, k3⟩
  · refine ⟨?_, (sequel_zero h0 k3).2⟩
    rw [k2]
    have : ((List.replicate todo.length true).drop 0).any id = true := by
      rw [List.drop_zero, List.any_eq_true]
      exact ⟨true, by simp; omega, rfl⟩
    rw [this]
    cases k1 <;> rfl
  · refine ⟨?_, (sequel_zero h0 k3).2⟩
    rw [k2]
    cases k1
    simp only [withoutBaud]
    by_cases h1 : todo.length = 1
    · rw [if_pos h1, h1]; rfl
    · rw [if_neg h1]
      have : ((List.replicate todo.length true).drop (0 + 1)).any id = true := by
        rw [List.drop_replicate, List.any_eq_true]
        exact ⟨true, by simp; omega, rfl⟩
      rw [this]
      rfl

/-- **C89** With a baud rate of zero, a loop over the responses of two or more motors aborts the process, and so does any loop over a
scan; with one motor it panics. The serial port is not used. -/
theorem c89_zero_baud {α ω : Type} {d : DataTy α} (hd : ∀ ps, d.decode ps ≠ .hang) :
    (∀ (code : LoopCode (Except ReadError (Response (List Byte))) ω) (n : Nat) (s : SyncIter), s.motorIds.length - s.index < n →
      s.client.RInv → s.client.baudRate = 0 → s.index < s.motorIds.length →
      (scopeOf SyncIter.nextBytes (SyncIter.dropBytes n) code s).2 = withoutBaud (s.motorIds.length - s.index) code ∧
        (scopeOf SyncIter.nextBytes (SyncIter.dropBytes n) code s).1.client = s.client) ∧
    (∀ (code : LoopCode (Except ReadError (Response α)) ω) (n : Nat) (s : SyncIter), s.motorIds.length - s.index < n →
      s.client.RInv → s.client.baudRate = 0 → s.index < s.motorIds.length →
      (scopeOf (SyncIter.next d) (SyncIter.drop d n) code s).2 = withoutBaud (s.motorIds.length - s.index) code ∧
        (scopeOf (SyncIter.next d) (SyncIter.drop d n) code s).1.client = s.client) ∧
    (∀ (code : LoopCode (Except ReadError (Response (List Byte))) ω) (s : BulkIter),
      s.client.RInv → s.client.baudRate = 0 → s.index < s.reads.length →
      (scopeOf BulkIter.next BulkIter.drop code s).2 = withoutBaud (s.reads.length - s.index) code ∧
        (scopeOf BulkIter.next BulkIter.drop code s).1.client = s.client) ∧
    (∀ (code : LoopCode (Except ReadError (Response Client.Ping)) ω) (n : Nat) (b : Bus), b.RInv → b.baudRate = 0 →
      scopeOf Client.scanNext (Client.scanDrop (n + 1)) code b = (b, match code with | .returns _ => .unwound | _ => .aborted)) := by
  refine ⟨fun code n s hn hr h0 hi => ?_, fun code n s hn hr h0 hi => ?_, fun code s hr h0 hi => ?_, fun code n b hr h0 => ?_⟩
  · have := (c89_sync_bytes code hn hr (by omega)).zero h0 (by simp; omega)
    simpa using this
  · have := (c89_sync hd code hn hr (by omega)).zero h0 (by simp; omega)
    simpa using this
  · have := (c89_bulk code (Nat.le_of_lt hi) hr (by omega)).zero h0 (by simp; omega)
    simpa using this
  · have hnext := (c65_scan Empty hr (by omega)).1 h0
    have hdrop : Client.scanDrop (ε := Empty) (n + 1) b = (b, .panic) := by rw [Client.scanDrop, SO.bind_panic hnext]
    cases code with
    | returns a => rw [(scopeOf_scan (c := b) (o := .ok a) rfl).1 a rfl, hdrop]; rfl
    | panics => rw [(scopeOf_scan (c := b) (o := .panic) rfl).2 rfl, hdrop]; rfl
    | asks k =>
      have hrun : (LoopCode.asks k).run Client.scanNext b = (b, .panic) := by rw [LoopCode.run, SO.bind_panic hnext]
      rw [(scopeOf_scan hrun).2 rfl, hdrop]
      rfl

/-! ## Examples -/

/-- A loop that takes up to `n` items and then does something else. -/
def takeItems {ι : Type} (after : LoopCode ι Nat) : Nat → LoopCode ι Nat
  | 0 => after
  | n + 1 => .asks fun x => match x with
    | none => .returns n
    | some _ => takeItems after n

/-- Two motors answer; one byte stays on the line. -/
def goodAnswers : SyncIter := ⟨twoAnswers, 2#16, [1#8, 2#8], 0⟩

theorem goodAnswers_rInv : goodAnswers.client.RInv := by
  constructor <;> decide

/-- The code panics after the first of two answers; the other one is awaited, and the panic can be caught. -/
example := c89_sync_bytes (takeItems .panics 1) (n := 3) (s := goodAnswers) (by decide) goodAnswers_rInv (by decide)

theorem goodAnswers_panic : (scopeOf SyncIter.nextBytes (SyncIter.dropBytes 3) (takeItems .panics 1) goodAnswers).2 = .unwound ∧
    (scopeOf SyncIter.nextBytes (SyncIter.dropBytes 3) (takeItems .panics 1) goodAnswers).1.index = 2 := by decide +kernel

theorem goodAnswers_return : (scopeOf SyncIter.nextBytes (SyncIter.dropBytes 3) (takeItems (.returns 7) 5) goodAnswers).2 = .returned 2 := by
  decide +kernel

/-- The first answer of three has no error byte. -/
def oneMalformed : SyncIter := ⟨busWithChunks [(1000, frame 1#8 [0x55#8]), (1000, frame 2#8 [0x55#8, 0x00#8, 0x03#8, 0x04#8]),
  (1000, frame 3#8 [0x55#8, 0x00#8, 0x05#8, 0x06#8])], 2#16, [1#8, 2#8, 3#8], 0⟩

theorem oneMalformed_unwinds : (scopeOf SyncIter.nextBytes (SyncIter.dropBytes 4) (takeItems .panics 1) oneMalformed).2 = .unwound ∧
    (scopeOf SyncIter.nextBytes (SyncIter.dropBytes 4) (takeItems .panics 1) oneMalformed).1.index = 3 ∧
    (scopeOf SyncIter.nextBytes (SyncIter.dropBytes 4) (LoopCode.panics : LoopCode _ Nat) oneMalformed).2 = .aborted ∧
    (scopeOf SyncIter.nextBytes (SyncIter.dropBytes 4) (LoopCode.returns 0) oneMalformed).2 = .unwound ∧
    (scopeOf SyncIter.nextBytes (SyncIter.dropBytes 4) (LoopCode.returns 0) oneMalformed).1.index = 1 := by decide +kernel

/-- Two of three answers have no error byte: any loop over them aborts the process. -/
def twoMalformed : BulkIter := ⟨busWithChunks [(1000, frame 1#8 [0x55#8]), (1000, frame 2#8 [0x55#8, 0x00#8, 0x03#8, 0x04#8]),
  (1000, frame 3#8 [0x55#8])], [⟨1#8, 0#16, 2#16⟩, ⟨2#8, 0#16, 2#16⟩, ⟨3#8, 0#16, 2#16⟩], 0⟩

theorem twoMalformed_aborts : (scopeOf BulkIter.next BulkIter.drop (takeItems (.returns 0) 3) twoMalformed).2 = .aborted := by
  decide +kernel

example := c89_bulk (takeItems (.returns 0) 3) (s := twoMalformed) (by decide) (by constructor <;> decide) (by decide)

/-- **C89** So there are bytes from the line that abort the process: a panic that no caller can catch. -/
theorem c89_line_aborts : ∃ (s : BulkIter) (code : LoopCode (Except ReadError (Response (List Byte))) Nat), s.client.RInv ∧
    s.client.baudRate ≠ 0 ∧ s.index = 0 ∧ (∀ xs, ¬ Concludes code xs none) ∧ (scopeOf BulkIter.next BulkIter.drop code s).2 = .aborted := by
  refine ⟨twoMalformed, takeItems (.returns 0) 3, by constructor <;> decide, by decide, rfl, ?_, twoMalformed_aborts⟩
  have key : ∀ (n : Nat) (xs : List (Option (Except ReadError (Response (List Byte))))), ¬ Concludes (takeItems (.returns 0) n) xs none := by
    intro n
    induction n with
    | zero => intro xs h; cases h
    | succ n ih =>
      intro xs h
      cases h with
      | asks h =>
        rename_i x xs
        cases x with
        | none => cases h
        | some x => exact ih xs h
  exact key 3

/-- A data type of one byte whose decoding function panics on large values. -/
def fussyData : DataTy Byte where
  size := 1#16
  encode := fun v => (DataTy.unsigned 1).encode v
  encode_length := fun v => (DataTy.unsigned 1).encode_length v
  decode := fun ps => match ps with
    | [x] => if x.toNat < 128 then .ok x else .panic
    | _ => .err (.parameterCount ps.length (.exact 1))

theorem fussyData_ends (ps : List Byte) : fussyData.decode ps ≠ .hang := by
  unfold fussyData
  dsimp only
  split
  · split <;> simp
  · simp

/-- Two answers with a large value. -/
def largeAnswers : SyncIter := ⟨busWithChunks [(1000, frame 1#8 [0x55#8, 0x00#8, 0xF0#8]), (1000, frame 2#8 [0x55#8, 0x00#8, 0xF1#8])],
  1#16, [1#8, 2#8], 0⟩

/-- Bytes are no problem; values abort the process, though the code just takes one. -/
theorem largeAnswers_ends : (scopeOf SyncIter.nextBytes (SyncIter.dropBytes 3) (takeItems (.returns 9) 1) largeAnswers).2 = .returned 9 ∧
    (scopeOf (SyncIter.next fussyData) (SyncIter.drop fussyData 3) (takeItems (.returns 9) 1) largeAnswers).2 = .aborted := by
  decide +kernel

example := c89_sync fussyData_ends (takeItems (.returns 9) 1) (n := 3) (s := largeAnswers) (by decide) (by constructor <;> decide) (by decide)

example := (c89_usable (ω := Nat) fussyData_ends).2.1 (takeItems .panics 1) 3 largeAnswers (by decide) (by constructor <;> decide) (by decide)

example := (c89_zero_baud (ω := Nat) fussyData_ends).1 (takeItems (.returns 9) 1) 3
  ⟨{ twoAnswers with baudRate := 0 }, 2#16, [1#8, 2#8], 0⟩ (by decide) (by constructor <;> decide) rfl (by decide)

/-- A scan whose code panics after the first answer. -/
def scanAnswers : Bus := busWithChunks [(1000, frame 1#8 [0x55#8, 0x00#8, 0x06#8, 0x04#8, 0x26#8]),
  (1000, frame 2#8 [0x55#8, 0x00#8, 0x06#8, 0x04#8, 0x26#8])]

example := c89_scan 5 (takeItems .panics 1) (b := scanAnswers) (by constructor <;> decide) (by decide)

theorem scanAnswers_panic : (scopeOf Client.scanNext (Client.scanDrop 5) (takeItems .panics 1) scanAnswers).2 = .unwound := by
  decide +kernel

end Dxl.Props
