import Verif.Spec.Roomier
import Verif.Lemmas.ForgetBus

/-! # Larger buffers -/

namespace Dxl
open Spec

/-! ## What is to come -/

theorem NoneLarger.suffix {n : Nat} {s t : List Byte} (h : NoneLarger n s) (ht : t <:+ s) : NoneLarger n t := by
  intro k h1 h2
  obtain ⟨q, rfl⟩ := ht
  have e : (q ++ t).drop (q.length + k) = t.drop k := by
    rw [← List.drop_drop, List.drop_left]
  have := h (q.length + k)
  rw [e] at this
  exact this h1 h2

theorem NoneLarger.prefix {n : Nat} {s u : List Byte} (h : NoneLarger n (s ++ u)) : NoneLarger n s := by
  intro k h1 h2
  have hk : k ≤ s.length := by
    simp at h2
    omega
  have := h k
  rw [List.drop_append_of_le_length hk, lengthField_append (by omega)] at this
  exact this (h1.trans (List.prefix_append _ _)) (by simp at h2 ⊢; omega)

theorem NoneLarger.parse {n m : Nat} {s : List Byte} (h : NoneLarger n s) (hm : n ≤ m) :
    parse m s = parse n s ∧ ∀ req rest, parse n s ≠ .tooBig req rest := by
  unfold Spec.parse
  by_cases h7 : (skip s).length ≤ 7
  · rw [if_pos h7, if_pos h7]
    exact ⟨rfl, fun _ _ h => by simp at h⟩
  · rw [if_neg h7, if_neg h7]
    have hs := h.suffix (skip_suffix s) 0
    rw [List.drop_zero] at hs
    have := hs (skip_header_of_long (by omega)) (by omega)
    rw [if_neg (show ¬ m < 7 + Spec.lengthField (skip s) by omega), if_neg (show ¬ n < 7 + Spec.lengthField (skip s) by omega)]
    refine ⟨rfl, fun req rest => ?_⟩
    split <;> simp

/-- What a reader gets from a port when there is always room: the outcome of waiting for a packet, with the unread bytes, the
time and the rest of the script afterwards. -/
def ideal (n D : Nat) (tail : Tail) : List RxEvent → Nat → List Byte →
    Outcome ReadError (List Byte) × List Byte × Nat × List RxEvent
  | [], now, s =>
    match parse n s with
    | .packet f rest => (.ok f, rest, now, [])
    | .tooBig req rest => (.err (.bufferFull ⟨req, n⟩), rest, now, [])
    | .more => match tail with
      | .silent => (.err (.io .timedOut), skip s, D, [])
      | .broken e => (.err (.io e), skip s, now, [])
  | .data t bs :: rx, now, s =>
    match parse n s with
    | .packet f rest => (.ok f, rest, now, .data t bs :: rx)
    | .tooBig req rest => (.err (.bufferFull ⟨req, n⟩), rest, now, .data t bs :: rx)
    | .more => if t ≤ D then ideal n D tail rx (max now t) (skip s ++ bs)
        else (.err (.io .timedOut), skip s, D, .data t bs :: rx)
  | .fail t e :: rx, now, s =>
    match parse n s with
    | .packet f rest => (.ok f, rest, now, .fail t e :: rx)
    | .tooBig req rest => (.err (.bufferFull ⟨req, n⟩), rest, now, .fail t e :: rx)
    | .more => if t ≤ D then (.err (.io e), skip s, max now t, rx)
        else (.err (.io .timedOut), skip s, D, .fail t e :: rx)

theorem ideal_packet {n D : Nat} {tail : Tail} {rx : List RxEvent} {now : Nat} {s f rest : List Byte}
    (h : parse n s = .packet f rest) : ideal n D tail rx now s = (.ok f, rest, now, rx) := by
  match rx with
  | [] => unfold ideal; rw [h]
  | .data t bs :: rx => unfold ideal; rw [h]
  | .fail t e :: rx => unfold ideal; rw [h]

theorem ideal_tooBig {n D req : Nat} {tail : Tail} {rx : List RxEvent} {now : Nat} {s rest : List Byte}
    (h : parse n s = .tooBig req rest) : ideal n D tail rx now s = (.err (.bufferFull ⟨req, n⟩), rest, now, rx) := by
  match rx with
  | [] => unfold ideal; rw [h]
  | .data t bs :: rx => unfold ideal; rw [h]
  | .fail t e :: rx => unfold ideal; rw [h]

/-- Garbage in front does not matter. -/
theorem ideal_skip {n D : Nat} {tail : Tail} {rx : List RxEvent} {now : Nat} {s s' : List Byte} (h : skip s = skip s') :
    ideal n D tail rx now s = ideal n D tail rx now s' := by
  have hp : parse n s = parse n s' := by rw [← parse_skip n s, ← parse_skip n s', h]
  match rx with
  | [] => unfold ideal; rw [hp, h]
  | .data t bs :: rx => unfold ideal; rw [hp, h]
  | .fail t e :: rx => unfold ideal; rw [hp, h]

theorem skip_append_suffix (s u : List Byte) : skip s ++ u <:+ s ++ u := by
  obtain ⟨q, hq⟩ := skip_suffix s
  exact ⟨q, by rw [← List.append_assoc, hq]⟩

theorem parse_packet_suffix {n : Nat} {s f rest : List Byte} (h : parse n s = .packet f rest) : rest <:+ s :=
  List.IsSuffix.trans ⟨f, (parse_packet h).1.symm⟩ (skip_suffix _)

theorem append_suffix_append {s t : List Byte} (h : s <:+ t) (u : List Byte) : s ++ u <:+ t ++ u := by
  obtain ⟨q, hq⟩ := h
  exact ⟨q, by rw [← List.append_assoc, hq]⟩

/-- When nothing too large comes: the size does not matter, and nothing too large comes afterwards. -/
theorem ideal_same {n m D : Nat} {tail : Tail} (hm : n ≤ m) : ∀ (rx : List RxEvent) (now : Nat) (s : List Byte),
    NoneLarger n (s ++ allBytes rx) → now ≤ D →
    ideal m D tail rx now s = ideal n D tail rx now s ∧
    ∃ o s' now' rx', ideal n D tail rx now s = (o, s', now', rx') ∧ s' ++ allBytes rx' <:+ s ++ allBytes rx ∧ rx' <:+ rx ∧
      now ≤ now' ∧ now' ≤ D ∧ o ≠ .panic ∧ o ≠ .hang
  | [], now, s, h, hD => by
    obtain ⟨h1, h2⟩ := h.prefix.parse hm
    unfold ideal
    rw [h1]
    cases hp : parse n s with
    | packet f rest => exact ⟨rfl, _, _, _, _, rfl, append_suffix_append (parse_packet_suffix hp) _, List.suffix_refl _,
        Nat.le_refl _, hD, by simp, by simp⟩
    | tooBig req rest => exact absurd hp (h2 req rest)
    | more =>
      cases tail with
      | silent => exact ⟨rfl, _, _, _, _, rfl, skip_append_suffix _ _, List.suffix_refl _, hD, Nat.le_refl _, by simp, by simp⟩
      | broken e => exact ⟨rfl, _, _, _, _, rfl, skip_append_suffix _ _, List.suffix_refl _, Nat.le_refl _, hD, by simp, by simp⟩
  | .data t bs :: rx, now, s, h, hD => by
    obtain ⟨h1, h2⟩ := h.prefix.parse hm
    unfold ideal
    rw [h1]
    cases hp : parse n s with
    | packet f rest => exact ⟨rfl, _, _, _, _, rfl, append_suffix_append (parse_packet_suffix hp) _, List.suffix_refl _,
        Nat.le_refl _, hD, by simp, by simp⟩
    | tooBig req rest => exact absurd hp (h2 req rest)
    | more =>
      dsimp only
      by_cases ht : t ≤ D
      · rw [if_pos ht, if_pos ht]
        have e : skip s ++ bs ++ allBytes rx <:+ s ++ allBytes (.data t bs :: rx) := by
          rw [List.append_assoc]
          exact skip_append_suffix _ _
        obtain ⟨i1, o, s', now', rx', i2, i3, i4, i5, i6, i7⟩ := ideal_same hm rx (max now t) (skip s ++ bs) (h.suffix e)
          (Nat.max_le.mpr ⟨hD, ht⟩)
        exact ⟨i1, o, s', now', rx', i2, i3.trans e, i4.trans (List.suffix_cons _ _), Nat.le_trans (Nat.le_max_left _ _) i5, i6, i7⟩
      · rw [if_neg ht, if_neg ht]
        exact ⟨rfl, _, _, _, _, rfl, skip_append_suffix _ _, List.suffix_refl _, hD, Nat.le_refl _, by simp, by simp⟩
  | .fail t e :: rx, now, s, h, hD => by
    obtain ⟨h1, h2⟩ := h.prefix.parse hm
    unfold ideal
    rw [h1]
    cases hp : parse n s with
    | packet f rest => exact ⟨rfl, _, _, _, _, rfl, append_suffix_append (parse_packet_suffix hp) _, List.suffix_refl _,
        Nat.le_refl _, hD, by simp, by simp⟩
    | tooBig req rest => exact absurd hp (h2 req rest)
    | more =>
      dsimp only
      by_cases ht : t ≤ D
      · rw [if_pos ht]
        exact ⟨rfl, _, _, _, _, rfl, skip_append_suffix _ _, List.suffix_cons _ _, Nat.le_max_left _ _, Nat.max_le.mpr ⟨hD, ht⟩, by simp, by simp⟩
      · rw [if_neg ht]
        exact ⟨rfl, _, _, _, _, rfl, skip_append_suffix _ _, List.suffix_refl _, hD, Nat.le_refl _, by simp, by simp⟩

/-! ## Reading -/

/-- Only reads happened. -/
structure Port.Still (p q : Port) : Prop where
  tail : q.tail = p.tail
  discardRes : q.discardRes = p.discardRes
  discardIsNoop : q.discardIsNoop = p.discardIsNoop
  writeRes : q.writeRes = p.writeRes
  baudRes : q.baudRes = p.baudRes
  rate : q.rate = p.rate
  rateErr : q.rateErr = p.rateErr
  calls : q.log.filter Call.isOther = p.log.filter Call.isOther

theorem Port.Still.refl (p : Port) : p.Still p := ⟨rfl, rfl, rfl, rfl, rfl, rfl, rfl, rfl⟩

theorem Port.Still.trans {p q r : Port} (h : p.Still q) (h' : q.Still r) : p.Still r :=
  ⟨h'.1.trans h.1, h'.2.trans h.2, h'.3.trans h.3, h'.4.trans h.4, h'.5.trans h.5, h'.6.trans h.6, h'.7.trans h.7, h'.8.trans h.8⟩

theorem Port.read_still (cap D : Nat) (p : Port) : p.Still (Port.read cap D p).1 := by
  simp only [Port.read]
  split
  · exact ⟨rfl, rfl, rfl, rfl, rfl, rfl, rfl, by simp [Call.isOther]⟩
  · split
    · split <;> exact ⟨rfl, rfl, rfl, rfl, rfl, rfl, rfl, by simp [Call.isOther]⟩
    · split
      · split <;> exact ⟨rfl, rfl, rfl, rfl, rfl, rfl, rfl, by simp [Call.isOther]⟩
      · exact ⟨rfl, rfl, rfl, rfl, rfl, rfl, rfl, by simp [Call.isOther]⟩
    · split <;> exact ⟨rfl, rfl, rfl, rfl, rfl, rfl, rfl, by simp [Call.isOther]⟩

/-- One read, for a bus that needs more bytes: it gets nothing and would have got nothing, or it gets something and sees the
same as before. -/
theorem sees_read {n D cap : Nat} {held unread : List Byte} {p : Port} {rx : List RxEvent} (h : Sees held p unread rx)
    (hm : parse n held = .more) (hD : p.now ≤ D) :
    (∃ p' bs unread' rx', Port.read cap D p = (p', .ok bs) ∧ Sees (skip held ++ bs) p' unread' rx' ∧ p'.now ≤ D ∧
      ideal n D p.tail rx p.now unread = ideal n D p.tail rx' p'.now unread') ∨
    (∃ p' e rx', Port.read cap D p = (p', .err e) ∧ p'.rx = rx' ∧
      ideal n D p.tail rx p.now unread = (.err (.io e), skip held, p'.now, rx')) := by
  cases h with
  | all h hrx =>
    subst h
    simp only [Port.read]
    rw [if_neg (by omega), hrx]
    match rx with
    | [] =>
      unfold ideal
      rw [hm]
      right
      cases hT : p.tail with
      | silent => exact ⟨_, _, _, rfl, rfl, rfl⟩
      | broken e => exact ⟨_, _, _, rfl, rfl, rfl⟩
    | .data t bs :: rx =>
      rw [ideal, hm]
      dsimp only
      by_cases ht : t ≤ D
      · rw [if_pos ht, if_pos ht]
        left
        by_cases hb : bs.length ≤ cap
        · rw [if_pos hb]
          exact ⟨_, _, _, _, rfl, .all rfl rfl, by dsimp only; omega, rfl⟩
        · rw [if_neg hb]
          refine ⟨_, _, skip held ++ bs, rx, rfl, .part t (bs.drop cap) ?_ (by dsimp only; omega) ?_ rfl, by dsimp only; omega, rfl⟩
          · rw [List.append_assoc, List.take_append_drop]
          · intro h0
            have := congrArg List.length h0
            simp at this
            omega
      · rw [if_neg ht, if_neg ht]
        exact .inr ⟨_, _, _, rfl, rfl, rfl⟩
    | .fail t e :: rx =>
      rw [ideal, hm]
      dsimp only
      by_cases ht : t ≤ D
      · rw [if_pos ht, if_pos ht]
        exact .inr ⟨_, _, _, rfl, rfl, rfl⟩
      · rw [if_neg ht, if_neg ht]
        exact .inr ⟨_, _, _, rfl, rfl, rfl⟩
  | part t x h ht hx hrx =>
    subst h
    left
    simp only [Port.read]
    rw [if_neg (by omega), hrx]
    dsimp only
    rw [if_pos (by omega)]
    have e : max p.now t = p.now := by omega
    rw [e]
    have hs : ideal n D p.tail rx p.now (held ++ x) = ideal n D p.tail rx p.now (skip held ++ x) := ideal_skip (skip_append _ _)
    by_cases hb : x.length ≤ cap
    · rw [if_pos hb]
      exact ⟨_, _, _, _, rfl, .all rfl rfl, hD, hs⟩
    · rw [if_neg hb]
      refine ⟨_, _, skip held ++ x, rx, rfl, .part t (x.drop cap) ?_ ht ?_ rfl, hD, hs⟩
      · rw [List.append_assoc, List.take_append_drop]
      · intro h0
        have := congrArg List.length h0
        simp at this
        omega

namespace Bus

/-- The loop that waits for a packet does what the ideal reader does. -/
theorem readLoop_ideal (D fuel : Nat) : ∀ (b : Bus) (unread : List Byte) (rx : List RxEvent), b.RInv → 10 ≤ b.readBuffer.length →
    b.serialPort.measure < fuel → b.serialPort.now ≤ D → Sees b.pending b.serialPort unread rx →
    ∃ b' p held s now rx', b.serialPort.Still p ∧ p.now = now ∧ Sees held p s rx' ∧
      ((∃ f, ideal b.readBuffer.length D b.serialPort.tail rx b.serialPort.now unread = (.ok f, s, now, rx') ∧
        header <+: f ∧ f.length = 7 + Spec.lengthField f ∧ readLoop D fuel b = (b', .ok f.length) ∧ Holds b p (f ++ held) b') ∨
      (∃ e, ideal b.readBuffer.length D b.serialPort.tail rx b.serialPort.now unread = (.err e, s, now, rx') ∧
        readLoop D fuel b = (b', .err e) ∧ Holds b p held b')) := by
  induction fuel with
  | zero => intro b _ _ _ _ h; omega
  | succ fuel ih =>
    intro b unread rx hr hN hm hD hsee
    have hlen : (skip b.pending).length ≤ b.readBuffer.length :=
      Nat.le_trans (skip_suffix _).length_le (pending_length_le hr)
    have hmr := messageReady_eq b (skip b.pending) hlen (skip_skip _)
    rw [parse_skip] at hmr
    have hhold := holds_withPending b b.serialPort hlen
    rw [show b.onto b.serialPort = b from rfl] at hhold
    unfold readLoop
    rw [SO.bind_ok (removeGarbage_eq hr)]
    cases hp : parse b.readBuffer.length b.pending with
    | packet f rest =>
      rw [hp] at hmr
      rw [SO.bind_ok hmr]
      obtain ⟨q1, q2, q3, -⟩ := parse_packet hp
      rw [q1] at hhold ⊢
      cases hsee with
      | all h hrx =>
        exact ⟨_, _, rest, rest, _, rx, .refl _, rfl, .all rfl hrx, .inl ⟨f, by rw [← h, ideal_packet hp], q2, q3, rfl, hhold⟩⟩
      | part t x h ht hx hrx =>
        exact ⟨_, _, rest, rest ++ x, _, rx, .refl _, rfl, .part t x rfl ht hx hrx,
          .inl ⟨f, by rw [← h, ideal_packet (parse_packet_append hp)], q2, q3, rfl, hhold⟩⟩
    | tooBig req rest =>
      rw [hp] at hmr
      rw [SO.bind_err hmr]
      obtain ⟨hd, h1, _⟩ := parse_tooBig hp
      have hl : Holds b b.serialPort rest ((b.withPending (skip b.pending)).withPending rest) := by
        refine Holds.of_like hhold.like (holds_withPending _ _ ?_)
        rw [h1] at hlen hhold
        rw [h1, hhold.like.readSize]
        simp at hlen
        omega
      cases hsee with
      | all h hrx =>
        exact ⟨_, _, rest, rest, _, rx, .refl _, rfl, .all rfl hrx, .inr ⟨_, by rw [← h, ideal_tooBig hp], rfl, hl⟩⟩
      | part t x h ht hx hrx =>
        exact ⟨_, _, rest, rest ++ x, _, rx, .refl _, rfl, .part t x rfl ht hx hrx,
          .inr ⟨_, by rw [← h, ideal_tooBig (parse_tooBig_append hp)], rfl, hl⟩⟩
    | more =>
      rw [hp] at hmr
      rw [SO.bind_ok hmr]
      have hroom := parse_more_room hN hp
      simp only
      have hrm := readMore_eq b (skip b.pending) D hlen
      have hst := Port.read_still (b.readBuffer.length - (skip b.pending).length) D b.serialPort
      rcases sees_read (cap := b.readBuffer.length - (skip b.pending).length) hsee hp hD with
        ⟨p1, bs, u', rx', hread, hs', hD', hi⟩ | ⟨p1, e, rx', hread, hrx', hi⟩
      · rw [hread] at hrm hst
        rw [SO.bind_ok hrm]
        have hbs := Port.read_length hread
        have hh := holds_withPending b p1 (t := skip b.pending ++ bs) (by simp; omega)
        obtain ⟨b', p, held, s, now, rx'', i1, i2, i3, i4⟩ := ih _ u' rx' hh.rInv (by rw [hh.like.readSize]; exact hN)
          (by
            rw [hh.port]
            have := Port.read_measure (by omega) hread
            omega) (by rw [hh.port]; exact hD') (by rw [hh.port, hh.pending]; exact hs')
        rw [hh.port] at i1 i4
        rw [hh.like.readSize, hst.tail, ← hi] at i4
        refine ⟨b', p, held, s, now, rx'', hst.trans i1, i2, i3, ?_⟩
        rcases i4 with ⟨f, j1, j2, j3, j4, j5⟩ | ⟨e, j1, j2, j3⟩
        · exact .inl ⟨f, j1, j2, j3, j4, j5.of_like hh.like⟩
        · exact .inr ⟨e, j1, j2, j3.of_like hh.like⟩
      · rw [hread] at hrm hst
        rw [SO.bind_err hrm]
        exact ⟨_, p1, skip b.pending, skip b.pending, _, rx', hst, rfl, .all rfl hrx', .inr ⟨_, hi, rfl, holds_withPending b p1 hlen⟩⟩

theorem samePort_of_still {p q p' q' : Port} (h : SamePort p q) (hp : p.Still p') (hq : q.Still q') (hn : q'.now = p'.now) :
    SamePort p' q' :=
  ⟨hn, by rw [hp.tail, hq.tail, h.tail], by rw [hp.discardRes, hq.discardRes, h.discardRes],
    by rw [hp.discardIsNoop, hq.discardIsNoop, h.discardIsNoop], by rw [hp.writeRes, hq.writeRes, h.writeRes],
    by rw [hp.baudRes, hq.baudRes, h.baudRes], by rw [hp.rate, hq.rate, h.rate], by rw [hp.rateErr, hq.rateErr, h.rateErr],
    by rw [hp.calls, hq.calls, h.calls]⟩

theorem roomier_of_after {b c b' c' : Bus} {p q : Port} {held held' s : List Byte} {rx : List RxEvent} (h : Roomier b c)
    (hb : After b p held b') (hc : After c q held' c') (hp : b.serialPort.Still p) (hq : c.serialPort.Still q) (hn : q.now = p.now)
    (h1 : Sees held p s rx) (h2 : Sees held' q s rx) (hs : Sequential rx) (hl : NoneLarger b.readBuffer.length (s ++ allBytes rx)) :
    Roomier b' c' where
  read_ok := ⟨hb.rInv, hc.rInv⟩
  write_ok := by
    obtain ⟨h1, h2⟩ := h.write_ok
    constructor
    · exact ⟨by rw [hb.like.writeBuffer]; exact h1.size, by rw [hb.like.writeBuffer]; exact h1.prefix_eq⟩
    · exact ⟨by rw [hc.like.writeBuffer]; exact h2.size, by rw [hc.like.writeBuffer]; exact h2.prefix_eq⟩
  baudRate := by rw [hb.like.baudRate, hc.like.baudRate, h.baudRate]
  debug := by rw [hb.like.debug, hc.like.debug, h.debug]
  readSize := by rw [hb.like.readSize, hc.like.readSize]; exact h.readSize
  writeSize := by rw [hb.like.writeBuffer, hc.like.writeBuffer]; exact h.writeSize
  port := by rw [hb.port, hc.port]; exact samePort_of_still h.port hp hq hn
  discards := by rw [hb.port, hp.discardIsNoop, hp.discardRes]; exact h.discards
  unread := ⟨s, rx, by rw [hb.pending, hb.port]; exact h1, by rw [hc.pending, hc.port]; exact h2, hs,
    by rw [hb.like.readSize]; exact hl⟩

theorem sequential_suffix {rx rx' : List RxEvent} (h : Sequential rx) (hs : rx' <:+ rx) : Sequential rx' :=
  List.Pairwise.sublist (List.Sublist.filterMap _ hs.sublist) h

/-- Such buses, and the deadline has not passed. -/
def RoomierBy (D : Nat) (b c : Bus) : Prop := Roomier b c ∧ b.serialPort.now ≤ D

theorem readPacket_roomier (D : Nat) : Forgets (RoomierBy D) (RoomierBy D) (readPacketDeadline D) := by
  intro b c ⟨h, hD⟩
  obtain ⟨u, rx, sb, sc, hs, hl⟩ := h.unread
  obtain ⟨rb, rc⟩ := h.read_ok
  obtain ⟨n1, n2⟩ := h.readSize
  have hcb : BufferTooSmall.check (headerSize + 3) b.readBuffer.length = .ok () := if_pos n1
  have hcc : BufferTooSmall.check (headerSize + 3) c.readBuffer.length = .ok () := if_pos (Nat.le_trans n1 n2)
  unfold readPacketDeadline
  rw [SO.get_bind, SO.get_bind, hcb, hcc, Outcome.mapErr_ok, SO.lift_ok_bind, SO.lift_ok_bind]
  obtain ⟨b', p, held, s, now, rx', i1, i2, i3, i4⟩ := readLoop_ideal D (b.serialPort.measure + 1) b u rx rb n1 (by omega) hD sb
  obtain ⟨c', q, held', s', now', rx'', j1, j2, j3, j4⟩ := readLoop_ideal D (c.serialPort.measure + 1) c u rx rc
    (Nat.le_trans n1 n2) (by omega) (by rw [h.port.now]; exact hD) sc
  obtain ⟨e1, o, u', t', r', e2, e3, e4, e5, e6, -⟩ := ideal_same (tail := b.serialPort.tail) n2 rx b.serialPort.now u hl hD
  rw [h.port.tail, h.port.now, e1, e2] at j4
  rw [e2] at i4
  rw [SO.bind_def, SO.bind_def]
  rcases i4 with ⟨f, a1, a2, a3, a4, a5⟩ | ⟨e, a1, a2, a3⟩
  · simp only [Prod.mk.injEq] at a1
    obtain ⟨rfl, rfl, rfl, rfl⟩ := a1
    rcases j4 with ⟨f', b1, b2, b3, b4, b5⟩ | ⟨e, b1, b2, b3⟩
    · simp only [Prod.mk.injEq, Outcome.ok.injEq] at b1
      obtain ⟨rfl, rfl, rfl, rfl⟩ := b1
      obtain ⟨b'', k1, k2⟩ := finishPacket_eq a5 a2 a3
      obtain ⟨c'', k3, k4⟩ := finishPacket_eq b5 a2 a3
      rw [a4, b4]
      dsimp only
      rw [k1, k3]
      exact ⟨rfl, roomier_of_after h k2 k4 i1 j1 (by rw [i2, j2]) i3 j3 (sequential_suffix hs e4) (hl.suffix e3),
        by rw [k2.port, i2]; exact e6⟩
    · simp at b1
  · simp only [Prod.mk.injEq] at a1
    obtain ⟨rfl, rfl, rfl, rfl⟩ := a1
    rcases j4 with ⟨f', b1, b2, b3, b4, b5⟩ | ⟨e', b1, b2, b3⟩
    · simp at b1
    · simp only [Prod.mk.injEq, Outcome.err.injEq] at b1
      obtain ⟨rfl, rfl, rfl, rfl⟩ := b1
      rw [a2, b2]
      exact ⟨rfl, roomier_of_after h a3.after b3.after i1 j1 (by rw [i2, j2]) i3 j3 (sequential_suffix hs e4) (hl.suffix e3),
        by rw [a3.port, i2]; exact e6⟩

/-! ## Writing -/

theorem allBytes_filter {now : Nat} : ∀ {rx : List RxEvent}, Sequential rx →
    allBytes (rx.filter fun e => !e.discardable now) <:+ allBytes rx
  | [], _ => List.suffix_refl _
  | .fail t e :: rx, h => by
    have h' : Sequential rx := h
    simpa [RxEvent.discardable, allBytes] using allBytes_filter (now := now) h'
  | .data t bs :: rx, h => by
    have h' : Sequential rx := sequential_suffix h (List.suffix_cons _ _)
    by_cases ht : t ≤ now
    · have := allBytes_filter (now := now) h'
      simp only [RxEvent.discardable, ht, decide_true, Bool.not_true, List.filter_cons, Bool.false_eq_true, ↓reduceIte, allBytes]
      exact this.trans (List.suffix_append _ _)
    · have e : (RxEvent.data t bs :: rx).filter (fun e => !e.discardable now) = .data t bs :: rx := by
        rw [List.filter_eq_self]
        intro x hx
        cases x with
        | fail t' e => rfl
        | data t' bs' =>
          rw [List.mem_cons] at hx
          have : t ≤ t' := by
            rcases hx with hx | hx
            · simp only [RxEvent.data.injEq] at hx
              omega
            · unfold Sequential at h
              rw [List.filterMap_cons] at h
              exact (List.pairwise_cons.mp h).1 t' (List.mem_filterMap.mpr ⟨_, hx, rfl⟩)
          simp [RxEvent.discardable]
          omega
      rw [e]
      exact List.suffix_refl _

theorem sequential_filter {rx : List RxEvent} (f : RxEvent → Bool) (h : Sequential rx) : Sequential (rx.filter f) :=
  List.Pairwise.sublist (List.Sublist.filterMap _ List.filter_sublist) h

/-- What is left to read after discarding. -/
theorem sees_discarded {held unread : List Byte} {p : Port} {rx : List RxEvent} (h : Sees held p unread rx)
    (hn : p.discardIsNoop = false) : p.dropArrived = rx.filter fun e => !e.discardable p.now := by
  unfold Port.dropArrived
  rw [hn]
  cases h with
  | all h hrx => rw [hrx]; rfl
  | part t x h ht hx hrx =>
    rw [hrx]
    simp [RxEvent.discardable, ht]

/-- After a write that did not get to the port. -/
theorem roomier_unsent {b c b' c' : Bus} (h : Roomier b c) (hb : Kept b b') (hc : Kept c c')
    (pb : b'.serialPort = b.serialPort) (pc : c'.serialPort = c.serialPort)
    (eb : b'.readLen = b.readLen ∧ b'.usedBytes = b.usedBytes) (ec : c'.readLen = c.readLen ∧ c'.usedBytes = c.usedBytes) :
    Roomier b' c' where
  read_ok := ⟨⟨by rw [eb.1, eb.2]; exact h.read_ok.1.used_le, by rw [eb.1, hb.readBuffer]; exact h.read_ok.1.len_le⟩,
    ⟨by rw [ec.1, ec.2]; exact h.read_ok.2.used_le, by rw [ec.1, hc.readBuffer]; exact h.read_ok.2.len_le⟩⟩
  write_ok := ⟨hb.wInv h.write_ok.1, hc.wInv h.write_ok.2⟩
  baudRate := by rw [hb.baudRate, hc.baudRate, h.baudRate]
  debug := by rw [hb.debug, hc.debug, h.debug]
  readSize := by rw [hb.readBuffer, hc.readBuffer]; exact h.readSize
  writeSize := by rw [hb.writeLength, hc.writeLength]; exact h.writeSize
  port := by rw [pb, pc]; exact h.port
  discards := by rw [pb]; exact h.discards
  unread := by
    rw [pb, pc, pending_same hb.readBuffer eb.1 eb.2, pending_same hc.readBuffer ec.1 ec.2, hb.readBuffer]
    exact h.unread

theorem sendFrame_roomier {b c : Bus} {f : List Byte} (h : Roomier b c) (hf : f.take 4 = headerPrefix)
    (hl : f.length ≤ b.writeBuffer.length) :
    (sendFrame f { c with writeBuffer := f ++ c.writeBuffer.drop f.length, readLen := 0, usedBytes := 0 }).2 =
      (sendFrame f { b with writeBuffer := f ++ b.writeBuffer.drop f.length, readLen := 0, usedBytes := 0 }).2 ∧
    Roomier (sendFrame f { b with writeBuffer := f ++ b.writeBuffer.drop f.length, readLen := 0, usedBytes := 0 }).1
      (sendFrame f { c with writeBuffer := f ++ c.writeBuffer.drop f.length, readLen := 0, usedBytes := 0 }).1 := by
  have kb := sendFrame_kept h.write_ok.1 _ rfl hf hl
  have kc := sendFrame_kept h.write_ok.2 _ rfl hf (Nat.le_trans hl h.writeSize)
  obtain ⟨u, rx, sb, sc, hs, hn⟩ := h.unread
  have d1 := sees_discarded sb h.discards.1
  have d2 := sees_discarded sc (by rw [h.port.discardIsNoop]; exact h.discards.1)
  rw [h.port.now] at d2
  have hd : ∀ e, b.serialPort.discardRes.head? ≠ some (some e) := by
    intro e he
    have := h.discards.2 (some e) (List.mem_of_head? he)
    simp at this
  have db : Port.discardInputBuffer b.serialPort = (b.serialPort.discarded, .ok ()) := by
    rcases discard_cases b.serialPort with ⟨e, he, -⟩ | ⟨-, hd⟩
    · exact absurd he (hd e)
    · exact hd
  have dc : Port.discardInputBuffer c.serialPort = (c.serialPort.discarded, .ok ()) := by
    rcases discard_cases c.serialPort with ⟨e, he, -⟩ | ⟨-, hd⟩
    · rw [h.port.discardRes] at he
      exact absurd he (hd e)
    · exact hd
  have key : ∀ x : Bus, Port.discardInputBuffer x.serialPort = (x.serialPort.discarded, .ok ()) →
      sendFrame f x = ({ x with serialPort := (Port.writeAll f x.serialPort.discarded).1 },
        (Port.writeAll f x.serialPort.discarded).2.mapErr .write) := by
    intro x hx
    unfold sendFrame
    have : onPort (Port.discardInputBuffer.mapErr WriteError.discardBuffer) x
        = ({ x with serialPort := x.serialPort.discarded }, .ok ()) := by
      rw [onPort_apply, SO.mapErr_apply, hx]; rfl
    rw [SO.bind_ok this, onPort_apply, SO.mapErr_apply]
  have wr : ∀ p q : Port, SamePort p q → p.rx = q.rx → (Port.writeAll f q).2 = (Port.writeAll f p).2 ∧
      SamePort (Port.writeAll f p).1 (Port.writeAll f q).1 ∧ (Port.writeAll f p).1.rx = p.rx ∧ (Port.writeAll f q).1.rx = q.rx ∧
      (Port.writeAll f p).1.discardIsNoop = p.discardIsNoop ∧ (Port.writeAll f p).1.discardRes = p.discardRes := by
    intro p q hpq hrx
    unfold Port.writeAll
    rw [hpq.writeRes]
    split
    · exact ⟨rfl, ⟨by dsimp only; rw [hpq.now], hpq.tail, hpq.discardRes, hpq.discardIsNoop, rfl, hpq.baudRes, hpq.rate,
        hpq.rateErr, by simp only [List.filter_append]; rw [hpq.calls]⟩, rfl, rfl, rfl, rfl⟩
    · exact ⟨rfl, ⟨by dsimp only; rw [hpq.now], hpq.tail, hpq.discardRes, hpq.discardIsNoop, rfl, hpq.baudRes, hpq.rate,
        hpq.rateErr, by simp only [List.filter_append]; rw [hpq.calls]⟩, rfl, rfl, rfl, rfl⟩
    · exact ⟨rfl, ⟨hpq.now, hpq.tail, hpq.discardRes, hpq.discardIsNoop, rfl, hpq.baudRes, hpq.rate,
        hpq.rateErr, by simp only [List.filter_append]; rw [hpq.calls]⟩, rfl, rfl, rfl, rfl⟩
  have hp : SamePort b.serialPort.discarded c.serialPort.discarded :=
    ⟨h.port.now, h.port.tail, by unfold Port.discarded; dsimp only; rw [h.port.discardRes], h.port.discardIsNoop, h.port.writeRes,
      h.port.baudRes, h.port.rate, h.port.rateErr, by unfold Port.discarded; simp only [List.filter_append]; rw [h.port.calls]⟩
  obtain ⟨w1, w2, w3, w4, w5, w6⟩ := wr b.serialPort.discarded c.serialPort.discarded hp (by
    unfold Port.discarded
    dsimp only
    rw [d1, d2])
  have eb := key { b with writeBuffer := f ++ b.writeBuffer.drop f.length, readLen := 0, usedBytes := 0 } db
  have ec := key { c with writeBuffer := f ++ c.writeBuffer.drop f.length, readLen := 0, usedBytes := 0 } dc
  rw [eb] at kb
  rw [ec] at kc
  rw [eb, ec]
  refine ⟨by dsimp only; rw [w1], ?_⟩
  refine ⟨⟨⟨Nat.le_refl _, Nat.zero_le _⟩, ⟨Nat.le_refl _, Nat.zero_le _⟩⟩, ⟨kb.wInv h.write_ok.1, kc.wInv h.write_ok.2⟩,
    h.baudRate, h.debug, h.readSize, ?_, w2, ?_, [], rx.filter fun e => !e.discardable b.serialPort.now, ?_, ?_,
    sequential_filter _ hs, ?_⟩
  · rw [kb.writeLength, kc.writeLength]; exact h.writeSize
  · dsimp only
    rw [w5, w6]
    refine ⟨h.discards.1, fun r hr => h.discards.2 r (List.mem_of_mem_tail hr)⟩
  · exact .all (by simp [pending]) (by dsimp only; rw [w3]; exact d1)
  · exact .all (by simp [pending]) (by dsimp only; rw [w4]; exact d2)
  · exact hn.suffix ((allBytes_filter hs).trans (List.suffix_append _ _))

theorem writePacket_roomier (id instr : Byte) {n : Nat} {enc : Encoder} (he : Overwrites n enc.run) {b c : Bus} (h : Roomier b c) :
    (∃ e, (writePacket id instr n enc b).2 = .err (.bufferTooSmall e)) ∨ (writePacket id instr n enc b).2 = .panic ∨
    ((writePacket id instr n enc c).2 = (writePacket id instr n enc b).2 ∧
      Roomier (writePacket id instr n enc b).1 (writePacket id instr n enc c).1) := by
  obtain ⟨wb, wc⟩ := h.write_ok
  have hw := h.writeSize
  by_cases hn : n + 10 ≤ b.writeBuffer.length
  · have hn' : n + 10 ≤ c.writeBuffer.length := by omega
    rw [writePacket_encode id instr n enc b wb hn, writePacket_encode id instr n enc c wc hn']
    obtain ⟨h1, h2⟩ := he (b.paramSlice n) (c.paramSlice n) (paramSlice_length hn) (paramSlice_length hn')
    have lb := enc.length_eq (b.paramSlice n)
    have lc := enc.length_eq (c.paramSlice n)
    rw [paramSlice_length hn] at lb
    rw [paramSlice_length hn'] at lc
    rcases eb : enc.run (b.paramSlice n) with ⟨ps, o⟩
    rcases ec : enc.run (c.paramSlice n) with ⟨qs, o'⟩
    rw [eb] at h1 h2 lb
    rw [ec] at h1 h2 lc
    simp only at h1 h2 lb lc
    subst h1
    have kb := encoded_kept (id := id) (instr := instr) wb hn lb
    have kc := encoded_kept (id := id) (instr := instr) wc hn' lc
    cases o' with
    | ok u =>
      have : qs = ps := h2 rfl
      subst this
      dsimp only
      by_cases h1 : ncount (instr :: qs).reverse ≤ (b.writeBuffer.drop (8 + n)).length
      · by_cases ho : b.debug = true ∧ 2 ^ 16 ≤ (codeStuff (instr :: qs)).length % 2 ^ 16 + 2
        · obtain ⟨w, hw, -⟩ := writeStuffed_overflow (id := id) lb h1 ho
          rw [hw]
          exact .inr (.inl rfl)
        · by_cases h' : (b.writeBuffer.drop (8 + n)).length < ncount (instr :: qs).reverse + 2
          · obtain ⟨w, hw, -⟩ := writeStuffed_crc_panic (id := id) lb h1 h' ho
            rw [hw]
            exact .inr (.inl rfl)
          · have hd : (b.writeBuffer.drop (8 + n)).length ≤ (c.writeBuffer.drop (8 + n)).length := by simp; omega
            rw [writeStuffed_send lb (by omega) ho, writeStuffed_send (b := c) lb (by omega) (by rw [h.debug]; exact ho)]
            refine .inr (.inr (sendFrame_roomier h (frame_take4 _ _) ?_))
            rw [frame_length, codeStuff_length]
            simp at lb h' ⊢
            omega
      · rw [writeStuffed_too_small lb (by omega)]
        exact .inl ⟨_, rfl⟩
    | err e => exact .inl ⟨_, rfl⟩
    | panic => exact .inr (.inl rfl)
    | hang => exact .inr (.inr ⟨rfl, roomier_unsent h kb kc rfl rfl ⟨rfl, rfl⟩ ⟨rfl, rfl⟩⟩)
  · rw [writePacket_too_small _ _ _ _ _ (by omega)]
    exact .inl ⟨_, rfl⟩

end Bus

/-! ## The methods -/

section lists
variable {ε ε' α β : Type}

/-- Code that has the same outcome with larger buffers, unless the write buffer is too small. -/
def Fares (m : SO Bus ε α) : Prop :=
  ∀ b c, Bus.Roomier b c → NoRoom (m b).2 ∨ ((m c).2 = (m b).2 ∧ Bus.Roomier (m b).1 (m c).1)

theorem fares_of_forgets {m : SO Bus ε α} (h : Forgets Bus.Roomier Bus.Roomier m) : Fares m := fun b c hr => .inr (h b c hr)

theorem fares_writePacket (id instr : Byte) {n : Nat} {enc : Encoder} (he : Overwrites n enc.run) :
    Fares (Bus.writePacket id instr n enc) := by
  intro b c h
  rcases Bus.writePacket_roomier id instr he h with ⟨e, h1⟩ | h1 | h1
  · rw [h1]; exact .inl (.write e)
  · rw [h1]; exact .inl .panic
  · exact .inr h1

theorem fares_instruct (id instr : Byte) {n : Nat} {enc : Encoder} (he : Overwrites n enc.run) :
    Fares ((Bus.writePacket id instr n enc).mapErr TransferError.writeError) := by
  intro b c h
  rw [SO.mapErr_apply, SO.mapErr_apply]
  rcases Bus.writePacket_roomier id instr he h with ⟨e, h1⟩ | h1 | ⟨h1, h2⟩
  · rw [h1]; exact .inl (.transfer e)
  · rw [h1]; exact .inl .panic
  · exact .inr ⟨by dsimp only; rw [h1], h2⟩

theorem Fares.then {m : SO Bus ε α} {k : α → SO Bus ε β} (h : Fares m) (hk : ∀ a, Fares (k a)) : Fares (m >>= k) := by
  intro b c hr
  rw [SO.bind_def, SO.bind_def]
  have := h b c hr
  rcases e : m b with ⟨b', o⟩
  rcases e' : m c with ⟨c', o'⟩
  rw [e, e'] at this
  rcases this with h1 | ⟨h1, h2⟩
  · dsimp only at h1
    left
    cases h1 with
    | panic => exact .panic
    | write => exact .write _
    | transfer => exact .transfer _
  · dsimp only at h1 h2
    subst h1
    cases o' with
    | ok a => exact hk a b' c' h2
    | _ => exact .inr ⟨rfl, h2⟩

theorem Fares.lift {m : SO Bus ε α} (h : Fares m) (k : α → Outcome ε β) : Fares (m >>= fun a => SO.lift (k a)) :=
  h.then fun _ => fares_of_forgets (forgets_lift _)

theorem fares_setBaudRate (rate : Nat) : Fares (Bus.setBaudRate rate) := by
  have st : ∀ p q : Port, SamePort p q → (Port.setBaudRate rate q).2 = (Port.setBaudRate rate p).2 ∧
      SamePort (Port.setBaudRate rate p).1 (Port.setBaudRate rate q).1 ∧ (Port.setBaudRate rate p).1.rx = p.rx ∧
      (Port.setBaudRate rate q).1.rx = q.rx ∧ (Port.setBaudRate rate p).1.now = p.now ∧
      (Port.setBaudRate rate p).1.discardIsNoop = p.discardIsNoop ∧ (Port.setBaudRate rate p).1.discardRes = p.discardRes := by
    intro p q h
    unfold Port.setBaudRate
    rw [h.baudRes]
    split
    · exact ⟨rfl, ⟨h.now, h.tail, h.discardRes, h.discardIsNoop, h.writeRes, rfl, h.rate, h.rateErr,
        by simp only [List.filter_append]; rw [h.calls]⟩, rfl, rfl, rfl, rfl, rfl⟩
    · exact ⟨rfl, ⟨h.now, h.tail, h.discardRes, h.discardIsNoop, h.writeRes, rfl, rfl, h.rateErr,
        by simp only [List.filter_append]; rw [h.calls]⟩, rfl, rfl, rfl, rfl, rfl⟩
    · exact ⟨rfl, ⟨h.now, h.tail, h.discardRes, h.discardIsNoop, h.writeRes, rfl, rfl, h.rateErr,
        by simp only [List.filter_append]; rw [h.calls]⟩, rfl, rfl, rfl, rfl, rfl⟩
  have sees : ∀ {held unread : List Byte} {p p' : Port} {rx : List RxEvent}, p'.rx = p.rx → p'.now = p.now →
      Sees held p unread rx → Sees held p' unread rx := by
    intro held unread p p' rx h1 h2 h
    cases h with
    | all h hrx => exact .all h (h1.trans hrx)
    | part t x h ht hx hrx => exact .part t x h (by rw [h2]; exact ht) hx (h1.trans hrx)
  refine fares_of_forgets fun b c h => ?_
  obtain ⟨s1, s2, s3, s4, s5, s6, s7⟩ := st _ _ h.port
  obtain ⟨u, rx, k1, k2, k3, k4⟩ := h.unread
  unfold Bus.setBaudRate
  rw [SO.bind_def, SO.bind_def, Bus.onPort_apply, Bus.onPort_apply]
  have s5' : (Port.setBaudRate rate c.serialPort).1.now = c.serialPort.now := by rw [s2.now, s5, h.port.now]
  rcases eb : Port.setBaudRate rate b.serialPort with ⟨p, o⟩
  rcases ec : Port.setBaudRate rate c.serialPort with ⟨q, o'⟩
  rw [eb] at s1 s2 s3 s5 s6 s7
  rw [ec] at s1 s2 s4 s5'
  dsimp only at s1 s2 s3 s4 s5 s6 s7 s5'
  subst s1
  have base : ∀ r r', r' = r → Bus.Roomier { b with serialPort := p, baudRate := r } { c with serialPort := q, baudRate := r' } :=
    fun r r' hr => ⟨⟨⟨h.read_ok.1.1, h.read_ok.1.2⟩, ⟨h.read_ok.2.1, h.read_ok.2.2⟩⟩,
      ⟨⟨h.write_ok.1.1, h.write_ok.1.2⟩, ⟨h.write_ok.2.1, h.write_ok.2.2⟩⟩, hr, h.debug, h.readSize, h.writeSize, s2,
      by dsimp only; rw [s6, s7]; exact h.discards, u, rx, sees s3 s5 k1, sees s4 s5' k2, k3, k4⟩
  cases o' with
  | ok u => exact ⟨rfl, base rate rate rfl⟩
  | _ => exact ⟨rfl, base _ _ h.baudRate⟩

end lists

namespace Client

theorem readStatusResponseTimeout_roomier (timeout : Nat) : Forgets Bus.Roomier Bus.Roomier (readStatusResponseTimeout timeout) := by
  intro b c h
  unfold readStatusResponseTimeout
  rw [SO.get_bind, SO.get_bind]
  have e : c.serialPort.makeDeadline timeout = b.serialPort.makeDeadline timeout := by
    unfold Port.makeDeadline
    rw [h.port.now]
  rw [e]
  have hf := (Bus.readPacket_roomier (b.serialPort.makeDeadline timeout)).then (k := fun packet => SO.lift (checkStatus packet))
    fun _ => forgets_lift _
  obtain ⟨h1, h2⟩ := hf b c ⟨h, Nat.le_add_right _ _⟩
  exact ⟨h1, h2.1⟩

theorem readStatusResponse_roomier (expected : U16) : Forgets Bus.Roomier Bus.Roomier (readStatusResponse expected) := by
  refine forgets_get (fun b c h => ?_) fun b => (forgets_lift _).then fun _ => readStatusResponseTimeout_roomier _
  simp only [h.baudRate]

theorem readResponse_roomier (id : Byte) : Forgets Bus.Roomier Bus.Roomier (readResponseIfNotBroadcast id) := by
  unfold readResponseIfNotBroadcast
  split
  · exact forgets_pure _
  · exact (readStatusResponse_roomier _).then fun _ => forgets_lift _

theorem instruct_fares (id instr : Byte) {n : Nat} {enc : Encoder} (he : Overwrites n enc.run) : Fares (instruct id instr n enc) :=
  (fares_instruct id instr he).then fun _ => fares_of_forgets ((readResponse_roomier id).mapErr _)

theorem transferSingle_fares (id instr : Byte) {n : Nat} (expected : U16) {enc : Encoder} (he : Overwrites n enc.run) :
    Fares (transferSingle id instr n expected enc) :=
  (fares_instruct id instr he).then fun _ => fares_of_forgets (((readStatusResponse_roomier _).mapErr _).then fun _ =>
    (forgets_lift _).then fun _ => (forgets_lift _).then fun _ => forgets_pure _)

theorem readRaw_fares (id : Byte) (address count : U16) : Fares (readRaw id address count) :=
  (transferSingle_fares id _ _ (readEncoder_overwrites address count)).then fun r =>
    fares_of_forgets ((forgets_lift r.parameters).then fun _ => (forgets_lift _).then fun _ => forgets_lift (.ok r))

theorem ping_fares (id : Byte) : Fares (ping id) := (transferSingle_fares id _ _ nothing_overwrites).lift _

theorem scanNextResponse_roomier : Forgets Bus.Roomier Bus.Roomier scanNextResponse := by
  refine forgets_get (fun b c h => ?_) fun b => (forgets_lift _).then fun _ =>
    (readStatusResponseTimeout_roomier _).then fun _ => forgets_lift _
  simp only [h.baudRate]

theorem scanNext_roomier {ε : Type} : Forgets Bus.Roomier Bus.Roomier (scanNext (ε := ε)) := by
  refine scanNextResponse_roomier.attempt.then fun r => ?_
  split
  · exact forgets_pure _
  · split <;> exact forgets_pure _
  · exact forgets_pure _

theorem scanDrop_roomier {ε : Type} : ∀ fuel, Forgets Bus.Roomier Bus.Roomier (scanDrop (ε := ε) fuel)
  | 0 => forgets_hang
  | fuel + 1 => scanNext_roomier.then fun r => by
    split
    · exact scanDrop_roomier fuel
    · exact forgets_pure _

theorem bulkRead_fares (reads : List BulkReadData) : Fares (bulkReadBytes reads) := by
  unfold bulkReadBytes
  split
  · exact fares_of_forgets forgets_panic
  · exact fares_writePacket _ _ (bulkRead_overwrites reads)

theorem bulkWrite_fares (writes : List BulkWriteData) : Fares (bulkWrite writes) := by
  by_cases h : ∃ w ∈ writes, 65535 < w.data.length
  · have e : bulkWrite writes = SO.panic := by
      unfold bulkWrite
      rw [bulkWriteCount_panic writes 0 h]
      rfl
    rw [e]
    exact fares_of_forgets forgets_panic
  · have e := bulkWriteCount_ok (ε := WriteError) writes 0 fun w hw => Nat.le_of_not_lt fun hn => h ⟨w, hw, hn⟩
    have e' : bulkWrite writes = writeInstruction broadcast InstructionId.bulkWrite (0 + bulkWriteSize writes)
        ⟨bulkWriteLoop 0 writes, bulkWriteLoop_length writes 0⟩ := by
      unfold bulkWrite
      rw [e]
      rfl
    rw [e', Nat.zero_add]
    exact fares_writePacket _ _ (bulkWrite_overwrites writes)

end Client

/-- Iterators whose clients have buffers of different sizes. -/
structure SyncIter.Roomier (s t : SyncIter) : Prop where
  client : Bus.Roomier s.client t.client
  rest : t.count = s.count ∧ t.motorIds = s.motorIds ∧ t.index = s.index

namespace SyncIter

theorem onClient_roomier {ε α : Type} {m : SO Bus ε α} (h : Forgets Bus.Roomier Bus.Roomier m) :
    Forgets SyncIter.Roomier SyncIter.Roomier (onClient m) := fun _ _ hs =>
  ⟨(h _ _ hs.client).1, ⟨(h _ _ hs.client).2, hs.rest⟩⟩

theorem popMotorId_roomier {ε : Type} : Forgets SyncIter.Roomier SyncIter.Roomier (popMotorId (ε := ε)) := by
  intro s t h
  obtain ⟨h1, h2, h3⟩ := h.rest
  unfold popMotorId
  rw [h2, h3]
  split
  · exact ⟨rfl, h⟩
  · exact ⟨rfl, ⟨h.client, h1, rfl, rfl⟩⟩

theorem nextResponseBytes_roomier (id : Byte) : Forgets SyncIter.Roomier SyncIter.Roomier (nextResponseBytes id) := by
  refine forgets_get (fun s t h => ?_) fun s => (onClient_roomier (Client.readStatusResponse_roomier _)).then fun _ =>
    (forgets_lift _).then fun _ => forgets_lift _
  simp only [h.rest.1]

theorem nextBytes_roomier {ε : Type} : Forgets SyncIter.Roomier SyncIter.Roomier (nextBytes (ε := ε)) := by
  refine popMotorId_roomier.then fun r => ?_
  split
  · exact forgets_pure _
  · exact (nextResponseBytes_roomier _).attempt.then fun _ => forgets_pure _

theorem next_roomier {α ε : Type} (d : DataTy α) : Forgets SyncIter.Roomier SyncIter.Roomier (next d (ε := ε)) := by
  refine popMotorId_roomier.then fun r => ?_
  split
  · exact forgets_pure _
  · exact (Forgets.attempt ((onClient_roomier (Client.readStatusResponse_roomier _)).then fun _ =>
      (forgets_lift _).then fun _ => forgets_lift _)).then fun _ => forgets_pure _

theorem dropBytes_roomier {ε : Type} : ∀ fuel, Forgets SyncIter.Roomier SyncIter.Roomier (dropBytes (ε := ε) fuel)
  | 0 => forgets_hang
  | fuel + 1 => popMotorId_roomier.then fun r => by
    split
    · exact forgets_pure _
    · refine forgets_get (fun s t h => ?_) fun s => (Forgets.attempt (onClient_roomier (Client.readStatusResponse_roomier _))).then
        fun _ => dropBytes_roomier fuel
      simp only [h.rest.1]

theorem drop_roomier {α ε : Type} (d : DataTy α) : ∀ fuel, Forgets SyncIter.Roomier SyncIter.Roomier (drop d (ε := ε) fuel)
  | 0 => forgets_hang
  | fuel + 1 => (next_roomier d).then fun r => by
    split
    · exact forgets_pure _
    · exact drop_roomier d fuel

end SyncIter

/-- Iterators whose clients have buffers of different sizes. -/
structure BulkIter.Roomier (s t : BulkIter) : Prop where
  client : Bus.Roomier s.client t.client
  rest : t.reads = s.reads ∧ t.index = s.index

namespace BulkIter

theorem onClient_roomier {ε α : Type} {m : SO Bus ε α} (h : Forgets Bus.Roomier Bus.Roomier m) :
    Forgets BulkIter.Roomier BulkIter.Roomier (onClient m) := fun _ _ hs =>
  ⟨(h _ _ hs.client).1, ⟨(h _ _ hs.client).2, hs.rest⟩⟩

theorem pop_roomier {ε : Type} : Forgets BulkIter.Roomier BulkIter.Roomier (pop (ε := ε)) := by
  intro s t h
  obtain ⟨h1, h2⟩ := h.rest
  unfold pop
  rw [h1, h2]
  split
  · exact ⟨rfl, h⟩
  · exact ⟨rfl, ⟨h.client, rfl, rfl⟩⟩

theorem next_roomier {ε : Type} : Forgets BulkIter.Roomier BulkIter.Roomier (next (ε := ε)) := by
  refine pop_roomier.then fun r => ?_
  split
  · exact forgets_pure _
  · exact (Forgets.attempt ((onClient_roomier (Client.readStatusResponse_roomier _)).then fun _ =>
      (forgets_lift _).then fun _ => forgets_lift _)).then fun _ => forgets_pure _

theorem dropLoop_roomier {ε : Type} : ∀ reads, Forgets BulkIter.Roomier BulkIter.Roomier (dropLoop (ε := ε) reads)
  | [] => forgets_pure _
  | _ :: rest => (Forgets.attempt (onClient_roomier (Client.readStatusResponse_roomier _))).then fun _ => dropLoop_roomier rest

theorem drop_roomier {ε : Type} : Forgets BulkIter.Roomier BulkIter.Roomier (drop (ε := ε)) := by
  refine forgets_get (fun s t h => ?_) fun s => ?_
  · simp only [h.rest.1, h.rest.2]
  · split
    · exact dropLoop_roomier _
    · exact forgets_panic

end BulkIter

namespace Device

theorem readRawLoop_roomier (D : Nat) : ∀ fuel, Forgets (Bus.RoomierBy D) (Bus.RoomierBy D) (readRawLoop D fuel)
  | 0 => forgets_hang
  | fuel + 1 => (Bus.readPacket_roomier D).then fun p => (forgets_lift _).then fun r => by
    split
    · exact forgets_pure _
    · exact readRawLoop_roomier D fuel

theorem readRaw_roomier (timeout : Nat) : Forgets Bus.Roomier Bus.Roomier (readRawInstructionTimeout timeout) := by
  intro b c h
  have hb := (Props.c26_terminates timeout h.read_ok.1).1
  have hc := (Props.c26_terminates timeout h.read_ok.2).1
  unfold readRawInstructionTimeout at hb hc ⊢
  rw [SO.get_bind] at hb hc
  rw [SO.get_bind, SO.get_bind]
  have e : c.serialPort.makeDeadline timeout = b.serialPort.makeDeadline timeout := by
    unfold Port.makeDeadline
    rw [h.port.now]
  rw [e] at hc ⊢
  have e1 := readRawLoop_more _ _ (c.readLen + c.serialPort.measure + 1) b hb
  have e2 := readRawLoop_more _ _ (b.readLen + b.serialPort.measure + 1) c hc
  rw [← e1, ← e2, Nat.add_comm (c.readLen + c.serialPort.measure + 1)]
  obtain ⟨h1, h2⟩ := readRawLoop_roomier (b.serialPort.makeDeadline timeout)
    (b.readLen + b.serialPort.measure + 1 + (c.readLen + c.serialPort.measure + 1)) b c ⟨h, Nat.le_add_right _ _⟩
  exact ⟨h1, h2.1⟩

theorem writeStatus_fares (id error : Byte) {n : Nat} {enc : Encoder} (he : Overwrites n enc.run) :
    Fares (writeStatus id error n enc) := by
  intro b c h
  unfold writeStatus Bus.writeStatus
  rw [SO.get_bind, SO.get_bind]
  by_cases hb : StatusPacket.messageLen n ≤ b.writeBuffer.length
  · have hc : StatusPacket.messageLen n ≤ c.writeBuffer.length := Nat.le_trans hb h.writeSize
    have kb : BufferTooSmall.check (StatusPacket.messageLen n) b.writeBuffer.length = .ok () := if_pos hb
    have kc : BufferTooSmall.check (StatusPacket.messageLen n) c.writeBuffer.length = .ok () := if_pos hc
    rw [kb, kc, Outcome.mapErr_ok, SO.lift_ok_bind, SO.lift_ok_bind]
    exact fares_writePacket _ _ (statusEncoder_overwrites error he) b c h
  · have kb : BufferTooSmall.check (StatusPacket.messageLen n) b.writeBuffer.length =
        .err ⟨StatusPacket.messageLen n, b.writeBuffer.length⟩ := if_neg hb
    rw [kb]
    exact .inl (.write _)

end Device
end Dxl
