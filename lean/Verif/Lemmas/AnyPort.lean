import Verif.Model.AnyPort
import Verif.Lemmas.Read
import Verif.Lemmas.Write
import Verif.Lemmas.Exchange
import Verif.Props.Receive

/-! # Reading and writing with any implementation of `SerialPort` -/

namespace Dxl
open Spec

/-- Reads in which the port keeps its promise (no more bytes than fit in a slice that is not empty), made because the bytes so far,
`pending` and those received, are no packet yet for a receiver with room for `cap` bytes. After `k` of them, all with this deadline,
`bs` was received and the port is in another state. -/
inductive PortImpl.Waits (P : PortImpl) (cap : Nat) (pending : List Byte) (deadline : P.Instant) (start : P.Port) :
    Nat → List Byte → P.Port → Prop
  | start : Waits P cap pending deadline start 0 [] start
  | read {k n : Nat} {bs old new : List Byte} {p p' : P.Port} :
      Waits P cap pending deadline start k bs p → parse cap (pending ++ bs) = .more → 0 < old.length →
      P.read deadline old p = (p', new, .ok n) → n ≤ old.length → Waits P cap pending deadline start (k + 1) (bs ++ new.take n) p'

namespace BusOf

variable {P : PortImpl}

theorem onPort_apply {ε α : Type} (m : SO P.Port ε α) (b : BusOf P) :
    onPort m b = ({ b with port := (m b.port).1 }, (m b.port).2) := rfl

theorem onRest_apply {ε α : Type} (m : SO Bus ε α) (b : BusOf P) :
    onRest m b = ({ b with rest := (m b.rest).1 }, (m b.rest).2) := rfl

theorem onRest_eq {ε α : Type} {m : SO Bus ε α} {p : P.Port} {r r' : Bus} {o : Outcome ε α} (h : m r = (r', o)) :
    onRest m (⟨p, r⟩ : BusOf P) = (⟨p, r'⟩, o) := by
  rw [onRest_apply, h]

/-- The state of the other fields: like `r`, with exactly `t` pending. -/
abbrev Has (r : Bus) (t : List Byte) (c : Bus) : Prop := Bus.Holds r r.serialPort t c

theorem waits_cons {cap : Nat} {pending pending1 bs new old : List Byte} {D : P.Instant} {p p1 p2 : P.Port} {k n : Nat}
    (hm : parse cap pending = .more) (h0 : 0 < old.length) (hr : P.read D old p = (p1, new, .ok n)) (hn : n ≤ old.length)
    (hp : ∀ bs', parse cap (pending1 ++ bs') = parse cap (pending ++ (new.take n ++ bs')))
    (h : P.Waits cap pending1 D p1 k bs p2) : P.Waits cap pending D p (k + 1) (new.take n ++ bs) p2 := by
  induction h with
  | start =>
    rw [List.append_nil]
    exact .read (bs := []) .start (by rw [List.append_nil]; exact hm) h0 hr hn
  | read _ h2 h3 h4 h5 ih =>
    rw [← List.append_assoc]
    exact .read ih (by rw [← hp]; exact h2) h3 h4 h5

/-- What the loop can do. -/
inductive LoopResult (b : BusOf P) (w : Nat) (D : P.Instant) (fuel : Nat) :
    BusOf P × Outcome (ReadErrorOf P.Error) Nat → Prop
  | packet {k : Nat} {bs f rest : List Byte} {p : P.Port} {c : Bus} :
      k < fuel → P.Waits b.rest.readBuffer.length b.rest.pending D b.port k bs p →
      parse b.rest.readBuffer.length (b.rest.pending ++ bs) = .packet f rest → Has b.rest (f ++ rest) c →
      LoopResult b w D fuel (⟨p, c⟩, .ok f.length)
  | tooBig {k req : Nat} {bs rest : List Byte} {p : P.Port} {c : Bus} :
      k < fuel → P.Waits b.rest.readBuffer.length b.rest.pending D b.port k bs p →
      parse b.rest.readBuffer.length (b.rest.pending ++ bs) = .tooBig req rest → Has b.rest rest c →
      LoopResult b w D fuel (⟨p, c⟩, .err (.bufferFull ⟨req, b.rest.readBuffer.length⟩))
  | failed {k : Nat} {bs old new : List Byte} {p p' : P.Port} {e : P.Error} {c : Bus} :
      k < fuel → P.Waits b.rest.readBuffer.length b.rest.pending D b.port k bs p →
      parse b.rest.readBuffer.length (b.rest.pending ++ bs) = .more → 0 < old.length →
      P.read D old p = (p', new, .err e) → Has b.rest (skip (b.rest.pending ++ bs)) c →
      LoopResult b w D fuel (⟨p', c⟩, .err (.io e))
  | crashed {k : Nat} {bs old new : List Byte} {p p' : P.Port} {c : Bus} :
      k < fuel → P.Waits b.rest.readBuffer.length b.rest.pending D b.port k bs p →
      parse b.rest.readBuffer.length (b.rest.pending ++ bs) = .more → 0 < old.length →
      P.read D old p = (p', new, .panic) → Has b.rest (skip (b.rest.pending ++ bs)) c →
      LoopResult b w D fuel (⟨p', c⟩, .panic)
  | stuck {k : Nat} {bs old new : List Byte} {p p' : P.Port} {c : Bus} :
      k < fuel → P.Waits b.rest.readBuffer.length b.rest.pending D b.port k bs p →
      parse b.rest.readBuffer.length (b.rest.pending ++ bs) = .more → 0 < old.length →
      P.read D old p = (p', new, .hang) → LoopResult b w D fuel (⟨p', c⟩, .hang)
  | tooMany {k n : Nat} {bs old new : List Byte} {p p' : P.Port} {c : Bus} {o : Outcome (ReadErrorOf P.Error) Nat} :
      k < fuel → P.Waits b.rest.readBuffer.length b.rest.pending D b.port k bs p →
      parse b.rest.readBuffer.length (b.rest.pending ++ bs) = .more → 0 < old.length →
      P.read D old p = (p', new, .ok n) → old.length < n →
      (b.rest.readBuffer.length + n < 2 ^ w → c.readBuffer.length < c.readLen) →
      c.readBuffer.length = b.rest.readBuffer.length → (o = .panic ∨ k + 1 = fuel ∧ o = .hang) →
      LoopResult b w D fuel (⟨p', c⟩, o)
  | waiting {bs : List Byte} {p : P.Port} {c : Bus} :
      P.Waits b.rest.readBuffer.length b.rest.pending D b.port fuel bs p → LoopResult b w D fuel (⟨p, c⟩, .hang)

/-- A port that returns more than fits never returns a number so large that adding it to the length of the buffer overflows a
`usize` of `w` bits, or overflows are checked. -/
def NoWrap (P : PortImpl) (D : P.Instant) (w size : Nat) (debug : Bool) : Prop :=
  debug = true ∨ ∀ old p p' new n, P.read D old p = (p', new, .ok n) → old.length < n → size + n < 2 ^ w

theorem readMore_eq (w : Nat) (D : P.Instant) {r c : Bus} {t : List Byte} {p : P.Port} (h : Has r t c) :
    readMore w D ⟨p, c⟩ =
      match P.read D (c.readBuffer.drop t.length) p with
      | (p', new, .ok n) =>
        (match usizeAdd (ε := ReadErrorOf P.Error) w c.debug t.length n with
        | .ok m => (⟨p', { c with readBuffer := t ++ new, readLen := m }⟩, .ok ())
        | .err e => (⟨p', { c with readBuffer := t ++ new }⟩, .err e)
        | .panic => (⟨p', { c with readBuffer := t ++ new }⟩, .panic)
        | .hang => (⟨p', { c with readBuffer := t ++ new }⟩, .hang))
      | (p', new, .err e) => (⟨p', { c with readBuffer := t ++ new }⟩, .err (.io e))
      | (p', new, .panic) => (⟨p', { c with readBuffer := t ++ new }⟩, .panic)
      | (p', new, .hang) => (⟨p', { c with readBuffer := t ++ new }⟩, .hang) := by
  have hl : c.readLen ≤ c.readBuffer.length := h.rInv.len_le
  have ht : c.readBuffer.take c.readLen = t := by
    rw [h.len]; exact (List.prefix_iff_eq_take.1 h.data).symm
  unfold readMore
  simp only
  rw [if_pos hl, ht, h.len]
  rcases hr : P.read D (c.readBuffer.drop t.length) p with ⟨p', new, o⟩
  cases o with
  | ok n =>
    dsimp only
    rw [Outcome.mapErr_ok, SO.lift_ok_bind]
    cases hu : usizeAdd (ε := ReadErrorOf P.Error) w c.debug t.length n with
    | ok m => rw [SO.lift_ok_bind]; rfl
    | err e => rfl
    | panic => rfl
    | hang => rfl
  | err e => rfl
  | panic => rfl
  | hang => rfl

theorem has_read {r c : Bus} {t new : List Byte} (h : Has r t c) (hn : new.length = (c.readBuffer.drop t.length).length) :
    Has r t { c with readBuffer := t ++ new } := by
  obtain ⟨X, hX⟩ := h.data
  refine ⟨⟨?_, h.like.writeBuffer, h.like.baudRate, h.like.debug⟩, h.port, h.used, h.len, List.prefix_append _ _⟩
  have hl := h.like.readSize
  simp only [List.length_append, hn, List.length_drop]
  rw [← hl, ← hX]
  simp

theorem has_more {r c : Bus} {t new : List Byte} {n : Nat} (h : Has r t c)
    (hn : new.length = (c.readBuffer.drop t.length).length) (hle : n ≤ new.length) :
    Has r (t ++ new.take n) { c with readBuffer := t ++ new, readLen := t.length + n } := by
  have hh := has_read h hn
  refine ⟨⟨hh.like.1, hh.like.2, hh.like.3, hh.like.4⟩, h.port, h.used, by simp; omega, ?_⟩
  simp only
  rw [List.prefix_append_right_inj]
  exact List.take_prefix _ _

/-- With more bytes than the buffer holds, the loop panics at once. -/
theorem readLoop_poisoned (w : Nat) (D : P.Instant) (fuel : Nat) {b : BusOf P} (h : b.rest.readBuffer.length < b.rest.readLen) :
    readLoop w D (fuel + 1) b = (b, .panic) := by
  unfold readLoop
  have hg : Bus.removeGarbage (ε := ReadErrorOf P.Error) b.rest = (b.rest, .panic) := by
    unfold Bus.removeGarbage
    rw [SO.get_bind]
    have : slice (ε := ReadErrorOf P.Error) b.rest.readBuffer 0 b.rest.readLen = .panic := by
      unfold slice
      rw [if_neg (by omega)]
    rw [this]
    rfl
  rw [SO.bind_def, onRest_apply, hg]

theorem readLoop_result (w : Nat) (D : P.Instant) (fuel : Nat) : ∀ b : BusOf P, b.rest.RInv → 10 ≤ b.rest.readBuffer.length →
    b.rest.readBuffer.length < 2 ^ w → NoWrap P D w b.rest.readBuffer.length b.rest.debug →
    LoopResult b w D fuel (readLoop w D fuel b) := by
  induction fuel with
  | zero => intro b _ _ _ _; exact .waiting .start
  | succ fuel ih =>
    intro b hr hN hw hnw
    obtain ⟨p, r⟩ := b
    simp only at hr hN hw hnw
    have hlen : (skip r.pending).length ≤ r.readBuffer.length :=
      Nat.le_trans (skip_suffix _).length_le (Bus.pending_length_le hr)
    have hmr := Bus.messageReady_eq r (skip r.pending) hlen (skip_skip _)
    rw [parse_skip] at hmr
    have hhold := Bus.holds_withPending r r.serialPort hlen
    rw [show r.onto r.serialPort = r from rfl] at hhold
    unfold readLoop
    rw [SO.bind_ok (onRest_eq (Bus.removeGarbage_eq hr))]
    cases hp : parse r.readBuffer.length r.pending with
    | packet f rest =>
      rw [hp] at hmr
      rw [SO.bind_ok (Bus.mapErr_eq _ (onRest_eq hmr))]
      rw [(parse_packet hp).1] at hhold
      rw [(parse_packet hp).1]
      exact LoopResult.packet (bs := []) (Nat.succ_pos _) .start (by rw [List.append_nil]; exact hp) hhold
    | tooBig req rest =>
      rw [hp] at hmr
      rw [SO.bind_err (Bus.mapErr_eq readError (onRest_eq hmr))]
      refine LoopResult.tooBig (bs := []) (Nat.succ_pos _) .start (by rw [List.append_nil]; exact hp)
        (Bus.Holds.of_like hhold.like (Bus.holds_withPending _ _ ?_))
      obtain ⟨hd, h1, _⟩ := parse_tooBig hp
      rw [h1] at hlen hhold
      rw [h1, hhold.like.readSize]
      simp at hlen
      omega
    | more =>
      rw [hp] at hmr
      rw [SO.bind_ok (Bus.mapErr_eq _ (onRest_eq hmr))]
      simp only
      have hroom := parse_more_room hN hp
      generalize hc : r.withPending (skip r.pending) = c at hhold
      have hold : 0 < (c.readBuffer.drop (skip r.pending).length).length := by
        rw [List.length_drop, hhold.like.readSize]; omega
      have hcl : c.readBuffer.length = r.readBuffer.length := hhold.like.readSize
      have hrm := readMore_eq w D (p := p) hhold
      have hnl := P.read_length D (c.readBuffer.drop (skip r.pending).length) p
      rcases hread : P.read D (c.readBuffer.drop (skip r.pending).length) p with ⟨p1, new, o⟩
      rw [hread] at hrm hnl
      simp only at hnl
      have hm0 : parse r.readBuffer.length (r.pending ++ []) = .more := by rw [List.append_nil]; exact hp
      cases o with
      | err e =>
        simp only at hrm
        rw [SO.bind_err hrm]
        exact LoopResult.failed (b := ⟨p, r⟩) (bs := []) (Nat.succ_pos _) .start hm0 hold hread
          (by rw [List.append_nil]; exact has_read hhold hnl)
      | panic =>
        simp only at hrm
        rw [SO.bind_def, hrm]
        exact LoopResult.crashed (b := ⟨p, r⟩) (bs := []) (Nat.succ_pos _) .start hm0 hold hread
          (by rw [List.append_nil]; exact has_read hhold hnl)
      | hang =>
        simp only at hrm
        rw [SO.bind_def, hrm]
        exact LoopResult.stuck (b := ⟨p, r⟩) (bs := []) (Nat.succ_pos _) .start hm0 hold hread
      | ok n =>
        simp only at hrm
        by_cases hn : n ≤ new.length
        · have hle : (skip r.pending).length + n < 2 ^ w := by
            rw [hnl, List.length_drop, hcl] at hn
            omega
          rw [show usizeAdd (ε := ReadErrorOf P.Error) w c.debug (skip r.pending).length n
            = .ok ((skip r.pending).length + n) from if_pos hle] at hrm
          rw [SO.bind_ok hrm]
          have hh := has_more hhold hnl hn
          generalize ({ c with readBuffer := skip r.pending ++ new, readLen := (skip r.pending).length + n } : Bus) = c1 at hh
          have hstep := ih ⟨p1, c1⟩ hh.rInv (by simp only; rw [hh.like.readSize]; exact hN)
            (by simp only; rw [hh.like.readSize]; exact hw)
            (by simp only; rw [hh.like.readSize, hh.like.debug]; exact hnw)
          have hpa : ∀ bs', parse r.readBuffer.length (c1.pending ++ bs')
              = parse r.readBuffer.length (r.pending ++ (new.take n ++ bs')) := by
            intro bs'
            rw [hh.pending, List.append_assoc, ← parse_more_append]
          have hsk : ∀ bs', skip (c1.pending ++ bs') = skip (r.pending ++ (new.take n ++ bs')) := by
            intro bs'
            rw [hh.pending, List.append_assoc, ← skip_append]
          have hwc : ∀ {k bs' p'}, P.Waits c1.readBuffer.length c1.pending D p1 k bs' p' →
              P.Waits r.readBuffer.length r.pending D p (k + 1) (new.take n ++ bs') p' := by
            intro k bs' p' h
            rw [hh.like.readSize] at h
            exact waits_cons hp hold hread (by rw [← hnl]; exact hn) hpa h
          have hsize : c1.readBuffer.length = r.readBuffer.length := hh.like.readSize
          have hport := hh.port
          generalize readLoop w D fuel (⟨p1, c1⟩ : BusOf P) = res at hstep
          cases hstep with
          | packet h0 h1 h2 h3 =>
            simp only [hsize, hpa] at h2
            simp only [Has, hport] at h3
            exact .packet (by omega) (hwc h1) h2 (h3.of_like hh.like)
          | tooBig h0 h1 h2 h3 =>
            simp only [hsize, hpa] at h2
            simp only [hsize]
            simp only [Has, hport] at h3
            exact .tooBig (by omega) (hwc h1) h2 (h3.of_like hh.like)
          | failed h0 h1 h2 h3 h4 h5 =>
            simp only [hsize, hpa] at h2
            simp only [Has, hport, hsk] at h5
            exact .failed (by omega) (hwc h1) h2 h3 h4 (h5.of_like hh.like)
          | crashed h0 h1 h2 h3 h4 h5 =>
            simp only [hsize, hpa] at h2
            simp only [Has, hport, hsk] at h5
            exact .crashed (by omega) (hwc h1) h2 h3 h4 (h5.of_like hh.like)
          | stuck h0 h1 h2 h3 h4 =>
            simp only [hsize, hpa] at h2
            exact .stuck (by omega) (hwc h1) h2 h3 h4
          | tooMany h0 h1 h2 h3 h4 h5 h6 h7 h8 =>
            simp only [hsize, hpa] at h2
            simp only [hsize] at h6 h7
            refine .tooMany (by omega) (hwc h1) h2 h3 h4 h5 h6 h7 ?_
            rcases h8 with h8 | ⟨h8, h9⟩
            · exact .inl h8
            · exact .inr ⟨by omega, h9⟩
          | waiting h1 => exact .waiting (hwc h1)
        · have hn' : (c.readBuffer.drop (skip r.pending).length).length < n := by omega
          have hnl' : new.length = c.readBuffer.length - (skip r.pending).length := by rw [hnl, List.length_drop]
          by_cases hle : (skip r.pending).length + n < 2 ^ w
          · rw [show usizeAdd (ε := ReadErrorOf P.Error) w c.debug (skip r.pending).length n
              = .ok ((skip r.pending).length + n) from if_pos hle] at hrm
            rw [SO.bind_ok hrm]
            have hbig : ({ c with readBuffer := skip r.pending ++ new, readLen := (skip r.pending).length + n } : Bus).readBuffer.length
                < ({ c with readBuffer := skip r.pending ++ new, readLen := (skip r.pending).length + n } : Bus).readLen := by
              simp only [List.length_append]; omega
            have hlc : ({ c with readBuffer := skip r.pending ++ new, readLen := (skip r.pending).length + n } : Bus).readBuffer.length
                = r.readBuffer.length := by
              simp only [List.length_append]; omega
            generalize ({ c with readBuffer := skip r.pending ++ new, readLen := (skip r.pending).length + n } : Bus) = c1 at hbig hlc
            cases fuel with
            | zero =>
              exact LoopResult.tooMany (b := ⟨p, r⟩) (bs := []) (by omega) .start hm0 hold hread hn' (fun _ => hbig) hlc
                (.inr ⟨rfl, rfl⟩)
            | succ fuel =>
              rw [readLoop_poisoned w D fuel (b := ⟨p1, c1⟩) hbig]
              exact LoopResult.tooMany (b := ⟨p, r⟩) (bs := []) (by omega) .start hm0 hold hread hn' (fun _ => hbig) hlc (.inl rfl)
          · have hd : c.debug = true := by
              rw [hhold.like.debug]
              rcases hnw with h | h
              · exact h
              · have := h _ _ _ _ _ hread hn'
                omega
            rw [show usizeAdd (ε := ReadErrorOf P.Error) w c.debug (skip r.pending).length n
              = .panic from by rw [hd]; unfold usizeAdd; rw [if_neg hle]; rfl] at hrm
            simp only at hrm
            rw [SO.bind_def, hrm]
            exact LoopResult.tooMany (b := ⟨p, r⟩) (bs := []) (by omega) .start hm0 hold hread hn' (fun h => by simp only at h; omega)
              (by simp only [List.length_append]; omega) (.inl rfl)

/-- What reading a packet can do. -/
inductive ReadResult (b : BusOf P) (w : Nat) (D : P.Instant) (fuel : Nat) :
    BusOf P × Outcome (ReadErrorOf P.Error) Packet → Prop
  | packet {k : Nat} {bs f rest : List Byte} {p : P.Port} {c : Bus} :
      k < fuel → P.Waits b.rest.readBuffer.length b.rest.pending D b.port k bs p →
      parse b.rest.readBuffer.length (b.rest.pending ++ bs) = .packet f rest → Bus.After b.rest b.rest.serialPort rest c →
      ReadResult b w D fuel (⟨p, c⟩, (Bus.frameOutcome f).mapErr readError)
  | tooBig {k req : Nat} {bs rest : List Byte} {p : P.Port} {c : Bus} :
      k < fuel → P.Waits b.rest.readBuffer.length b.rest.pending D b.port k bs p →
      parse b.rest.readBuffer.length (b.rest.pending ++ bs) = .tooBig req rest → Bus.After b.rest b.rest.serialPort rest c →
      ReadResult b w D fuel (⟨p, c⟩, .err (.bufferFull ⟨req, b.rest.readBuffer.length⟩))
  | failed {k : Nat} {bs old new : List Byte} {p p' : P.Port} {e : P.Error} {c : Bus} :
      k < fuel → P.Waits b.rest.readBuffer.length b.rest.pending D b.port k bs p →
      parse b.rest.readBuffer.length (b.rest.pending ++ bs) = .more → 0 < old.length →
      P.read D old p = (p', new, .err e) → Bus.After b.rest b.rest.serialPort (skip (b.rest.pending ++ bs)) c →
      ReadResult b w D fuel (⟨p', c⟩, .err (.io e))
  | crashed {k : Nat} {bs old new : List Byte} {p p' : P.Port} {c : Bus} :
      k < fuel → P.Waits b.rest.readBuffer.length b.rest.pending D b.port k bs p →
      parse b.rest.readBuffer.length (b.rest.pending ++ bs) = .more → 0 < old.length →
      P.read D old p = (p', new, .panic) → Bus.After b.rest b.rest.serialPort (skip (b.rest.pending ++ bs)) c →
      ReadResult b w D fuel (⟨p', c⟩, .panic)
  | stuck {k : Nat} {bs old new : List Byte} {p p' : P.Port} {c : Bus} :
      k < fuel → P.Waits b.rest.readBuffer.length b.rest.pending D b.port k bs p →
      parse b.rest.readBuffer.length (b.rest.pending ++ bs) = .more → 0 < old.length →
      P.read D old p = (p', new, .hang) → ReadResult b w D fuel (⟨p', c⟩, .hang)
  | tooMany {k n : Nat} {bs old new : List Byte} {p p' : P.Port} {c : Bus} {o : Outcome (ReadErrorOf P.Error) Packet} :
      k < fuel → P.Waits b.rest.readBuffer.length b.rest.pending D b.port k bs p →
      parse b.rest.readBuffer.length (b.rest.pending ++ bs) = .more → 0 < old.length →
      P.read D old p = (p', new, .ok n) → old.length < n →
      (b.rest.readBuffer.length + n < 2 ^ w → c.readBuffer.length < c.readLen) →
      c.readBuffer.length = b.rest.readBuffer.length → (o = .panic ∨ k + 1 = fuel ∧ o = .hang) →
      ReadResult b w D fuel (⟨p', c⟩, o)
  | waiting {bs : List Byte} {p : P.Port} {c : Bus} :
      P.Waits b.rest.readBuffer.length b.rest.pending D b.port fuel bs p → ReadResult b w D fuel (⟨p, c⟩, .hang)

theorem readPacketDeadline_result (w : Nat) (D : P.Instant) (fuel : Nat) {b : BusOf P} (hr : b.rest.RInv)
    (hN : 10 ≤ b.rest.readBuffer.length) (hw : b.rest.readBuffer.length < 2 ^ w)
    (hnw : NoWrap P D w b.rest.readBuffer.length b.rest.debug) : ReadResult b w D fuel (readPacketDeadline w D fuel b) := by
  unfold readPacketDeadline
  rw [SO.get_bind]
  have hc : BufferTooSmall.check (headerSize + 3) b.rest.readBuffer.length = .ok () := if_pos hN
  rw [hc, Outcome.mapErr_ok, SO.lift_ok_bind]
  have hres := readLoop_result w D fuel b hr hN hw hnw
  rw [SO.bind_def]
  generalize readLoop w D fuel b = r at hres
  cases hres with
  | packet h0 h1 h2 h3 =>
    obtain ⟨c', hf, ha⟩ := Bus.finishPacket_eq h3 (parse_packet h2).2.1 (parse_packet h2).2.2.1
    simp only
    rw [Bus.mapErr_eq readError (onRest_eq hf)]
    exact .packet h0 h1 h2 ha
  | tooBig h0 h1 h2 h3 => exact .tooBig h0 h1 h2 h3.after
  | failed h0 h1 h2 h3 h4 h5 => exact .failed h0 h1 h2 h3 h4 h5.after
  | crashed h0 h1 h2 h3 h4 h5 => exact .crashed h0 h1 h2 h3 h4 h5.after
  | stuck h0 h1 h2 h3 h4 => exact .stuck h0 h1 h2 h3 h4
  | tooMany h0 h1 h2 h3 h4 h5 h6 h7 h8 =>
    rcases h8 with rfl | ⟨h8, rfl⟩
    · exact .tooMany h0 h1 h2 h3 h4 h5 h6 h7 (.inl rfl)
    · exact .tooMany h0 h1 h2 h3 h4 h5 h6 h7 (.inr ⟨h8, rfl⟩)
  | waiting h1 => exact .waiting h1

/-- With a clock, the number of reads is limited by the deadline. -/
theorem waits_clock {cap : Nat} {pending bs : List Byte} {D : P.Instant} {p0 p : P.Port} {k : Nat} (clock : P.Port → Nat)
    (due : Nat) (hlate : ∀ old p, due < clock p → ∃ p' new e, P.read D old p = (p', new, .err e))
    (hmoves : ∀ old p p' new n, P.read D old p = (p', new, .ok n) → clock p < clock p')
    (h : P.Waits cap pending D p0 k bs p) : clock p0 + k ≤ clock p ∧ (k = 0 ∨ clock p0 + k ≤ due + 1) := by
  induction h with
  | start => exact ⟨by omega, .inl rfl⟩
  | @read k n bs old new p1 p' _ _ _ hr _ ih =>
    have h1 := hmoves _ _ _ _ _ hr
    refine ⟨by omega, .inr ?_⟩
    by_cases hd : due < clock p1
    · obtain ⟨_, _, _, h⟩ := hlate _ _ hd
      rw [hr] at h
      simp at h
    · omega

theorem frameOutcome_not_hang (f : List Byte) (hh : header <+: f) (hl : f.length = 7 + Spec.lengthField f) :
    Bus.frameOutcome f ≠ .hang := by
  rcases Props.frameOutcome_cases hh hl with ⟨_, _, _, _, h⟩ | ⟨_, _, h⟩ | ⟨_, _, _, _, _, _, _, _, _, h⟩ <;> rw [h] <;> simp

/-! ## Writing -/

/-- Code that neither uses nor looks at the script port. -/
def PortFree {ε α : Type} (m : SO Bus ε α) : Prop := ∀ b p, m (b.onto p) = ((m b).1.onto p, (m b).2)

theorem portFree_bind {ε α β : Type} {m : SO Bus ε α} {f : α → SO Bus ε β} (hm : PortFree m) (hf : ∀ a, PortFree (f a)) :
    PortFree (m >>= f) := by
  intro b p
  rw [SO.bind_def, SO.bind_def, hm b p]
  rcases m b with ⟨b', o⟩
  cases o with
  | ok a => exact hf a b' p
  | err e => rfl
  | panic => rfl
  | hang => rfl

theorem portFree_get {ε β : Type} {f : Bus → SO Bus ε β} (hf : ∀ b p, f (b.onto p) = f b) (hp : ∀ b, PortFree (f b)) :
    PortFree (SO.get >>= f) := by
  intro b p
  rw [SO.get_bind, SO.get_bind, hf b p]
  exact hp b b p

theorem portFree_lift {ε α : Type} (o : Outcome ε α) : PortFree (SO.lift o : SO Bus ε α) := fun _ _ => rfl

theorem portFree_onWriteBuffer {ε α : Type} (m : SO (List Byte) ε α) : PortFree (Bus.onWriteBuffer m) := fun _ _ => rfl

theorem portFree_preparePacket (id instr : Byte) (n : Nat) (enc : Encoder) : PortFree (preparePacket id instr n enc) := by
  unfold preparePacket
  refine portFree_get (fun _ _ => rfl) fun b => ?_
  refine portFree_bind (portFree_lift _) fun _ => ?_
  refine portFree_bind (portFree_onWriteBuffer _) fun _ => ?_
  refine portFree_bind (portFree_onWriteBuffer _) fun _ => ?_
  refine portFree_bind (portFree_onWriteBuffer _) fun _ => ?_
  refine portFree_bind (portFree_onWriteBuffer _) fun _ => ?_
  refine portFree_bind (portFree_onWriteBuffer _) fun _ => ?_
  refine portFree_bind (portFree_onWriteBuffer _) fun _ => ?_
  refine portFree_bind (portFree_lift _) fun _ => ?_
  refine portFree_bind (portFree_onWriteBuffer _) fun _ => ?_
  refine portFree_get (fun _ _ => rfl) fun b => ?_
  refine portFree_bind (portFree_lift _) fun _ => ?_
  refine portFree_bind (portFree_lift _) fun _ => ?_
  refine portFree_bind (portFree_onWriteBuffer _) fun _ => ?_
  exact fun _ _ => rfl

theorem mapErr_bind {σ ε ε' α β : Type} (g : ε → ε') (m : SO σ ε α) (f : α → SO σ ε β) :
    (m >>= f).mapErr g = m.mapErr g >>= fun a => (f a).mapErr g := by
  funext s
  simp only [SO.mapErr, SO.bind_def]
  rcases m s with ⟨s', o⟩
  cases o <;> rfl

theorem so_seq_assoc {σ ε α β γ : Type} (m : SO σ ε α) (f : α → SO σ ε β) (g : β → SO σ ε γ) :
    (m >>= f) >>= g = m >>= fun a => f a >>= g := by
  funext s
  simp only [SO.bind_def]
  rcases m s with ⟨s', o⟩
  cases o <;> rfl

theorem so_pure_seq {σ ε α β : Type} (a : α) (f : α → SO σ ε β) : (pure a : SO σ ε α) >>= f = f a := rfl

theorem mapErr_get {σ ε ε' : Type} (g : ε → ε') : (SO.get : SO σ ε σ).mapErr g = SO.get := rfl

theorem mapErr_modify {σ ε ε' : Type} (g : ε → ε') (f : σ → σ) : (SO.modify f : SO σ ε Unit).mapErr g = SO.modify f := rfl

theorem mapErr_pure {σ ε ε' α : Type} (g : ε → ε') (a : α) : (pure a : SO σ ε α).mapErr g = pure a := rfl

theorem mapErr_lift {σ ε ε' α : Type} (g : ε → ε') (o : Outcome ε α) :
    (SO.lift o : SO σ ε α).mapErr g = SO.lift (o.mapErr g) := rfl

theorem mapErr_onWriteBuffer {ε ε' α : Type} (g : ε → ε') (m : SO (List Byte) ε α) :
    (Bus.onWriteBuffer m).mapErr g = Bus.onWriteBuffer (m.mapErr g) := rfl

theorem mapErr_setIdx {ε ε' : Type} (g : ε → ε') (i : Nat) (v : Byte) :
    (setIdx (ε := ε) i v).mapErr g = setIdx i v := by
  funext l
  simp only [SO.mapErr, setIdx]
  split <;> rfl

theorem mapErr_onSlice {ε ε' α : Type} (g : ε → ε') (a b : Nat) (m : SO (List Byte) ε α) :
    (onSlice a b m).mapErr g = onSlice a b (m.mapErr g) := by
  funext l
  simp only [SO.mapErr, onSlice]
  split <;> rfl

theorem mapErr_onSliceFrom {ε ε' α : Type} (g : ε → ε') (a : Nat) (m : SO (List Byte) ε α) :
    (onSliceFrom a m).mapErr g = onSliceFrom a (m.mapErr g) := by
  funext l
  exact congrFun (mapErr_onSlice g a l.length m) l

theorem mapErr_writeU16Le {ε ε' : Type} (g : ε → ε') (v : U16) : (writeU16Le (ε := ε) v).mapErr g = writeU16Le v := by
  unfold writeU16Le
  simp only [mapErr_bind, mapErr_setIdx]

theorem mapErr_lengthField {ε ε' : Type} (g : ε → ε') (d : Bool) (n : Nat) :
    (Bus.lengthField (ε := ε) d n).mapErr g = Bus.lengthField d n := by
  unfold Bus.lengthField
  simp only
  split <;> rfl

theorem mapErr_slice {ε ε' : Type} (g : ε → ε') (l : List Byte) (a b : Nat) :
    (slice (ε := ε) l a b).mapErr g = slice l a b := by
  unfold slice
  split <;> rfl

theorem mapErr_checksum {ε ε' : Type} (g : ε → ε') (i : U16) (l : List Byte) :
    (calculateChecksum (ε := ε) i l).mapErr g = calculateChecksum i l := by
  rw [calculateChecksum_eq, calculateChecksum_eq]
  rfl

/-- `write_packet` on a script port, in two parts. -/
theorem writePacket_split (id instr : Byte) (n : Nat) (enc : Encoder) :
    Bus.writePacket id instr n enc =
      ((preparePacket id instr n enc).mapErr WriteError.bufferTooSmall >>= fun messageEnd => do
        Bus.onPort (Port.discardInputBuffer.mapErr .discardBuffer)
        let buffer := (← SO.get).writeBuffer
        let stuffedMessage ← SO.lift (slice buffer 0 messageEnd)
        Bus.onPort ((Port.writeAll stuffedMessage).mapErr .write)) := by
  unfold Bus.writePacket preparePacket
  simp only [mapErr_bind, so_seq_assoc, mapErr_get, mapErr_modify, mapErr_pure, so_pure_seq, mapErr_lift, mapErr_onWriteBuffer, mapErr_setIdx, mapErr_onSliceFrom, mapErr_onSlice, mapErr_writeU16Le,
    mapErr_lengthField, mapErr_slice, mapErr_checksum]

theorem writeU16Le_room {ε : Type} {v : U16} {l l' : List Byte} (h : writeU16Le (ε := ε) v l = (l', .ok ())) :
    2 ≤ l.length ∧ l'.length = l.length := by
  match l with
  | [] => simp [writeU16Le, setIdx, SO.bind_def] at h
  | [a] => simp [writeU16Le, setIdx, SO.bind_def] at h
  | a :: b :: t =>
    simp [writeU16Le, setIdx, SO.bind_def] at h
    rw [← h]
    simp

/-- The packet that was prepared is in the write buffer. -/
theorem preparePacket_room {id instr : Byte} {n m : Nat} {enc : Encoder} {b b' : Bus}
    (h : preparePacket id instr n enc b = (b', .ok m)) :
    m ≤ b'.writeBuffer.length ∧ b'.readLen = 0 ∧ b'.usedBytes = 0 := by
  unfold preparePacket at h
  iterate 14 (obtain ⟨_, _, _, h⟩ := SO.bind_eq_ok.1 h)
  rename_i hcrc
  obtain ⟨_, _, hmod, h⟩ := SO.bind_eq_ok.1 h
  rw [SO.modify_apply] at hmod
  rw [SO.pure_apply] at h
  simp only [Prod.mk.injEq, Outcome.ok.injEq] at h hmod
  obtain ⟨rfl, rfl⟩ := h
  obtain ⟨rfl, -⟩ := hmod
  refine ⟨?_, rfl, rfl⟩
  rw [Bus.onWriteBuffer_apply] at hcrc
  simp only [Prod.mk.injEq] at hcrc
  obtain ⟨h1, h2⟩ := hcrc
  rw [← h1]
  simp only
  unfold onSliceFrom onSlice at h2 ⊢
  split at h2
  · rename_i hc
    rw [if_pos hc]
    simp only at h2 ⊢
    rcases hw : writeU16Le (ε := BufferTooSmall) _ _ with ⟨l', o⟩
    rw [hw] at h2
    simp only at h2
    subst h2
    have hr := writeU16Le_room hw
    simp at hr ⊢
    omega
  · simp at h2

end BusOf
end Dxl
