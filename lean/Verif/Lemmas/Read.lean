import Verif.Lemmas.Stream
import Verif.Spec.Input

/-! # `Bus::read_packet_deadline`: refinement to the stream parser -/

namespace Dxl
open Spec

/-! ## The port -/

/-- A sequence of successful reads, each into a non-empty slice, all with the same deadline: from port `p` the bytes
`bs` are received, leaving port `p'`. -/
inductive Port.Reads (deadline : Nat) : Port → List Byte → Port → Prop
  | nil (p : Port) : Reads deadline p [] p
  | step {p p1 p2 : Port} {cap : Nat} {bs bs' : List Byte} :
      0 < cap → Port.read cap deadline p = (p1, .ok bs) → Reads deadline p1 bs' p2 → Reads deadline p (bs ++ bs') p2

namespace Port

variable {D cap : Nat} {p p' : Port} {bs : List Byte}

theorem read_length (h : Port.read cap D p = (p', .ok bs)) : bs.length ≤ cap := by
  simp only [Port.read] at h
  split at h
  · simp at h
  · split at h
    · split at h <;> simp at h
    · split at h
      · split at h
        · simp at h; rw [← h.2]; assumption
        · simp at h; rw [← h.2]; simp; omega
      · simp at h
    · split at h <;> simp at h

/-- Every successful read makes the script smaller. -/
theorem read_measure (hc : 0 < cap) (h : Port.read cap D p = (p', .ok bs)) : p'.measure < p.measure := by
  simp only [Port.read] at h
  split at h
  · simp at h
  · split at h
    · split at h <;> simp at h
    · rename_i hrx
      split at h
      · split at h
        · simp at h
          rw [← h.1]
          simp [measure, hrx]
        · simp at h
          rw [← h.1]
          simp [measure, hrx]
          omega
      · simp at h
    · split at h <;> simp at h

theorem read_readable (h : Port.read cap D p = (p', .ok bs)) :
    readable D p = bs ++ readable D p' ∧ readEnd D p' = readEnd D p := by
  simp only [Port.read] at h
  split at h
  · simp at h
  · rename_i hD
    split at h
    · split at h <;> simp at h
    · rename_i t ds rest hrx
      split at h
      · rename_i htD
        split at h
        · simp at h
          rw [← h.1, ← h.2]
          have : ¬ D < max p.now t := by omega
          simp [readable, readEnd, hD, hrx, arriving, obstacle, htD, this]
        · simp at h
          rw [← h.1, ← h.2]
          have : ¬ D < max p.now t := by omega
          simp [readable, readEnd, hD, hrx, arriving, obstacle, htD, this]
          rw [← List.append_assoc, List.take_append_drop]
      · simp at h
    · split at h <;> simp at h

theorem read_err_readable {e : IoErr} (h : Port.read cap D p = (p', .err e)) :
    readable D p = [] ∧ e = readEnd D p := by
  simp only [Port.read] at h
  split at h
  · rename_i hD
    simp at h
    simp [readable, readEnd, hD, h.2]
  · rename_i hD
    split at h
    · rename_i hrx
      split at h <;> rename_i ht <;> simp at h <;> simp [readable, readEnd, hD, hrx, ht, arriving, obstacle, h.2]
    · rename_i hrx
      split at h
      · split at h <;> simp at h
      · rename_i htD
        simp at h
        simp [readable, readEnd, hD, hrx, htD, arriving, obstacle, h.2]
    · rename_i hrx
      split at h <;> rename_i htD <;> simp at h <;>
        simp [readable, readEnd, hD, hrx, htD, arriving, obstacle, h.2]

/-- No byte is lost or invented by a read. -/
theorem read_allBytes (h : Port.read cap D p = (p', .ok bs)) : allBytes p.rx = bs ++ allBytes p'.rx := by
  simp only [Port.read] at h
  split at h
  · simp at h
  · split at h
    · split at h <;> simp at h
    · rename_i t ds rest hrx
      split at h
      · split at h
        · simp at h
          rw [← h.1, ← h.2, hrx]; rfl
        · simp at h
          rw [← h.1, ← h.2, hrx]
          simp [allBytes]
          rw [← List.append_assoc, List.take_append_drop]
      · simp at h
    · split at h <;> simp at h

theorem read_err_allBytes {e : IoErr} (h : Port.read cap D p = (p', .err e)) : allBytes p'.rx = allBytes p.rx := by
  simp only [Port.read] at h
  split at h
  · simp at h; rw [← h.1]
  · split at h
    · split at h <;> simp at h <;> rw [← h.1]
    · split at h
      · split at h <;> simp at h
      · simp at h; rw [← h.1]
    · rename_i hrx
      split at h <;> simp at h <;> rw [← h.1] <;> simp [hrx, allBytes]

/-- What a read changes besides the bytes: time passes, but not beyond the deadline, and the call is logged. -/
theorem read_frame {o : Outcome IoErr (List Byte)} (h : Port.read cap D p = (p', o)) :
    p.now ≤ p'.now ∧ p'.now ≤ max p.now D ∧ p'.log = p.log ++ [.read cap D] ∧ p'.rate = p.rate ∧
      p'.measure ≤ p.measure := by
  simp only [Port.read] at h
  split at h
  · simp at h; rw [← h.1]
    simp [measure]; omega
  · split at h
    · split at h <;> simp at h <;> rw [← h.1] <;> simp [measure] <;> omega
    · rename_i hrx
      split at h
      · split at h <;> simp at h <;> rw [← h.1] <;> simp [measure, hrx] <;> omega
      · simp at h; rw [← h.1]
        simp [measure]; omega
    · rename_i hrx
      split at h <;> simp at h <;> rw [← h.1] <;> simp [measure, hrx] <;> omega

theorem Reads.readable (h : Reads D p bs p') :
    readable D p = bs ++ readable D p' ∧ readEnd D p' = readEnd D p := by
  induction h with
  | nil => simp
  | step _ h1 _ ih =>
    have := read_readable h1
    exact ⟨by rw [this.1, ih.1, List.append_assoc], by rw [ih.2, this.2]⟩

theorem Reads.allBytes (h : Reads D p bs p') : allBytes p.rx = bs ++ allBytes p'.rx := by
  induction h with
  | nil => simp
  | step _ h1 _ ih => rw [read_allBytes h1, ih, List.append_assoc]

/-- The log of a number of reads with the deadline `D`, none of them into an empty slice. -/
def ReadCalls (D : Nat) (calls : List Call) : Prop := ∀ c ∈ calls, ∃ cap, 0 < cap ∧ c = .read cap D

/-- Between `p` and `p'` there were only reads with the deadline `D`. -/
structure OnlyReads (D : Nat) (p p' : Port) : Prop where
  now_le : p.now ≤ p'.now
  le_deadline : p'.now ≤ max p.now D
  log : ∃ calls, p'.log = p.log ++ calls ∧ ReadCalls D calls ∧ calls.length ≤ p.measure - p'.measure + 1
  rate : p'.rate = p.rate
  measure : p'.measure ≤ p.measure

theorem Reads.onlyReads (h : Reads D p bs p') : p.now ≤ p'.now ∧ p'.now ≤ max p.now D ∧
    (∃ calls, p'.log = p.log ++ calls ∧ ReadCalls D calls ∧ calls.length ≤ p.measure - p'.measure) ∧
    p'.rate = p.rate ∧ p'.measure ≤ p.measure := by
  induction h with
  | nil => exact ⟨by omega, by omega, ⟨[], by simp, by simp [ReadCalls], by simp⟩, rfl, by omega⟩
  | step hc h1 _ ih =>
    obtain ⟨f1, f2, f3, f4, f5⟩ := read_frame h1
    have hm := read_measure hc h1
    obtain ⟨i1, i2, ⟨calls, i3, i4, i6⟩, i7, i8⟩ := ih
    refine ⟨by omega, by omega, ⟨_ :: calls, by rw [i3, f3]; simp; rfl, ?_, by simp; omega⟩, by rw [i7, f4], by omega⟩
    intro c hcm
    rcases List.mem_cons.1 hcm with rfl | hcm
    · exact ⟨_, hc, rfl⟩
    · exact i4 c hcm

theorem Reads.only (h : Reads D p bs p') : OnlyReads D p p' := by
  obtain ⟨h1, h2, ⟨calls, h3, h4, h5⟩, h6, h7⟩ := h.onlyReads
  exact ⟨h1, h2, ⟨calls, h3, h4, by omega⟩, h6, h7⟩

theorem Reads.only_err {p'' : Port} {e : IoErr} (h : Reads D p bs p') (hc : 0 < cap)
    (hr : Port.read cap D p' = (p'', .err e)) : OnlyReads D p p'' := by
  obtain ⟨h1, h2, ⟨calls, h3, h4, h5⟩, h6, h7⟩ := h.onlyReads
  obtain ⟨f1, f2, f3, f4, f5⟩ := read_frame hr
  refine ⟨by omega, by omega, ⟨calls ++ [.read cap D], by rw [f3, h3, List.append_assoc], ?_, by simp; omega⟩, by rw [f4, h6],
    by omega⟩
  intro c hcm
  rcases List.mem_append.1 hcm with hcm | hcm
  · exact h4 c hcm
  · exact ⟨cap, hc, by simpa using hcm⟩

end Port

/-! ## The read buffer -/

/-- The invariant of the read buffer. -/
structure Bus.RInv (b : Bus) : Prop where
  used_le : b.usedBytes ≤ b.readLen
  len_le : b.readLen ≤ b.readBuffer.length

/-- Received bytes that are not used yet. -/
def Bus.pending (b : Bus) : List Byte := (b.readBuffer.take b.readLen).drop b.usedBytes

/-- The bus with `t` as its pending bytes, at the start of the read buffer. -/
def Bus.withPending (b : Bus) (t : List Byte) : Bus :=
  { b with readBuffer := t ++ b.readBuffer.drop t.length, readLen := t.length, usedBytes := 0 }

/-- The bus on another port. -/
def Bus.onto (b : Bus) (p : Port) : Bus := { b with serialPort := p }

namespace Bus

theorem pending_length {b : Bus} (h : b.RInv) : b.pending.length = b.readLen - b.usedBytes := by
  simp [pending]
  have := h.len_le
  omega

theorem pending_length_le {b : Bus} (h : b.RInv) : b.pending.length ≤ b.readBuffer.length := by
  rw [pending_length h]
  have := h.len_le
  omega

theorem withPending_pending (b : Bus) (t : List Byte) : (b.withPending t).pending = t := by
  simp [withPending, pending]

theorem withPending_length {b : Bus} {t : List Byte} (h : t.length ≤ b.readBuffer.length) :
    (b.withPending t).readBuffer.length = b.readBuffer.length := by
  simp [withPending]; omega

theorem withPending_rInv {b : Bus} {t : List Byte} : (b.withPending t).RInv := by
  constructor
  · simp [withPending]
  · simp [withPending]

theorem debugAssert_true {ε : Type} (b : Bus) : debugAssert (ε := ε) true b = (b, .ok ()) := by
  simp [debugAssert, SO.assert]

/-- Consuming `k` bytes of the read buffer. -/
theorem consumeReadBytes_eq {ε : Type} {b : Bus} {k : Nat} (h : b.RInv) (hk : k ≤ b.readLen) (hu : b.usedBytes ≤ k) :
    consumeReadBytes (ε := ε) k b = (b.withPending ((b.readBuffer.take b.readLen).drop k), .ok ()) := by
  unfold consumeReadBytes
  rw [SO.get_bind, show decide (k ≤ b.readLen) = true by simpa using hk, SO.bind_ok (debugAssert_true b),
    if_pos ⟨hk, h.len_le⟩, SO.modify_apply]
  have hl : ((b.readBuffer.take b.readLen).drop k).length = b.readLen - k := by
    simp
    have := h.len_le
    omega
  simp only [withPending, hl]
  simp; omega

theorem removeGarbage_eq {ε : Type} {b : Bus} (h : b.RInv) :
    removeGarbage (ε := ε) b = (b.withPending (skip b.pending), .ok ()) := by
  have hlen := h.len_le
  have hused := h.used_le
  unfold removeGarbage
  rw [SO.get_bind, slice_ok (by omega) h.len_le, SO.lift_ok_bind]
  simp only [List.drop_zero]
  rw [sliceFrom_ok (by simp; omega), SO.lift_ok_bind]
  rw [show (b.readBuffer.take b.readLen).drop b.usedBytes = b.pending from rfl]
  have hsk := (skip_suffix b.pending).length_le
  have hfh : findHeader b.pending ≤ b.pending.length := by
    have : ∀ l : List Byte, findHeader l ≤ l.length := by
      intro l
      induction l with
      | nil => simp [findHeader]
      | cons a l ih => simp only [findHeader]; split <;> simp; omega
    exact this _
  rw [pending_length h] at hfh
  rw [SO.bind_ok (consumeReadBytes_eq h (by omega) (by omega)), SO.get_bind]
  rw [← List.drop_drop, show (b.readBuffer.take b.readLen).drop b.usedBytes = b.pending from rfl,
    ← skip_eq_drop_findHeader]
  exact debugAssert_true _

/-- Whether a complete message is at the front. -/
theorem messageReady_eq (b : Bus) (t : List Byte) (hl : t.length ≤ b.readBuffer.length) (hs : skip t = t) :
    messageReady (b.withPending t) =
      match parse b.readBuffer.length t with
      | .more => (b.withPending t, .ok none)
      | .tooBig req rest => ((b.withPending t).withPending rest, .err (.bufferFull ⟨req, b.readBuffer.length⟩))
      | .packet f _ => (b.withPending t, .ok (some f.length)) := by
  have hN := withPending_length hl
  unfold messageReady
  rw [SO.get_bind]
  simp only [show (b.withPending t).readLen = t.length from rfl]
  by_cases h7 : t.length ≤ 7
  · rw [if_neg (by simp [headerSize]; omega), show parse b.readBuffer.length t = .more by simp [parse, hs, h7]]
    rfl
  · rw [if_pos (by simp [headerSize]; omega)]
    rw [slice_ok (by omega) (by simp [withPending]), SO.lift_ok_bind]
    have ht : ((b.withPending t).readBuffer.take t.length).drop 0 = t := by simp [withPending]
    rw [ht, sliceFrom_ok (by omega), SO.lift_ok_bind]
    have hlf : ∃ v : U16, readU16Le (ε := ReadError) (t.drop 5) = .ok v ∧ v.toNat = Spec.lengthField t := by
      have h7' : 7 ≤ t.length := by omega
      clear ht hs hN hl h7
      match t, h7' with
      | x0 :: x1 :: x2 :: x3 :: x4 :: x5 :: x6 :: rest, _ =>
        exact ⟨mk16 x5 x6, readU16Le_cons _ _ _, mk16_toNat _ _⟩
    obtain ⟨v, hv, hvn⟩ := hlf
    rw [hv, SO.lift_ok_bind, hvn, hN]
    unfold BufferTooSmall.check parse
    rw [hs, if_neg h7]
    by_cases hc : b.readBuffer.length < 7 + Spec.lengthField t
    · rw [if_neg (by simp [headerSize]; omega), if_pos hc]
      simp only
      rw [SO.bind_ok (consumeReadBytes_eq withPending_rInv (by simp [withPending, headerSize]; omega)
        (by simp [withPending]))]
      simp only [show (b.withPending t).readLen = t.length from rfl]
      rw [show (b.withPending t).readBuffer.take t.length = t by simp [withPending]]
      rfl
    · rw [if_pos (by simp [headerSize]; omega), if_neg hc]
      simp only
      by_cases hm : t.length < 7 + Spec.lengthField t
      · rw [if_neg (by simp [headerSize]; omega), if_pos hm]; rfl
      · rw [if_pos (by simp [headerSize]; omega), if_neg hm]
        simp only [headerSize, SO.pure_apply]
        congr 3
        simp; omega

theorem onto_withPending (b : Bus) (t : List Byte) (p : Port) : (b.withPending t).onto p = (b.onto p).withPending t := rfl

theorem withPending_withPending_append {b : Bus} {t bs : List Byte} :
    (b.withPending t).withPending (t ++ bs) = b.withPending (t ++ bs) := by
  simp only [withPending]
  congr 2
  rw [List.drop_append, List.drop_eq_nil_of_le (by simp), List.nil_append, List.drop_drop]
  congr 1
  simp

/-- Reading more data. -/
theorem readMore_eq (b : Bus) (t : List Byte) (D : Nat) (hl : t.length ≤ b.readBuffer.length) :
    readMore D (b.withPending t) =
      match Port.read (b.readBuffer.length - t.length) D b.serialPort with
      | (p, .ok bs) => ((b.onto p).withPending (t ++ bs), .ok ())
      | (p, .err e) => ((b.onto p).withPending t, .err (.io e))
      | (p, .panic) => ((b.onto p).withPending t, .panic)
      | (p, .hang) => ((b.onto p).withPending t, .hang) := by
  have hN := withPending_length hl
  unfold readMore
  rw [SO.get_bind]
  simp only [show (b.withPending t).readLen = t.length from rfl, hN]
  rw [if_pos hl, SO.bind_def, onPort_apply, SO.mapErr_apply]
  simp only [show (b.withPending t).serialPort = b.serialPort from rfl]
  rcases hr : Port.read (b.readBuffer.length - t.length) D b.serialPort with ⟨p, o⟩
  cases o with
  | ok bs =>
    have hbs := Port.read_length hr
    simp only [Outcome.mapErr_ok, SO.modify_apply]
    rw [← withPending_withPending_append (b := b.onto p)]
    congr 1
    simp [withPending, onto]
  | err e => rfl
  | panic => rfl
  | hang => rfl

theorem _root_.Dxl.Port.read_cases (cap D : Nat) (p : Port) :
    (∃ p' bs, Port.read cap D p = (p', .ok bs)) ∨ (∃ p' e, Port.read cap D p = (p', .err e)) := by
  simp only [Port.read]
  split
  · exact .inr ⟨_, _, rfl⟩
  · split
    · split <;> exact .inr ⟨_, _, rfl⟩
    · split
      · split <;> exact .inl ⟨_, _, rfl⟩
      · exact .inr ⟨_, _, rfl⟩
    · split <;> exact .inr ⟨_, _, rfl⟩

/-- `b'` differs from `b` only in the port and the received data. -/
structure Like (b b' : Bus) : Prop where
  readSize : b'.readBuffer.length = b.readBuffer.length
  writeBuffer : b'.writeBuffer = b.writeBuffer
  baudRate : b'.baudRate = b.baudRate
  debug : b'.debug = b.debug

theorem Like.refl (b : Bus) : Like b b := ⟨rfl, rfl, rfl, rfl⟩

theorem Like.trans {b c d : Bus} (h : Like b c) (h' : Like c d) : Like b d :=
  ⟨h'.1.trans h.1, h'.2.trans h.2, h'.3.trans h.3, h'.4.trans h.4⟩

theorem like_onto_withPending (b : Bus) (p : Port) {t : List Byte} (h : t.length ≤ b.readBuffer.length) :
    Like b ((b.onto p).withPending t) :=
  ⟨withPending_length (b := b.onto p) h, rfl, rfl, rfl⟩

/-- A bus like `b`, on port `p`, with exactly `t` pending at the start of the read buffer. -/
structure Holds (b : Bus) (p : Port) (t : List Byte) (c : Bus) : Prop where
  like : Like b c
  port : c.serialPort = p
  used : c.usedBytes = 0
  len : c.readLen = t.length
  data : t <+: c.readBuffer

theorem holds_withPending (b : Bus) (p : Port) {t : List Byte} (h : t.length ≤ b.readBuffer.length) :
    Holds b p t ((b.onto p).withPending t) :=
  ⟨like_onto_withPending b p h, rfl, rfl, rfl, List.prefix_append _ _⟩

theorem Holds.eq {b c : Bus} {p : Port} {t : List Byte} (h : Holds b p t c) : c.withPending t = c := by
  obtain ⟨_, _, h1, h2, r, h3⟩ := h
  cases c
  simp only [withPending] at *
  subst h1 h2
  rw [← h3]
  simp

theorem Holds.pending {b c : Bus} {p : Port} {t : List Byte} (h : Holds b p t c) : c.pending = t := by
  rw [← h.eq, withPending_pending]

theorem Holds.rInv {b c : Bus} {p : Port} {t : List Byte} (h : Holds b p t c) : c.RInv := by
  rw [← h.eq]; exact withPending_rInv

theorem Holds.of_like {a b c : Bus} {p : Port} {t : List Byte} (hl : Like a b) (h : Holds b p t c) : Holds a p t c :=
  ⟨hl.trans h.like, h.port, h.used, h.len, h.data⟩

theorem parse_length {cap : Nat} {s f rest : List Byte} (h : parse cap s = .packet f rest) :
    (f ++ rest).length ≤ s.length := by
  rw [← (parse_packet h).1]; exact (skip_suffix _).length_le

/-- What the read loop can do: `bs` are the bytes received during the call. -/
inductive LoopResult (b : Bus) (D : Nat) : Bus × Outcome ReadError Nat → Prop
  | packet {bs f rest : List Byte} {p : Port} {c : Bus} :
      Port.Reads D b.serialPort bs p → parse b.readBuffer.length (b.pending ++ bs) = .packet f rest →
      Holds b p (f ++ rest) c → LoopResult b D (c, .ok f.length)
  | tooBig {bs rest : List Byte} {req : Nat} {p : Port} {c : Bus} :
      Port.Reads D b.serialPort bs p → parse b.readBuffer.length (b.pending ++ bs) = .tooBig req rest →
      Holds b p rest c → LoopResult b D (c, .err (.bufferFull ⟨req, b.readBuffer.length⟩))
  | ended {bs : List Byte} {p p' : Port} {cap : Nat} {e : IoErr} {c : Bus} :
      Port.Reads D b.serialPort bs p → parse b.readBuffer.length (b.pending ++ bs) = .more → 0 < cap →
      Port.read cap D p = (p', .err e) → Holds b p' (skip (b.pending ++ bs)) c →
      LoopResult b D (c, .err (.io e))

theorem readLoop_result (D : Nat) (fuel : Nat) : ∀ b : Bus, b.RInv → 10 ≤ b.readBuffer.length →
    b.serialPort.measure < fuel → LoopResult b D (readLoop D fuel b) := by
  induction fuel with
  | zero => intro b _ _ h; omega
  | succ fuel ih =>
    intro b hr hN hm
    have hlen : (skip b.pending).length ≤ b.readBuffer.length :=
      Nat.le_trans (skip_suffix _).length_le (pending_length_le hr)
    have hmr := messageReady_eq b (skip b.pending) hlen (skip_skip _)
    rw [parse_skip] at hmr
    have hhold := holds_withPending b b.serialPort hlen
    rw [show b.onto b.serialPort = b from rfl] at hhold
    unfold readLoop
    rw [SO.bind_ok (removeGarbage_eq hr)]
    cases hp : parse b.readBuffer.length b.pending with
    | packet f rest =>
      rw [hp] at hmr
      rw [SO.bind_ok hmr]
      rw [(parse_packet hp).1] at hhold
      rw [(parse_packet hp).1]
      exact LoopResult.packet (Port.Reads.nil b.serialPort) (by rw [List.append_nil]; exact hp) hhold
    | tooBig req rest =>
      rw [hp] at hmr
      rw [SO.bind_err hmr]
      refine LoopResult.tooBig (Port.Reads.nil b.serialPort) (by rw [List.append_nil]; exact hp)
        (Holds.of_like hhold.like (holds_withPending _ _ ?_))
      obtain ⟨hd, h1, _⟩ := parse_tooBig hp
      rw [h1] at hlen hhold
      rw [h1, hhold.like.readSize]
      simp at hlen
      omega
    | more =>
      rw [hp] at hmr
      rw [SO.bind_ok hmr]
      have hroom := parse_more_room hN hp
      simp only
      have hrm := readMore_eq b (skip b.pending) D hlen
      rcases Port.read_cases (b.readBuffer.length - (skip b.pending).length) D b.serialPort with
        ⟨p1, bs, hread⟩ | ⟨p1, e, hread⟩
      · rw [hread] at hrm
        rw [SO.bind_ok hrm]
        have hbs := Port.read_length hread
        have hh := holds_withPending b p1 (t := skip b.pending ++ bs) (by simp; omega)
        have hstep := ih _ hh.rInv (by rw [hh.like.readSize]; exact hN)
          (by
            rw [hh.port]
            have := Port.read_measure (by omega) hread
            omega)
        generalize (b.onto p1).withPending (skip b.pending ++ bs) = b1 at hh hstep
        have hre : ∀ {bs' p'}, Port.Reads D b1.serialPort bs' p' → Port.Reads D b.serialPort (bs ++ bs') p' := by
          intro bs' p' h
          rw [hh.port] at h
          exact .step (by omega) hread h
        have hpa : ∀ bs', parse b1.readBuffer.length (b1.pending ++ bs')
            = parse b.readBuffer.length (b.pending ++ (bs ++ bs')) := by
          intro bs'
          rw [hh.pending, hh.like.readSize, List.append_assoc, ← parse_more_append]
        have hsk : ∀ bs', skip (b1.pending ++ bs') = skip (b.pending ++ (bs ++ bs')) := by
          intro bs'
          rw [hh.pending, List.append_assoc, ← skip_append]
        generalize readLoop D fuel b1 = r at hstep
        cases hstep with
        | packet h1 h2 h3 =>
          rw [hpa] at h2
          exact .packet (hre h1) h2 (h3.of_like hh.like)
        | tooBig h1 h2 h3 =>
          rw [hpa] at h2
          rw [hh.like.readSize]
          exact .tooBig (hre h1) h2 (h3.of_like hh.like)
        | ended h1 h2 h3 h4 h5 =>
          rw [hpa] at h2
          rw [hsk] at h5
          exact .ended (hre h1) h2 h3 h4 (h5.of_like hh.like)
      · rw [hread] at hrm
        rw [SO.bind_err hrm]
        refine LoopResult.ended (Port.Reads.nil b.serialPort) (by rw [List.append_nil]; exact hp) (by omega) hread ?_
        rw [List.append_nil]
        exact holds_withPending b p1 hlen

/-! ## A complete packet -/

/-- CRC field of a packet. -/
def crcField (f : List Byte) : U16 := mk16 (f.getD (f.length - 2) 0#8) (f.getD (f.length - 1) 0#8)

/-- What becomes of a complete packet. -/
def frameOutcome (f : List Byte) : Outcome ReadError Packet :=
  if crcField f ≠ crc 0#16 (f.take (f.length - 2)) then
    .err (.invalidMessage (.checksum (crcField f) (crc 0#16 (f.take (f.length - 2)))))
  else if f.length = 9 then .panic
  else .ok ⟨f.take 7 ++ codeUnstuff ((f.take (f.length - 2)).drop 7)⟩

/-- The bytes left after a complete packet was handled. -/
structure After (b : Bus) (p : Port) (rest : List Byte) (c : Bus) : Prop where
  like : Like b c
  port : c.serialPort = p
  rInv : c.RInv
  pending : c.pending = rest

theorem Holds.after {b c : Bus} {p : Port} {t : List Byte} (h : Holds b p t c) : After b p t c :=
  ⟨h.like, h.port, h.rInv, h.pending⟩

theorem crc_short_0 : ∀ id : Byte, crc 0#16 [0xFF#8, 0xFF#8, 0xFD#8, 0x00#8, id] ≠ 0#16 := by decide +kernel

theorem crc_short_1 : ∀ id : Byte,
    (crc 0#16 [0xFF#8, 0xFF#8, 0xFD#8, 0x00#8, id, 1#8]).setWidth 8 ≠ 0#8 := by decide +kernel

theorem short_frame_bad {f : List Byte} (hh : header <+: f) (hl : f.length = 7 + Spec.lengthField f)
    (h8 : f.length ≤ 8) : crcField f ≠ crc 0#16 (f.take (f.length - 2)) := by
  obtain ⟨r, rfl⟩ := hh
  match r with
  | [] => simp [header] at hl; omega
  | [_] => simp [header] at hl; omega
  | [_, _] => simp [header] at hl; omega
  | [id, x5, x6] =>
    have h0 : x5.toNat + 256 * x6.toNat = 0 := by
      simp [header, Spec.lengthField] at hl; omega
    have e5 : x5 = 0#8 := BitVec.eq_of_toNat_eq (by simp; omega)
    have e6 : x6 = 0#8 := BitVec.eq_of_toNat_eq (by simp; omega)
    subst e5 e6
    intro h
    refine crc_short_0 id (h.symm.trans ?_)
    show mk16 0#8 0#8 = 0#16
    decide
  | [id, x5, x6, x7] =>
    have h1 : x5.toNat + 256 * x6.toNat = 1 := by
      simp [header, Spec.lengthField] at hl; omega
    have e5 : x5 = 1#8 := BitVec.eq_of_toNat_eq (by simp; omega)
    have e6 : x6 = 0#8 := BitVec.eq_of_toNat_eq (by simp; omega)
    subst e5 e6
    intro h
    have := congrArg (fun v : U16 => v.setWidth 8) h
    refine crc_short_1 id (this.symm.trans ?_)
    show BitVec.setWidth 8 (mk16 0#8 x7) = 0#8
    have := congrArg (List.getD · 0 0#8) (le16_mk16 0#8 x7)
    simpa [le16] using this
  | _ :: _ :: _ :: _ :: _ :: _ => simp [header] at h8

theorem finishPacket_eq {b c : Bus} {p : Port} {f rest : List Byte} (h : Holds b p (f ++ rest) c)
    (hh : header <+: f) (hl : f.length = 7 + Spec.lengthField f) :
    ∃ c', finishPacket f.length c = (c', frameOutcome f) ∧ After b p rest c' := by
  obtain ⟨X, hX⟩ := h.data
  have hX' : c.readBuffer = f ++ (rest ++ X) := by rw [← hX, List.append_assoc]
  have h7 : 7 ≤ f.length := by omega
  unfold finishPacket
  rw [SO.get_bind]
  simp only
  -- the CRC field
  rw [sliceFrom_ok (by rw [hX']; simp; omega), SO.lift_ok_bind]
  have hcrc : readU16Le (ε := ReadError) (c.readBuffer.drop (f.length - 2)) = .ok (crcField f) := by
    rw [hX', List.drop_append_of_le_length (by omega)]
    have h2 : f.drop (f.length - 2) = [f.getD (f.length - 2) 0#8, f.getD (f.length - 1) 0#8] := by
      have hd : (f.drop (f.length - 2)).length = 2 := by simp; omega
      match hm : f.drop (f.length - 2), hd with
      | [x, y], _ =>
        have e1 : f[f.length - 2]? = some x := by
          have : (f.drop (f.length - 2))[0]? = some x := by rw [hm]; rfl
          simpa using this
        have e2 : f[f.length - 1]? = some y := by
          have : (f.drop (f.length - 2))[1]? = some y := by rw [hm]; rfl
          rw [List.getElem?_drop] at this
          rw [← this]; congr 1; omega
        simp [List.getD_eq_getElem?_getD, e1, e2]
    rw [h2]
    exact readU16Le_cons _ _ _
  rw [hcrc, SO.lift_ok_bind, slice_ok (by omega) (by rw [hX']; simp; omega), SO.lift_ok_bind]
  have hsum : (c.readBuffer.take (f.length - 2)).drop 0 = f.take (f.length - 2) := by
    rw [hX', List.take_append_of_le_length (by omega), List.drop_zero]
  rw [hsum, calculateChecksum_eq, SO.lift_ok_bind]
  by_cases hbad : crcField f ≠ crc 0#16 (f.take (f.length - 2))
  · rw [if_pos hbad]
    have hcons := consumeReadBytes_eq (ε := ReadError) (b := c) (k := f.length) h.rInv
      (by rw [h.len]; simp) (by rw [h.used]; omega)
    rw [SO.bind_ok hcons]
    have hr : (c.readBuffer.take c.readLen).drop f.length = rest := by
      rw [h.len, hX', ← List.append_assoc, List.take_left, List.drop_left]
    rw [hr]
    refine ⟨c.withPending rest, ?_, Holds.after (Holds.of_like h.like ?_)⟩
    · simp [frameOutcome, hbad, SO.throw]
    · have := holds_withPending c p (t := rest) (by rw [hX']; simp; omega)
      have hc : c.onto p = c := by rw [← h.port]; rfl
      rwa [hc] at this
  · rw [if_neg hbad, SO.modify_bind]
    have h9 : 9 ≤ f.length := by
      by_cases h8 : f.length ≤ 8
      · exact absurd (short_frame_bad hh hl h8) hbad
      · omega
    obtain ⟨junk, hj, hjl⟩ := unstuffInplace_eq (ε := ReadError) ((f.take (f.length - 2)).drop 7)
    have hub : (f.take (f.length - 2)).drop 7 = (c.readBuffer.take (f.length - 2)).drop 7 := by
      rw [hX', List.take_append_of_le_length (by omega)]
    have hbl : ((f.take (f.length - 2)).drop 7).length = f.length - 9 := by simp; omega
    generalize hu : codeUnstuff ((f.take (f.length - 2)).drop 7) = u at *
    have hun : onReadBuffer (onSlice headerSize (f.length - 2) unstuffInplace)
        { c with usedBytes := c.usedBytes + f.length }
        = ({ c with usedBytes := f.length,
                    readBuffer := f.take 7 ++ (u ++ junk) ++ c.readBuffer.drop (f.length - 2) },
            (.ok u.length : Outcome ReadError Nat)) := by
      show SO.zoom _ _ _ _ = _
      rw [SO.zoom_apply, onSlice_ok _ (by simp [headerSize]; omega) (by simp [hX']; omega)]
      simp only [headerSize, ← hub, hj, h.used, Nat.zero_add]
      rw [show c.readBuffer.take 7 = f.take 7 by rw [hX', List.take_append_of_le_length (by omega)]]
    rw [SO.bind_ok hun, SO.get_bind]
    simp only
    rw [slice_ok (by omega) (by simp [headerSize]; omega), SO.lift_ok_bind]
    have hdata : ((f.take 7 ++ (u ++ junk) ++ c.readBuffer.drop (f.length - 2)).take (headerSize + u.length)).drop 0
        = f.take 7 ++ u := by
      rw [List.drop_zero, List.append_assoc, List.append_assoc, ← List.append_assoc (f.take 7)]
      rw [List.take_left' (by simp [headerSize]; omega)]
    rw [hdata]
    have hafter : After b p rest { c with
        usedBytes := f.length
        readBuffer := f.take 7 ++ (u ++ junk) ++ c.readBuffer.drop (f.length - 2) } := by
      have hle : (f.take 7 ++ (u ++ junk) ++ c.readBuffer.drop (f.length - 2)).length = c.readBuffer.length := by
        have : u.length + junk.length = f.length - 9 := by omega
        rw [hX']
        simp; omega
      refine ⟨⟨by rw [← h.like.readSize]; exact hle, h.like.2, h.like.3, h.like.4⟩, h.port, ⟨?_, ?_⟩, ?_⟩
      · show f.length ≤ c.readLen
        rw [h.len]; simp
      · rw [hle]; exact h.rInv.len_le
      · show ((f.take 7 ++ (u ++ junk) ++ c.readBuffer.drop (f.length - 2)).take c.readLen).drop f.length = rest
        rw [h.len]
        have hd : c.readBuffer.drop (f.length - 2) = f.drop (f.length - 2) ++ (rest ++ X) := by
          rw [hX', List.drop_append_of_le_length (by omega)]
        have hfl : (f.take 7 ++ (u ++ junk) ++ f.drop (f.length - 2)).length = f.length := by
          have : u.length + junk.length = f.length - 9 := by omega
          simp; omega
        rw [hd, ← List.append_assoc, List.length_append, ← List.append_assoc, List.take_left' (by simp only [List.length_append] at hfl ⊢; omega)]
        rw [List.drop_left' hfl]
    have hcases : f.length = 9 ∨ 10 ≤ f.length := by omega
    rcases hcases with h9' | h10
    · have hu0 : u = [] := List.eq_nil_of_length_eq_zero (by omega)
      subst hu0
      rw [show Packet.instructionId (ε := ReadError) ⟨f.take 7 ++ []⟩ = .panic by
        have : (f.take 7 ++ ([] : List Byte))[7]? = none := by simp; omega
        unfold Packet.instructionId idx
        rw [this]]
      refine ⟨_, ?_, hafter⟩
      simp [frameOutcome, h9'] at hbad ⊢
      simp [hbad]
    · obtain ⟨x, xs, hx⟩ : ∃ x xs, u = x :: xs := by
        have : ∃ y ys, (f.take (f.length - 2)).drop 7 = y :: ys := by
          match hm : (f.take (f.length - 2)).drop 7 with
          | [] => rw [hm] at hbl; simp at hbl; omega
          | y :: ys => exact ⟨y, ys, rfl⟩
        obtain ⟨y, ys, hy⟩ := this
        rw [hy] at hu
        obtain ⟨d', hd'⟩ := codeUnstuff_cons y ys
        exact ⟨y, d', by rw [← hu, hd']⟩
      have hi : Packet.instructionId (ε := ReadError) ⟨f.take 7 ++ u⟩ = .ok x := by
        have : (f.take 7).length = 7 := by simp; omega
        rw [hx]
        simp only [Packet.instructionId, idx]
        rw [List.getElem?_append_right (by omega), this]
        simp
      rw [hi, SO.lift_ok_bind]
      rw [if_neg (by rw [hx]; simp)]
      refine ⟨_, ?_, hafter⟩
      have : ¬ f.length = 9 := by omega
      simp [frameOutcome, hu, this] at hbad ⊢
      simp [hbad]

/-! ## The whole function -/

/-- What reading a packet can do, in terms of the stream: pending bytes followed by the bytes received. -/
inductive ReadResult (b : Bus) (D : Nat) : Bus × Outcome ReadError Packet → Prop
  | packet {bs f rest : List Byte} {p : Port} {c : Bus} :
      Port.Reads D b.serialPort bs p → parse b.readBuffer.length (b.pending ++ bs) = .packet f rest →
      After b p rest c → ReadResult b D (c, frameOutcome f)
  | tooBig {bs rest : List Byte} {req : Nat} {p : Port} {c : Bus} :
      Port.Reads D b.serialPort bs p → parse b.readBuffer.length (b.pending ++ bs) = .tooBig req rest →
      After b p rest c → ReadResult b D (c, .err (.bufferFull ⟨req, b.readBuffer.length⟩))
  | ended {bs : List Byte} {p p' : Port} {cap : Nat} {e : IoErr} {c : Bus} :
      Port.Reads D b.serialPort bs p → parse b.readBuffer.length (b.pending ++ bs) = .more → 0 < cap →
      Port.read cap D p = (p', .err e) → After b p' (skip (b.pending ++ bs)) c →
      ReadResult b D (c, .err (.io e))

theorem readPacketDeadline_result (D : Nat) {b : Bus} (hr : b.RInv) (hN : 10 ≤ b.readBuffer.length) :
    ReadResult b D (readPacketDeadline D b) := by
  unfold readPacketDeadline
  rw [SO.get_bind]
  have hc : BufferTooSmall.check (headerSize + 3) b.readBuffer.length = .ok () := by
    exact if_pos hN
  rw [hc, Outcome.mapErr_ok, SO.lift_ok_bind]
  have hres := readLoop_result D (b.serialPort.measure + 1) b hr hN (by omega)
  rw [SO.bind_def]
  generalize readLoop D (b.serialPort.measure + 1) b = r at hres
  cases hres with
  | packet h1 h2 h3 =>
    obtain ⟨c', hf, ha⟩ := finishPacket_eq h3 (parse_packet h2).2.1 (parse_packet h2).2.2.1
    simp only [hf]
    exact .packet h1 h2 ha
  | tooBig h1 h2 h3 => exact .tooBig h1 h2 h3.after
  | ended h1 h2 h3 h4 h5 => exact .ended h1 h2 h3 h4 h5.after

theorem readPacketDeadline_small (D : Nat) {b : Bus} (hN : b.readBuffer.length < 10) :
    readPacketDeadline D b = (b, .err (.bufferFull ⟨10, b.readBuffer.length⟩)) := by
  unfold readPacketDeadline
  rw [SO.get_bind]
  have hc : BufferTooSmall.check (headerSize + 3) b.readBuffer.length = .err ⟨10, b.readBuffer.length⟩ := by
    have : ¬ (10 ≤ b.readBuffer.length) := by omega
    simp [BufferTooSmall.check, headerSize, this]
  rw [hc]
  rfl

/-- The fate of the reader, from the bytes it can get. -/
theorem readPacketDeadline_stream (D : Nat) {b : Bus} (hr : b.RInv) (hN : 10 ≤ b.readBuffer.length) :
    ∃ c o, readPacketDeadline D b = (c, o) ∧ Like b c ∧ c.RInv ∧ Port.OnlyReads D b.serialPort c.serialPort ∧
      match parse b.readBuffer.length (b.pending ++ readable D b.serialPort) with
      | .packet f rest => o = frameOutcome f ∧ c.pending ++ readable D c.serialPort = rest ∧
          readEnd D c.serialPort = readEnd D b.serialPort ∧
          c.pending ++ allBytes c.serialPort.rx <:+ b.pending ++ allBytes b.serialPort.rx
      | .tooBig req rest => o = .err (.bufferFull ⟨req, b.readBuffer.length⟩) ∧
          c.pending ++ readable D c.serialPort = rest ∧ readEnd D c.serialPort = readEnd D b.serialPort ∧
          c.pending ++ allBytes c.serialPort.rx <:+ b.pending ++ allBytes b.serialPort.rx
      | .more => o = .err (.io (readEnd D b.serialPort)) ∧
          c.pending = skip (b.pending ++ readable D b.serialPort) ∧
          c.pending ++ allBytes c.serialPort.rx <:+ b.pending ++ allBytes b.serialPort.rx := by
  have hres := readPacketDeadline_result D hr hN
  generalize readPacketDeadline D b = r at hres
  cases hres with
  | packet h1 h2 h3 =>
    rename_i bs f rest p c
    refine ⟨c, _, rfl, h3.like, h3.rInv, by rw [h3.port]; exact h1.only, ?_⟩
    have hra := h1.readable
    rw [hra.1, ← List.append_assoc, parse_packet_append h2, h3.port, h3.pending, h1.allBytes, ← List.append_assoc]
    refine ⟨rfl, rfl, hra.2, ?_⟩
    have : rest <:+ b.pending ++ bs :=
      List.IsSuffix.trans ⟨f, (parse_packet h2).1.symm⟩ (skip_suffix _)
    obtain ⟨q, hq⟩ := this
    exact ⟨q, by rw [← List.append_assoc, hq]⟩
  | tooBig h1 h2 h3 =>
    rename_i bs rest req p c
    refine ⟨c, _, rfl, h3.like, h3.rInv, by rw [h3.port]; exact h1.only, ?_⟩
    have hra := h1.readable
    rw [hra.1, ← List.append_assoc, parse_tooBig_append h2, h3.port, h3.pending, h1.allBytes, ← List.append_assoc]
    refine ⟨rfl, rfl, hra.2, ?_⟩
    obtain ⟨hd, h4, _⟩ := parse_tooBig h2
    obtain ⟨q, hq⟩ : rest <:+ b.pending ++ bs := List.IsSuffix.trans ⟨hd, h4.symm⟩ (skip_suffix _)
    exact ⟨q, by rw [← List.append_assoc, hq]⟩
  | ended h1 h2 h3 h4 h5 =>
    rename_i bs p p' cap e c
    refine ⟨c, _, rfl, h5.like, h5.rInv, by rw [h5.port]; exact h1.only_err h3 h4, ?_⟩
    have hra := h1.readable
    have hre := Port.read_err_readable h4
    rw [hra.1, hre.1, List.append_nil, h2, h5.port, h5.pending, Port.read_err_allBytes h4, h1.allBytes, ← List.append_assoc]
    refine ⟨by rw [hre.2, hra.2], rfl, ?_⟩
    obtain ⟨q, hq⟩ := skip_suffix (b.pending ++ bs)
    exact ⟨q, by rw [← List.append_assoc, hq]⟩

end Bus
end Dxl
