import Verif.Model.UnitTests
import Verif.Props.StuffSize
import Verif.Props.Stuffing
import Verif.Props.StaticBuffer
import Verif.Props.AnyPort
import Verif.Props.Send

/-! # C102: the unit tests -/

namespace Dxl.Props
open Spec

/-! ## Helpers for byte stuffing -/

theorem resize_grow {d : List Byte} {n : Nat} (h : d.length ≤ n) : UnitTests.resize n d = d ++ List.replicate (n - d.length) 0#8 := by
  rw [UnitTests.resize, List.take_of_length_le h]

theorem resize_shrink {d : List Byte} {n : Nat} (h : n ≤ d.length) : UnitTests.resize n d = d.take n := by
  rw [UnitTests.resize, Nat.sub_eq_zero_of_le h]
  simp

theorem stuff_length_third (d : List Byte) : (Spec.stuff d).length * 3 ≤ d.length * 4 := by
  induction d using Spec.stuff.induct with
  | case1 a b c rest h ih => rw [Spec.stuff, if_pos h]; simp only [List.length_cons]; omega
  | case2 a b c rest h ih => rw [Spec.stuff, if_neg h]; simp only [List.length_cons] at ih ⊢; omega
  | case3 a b => simp [Spec.stuff]
  | case4 a => simp [Spec.stuff]
  | case5 => simp [Spec.stuff]

theorem stuff_helper (debug : Bool) (d : List Byte) : ∃ out, UnitTests.stuff debug d = .ok out ∧ StuffedForm d out ∧
    out.length ≤ UnitTests.maximumStuffedLen d.length ∧
    ∃ space rest, stuffInplace debug d.length (d ++ space) = (out ++ rest, .ok out.length) ∧
      (Spec.stuff d).length ≤ d.length + space.length := by
  have hm : d.length ≤ UnitTests.maximumStuffedLen d.length := by unfold UnitTests.maximumStuffedLen; omega
  obtain ⟨out, h1, h2, h3⟩ := c63_stuffing_enough debug d (List.replicate (UnitTests.maximumStuffedLen d.length - d.length) 0#8)
    (by rw [List.length_replicate]; show UnitTests.maximumStuffedLen d.length ≤ _; omega)
  refine ⟨out, ?_, h1, h2, _, _, h3, ?_⟩
  · unfold UnitTests.stuff
    simp only
    rw [resize_grow hm, h3]
    show Outcome.ok (UnitTests.resize out.length (out ++ _)) = _
    rw [resize_shrink (by simp), List.take_left]
  · have hs := stuff_length_third d
    simp only [List.length_replicate]
    unfold UnitTests.maximumStuffedLen at hm ⊢
    omega

/-- **C102** The helper `stuff` of the tests never fails: `maximum_stuffed_len` is enough for any data, and its result is what
`stuff_inplace` makes of it (C03). -/
theorem c102_stuff (debug : Bool) (d : List Byte) : ∃ out, UnitTests.stuff debug d = .ok out ∧ StuffedForm d out ∧
    out.length ≤ UnitTests.maximumStuffedLen d.length := by
  obtain ⟨out, h1, h2, h3, -⟩ := stuff_helper debug d
  exact ⟨out, h1, h2, h3⟩

/-- **C102** `maximum_stuffed_len` is not more than needed: for every length there are data that need all of it. -/
theorem c102_maximum (n : Nat) : ∃ d out, d.length = n ∧ (∀ debug, UnitTests.stuff debug d = .ok out) ∧
    out.length = UnitTests.maximumStuffedLen n := by
  have hl := densest_length n
  have hc := densest_count [] rfl n
  rw [List.append_nil] at hc
  refine ⟨densest n, codeStuff (densest n), hl, fun debug => ?_, ?_⟩
  · obtain ⟨out, h1, -, -, space, rest, h2, h3⟩ := stuff_helper debug (densest n)
    have hn := ncount_le_occR (densest n).reverse
    have hs := stuff_length (densest n)
    rw [stuffInplace_fits debug (densest n) space (by omega)] at h2
    have hlen := codeStuff_length (densest n)
    rw [h1]
    simp only [Prod.mk.injEq, Outcome.ok.injEq] at h2
    rw [← hlen] at h2
    exact congrArg _ (List.append_inj_left h2.1 h2.2).symm
  · rw [codeStuff_length, hl, hc, ncount]
    unfold UnitTests.maximumStuffedLen
    omega

/-- **C102** The helpers `stuff` and `unstuff` undo each other exactly for the data of C04. -/
theorem c102_round_trip (debug : Bool) (d : List Byte) : ∃ out, UnitTests.stuff debug d = .ok out ∧
    (UnitTests.unstuff (ε := Empty) out = .ok d ↔ Survives d) := by
  obtain ⟨out, h1, -, -, space, rest, h2, h3⟩ := stuff_helper debug d
  refine ⟨out, h1, ?_⟩
  obtain ⟨buffer, k, h4, h5⟩ := c04_round_trip_partial debug d space h3
  rw [h4] at h2
  simp only [Prod.mk.injEq, Outcome.ok.injEq] at h2
  rw [h2.1, h2.2, List.take_left, unstuffsInplace_iff] at h5
  rw [← h5]
  obtain ⟨junk, h, _⟩ := unstuffInplace_eq (ε := Empty) out
  unfold UnitTests.unstuff
  rw [h]
  show Outcome.ok (UnitTests.resize _ _) = _ ↔ _
  rw [resize_shrink (by simp), List.take_left]
  simp

/-! ## `static_buffer!` -/

/-- **C102** An evaluation of `static_buffer!` that is not interrupted is what `UnitTests.staticBuffer` says. -/
theorem c102_static_buffer {N : Nat} {s : StaticBuffer.State} {i : Nat} (h : s.evals i = .start) :
    ∃ s', StaticBuffer.Run s [.swap i, .finish i] s' ∧ s'.buffer = s.buffer ∧
      s'.used = (UnitTests.staticBuffer (ε := Empty) N s.used).1 ∧
      (s'.evals i = .holds ↔ (UnitTests.staticBuffer (ε := Empty) N s.used).2 = .ok (List.replicate N 0#8)) ∧
      (s'.evals i = .panicked ↔ (UnitTests.staticBuffer (ε := Empty) N s.used).2 = .panic) := by
  have h1 : StaticBuffer.Run s [.swap i] { s.set i (.swapped s.used) with used := true } :=
    .snoc (as := []) (.nil s) (.swap h)
  cases hu : s.used with
  | true =>
    refine ⟨_, .snoc h1 (.panic (by simp [StaticBuffer.State.set, hu])), rfl, rfl, ?_⟩
    simp [StaticBuffer.State.set, UnitTests.staticBuffer]
  | false =>
    refine ⟨_, .snoc h1 (.take (by simp [StaticBuffer.State.set, hu])), rfl, rfl, ?_⟩
    simp [StaticBuffer.State.set, UnitTests.staticBuffer]

/-- **C102** A `static_buffer!` in a loop panics exactly if the loop has more than one iteration. -/
theorem c102_loop (N n : Nat) : (UnitTests.inLoop N n false).2 = if n ≤ 1 then .ok () else .panic := by
  match n with
  | 0 => rfl
  | 1 => simp [UnitTests.inLoop, UnitTests.staticBuffer, bind, SO.bind, SO.assert, pure]
  | n + 2 => simp [UnitTests.inLoop, UnitTests.staticBuffer, bind, SO.bind, SO.assert, pure]

/-! ## `test_buffer_too_small` -/

/-- What `DummySerial` puts in a slice that is long enough: the start of a packet that claims 10000 bytes, one byte that it leaves as
it is, and a packet whose contents it leaves as they are. -/
def dummyBytes (s : List Byte) : List Byte :=
  header ++ [0#8, 0x10#8, 0x27#8] ++ s.getD 7 0#8 :: frame 0#8 ((s.take 23).drop 15) ++ s.drop 25

theorem cons_of_longer {n : Nat} {l : List Byte} (h : n + 1 ≤ l.length) : ∃ x t, l = x :: t ∧ n ≤ t.length := by
  cases l with
  | nil => simp at h
  | cons x t => exact ⟨x, t, rfl, by simpa using h⟩

theorem dummyRead_enough {s : List Byte} (h : 25 ≤ s.length) : UnitTests.dummyRead s = (dummyBytes s, .ok 50) := by
  obtain ⟨x0, s, rfl, h0⟩ := cons_of_longer h
  obtain ⟨x1, s, rfl, h1⟩ := cons_of_longer h0
  obtain ⟨x2, s, rfl, h2⟩ := cons_of_longer h1
  obtain ⟨x3, s, rfl, h3⟩ := cons_of_longer h2
  obtain ⟨x4, s, rfl, h4⟩ := cons_of_longer h3
  obtain ⟨x5, s, rfl, h5⟩ := cons_of_longer h4
  obtain ⟨x6, s, rfl, h6⟩ := cons_of_longer h5
  obtain ⟨x7, s, rfl, h7⟩ := cons_of_longer h6
  obtain ⟨x8, s, rfl, h8⟩ := cons_of_longer h7
  obtain ⟨x9, s, rfl, h9⟩ := cons_of_longer h8
  obtain ⟨x10, s, rfl, h10⟩ := cons_of_longer h9
  obtain ⟨x11, s, rfl, h11⟩ := cons_of_longer h10
  obtain ⟨x12, s, rfl, h12⟩ := cons_of_longer h11
  obtain ⟨x13, s, rfl, h13⟩ := cons_of_longer h12
  obtain ⟨x14, s, rfl, h14⟩ := cons_of_longer h13
  obtain ⟨x15, s, rfl, h15⟩ := cons_of_longer h14
  obtain ⟨x16, s, rfl, h16⟩ := cons_of_longer h15
  obtain ⟨x17, s, rfl, h17⟩ := cons_of_longer h16
  obtain ⟨x18, s, rfl, h18⟩ := cons_of_longer h17
  obtain ⟨x19, s, rfl, h19⟩ := cons_of_longer h18
  obtain ⟨x20, s, rfl, h20⟩ := cons_of_longer h19
  obtain ⟨x21, s, rfl, h21⟩ := cons_of_longer h20
  obtain ⟨x22, s, rfl, h22⟩ := cons_of_longer h21
  obtain ⟨x23, s, rfl, h23⟩ := cons_of_longer h22
  obtain ⟨x24, s, rfl, h24⟩ := cons_of_longer h23
  simp [UnitTests.dummyRead, bind, SO.bind, onSlice, onSliceFrom, copyFromSlice, setIdx, writeU16Le, slice, SO.lift, SO.get,
    headerPrefix, headerSize, calculateChecksum_eq, pure, dummyBytes, header, frame, frameHead, le16]
  exact ⟨BitVec.and_allOnes, BitVec.and_allOnes⟩

theorem dummyRead_short {s : List Byte} (h : s.length < 25) : (UnitTests.dummyRead s).2 = .panic := by
  rcases s with _ | ⟨x0, _ | ⟨x1, _ | ⟨x2, _ | ⟨x3, _ | ⟨x4, _ | ⟨x5, _ | ⟨x6, _ | ⟨x7, _ | ⟨x8, _ | ⟨x9, _ | ⟨x10, _ | ⟨x11, _ | ⟨x12, _ | ⟨x13, _ | ⟨x14, _ | ⟨x15, _ | ⟨x16, _ | ⟨x17, _ | ⟨x18, _ | ⟨x19, _ | ⟨x20, _ | ⟨x21, _ | ⟨x22, _ | ⟨x23, _ | ⟨x24, s⟩⟩⟩⟩⟩⟩⟩⟩⟩⟩⟩⟩⟩⟩⟩⟩⟩⟩⟩⟩⟩⟩⟩⟩⟩
  case cons.cons.cons.cons.cons.cons.cons.cons.cons.cons.cons.cons.cons.cons.cons.cons.cons.cons.cons.cons.cons.cons.cons.cons.cons => simp at h; omega
  all_goals simp [UnitTests.dummyRead, bind, SO.bind, onSlice, onSliceFrom, copyFromSlice, setIdx, writeU16Le, slice, SO.lift, SO.get,
    headerPrefix, headerSize, calculateChecksum_eq, pure]

theorem dummyBytes_length {s : List Byte} (h : 25 ≤ s.length) : (dummyBytes s).length = s.length := by
  have := UnitTests.dummyRead_length s
  rwa [dummyRead_enough h] at this

theorem dummyRead_ok {s new : List Byte} {n : Nat} (h : UnitTests.dummyRead s = (new, .ok n)) :
    25 ≤ s.length ∧ new = dummyBytes s ∧ n = 50 := by
  by_cases hs : 25 ≤ s.length
  · rw [dummyRead_enough hs] at h
    simp only [Prod.mk.injEq, Outcome.ok.injEq] at h
    exact ⟨hs, h.1.symm, h.2.symm⟩
  · have := dummyRead_short (s := s) (by omega)
    rw [h] at this
    cases this

/-- The start of a packet that claims 10000 bytes. -/
def bigHead : List Byte := header ++ [0#8, 0x10#8, 0x27#8]

theorem dummy_noWrap {w size : Nat} (h : size + 50 < 2 ^ w) (D : UnitTests.DummySerial.Instant) (debug : Bool) :
    BusOf.NoWrap UnitTests.DummySerial D w size debug := by
  refine .inr fun old p p' new n hr _ => ?_
  have h1 : UnitTests.dummyRead old = (new, .ok n) := congrArg Prod.snd hr
  rw [(dummyRead_ok h1).2.2]
  exact h

theorem waits_first {P : PortImpl} {cap : Nat} {pending bs : List Byte} {D : P.Instant} {p0 p : P.Port} {k : Nat}
    (h : P.Waits cap pending D p0 k bs p) (hm : parse cap pending ≠ .more) : bs = [] ∧ k = 0 := by
  induction h with
  | start => exact ⟨rfl, rfl⟩
  | read _ h2 _ _ _ ih => rw [ih.1, List.append_nil] at h2; exact absurd h2 hm

theorem readLoop_more {P : PortImpl} (w : Nat) (D : P.Instant) (fuel : Nat) {p : P.Port} {r : Bus} (hr : r.RInv)
    (hm : parse r.readBuffer.length r.pending = .more) :
    BusOf.readLoop w D (fuel + 1) ⟨p, r⟩ =
      (BusOf.readMore w D >>= fun _ => BusOf.readLoop w D fuel) ⟨p, r.withPending (skip r.pending)⟩ := by
  have hlen : (skip r.pending).length ≤ r.readBuffer.length :=
    Nat.le_trans (skip_suffix _).length_le (Bus.pending_length_le hr)
  have hmr := Bus.messageReady_eq r (skip r.pending) hlen (skip_skip _)
  rw [parse_skip, hm] at hmr
  rw [BusOf.readLoop]
  rw [SO.bind_ok (BusOf.onRest_eq (Bus.removeGarbage_eq hr)), SO.bind_ok (Bus.mapErr_eq _ (BusOf.onRest_eq hmr))]

/-- What one read of `DummySerial` does to a bus without pending bytes. -/
theorem readLoop_fresh {w fuel : Nat} {D : UnitTests.DummySerial.Instant} {p : UnitTests.DummySerial.Port} {r : Bus} (hr : r.RInv) (hp : r.pending = []) (hw : r.readBuffer.length + 50 < 2 ^ w) :
    (r.readBuffer.length < 50 → ∃ b, BusOf.readLoop (P := UnitTests.DummySerial) w D (fuel + 2) ⟨p, r⟩ = (b, .panic)) ∧
    (50 ≤ r.readBuffer.length → ∃ c x rest wire, wire.length = 8 ∧
      BusOf.Has r (bigHead ++ (x :: (frame 0#8 wire ++ rest))) c ∧
      BusOf.readLoop (P := UnitTests.DummySerial) w D (fuel + 2) ⟨p, r⟩ = BusOf.readLoop w D (fuel + 1) ⟨p, c⟩) := by
  have hm : parse r.readBuffer.length r.pending = .more := by rw [hp]; simp [parse, skip]
  rw [readLoop_more w D (fuel + 1) hr hm, hp]
  have hhold := Bus.holds_withPending (t := skip []) r r.serialPort (by simp [skip])
  rw [show r.onto r.serialPort = r from rfl] at hhold
  generalize hc : r.withPending (skip []) = c at hhold
  have hcl : c.readBuffer.length = r.readBuffer.length := hhold.like.readSize
  have hrm := BusOf.readMore_eq (P := UnitTests.DummySerial) w D (p := p) hhold
  rw [show skip ([] : List Byte) = [] from rfl, List.length_nil, List.drop_zero] at hrm
  simp only [List.nil_append] at hrm
  rw [show UnitTests.DummySerial.read D c.readBuffer p = (p, UnitTests.dummyRead c.readBuffer) from rfl] at hrm
  have hu : usizeAdd (ε := ReadErrorOf UnitTests.DummySerial.Error) w c.debug 0 50 = .ok 50 := if_pos (by omega)
  refine ⟨fun h => ?_, fun h => ?_⟩
  · by_cases h25 : 25 ≤ r.readBuffer.length
    · rw [dummyRead_enough (by omega)] at hrm
      simp only [hu] at hrm
      rw [SO.bind_ok hrm, BusOf.readLoop_poisoned w D fuel (by simp only [dummyBytes_length (s := c.readBuffer) (by omega)]; omega)]
      exact ⟨_, rfl⟩
    · have hd := dummyRead_short (s := c.readBuffer) (by omega)
      rcases hdr : UnitTests.dummyRead c.readBuffer with ⟨new, o⟩
      rw [hdr] at hd hrm
      simp only at hd
      subst hd
      simp only at hrm
      rw [SO.bind_def, hrm]
      exact ⟨_, rfl⟩
  · rw [dummyRead_enough (by omega)] at hrm
    simp only [hu] at hrm
    rw [SO.bind_ok hrm]
    have hh := BusOf.has_more (n := 50) hhold
      (new := dummyBytes c.readBuffer) (by rw [dummyBytes_length (by omega)]; rfl) (by rw [dummyBytes_length (by omega)]; omega)
    rw [show skip ([] : List Byte) = [] from rfl, List.nil_append, List.length_nil, Nat.zero_add, List.nil_append] at hh
    refine ⟨_, c.readBuffer.getD 7 0#8, (c.readBuffer.drop 25).take 25, (c.readBuffer.take 23).drop 15, by simp; omega, ?_, rfl⟩
    have he : (dummyBytes c.readBuffer).take 50 = bigHead ++ (c.readBuffer.getD 7 0#8 ::
        (frame 0#8 ((c.readBuffer.take 23).drop 15) ++ (c.readBuffer.drop 25).take 25)) := by
      have h1 : dummyBytes c.readBuffer = (bigHead ++ (c.readBuffer.getD 7 0#8 ::
          (frame 0#8 ((c.readBuffer.take 23).drop 15) ++ (c.readBuffer.drop 25).take 25))) ++ (c.readBuffer.drop 25).drop 25 := by
        simp only [dummyBytes, bigHead, List.append_assoc, List.cons_append, List.take_append_drop]
      rw [h1]
      refine List.take_left' ?_
      simp [bigHead, header, Bus.frame_length]
      omega
    rw [← he]
    exact hh

theorem bigHead_field : Spec.lengthField bigHead = 10000 := by decide

theorem parse_bigHead {cap : Nat} (x : Byte) (t : List Byte) (h : cap ≤ 10006) :
    parse cap (bigHead ++ (x :: t)) = .tooBig 10007 (x :: t) := by
  have := parse_big (cap := cap) (g := []) (hd := bigHead) (rest := x :: t) (by simp [header]) (by simp [bigHead]) (by decide)
    (by rw [bigHead_field]; omega) (by simp)
  rw [bigHead_field] at this
  exact this

theorem parse_bigHead_fits {cap req : Nat} {t rest : List Byte} (h : 10007 ≤ cap) : parse cap (bigHead ++ t) ≠ .tooBig req rest := by
  have hs : skip (bigHead ++ t) = bigHead ++ t := skip_garbage (g := []) (by simp [header])
    ((List.prefix_append header _).trans (List.prefix_append bigHead t))
  unfold parse
  rw [hs, lengthField_append (by decide), bigHead_field]
  split
  · simp
  · rw [if_neg (by omega)]
    split <;> simp

theorem readPacketDeadline_of_loop {P : PortImpl} (w : Nat) (D : P.Instant) (fuel : Nat) {b : BusOf P}
    (hN : 10 ≤ b.rest.readBuffer.length) : BusOf.readPacketDeadline w D fuel b =
      (BusOf.readLoop w D fuel >>= fun n => (BusOf.onRest (Bus.finishPacket n)).mapErr BusOf.readError) b := by
  unfold BusOf.readPacketDeadline
  rw [SO.get_bind]
  have hc : BufferTooSmall.check (headerSize + 3) b.rest.readBuffer.length = .ok () := if_pos hN
  rw [hc, Outcome.mapErr_ok, SO.lift_ok_bind]

/-- **C102** `test_buffer_too_small` with other buffers than its own: it passes exactly if the read buffer has at least the 50 bytes
that `DummySerial` claims to have read, and not so many that the packet of 10007 bytes would fit. -/
theorem c102_buffer_sizes {w now fuel : Nat} {debug : Bool} {unused : Port} {r v : List Byte} (hv : 10 ≤ v.length)
    (hw : r.length + 50 < 2 ^ w) (hf : 2 ≤ fuel) :
    UnitTests.bufferTooSmall w debug unused r v now fuel = .ok () ↔ 50 ≤ r.length ∧ r.length ≤ 10006 := by
  obtain ⟨fuel, rfl⟩ : ∃ f, fuel = f + 2 := ⟨fuel - 2, by omega⟩
  obtain ⟨b, hb, hbr, hbp, hbl⟩ : ∃ b : Bus, BusOf.withBuffers (P := UnitTests.DummySerial) debug unused r v now = (now, .ok ⟨now, b⟩) ∧
      b.RInv ∧ b.pending = [] ∧ b.readBuffer.length = r.length :=
    ⟨⟨unused, 115200, r, 0, 0, headerPrefix ++ v.drop 4, debug⟩, by
      simp only [BusOf.withBuffers, Bus.withBuffersAndBaudRate, if_pos (show headerSize + 3 ≤ v.length from hv)]
      rfl, ⟨Nat.le_refl _, Nat.zero_le _⟩, rfl, rfl⟩
  unfold UnitTests.bufferTooSmall
  rw [hb]
  simp only
  rw [← hbl] at hw ⊢
  by_cases h10 : b.readBuffer.length < 10
  · rw [c83_small _ _ _ (by simp only; omega)]
    simp only
    rw [c83_small _ _ _ (by simp only; omega)]
    simp
    omega
  have hl := readPacketDeadline_of_loop (P := UnitTests.DummySerial) w (now + 1000000000) (fuel + 2) (b := ⟨now, b⟩)
    (by simp only; omega)
  obtain ⟨hlow, hhigh⟩ := readLoop_fresh (fuel := fuel) (D := now + 1000000000) (p := now) hbr hbp hw
  by_cases h50 : 50 ≤ b.readBuffer.length
  · obtain ⟨c, x, rest, wire, hwl, hc, hlc⟩ := hhigh h50
    have hcl : c.readBuffer.length = b.readBuffer.length := hc.like.readSize
    have hnw := dummy_noWrap (size := b.readBuffer.length) hw (now + 1000000000)
    have hres := BusOf.readLoop_result (P := UnitTests.DummySerial) w (now + 1000000000) (fuel + 1) ⟨now, c⟩ hc.rInv
      (by simp only; omega) (by simp only; omega) (by simp only [hcl]; exact hnw _)
    rw [SO.bind_def, hlc] at hl
    by_cases hbig : b.readBuffer.length ≤ 10006
    · have hp := parse_bigHead (cap := c.readBuffer.length) x (frame 0#8 wire ++ rest) (by omega)
      have hpc : parse c.readBuffer.length c.pending = .tooBig 10007 (x :: (frame 0#8 wire ++ rest)) := by rw [hc.pending]; exact hp
      have hmore : parse c.readBuffer.length c.pending ≠ .more := by rw [hpc]; simp
      generalize BusOf.readLoop (P := UnitTests.DummySerial) w (now + 1000000000) (fuel + 1) ⟨now, c⟩ = res at hres hl
      have key : ∃ d, res = (⟨now, d⟩, .err (.bufferFull ⟨10007, c.readBuffer.length⟩)) ∧
          BusOf.Has c (x :: (frame 0#8 wire ++ rest)) d := by
        cases hres with
        | packet h0 h1 h2 h3 =>
          obtain ⟨rfl, rfl⟩ := waits_first h1 hmore
          rw [List.append_nil, hpc] at h2; cases h2
        | tooBig h0 h1 h2 h3 =>
          obtain ⟨rfl, rfl⟩ := waits_first h1 hmore
          rw [List.append_nil, hpc] at h2
          cases h2
          cases h1
          exact ⟨_, rfl, h3⟩
        | failed h0 h1 h2 => obtain ⟨rfl, rfl⟩ := waits_first h1 hmore; rw [List.append_nil] at h2; exact absurd h2 hmore
        | crashed h0 h1 h2 => obtain ⟨rfl, rfl⟩ := waits_first h1 hmore; rw [List.append_nil] at h2; exact absurd h2 hmore
        | stuck h0 h1 h2 => obtain ⟨rfl, rfl⟩ := waits_first h1 hmore; rw [List.append_nil] at h2; exact absurd h2 hmore
        | tooMany h0 h1 h2 => obtain ⟨rfl, rfl⟩ := waits_first h1 hmore; rw [List.append_nil] at h2; exact absurd h2 hmore
        | waiting h1 => cases (waits_first h1 hmore).2
      obtain ⟨d, rfl, hd⟩ := key
      simp only at hl
      rw [hl]
      simp only
      have hdl : d.readBuffer.length = c.readBuffer.length := hd.like.readSize
      have hres2 := BusOf.readPacketDeadline_result (P := UnitTests.DummySerial) w (now + 1000000000) (fuel + 2) (b := ⟨now, d⟩) hd.rInv
        (by simp only; omega) (by simp only; omega) (by simp only [hdl, hcl]; exact hnw _)
      generalize BusOf.readPacketDeadline (P := UnitTests.DummySerial) w (now + 1000000000) (fuel + 2) ⟨now, d⟩ = res2 at hres2 ⊢
      have hpd : parse d.readBuffer.length d.pending = .packet (frame 0#8 wire) rest := by
        rw [hd.pending]
        exact parse_good_frame (g := [x]) 0#8 (fun h => by have := h.length_le; simp [header] at this) (by omega)
          (by rw [Bus.frame_length]; omega)
      have hmd : parse d.readBuffer.length d.pending ≠ .more := by rw [hpd]; simp
      have key2 : ∃ e packet, res2 = (e, .ok packet) := by
        cases hres2 with
        | packet h0 h1 h2 h3 =>
          obtain ⟨rfl, rfl⟩ := waits_first h1 hmd
          rw [List.append_nil, hpd] at h2
          cases h2
          rw [frameOutcome_frame 0#8 (by rintro rfl; simp at hwl)]
          exact ⟨_, _, rfl⟩
        | tooBig h0 h1 h2 h3 =>
          obtain ⟨rfl, rfl⟩ := waits_first h1 hmd
          rw [List.append_nil, hpd] at h2; cases h2
        | failed h0 h1 h2 => obtain ⟨rfl, rfl⟩ := waits_first h1 hmd; rw [List.append_nil] at h2; exact absurd h2 hmd
        | crashed h0 h1 h2 => obtain ⟨rfl, rfl⟩ := waits_first h1 hmd; rw [List.append_nil] at h2; exact absurd h2 hmd
        | stuck h0 h1 h2 => obtain ⟨rfl, rfl⟩ := waits_first h1 hmd; rw [List.append_nil] at h2; exact absurd h2 hmd
        | tooMany h0 h1 h2 => obtain ⟨rfl, rfl⟩ := waits_first h1 hmd; rw [List.append_nil] at h2; exact absurd h2 hmd
        | waiting h1 => cases (waits_first h1 hmd).2
      obtain ⟨e, packet, rfl⟩ := key2
      simp
      omega
    · have hl3 := readPacketDeadline_of_loop (P := UnitTests.DummySerial) w (now + 1000000000) (fuel + 1) (b := ⟨now, c⟩)
        (by simp only; omega)
      rw [SO.bind_def] at hl3
      have hres3 := BusOf.readPacketDeadline_result (P := UnitTests.DummySerial) w (now + 1000000000) (fuel + 1) (b := ⟨now, c⟩) hc.rInv
        (by simp only; omega) (by simp only; omega) (by simp only [hcl]; exact hnw _)
      rw [hl3, ← hl] at hres3
      have key : ∀ d e, BusOf.readPacketDeadline (P := UnitTests.DummySerial) w (now + 1000000000) (fuel + 2) ⟨now, b⟩
          ≠ (d, .err (.bufferFull e)) := by
        generalize BusOf.readPacketDeadline (P := UnitTests.DummySerial) w (now + 1000000000) (fuel + 2) ⟨now, b⟩ = res3 at hres3
        intro d e he
        cases hres3 with
        | packet h0 h1 h2 h3 =>
          have he := congrArg Prod.snd he
          simp only [Bus.frameOutcome] at he
          split at he
          · simp [Outcome.mapErr, BusOf.readError] at he
          · split at he <;> simp [Outcome.mapErr] at he
        | tooBig h0 h1 h2 h3 =>
          simp only [hc.pending, List.append_assoc] at h2
          exact parse_bigHead_fits (by omega) h2
        | tooMany h0 h1 h2 h3 h4 h5 h6 h7 h8 =>
          have he := congrArg Prod.snd he
          rcases h8 with h8 | ⟨-, h8⟩ <;> simp [h8] at he
        | failed => simp at he
        | crashed => simp at he
        | stuck => simp at he
        | waiting => simp at he
      have hne : ¬ (50 ≤ b.readBuffer.length ∧ b.readBuffer.length ≤ 10006) := by omega
      simp only [hne, iff_false]
      generalize BusOf.readPacketDeadline (P := UnitTests.DummySerial) w (now + 1000000000) (fuel + 2) ⟨now, b⟩ = res3 at key ⊢
      obtain ⟨d, o⟩ := res3
      cases o with
      | err e =>
        cases e with
        | bufferFull e => exact absurd rfl (key d e)
        | _ => simp
      | _ => simp
  · obtain ⟨b', hb'⟩ := hlow (by omega)
    rw [SO.bind_def, hb'] at hl
    simp only at hl
    rw [hl]
    simp
    omega

/-- **C102** The unit tests of the crate pass: they return, and the one that should panic does. In `test_buffer_too_small` two
iterations of the loop are enough for each read, whatever the clock says. -/
theorem c102_pass (debug : Bool) :
    UnitTests.testUnstuff = .ok () ∧ UnitTests.testStuff debug = .ok () ∧ UnitTests.testCalculateChecksum = .ok () ∧
    (UnitTests.testWriteU16Le (List.replicate 4 0xFF#8)).2 = .ok () ∧ UnitTests.testReadU16Le = .ok () ∧
    UnitTests.statusPacket = .ok () ∧ UnitTests.instructionPacket = .ok () ∧
    UnitTests.testMessageTransferTime = .ok () ∧ UnitTests.testFindGarbageEnd = .ok () ∧
    UnitTests.testStaticBuffer = .ok () ∧ UnitTests.testStaticBufferInLoop = .panic ∧
    ∀ w unused now fuel, 8 ≤ w → 2 ≤ fuel → UnitTests.testBufferTooSmall w debug unused now fuel = .ok () := by
  refine ⟨?_, ?_, ?_, ?_, ?_, ?_, ?_, ?_, ?_, ?_, ?_, fun w unused now fuel hw hf => ?_⟩
  all_goals first
    | (cases debug <;> decide +kernel)
    | skip
  have hs : (UnitTests.staticBuffer (ε := Empty) 128 false).2 = .ok (List.replicate 128 0#8) := by simp [UnitTests.staticBuffer]
  simp only [UnitTests.testBufferTooSmall, hs]
  rw [c102_buffer_sizes (by simp) ?_ hf]
  · simp
  have : 2 ^ 8 ≤ 2 ^ w := Nat.pow_le_pow_right (by omega) hw
  simp only [List.length_replicate]
  omega

/-! ## The theorems apply -/

/-- Data that the helpers of the tests do not give back, … -/
example := c102_round_trip true [0xFF#8, 0xFF#8, 0xFD#8, 0xFD#8, 0xFD#8]
/-- … that need all of `maximum_stuffed_len`, … -/
example := c102_maximum 8
example := c102_stuff false (List.replicate 100 0xFF#8)
/-- … a `static_buffer!` that was used before, … -/
example := c102_static_buffer (N := 12) (s := StaticBuffer.init 12) (i := 0) rfl
example := c102_loop 12 3
/-- … and a buffer of 60 bytes for `test_buffer_too_small`. -/
example := (c102_buffer_sizes (w := 16) (now := 7) (fuel := 2) (debug := true) (unused := quietPort)
  (r := List.replicate 60 1#8) (v := List.replicate 10 1#8) (by decide) (by decide) (by decide)).2 (by decide)
example := c102_pass true

end Dxl.Props
