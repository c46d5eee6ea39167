import Verif.Model.Moves
import Verif.Spec.Moves
import Verif.Lemmas.Read
import Verif.Lemmas.Frames
import Verif.Props.Send

/-! # C103: how much is moved in the read buffer -/

namespace Dxl.Props
open Spec

/-! ## The counter changes nothing -/

/-- With the counter left out, this is the other program. -/
def Uncounted {ε α : Type} (m : SO (Bus × Nat) ε α) (m' : SO Bus ε α) : Prop := ∀ s, ((m s).1.1, (m s).2) = m' s.1

theorem uncounted_bind {ε α β : Type} {m : SO (Bus × Nat) ε α} {m' : SO Bus ε α} {f : α → SO (Bus × Nat) ε β} {f' : α → SO Bus ε β}
    (h : Uncounted m m') (hf : ∀ a, Uncounted (f a) (f' a)) : Uncounted (m >>= f) (m' >>= f') := by
  intro s
  have hs := h s
  rw [SO.bind_def, SO.bind_def, ← hs]
  rcases m s with ⟨s', o⟩
  cases o with
  | ok a => exact hf a s'
  | _ => rfl

theorem uncounted_get {ε β : Type} {f : Bus × Nat → SO (Bus × Nat) ε β} {f' : Bus → SO Bus ε β}
    (hf : ∀ b n, Uncounted (f (b, n)) (f' b)) : Uncounted (SO.get >>= f) (SO.get >>= f') := fun s => hf s.1 s.2 s

theorem uncounted_lift {ε α : Type} (o : Outcome ε α) : Uncounted (SO.lift o) (SO.lift o) := fun _ => rfl

theorem uncounted_onBus {ε α : Type} (m : SO Bus ε α) : Uncounted (Moves.onBus m) m := fun _ => rfl

theorem uncounted_consume {ε : Type} (n : Nat) : Uncounted (Moves.consumeReadBytes (ε := ε) n) (Bus.consumeReadBytes n) := by
  intro s
  unfold Moves.consumeReadBytes
  simp only [SO.get_bind]
  rw [SO.bind_def, show Moves.onBus (Bus.consumeReadBytes (ε := ε) n) s
    = (((Bus.consumeReadBytes (ε := ε) n s.1).1, s.2), (Bus.consumeReadBytes (ε := ε) n s.1).2) from rfl]
  rcases Bus.consumeReadBytes (ε := ε) n s.1 with ⟨b, o⟩
  cases o <;> rfl

theorem uncounted_removeGarbage {ε : Type} : Uncounted (Moves.removeGarbage (ε := ε)) Bus.removeGarbage :=
  uncounted_get fun _ _ => uncounted_bind (uncounted_lift _) fun _ => uncounted_bind (uncounted_lift _) fun _ =>
    uncounted_bind (uncounted_consume _) fun _ => uncounted_get fun _ _ => uncounted_onBus _

theorem uncounted_messageReady : Uncounted Moves.messageReady Bus.messageReady := by
  refine uncounted_get fun b _ => ?_
  simp only
  split
  · refine uncounted_bind (uncounted_lift _) fun _ => uncounted_bind (uncounted_lift _) fun _ =>
      uncounted_bind (uncounted_lift _) fun v => ?_
    cases BufferTooSmall.check (headerSize + v.toNat) b.readBuffer.length with
    | err e => exact uncounted_bind (uncounted_consume _) fun _ => fun _ => rfl
    | _ => simp only; split <;> exact fun _ => rfl
  · exact fun _ => rfl

theorem uncounted_readLoop (D fuel : Nat) : Uncounted (Moves.readLoop D fuel) (Bus.readLoop D fuel) := by
  induction fuel with
  | zero => exact fun _ => rfl
  | succ fuel ih =>
    refine uncounted_bind uncounted_removeGarbage fun _ => uncounted_bind uncounted_messageReady fun r => ?_
    cases r with
    | some n => exact fun _ => rfl
    | none => exact uncounted_bind (uncounted_onBus _) fun _ => ih

theorem uncounted_finishPacket (n : Nat) : Uncounted (Moves.finishPacket n) (Bus.finishPacket n) := by
  refine uncounted_get fun b _ => uncounted_bind (uncounted_lift _) fun _ => uncounted_bind (uncounted_lift _) fun _ =>
    uncounted_bind (uncounted_lift _) fun _ => uncounted_bind (uncounted_lift _) fun _ => ?_
  split
  · exact uncounted_bind (uncounted_consume _) fun _ => fun _ => rfl
  · exact uncounted_onBus _

/-- **C103** The reader with the counter is the reader. -/
theorem c103_same (D : Nat) (b : Bus) (n : Nat) :
    ((Moves.readPacketDeadline D (b, n)).1.1, (Moves.readPacketDeadline D (b, n)).2) = Bus.readPacketDeadline D b :=
  uncounted_get (fun _ _ => uncounted_bind (uncounted_lift _) fun _ => uncounted_bind (uncounted_readLoop _ _) fun _ =>
    uncounted_finishPacket _) (b, n)

/-! ## What the counter says -/

theorem consume_count {ε : Type} {b : Bus} {k n : Nat} (h : b.RInv) (hk : k ≤ b.readLen) (hu : b.usedBytes ≤ k) :
    Moves.consumeReadBytes (ε := ε) k (b, n)
      = ((b.withPending ((b.readBuffer.take b.readLen).drop k), n + (b.readLen - k)), .ok ()) := by
  unfold Moves.consumeReadBytes
  simp only [SO.get_bind]
  rw [SO.bind_def, show Moves.onBus (Bus.consumeReadBytes (ε := ε) k) (b, n)
    = (((Bus.consumeReadBytes (ε := ε) k b).1, n), (Bus.consumeReadBytes (ε := ε) k b).2) from rfl,
    Bus.consumeReadBytes_eq h hk hu]
  rfl

theorem findHeader_le (l : List Byte) : Bus.findHeader l ≤ l.length := by
  induction l with
  | nil => simp [Bus.findHeader]
  | cons a l ih => simp only [Bus.findHeader]; split <;> simp; omega

theorem removeGarbage_count {ε : Type} {b : Bus} {n : Nat} (h : b.RInv) :
    Moves.removeGarbage (ε := ε) (b, n) = ((b.withPending (skip b.pending), n + (skip b.pending).length), .ok ()) := by
  have hlen := h.len_le
  have hused := h.used_le
  have hfh := findHeader_le b.pending
  have hpl := Bus.pending_length h
  unfold Moves.removeGarbage
  simp only [SO.get_bind]
  rw [slice_ok (by omega) h.len_le, SO.lift_ok_bind]
  simp only [List.drop_zero]
  rw [sliceFrom_ok (by simp; omega), SO.lift_ok_bind]
  rw [show (b.readBuffer.take b.readLen).drop b.usedBytes = b.pending from rfl]
  rw [SO.bind_ok (consume_count h (by omega) (by omega))]
  simp only [SO.get_bind]
  rw [← List.drop_drop, show (b.readBuffer.take b.readLen).drop b.usedBytes = b.pending from rfl,
    skip_eq_drop_findHeader, List.length_drop, show b.readLen - (b.usedBytes + Bus.findHeader b.pending)
      = b.pending.length - Bus.findHeader b.pending by omega]
  show ((_, _), _) = _
  rw [show decide ((b.withPending (b.pending.drop (Bus.findHeader b.pending))).usedBytes = 0) = true from decide_eq_true rfl,
    Bus.debugAssert_true]

theorem messageReady_count (b : Bus) (t : List Byte) (n : Nat) (hl : t.length ≤ b.readBuffer.length) (hs : skip t = t) :
    Moves.messageReady (b.withPending t, n) =
      match parse b.readBuffer.length t with
      | .more => ((b.withPending t, n), .ok none)
      | .tooBig req rest => (((b.withPending t).withPending rest, n + rest.length), .err (.bufferFull ⟨req, b.readBuffer.length⟩))
      | .packet f _ => ((b.withPending t, n), .ok (some f.length)) := by
  have hN := Bus.withPending_length hl
  unfold Moves.messageReady
  simp only [SO.get_bind]
  simp only [show (b.withPending t).readLen = t.length from rfl]
  by_cases h7 : t.length ≤ 7
  · rw [if_neg (by simp [headerSize]; omega), show parse b.readBuffer.length t = .more by simp [parse, hs, h7]]
    rfl
  · rw [if_pos (by simp [headerSize]; omega)]
    rw [slice_ok (by omega) (by simp [Bus.withPending]), SO.lift_ok_bind]
    have ht : ((b.withPending t).readBuffer.take t.length).drop 0 = t := by simp [Bus.withPending]
    rw [ht, sliceFrom_ok (by omega), SO.lift_ok_bind]
    have hlf : ∃ v : U16, readU16Le (ε := ReadError) (t.drop 5) = .ok v ∧ v.toNat = Spec.lengthField t := by
      have h7' : 7 ≤ t.length := by omega
      clear ht hs hN hl h7
      match t, h7' with
      | x0 :: x1 :: x2 :: x3 :: x4 :: x5 :: x6 :: rest, _ =>
        exact ⟨mk16 x5 x6, readU16Le_cons _ _ _, mk16_toNat _ _⟩
    obtain ⟨v, hv, hvn⟩ := hlf
    rw [hv, SO.lift_ok_bind, hvn, hN]
    unfold BufferTooSmall.check parse
    rw [hs, if_neg h7]
    by_cases hc : b.readBuffer.length < 7 + Spec.lengthField t
    · rw [if_neg (by simp [headerSize]; omega), if_pos hc]
      simp only
      rw [SO.bind_ok (consume_count Bus.withPending_rInv (by simp [Bus.withPending, headerSize]; omega)
        (by simp [Bus.withPending]))]
      simp only [show (b.withPending t).readLen = t.length from rfl]
      rw [show (b.withPending t).readBuffer.take t.length = t by simp [Bus.withPending]]
      simp [headerSize]
    · rw [if_pos (by simp [headerSize]; omega), if_neg hc]
      simp only
      by_cases hm : t.length < 7 + Spec.lengthField t
      · rw [if_neg (by simp [headerSize]; omega), if_pos hm]; rfl
      · rw [if_pos (by simp [headerSize]; omega), if_neg hm]
        simp only [headerSize, SO.pure_apply]
        congr 3
        simp; omega

theorem finishPacket_count {b c : Bus} {p : Port} {f rest : List Byte} {n : Nat} (h : Bus.Holds b p (f ++ rest) c)
    (h7 : 7 ≤ f.length) : (Moves.finishPacket f.length (c, n)).1.2 =
      n + if f.drop (f.length - 2) = le16 (crc 0#16 (f.take (f.length - 2))) then 0 else rest.length := by
  obtain ⟨X, hX⟩ := h.data
  have hX' : c.readBuffer = f ++ (rest ++ X) := by rw [← hX, List.append_assoc]
  unfold Moves.finishPacket
  simp only [SO.get_bind]
  rw [sliceFrom_ok (by rw [hX']; simp; omega), SO.lift_ok_bind]
  have hcrc : readU16Le (ε := ReadError) (c.readBuffer.drop (f.length - 2)) = .ok (Bus.crcField f) := by
    rw [hX', List.drop_append_of_le_length (by omega)]
    rw [frame_drop (by omega)]
    exact readU16Le_le16 _ _
  rw [hcrc, SO.lift_ok_bind, slice_ok (by omega) (by rw [hX']; simp; omega), SO.lift_ok_bind]
  have hsum : (c.readBuffer.take (f.length - 2)).drop 0 = f.take (f.length - 2) := by
    rw [hX', List.take_append_of_le_length (by omega), List.drop_zero]
  rw [hsum, calculateChecksum_eq, SO.lift_ok_bind]
  by_cases hbad : Bus.crcField f ≠ crc 0#16 (f.take (f.length - 2))
  · rw [if_pos hbad, if_neg (fun h => hbad (le16_inj ((frame_drop (by omega)).symm.trans h))), SO.bind_ok (consume_count h.rInv (by rw [h.len]; simp) (by rw [h.used]; omega)), h.len]
    simp
  · rw [if_neg hbad, if_pos (by rw [frame_drop (by omega), Decidable.not_not.1 hbad])]
    rfl

/-- Reads with this deadline that returned these chunks, one after the other, into a buffer for `size` bytes that first holds
`pending`; each was made because that is no packet yet, and what can not be the start of one makes room. -/
inductive Chunks (D size : Nat) : List Byte → Port → List (List Byte) → Port → Prop
  | nil (pending : List Byte) (p : Port) : Chunks D size pending p [] p
  | cons {pending chunk : List Byte} {p p1 p2 : Port} {chunks : List (List Byte)} :
      parse size pending = .more → Port.read (size - (skip pending).length) D p = (p1, .ok chunk) →
      Chunks D size (pending ++ chunk) p1 chunks p2 →
      Chunks D size pending p (chunk :: chunks) p2

theorem chunks_skip {D size : Nat} {s c : List Byte} {p p' : Port} {cs : List (List Byte)}
    (h : Chunks D size (skip s ++ c) p cs p') : Chunks D size (s ++ c) p cs p' := by
  induction cs generalizing c p with
  | nil => cases h; exact .nil _ _
  | cons d ds ih =>
    cases h with
    | cons h0 h1 h2 =>
      rw [← skip_append] at h1
      rw [← parse_more_append] at h0
      rw [List.append_assoc] at h2
      exact .cons h0 h1 (by rw [List.append_assoc]; exact ih h2)

theorem moved_skip (p c : List Byte) (cs : List (List Byte)) : moved (skip p ++ c) cs = moved (p ++ c) cs := by
  induction cs generalizing c with
  | nil => rw [moved, moved, ← skip_append]
  | cons d ds ih => rw [moved, moved, ← skip_append, List.append_assoc, List.append_assoc, ih]

/-- What the loop does, with the count. -/
inductive LoopCount (b : Bus) (n D : Nat) : (Bus × Nat) × Outcome ReadError Nat → Prop
  | packet {cs : List (List Byte)} {f rest : List Byte} {p : Port} {c : Bus} :
      Chunks D b.readBuffer.length b.pending b.serialPort cs p → moved b.pending cs ≤ (cs.length + 1) * b.readBuffer.length →
      parse b.readBuffer.length (b.pending ++ cs.flatten) = .packet f rest → Bus.Holds b p (f ++ rest) c →
      LoopCount b n D ((c, n + moved b.pending cs), .ok f.length)
  | tooBig {cs : List (List Byte)} {rest : List Byte} {req : Nat} {p : Port} {c : Bus} :
      Chunks D b.readBuffer.length b.pending b.serialPort cs p → moved b.pending cs ≤ (cs.length + 1) * b.readBuffer.length →
      parse b.readBuffer.length (b.pending ++ cs.flatten) = .tooBig req rest → rest.length ≤ b.readBuffer.length →
      LoopCount b n D ((c, n + moved b.pending cs + rest.length), .err (.bufferFull ⟨req, b.readBuffer.length⟩))
  | ended {cs : List (List Byte)} {p p' : Port} {e : IoErr} {c : Bus} :
      Chunks D b.readBuffer.length b.pending b.serialPort cs p → moved b.pending cs ≤ (cs.length + 1) * b.readBuffer.length →
      parse b.readBuffer.length (b.pending ++ cs.flatten) = .more →
      Port.read (b.readBuffer.length - (skip (b.pending ++ cs.flatten)).length) D p = (p', .err e) →
      LoopCount b n D ((c, n + moved b.pending cs), .err (.io e))

theorem readLoop_count (D : Nat) (fuel : Nat) : ∀ (b : Bus) (n : Nat), b.RInv → 10 ≤ b.readBuffer.length →
    b.serialPort.measure < fuel → LoopCount b n D (Moves.readLoop D fuel (b, n)) := by
  induction fuel with
  | zero => intro b _ _ _ h; omega
  | succ fuel ih =>
    intro b n hr hN hm
    have hlen : (skip b.pending).length ≤ b.readBuffer.length :=
      Nat.le_trans (skip_suffix _).length_le (Bus.pending_length_le hr)
    have hmr := messageReady_count b (skip b.pending) (n + (skip b.pending).length) hlen (skip_skip _)
    rw [parse_skip] at hmr
    have hhold := Bus.holds_withPending b b.serialPort hlen
    rw [show b.onto b.serialPort = b from rfl] at hhold
    unfold Moves.readLoop
    rw [SO.bind_ok (removeGarbage_count hr)]
    have hb0 : moved b.pending [] ≤ (([] : List (List Byte)).length + 1) * b.readBuffer.length := by
      simp only [moved, List.length_nil, Nat.zero_add, Nat.one_mul]; exact hlen
    cases hp : parse b.readBuffer.length b.pending with
    | packet f rest =>
      rw [hp] at hmr
      rw [SO.bind_ok hmr]
      rw [(parse_packet hp).1] at hhold
      have hres := LoopCount.packet (n := n) (Chunks.nil (D := D) b.pending b.serialPort) hb0 (by simpa using hp) hhold
      rw [← (parse_packet hp).1] at hres
      exact hres
    | tooBig req rest =>
      rw [hp] at hmr
      rw [SO.bind_err hmr]
      refine LoopCount.tooBig (Chunks.nil b.pending b.serialPort) hb0 (by simpa using hp) ?_
      obtain ⟨hd, h1, _⟩ := parse_tooBig hp
      rw [h1] at hlen
      simp at hlen
      omega
    | more =>
      rw [hp] at hmr
      rw [SO.bind_ok hmr]
      have hroom := parse_more_room hN hp
      simp only
      have hrm := Bus.readMore_eq b (skip b.pending) D hlen
      have hon : ∀ m : Nat, Moves.onBus (Bus.readMore D) (b.withPending (skip b.pending), m)
          = (((Bus.readMore D (b.withPending (skip b.pending))).1, m), (Bus.readMore D (b.withPending (skip b.pending))).2) :=
        fun _ => rfl
      rcases Port.read_cases (b.readBuffer.length - (skip b.pending).length) D b.serialPort with
        ⟨p1, bs, hread⟩ | ⟨p1, e, hread⟩
      · rw [hread] at hrm
        simp only at hrm
        rw [SO.bind_ok (by rw [hon, hrm])]
        have hbs := Port.read_length hread
        have hh := Bus.holds_withPending b p1 (t := skip b.pending ++ bs) (by simp; omega)
        have hstep := ih _ (n + (skip b.pending).length) hh.rInv (by rw [hh.like.readSize]; exact hN)
          (by
            rw [hh.port]
            have := Port.read_measure (by omega) hread
            omega)
        generalize (b.onto p1).withPending (skip b.pending ++ bs) = b1 at hh hstep
        have hre : ∀ {cs p'}, Chunks D b1.readBuffer.length b1.pending b1.serialPort cs p' →
            Chunks D b.readBuffer.length b.pending b.serialPort (bs :: cs) p' := by
          intro cs p' h
          rw [hh.port, hh.pending, hh.like.readSize] at h
          exact .cons hp hread (chunks_skip h)
        have hmv : ∀ cs, n + (skip b.pending).length + moved b1.pending cs = n + moved b.pending (bs :: cs) := by
          intro cs
          rw [hh.pending, moved_skip, moved, Nat.add_assoc]
        have hbd : ∀ cs : List (List Byte), moved b1.pending cs ≤ (cs.length + 1) * b1.readBuffer.length →
            moved b.pending (bs :: cs) ≤ ((bs :: cs).length + 1) * b.readBuffer.length := by
          intro cs h
          have h1 := hmv cs
          rw [hh.like.readSize] at h
          rw [List.length_cons, Nat.add_mul _ 1]
          omega
        have hpa : ∀ bs', parse b1.readBuffer.length (b1.pending ++ bs')
            = parse b.readBuffer.length (b.pending ++ (bs ++ bs')) := by
          intro bs'
          rw [hh.pending, hh.like.readSize, List.append_assoc, ← parse_more_append]
        have hsk : ∀ bs', skip (b1.pending ++ bs') = skip (b.pending ++ (bs ++ bs')) := by
          intro bs'
          rw [hh.pending, List.append_assoc, ← skip_append]
        generalize Moves.readLoop D fuel (b1, n + (skip b.pending).length) = r at hstep
        cases hstep with
        | packet h1 h2 h3 h4 =>
          rw [hpa] at h3
          rw [hmv]
          exact .packet (hre h1) (hbd _ h2) h3 (h4.of_like hh.like)
        | tooBig h1 h2 h3 h4 =>
          rw [hpa] at h3
          rw [hmv, hh.like.readSize]
          rw [hh.like.readSize] at h4
          exact .tooBig (hre h1) (hbd _ h2) h3 h4
        | ended h1 h2 h3 h4 =>
          rw [hpa] at h3
          rw [hsk, hh.like.readSize] at h4
          rw [hmv]
          exact .ended (hre h1) (hbd _ h2) h3 h4
      · rw [hread] at hrm
        simp only at hrm
        rw [SO.bind_err (by rw [hon, hrm])]
        exact LoopCount.ended (Chunks.nil b.pending b.serialPort) hb0 (by simpa using hp) (by simpa using hread)

/-- **C103** The bytes moved in the read buffer by a call that reads a packet: for every read, and once before, all that is pending
and may be the start of a packet, needed or not; and what follows a packet that is dropped. -/
theorem c103_moved {b : Bus} {n D : Nat} (hr : b.RInv) (hN : 10 ≤ b.readBuffer.length) :
    ∃ cs p, Chunks D b.readBuffer.length b.pending b.serialPort cs p ∧
      (Moves.readPacketDeadline D (b, n)).1.2 =
        n + moved b.pending cs + movedLast b.readBuffer.length (b.pending ++ cs.flatten) ∧
      moved b.pending cs + movedLast b.readBuffer.length (b.pending ++ cs.flatten) ≤ (cs.length + 2) * b.readBuffer.length ∧
      (parse b.readBuffer.length (b.pending ++ cs.flatten) = .more → ∃ p' e,
        Port.read (b.readBuffer.length - (skip (b.pending ++ cs.flatten)).length) D p = (p', .err e) ∧
        (Moves.readPacketDeadline D (b, n)).2 = .err (.io e)) := by
  have hres := readLoop_count D (b.serialPort.measure + 1) b n hr hN (by omega)
  unfold Moves.readPacketDeadline
  simp only [SO.get_bind]
  have hc : BufferTooSmall.check (headerSize + 3) b.readBuffer.length = .ok () := if_pos hN
  rw [hc, Outcome.mapErr_ok, SO.lift_ok_bind]
  rw [SO.bind_def]
  generalize Moves.readLoop D (b.serialPort.measure + 1) (b, n) = r at hres
  cases hres with
  | @packet cs f rest p c h1 h2 h3 h4 =>
    have h7 : 7 ≤ f.length := by have := (parse_packet h3).2.2.1; omega
    have hl : rest.length ≤ b.readBuffer.length := by
      have h5 := h4.rInv.len_le
      rw [h4.len, h4.like.readSize, List.length_append] at h5
      omega
    refine ⟨cs, p, h1, ?_, ?_, by rw [h3]; simp⟩
    · simp only
      rw [finishPacket_count h4 h7, movedLast, h3]
    · rw [movedLast, h3, Nat.add_mul _ 2]
      rw [Nat.add_mul] at h2
      simp only
      split <;> omega
  | tooBig h1 h2 h3 h4 =>
    refine ⟨_, _, h1, ?_, ?_, by rw [h3]; simp⟩
    · rw [movedLast, h3]
    · rw [movedLast, h3, Nat.add_mul _ 2]
      rw [Nat.add_mul] at h2
      simp only
      omega
  | ended h1 h2 h3 h4 =>
    refine ⟨_, _, h1, ?_, ?_, fun _ => ⟨_, _, h4, rfl⟩⟩
    · rw [movedLast, h3]
      rfl
    · rw [movedLast, h3, Nat.add_mul _ 2]
      rw [Nat.add_mul] at h2
      simp only
      omega

/-! ## Examples of lines -/

theorem skip_prefix {s f : List Byte} (hf : header <+: f) (h : s <+: f) : skip s = s := by
  cases s with
  | nil => rfl
  | cons x t => rw [skip, if_pos (List.prefix_or_prefix_of_prefix h hf)]

theorem moved_bytes {f : List Byte} (hf : header <+: f) (l : List Byte) : ∀ pre, f = pre ++ l →
    2 * moved pre (l.map fun x => [x]) + pre.length * pre.length = f.length * (f.length + 1) + pre.length := by
  induction l with
  | nil =>
    intro pre h
    rw [List.append_nil] at h
    subst h
    simp only [List.map_nil, moved, skip_prefix hf (List.prefix_refl _), Nat.mul_add, Nat.mul_one]
    omega
  | cons x l ih =>
    intro pre h
    have h1 := ih (pre ++ [x]) (by simp [h])
    rw [List.length_append, List.length_singleton] at h1
    rw [List.map_cons, moved, skip_prefix hf (h ▸ List.prefix_append _ _)]
    have h2 : (pre.length + 1) * (pre.length + 1) = pre.length * pre.length + 2 * pre.length + 1 := by
      rw [Nat.add_mul, Nat.mul_add]; omega
    omega

/-- A line on which single bytes come. -/
def single (t : Nat) (x : Byte) : RxEvent := .data t [x]

theorem read_single {D t cap : Nat} {p : Port} {x : Byte} {l : List Byte} (hp : p.rx = (x :: l).map (single t)) (hnow : p.now ≤ D)
    (ht : t ≤ D) (hc : 0 < cap) : ∃ p', Port.read cap D p = (p', .ok [x]) ∧ p'.rx = l.map (single t) ∧ p'.now ≤ D := by
  refine ⟨{ p with log := p.log ++ [.read cap D], now := max p.now t, rx := l.map (single t) }, ?_, rfl, Nat.max_le.2 ⟨hnow, ht⟩⟩
  unfold Port.read
  simp only
  rw [if_neg (by omega), hp]
  simp only [List.map_cons, single]
  rw [if_pos ht, if_pos (show [x].length ≤ cap from hc)]

theorem chunks_single {D size t : Nat} (ht : t ≤ D) {cs : List (List Byte)} {p' : Port} : ∀ {pending l : List Byte} {p : Port},
    Chunks D size pending p cs p' → p.rx = l.map (single t) → p.now ≤ D → pending.length + l.length ≤ size →
    ∃ k, k ≤ l.length ∧ cs = (l.take k).map (fun x => [x]) ∧ p'.rx = (l.drop k).map (single t) ∧ p'.now ≤ D := by
  induction cs with
  | nil =>
    intro pending l p h hp hnow _
    cases h
    exact ⟨0, by omega, by simp, by simpa using hp, hnow⟩
  | cons c cs ih =>
    intro pending l p h hp hnow hsize
    cases h with
    | cons h0 h1 h2 =>
      cases l with
      | nil =>
        unfold Port.read at h1
        simp only at h1
        rw [if_neg (by omega), hp] at h1
        simp only [List.map_nil] at h1
        cases htail : p.tail <;> simp [htail] at h1
      | cons x l =>
        have hsk := (skip_suffix pending).length_le
        simp only [List.length_cons] at hsize
        obtain ⟨p1, h3, h4, h5⟩ := read_single hp hnow ht (show 0 < size - (skip pending).length by omega)
        rw [h3] at h1
        simp only [Prod.mk.injEq, Outcome.ok.injEq] at h1
        obtain ⟨rfl, rfl⟩ := h1
        obtain ⟨k, h7, h8, h9, h10⟩ := ih h2 h4 h5 (by simp; omega)
        exact ⟨k + 1, by simp; omega, by simp [h8], by simpa using h9, h10⟩

/-- **C103** A packet of `L` bytes that comes one byte at a time costs `L * (L + 1) / 2` moves, although all of them are to where the byte
already is. -/
theorem c103_bytewise {b : Bus} {n D t : Nat} {id : Byte} {wire : List Byte} (hr : b.RInv) (hp : b.pending = [])
    (hN : 10 ≤ b.readBuffer.length) (hw : wire.length + 2 < 2 ^ 16) (hfit : (frame id wire).length ≤ b.readBuffer.length)
    (hrx : b.serialPort.rx = (frame id wire).map (single t)) (ht : t ≤ D)
    (hnow : b.serialPort.now ≤ D) :
    (Moves.readPacketDeadline D (b, n)).1.2 = n + (frame id wire).length * ((frame id wire).length + 1) / 2 := by
  obtain ⟨cs, p, h1, h2, -, h4⟩ := c103_moved (n := n) (D := D) hr hN
  rw [hp] at h1 h2 h4
  obtain ⟨k, h5, rfl, h6, h7⟩ := chunks_single ht h1 hrx hnow (by simpa using hfit)
  have hL := Bus.frame_length id wire
  have hh := header_frame id wire
  have hlf := lengthField_frame id wire
  rw [List.nil_append, show ((((frame id wire).take k).map fun x => [x]).flatten) = (frame id wire).take k by
    generalize (frame id wire).take k = l; induction l <;> simp_all] at h2 h4
  have hk : k = (frame id wire).length := by
    apply Classical.byContradiction
    intro hk
    have hsk := skip_prefix hh (List.take_prefix k (frame id wire))
    have hkl : ((frame id wire).take k).length = k := by simp; omega
    have hmore : parse b.readBuffer.length ((frame id wire).take k) = .more := by
      unfold parse
      rw [hsk, hkl]
      by_cases h7 : k ≤ 7
      · rw [if_pos h7]
      · have hlk : Spec.lengthField ((frame id wire).take k) = Spec.lengthField (frame id wire) := by
          have := lengthField_append (t := (frame id wire).take k) (u := (frame id wire).drop k) (by omega)
          rw [List.take_append_drop] at this
          exact this.symm
        rw [if_neg h7, hlk, hlf, Nat.mod_eq_of_lt hw, if_neg (by omega), if_pos (by omega)]
    obtain ⟨p', e, h8, -⟩ := h4 hmore
    rw [hsk, hkl] at h8
    obtain ⟨x, l, hx⟩ : ∃ x l, (frame id wire).drop k = x :: l := by
      cases hd : (frame id wire).drop k with
      | nil => have := congrArg List.length hd; simp at this; omega
      | cons x l => exact ⟨x, l, rfl⟩
    rw [hx] at h6
    obtain ⟨p2, h9, -⟩ := read_single h6 h7 ht (show 0 < b.readBuffer.length - k by omega)
    rw [h9] at h8
    simp at h8
  subst hk
  rw [List.take_length] at h2
  have hm := moved_bytes hh (frame id wire) [] rfl
  have hpa := parse_good_frame (cap := b.readBuffer.length) (g := []) (rest := []) id (by simp [header]) hw hfit
  rw [List.nil_append, List.append_nil] at hpa
  rw [movedLast, hpa] at h2
  simp only [List.length_nil, Nat.add_zero, Nat.mul_zero, ite_self] at h2 hm
  rw [h2, ← hm, Nat.mul_div_cancel_left _ (by omega)]

/-- **C103** A packet that comes at once costs one move for each of its bytes, whatever comes after it. -/
theorem c103_at_once {b : Bus} {n D t : Nat} {id : Byte} {wire : List Byte} {more : List RxEvent} (hr : b.RInv) (hp : b.pending = [])
    (hN : 10 ≤ b.readBuffer.length) (hw : wire.length + 2 < 2 ^ 16) (hfit : (frame id wire).length ≤ b.readBuffer.length)
    (hrx : b.serialPort.rx = .data t (frame id wire) :: more) (ht : t ≤ D) (hnow : b.serialPort.now ≤ D) :
    (Moves.readPacketDeadline D (b, n)).1.2 = n + (frame id wire).length := by
  have hL := Bus.frame_length id wire
  have hpa : ∀ rest, parse b.readBuffer.length (frame id wire ++ rest) = .packet (frame id wire) rest := fun rest =>
    parse_good_frame (cap := b.readBuffer.length) (g := []) (rest := rest) id (by simp [header]) hw hfit
  have hp0 : ∀ size, parse size ([] : List Byte) = .more := fun size => by simp [parse, skip]
  obtain ⟨cs, p, h1, h2, -, h4⟩ := c103_moved (n := n) (D := D) hr hN
  rw [hp] at h1 h2 h4
  have hread : ∃ p', Port.read b.readBuffer.length D b.serialPort = (p', .ok (frame id wire)) := by
    unfold Port.read
    simp only
    rw [if_neg (by omega), hrx]
    simp only
    rw [if_pos ht, if_pos hfit]
    exact ⟨_, rfl⟩
  obtain ⟨p', hread⟩ := hread
  cases h1 with
  | nil =>
    obtain ⟨p1, e, h5, -⟩ := h4 (hp0 _)
    rw [show skip ([] ++ ([] : List (List Byte)).flatten) = ([] : List Byte) from rfl, List.length_nil, Nat.sub_zero, hread] at h5
    simp at h5
  | cons h5 h6 h7 =>
    rw [show skip ([] : List Byte) = [] from rfl, List.length_nil, Nat.sub_zero, hread] at h6
    simp only [Prod.mk.injEq, Outcome.ok.injEq] at h6
    obtain ⟨rfl, rfl⟩ := h6
    have hpf := hpa []
    rw [List.append_nil] at hpf
    cases h7 with
    | cons h8 => rw [List.nil_append, hpf] at h8; simp at h8
    | nil =>
      rw [show ([] : List Byte) ++ [frame id wire].flatten = frame id wire by simp, movedLast, hpf] at h2
      simp only [moved, List.nil_append, show skip ([] : List Byte) = [] from rfl, List.length_nil, ite_self] at h2
      rw [h2, skip_prefix (header_frame id wire) (List.prefix_refl _)]
      omega

/-- **C103** What can not be a packet costs at most three moves per read. -/
theorem c103_garbage {pending : List Byte} {cs : List (List Byte)} (h : ¬ header <:+: pending ++ cs.flatten) :
    moved pending cs ≤ 3 * (cs.length + 1) := by
  have key : ∀ s : List Byte, ¬ header <:+: s → (skip s).length ≤ 3 := by
    intro s hs
    apply Classical.byContradiction
    intro h3
    exact hs ((skip_header_of_long (by omega)).isInfix.trans (skip_suffix s).isInfix)
  induction cs generalizing pending with
  | nil =>
    have := key pending (by simpa using h)
    simpa [moved] using this
  | cons c cs ih =>
    have h1 := ih (pending := pending ++ c) (by simpa using h)
    have h2 := key pending fun h2 => h (h2.trans (List.prefix_append _ _).isInfix)
    simp only [moved, List.length_cons]
    omega

/-- **C103** With a buffer of less than 10 bytes nothing is moved. -/
theorem c103_small {b : Bus} {n D : Nat} (h : b.readBuffer.length < 10) : (Moves.readPacketDeadline D (b, n)).1.2 = n := by
  unfold Moves.readPacketDeadline
  simp only [SO.get_bind]
  have hc : BufferTooSmall.check (headerSize + 3) b.readBuffer.length = .err ⟨10, b.readBuffer.length⟩ :=
    if_neg (by simp [headerSize]; omega)
  rw [hc]
  rfl

/-! ## The theorems apply -/

/-- A line with these events, and nothing received yet. -/
def movesBus (rx : List RxEvent) : Bus :=
  { serialPort := { quietPort with rx := rx }, baudRate := 57600, readBuffer := List.replicate 20 0#8, readLen := 0, usedBytes := 0,
    writeBuffer := List.replicate 20 0#8, debug := true }

theorem movesBus_rInv (rx : List RxEvent) : (movesBus rx).RInv := ⟨Nat.le_refl _, Nat.zero_le _⟩

/-- The 11 bytes of a status packet, one by one … -/
example : (Moves.readPacketDeadline 9 (movesBus ((frame 1#8 [0x55#8, 0#8]).map (single 5)), 0)).1.2 = 66 := by
  rw [c103_bytewise (t := 5) (id := 1#8) (wire := [0x55#8, 0#8])
    (movesBus_rInv ((frame 1#8 [0x55#8, 0#8]).map (single 5))) rfl (by decide) (by decide) (by decide) rfl (by decide) (by decide)]
  decide
/-- … and at once. -/
example : (Moves.readPacketDeadline 9 (movesBus [.data 5 (frame 1#8 [0x55#8, 0#8]), .data 6 [0xFF#8]], 0)).1.2 = 11 := by
  rw [c103_at_once (t := 5) (id := 1#8) (wire := [0x55#8, 0#8]) (more := [.data 6 [0xFF#8]])
    (movesBus_rInv [.data 5 (frame 1#8 [0x55#8, 0#8]), .data 6 [0xFF#8]]) rfl (by decide) (by decide) (by decide) rfl (by decide) (by decide)]
  decide
example := c103_moved (n := 0) (D := 9) (movesBus_rInv [.data 5 [1#8, 0xFF#8, 2#8], .fail 6 (.other 1)]) (by decide)
example := c103_same 9 (movesBus [.data 5 [1#8, 0xFF#8, 2#8]]) 3
example := c103_garbage (pending := [1#8, 0xFF#8]) (cs := [[2#8, 0xFF#8], [0xFF#8]]) (by decide)
example := c103_small (b := { movesBus [] with readBuffer := [1#8] }) (n := 5) (D := 9) (by decide)

end Dxl.Props
