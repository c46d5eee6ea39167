import Verif.Lemmas.Verdict

/-! # One response after another -/

namespace Dxl
open Spec

namespace Port
variable {D cap T : Nat} {p p' : Port} {bs : List Byte}

theorem read_arriving (h : Port.read cap D p = (p', .ok bs)) (hT : p'.now ≤ T) :
    arriving T p.rx = bs ++ arriving T p'.rx := by
  simp only [Port.read] at h
  split at h
  · simp at h
  · split at h
    · split at h <;> simp at h
    · rename_i t ds rest hrx
      split at h
      · split at h
        · simp at h
          have : t ≤ T := by rw [← h.1] at hT; exact Nat.le_trans (Nat.le_max_right _ _) hT
          rw [← h.1, ← h.2, hrx]
          simp [arriving, this]
        · simp at h
          have : t ≤ T := by rw [← h.1] at hT; exact Nat.le_trans (Nat.le_max_right _ _) hT
          rw [← h.1, ← h.2, hrx]
          simp [arriving, this]
          rw [← List.append_assoc, List.take_append_drop]
      · simp at h
    · split at h <;> simp at h

theorem Reads.arriving (h : Reads D p bs p') (hT : p'.now ≤ T) : arriving T p.rx = bs ++ Spec.arriving T p'.rx := by
  induction h with
  | nil => simp
  | step _ h1 h2 ih =>
    have := h2.only.now_le
    rw [read_arriving h1 (by omega), ih hT, List.append_assoc]

end Port

namespace Props

theorem stream_eq {T : Nat} {b : Bus} (h : b.serialPort.now ≤ T) : stream T b = b.pending ++ arriving T b.serialPort.rx := by
  unfold stream readable
  rw [if_neg (by omega)]

/-- Nothing was done but reading until `D`. -/
structure Waited (b c : Bus) (D : Nat) : Prop where
  like : Bus.Like b c
  rinv : c.RInv
  now_le : b.serialPort.now ≤ c.serialPort.now
  deadline : c.serialPort.now ≤ D
  calls : ∃ calls, c.serialPort.log = b.serialPort.log ++ calls ∧ ∀ call ∈ calls, ∃ cap, 0 < cap ∧ call = .read cap D

theorem waited_read {D : Nat} {b : Bus} (hb : b.RInv) (hD : b.serialPort.now ≤ D) :
    Waited b (Bus.readPacketDeadline D b).1 D := by
  by_cases hN : 10 ≤ b.readBuffer.length
  · obtain ⟨c, o, h1, h2, h3, h4, -⟩ := Bus.readPacketDeadline_stream D hb hN
    rw [h1]
    obtain ⟨calls, h5, h6, -⟩ := h4.log
    exact ⟨h2, h3, h4.now_le, by have := h4.le_deadline; dsimp only; omega, calls, h5, h6⟩
  · rw [Bus.readPacketDeadline_small D (by omega)]
    exact ⟨.refl b, hb, Nat.le_refl _, hD, [], by simp, by simp⟩

/-- A packet that was read is gone from the stream, and it has arrived. -/
theorem read_consumes {D : Nat} {b : Bus} {g wire rest : List Byte} {id instr : Byte} {params : List Byte} (hb : b.RInv)
    (hD : b.serialPort.now ≤ D)
    (hg : ¬ header <:+: g) (hlen : wire.length + 2 < 2 ^ 16) (hfit : (frame id wire).length ≤ b.readBuffer.length)
    (hw : Unstuffs wire (instr :: params)) (hs : stream D b = g ++ frame id wire ++ rest) {T : Nat}
    (hT : (Bus.readPacketDeadline D b).1.serialPort.now ≤ T) :
    stream T b = g ++ frame id wire ++ stream T (Bus.readPacketDeadline D b).1 := by
  have hN : 10 ≤ b.readBuffer.length := by
    have := List.length_pos_iff.mpr (unstuffs_ne_nil hw)
    rw [Bus.frame_length] at hfit
    omega
  have hres := Bus.readPacketDeadline_result D hb hN
  have hwait := waited_read hb hD
  rcases hr : Bus.readPacketDeadline D b with ⟨c, o⟩
  obtain ⟨pkt, ho, -, -⟩ := c14_packet_after_garbage hb hg hlen hfit hw hs hr
  rw [hr] at hres hwait hT
  dsimp only at hT hwait ⊢
  subst ho
  have hparse := parse_good_frame (rest := rest) id hg hlen hfit
  have hnow := hwait.now_le
  generalize hoo : (Outcome.ok pkt : Outcome ReadError Packet) = o' at hres
  cases hres with
  | packet h1 h2 h3 =>
    rename_i bs f rest' p
    have e1 := h1.readable.1
    have e2 : stream D b = (b.pending ++ bs) ++ readable D p := by
      rw [stream, e1, List.append_assoc]
    have e3 := parse_packet_append (u := readable D p) h2
    rw [← e2, hs, List.append_assoc, hparse] at e3
    simp only [Parsed.packet.injEq] at e3
    obtain ⟨rfl, rfl⟩ := e3
    have e4 : b.pending ++ bs = g ++ frame id wire ++ rest' := by
      rw [hs, ← List.append_assoc] at e2
      exact (List.append_cancel_right e2).symm
    rw [stream_eq (by omega), stream_eq hT, h3.pending, h3.port, h1.arriving (by rw [← h3.port]; exact hT), ← List.append_assoc, e4,
      List.append_assoc]
  | tooBig => simp at hoo
  | ended => simp at hoo

theorem frameOutcome_not_io {f : List Byte} (hh : header <+: f) (hl : f.length = 7 + Spec.lengthField f) (e : IoErr) :
    Bus.frameOutcome f ≠ .err (.io e) := by
  rcases frameOutcome_cases hh hl with ⟨m, v, -, -, h⟩ | ⟨id, -, h⟩ | ⟨id, wire, instr, params, pkt, -, -, -, -, h⟩ <;>
    rw [h] <;> simp

/-- Reading ends with an error of the port exactly if the stream contains no packet. -/
theorem read_io_iff {D : Nat} {b : Bus} (hb : b.RInv) (hN : 10 ≤ b.readBuffer.length) (e : IoErr) :
    (Bus.readPacketDeadline D b).2 = .err (.io e) ↔
      parse b.readBuffer.length (stream D b) = .more ∧ e = readEnd D b.serialPort := by
  obtain ⟨c, o, h1, -, -, -, h5⟩ := Bus.readPacketDeadline_stream D hb hN
  rw [h1]
  dsimp only [stream]
  cases hp : parse b.readBuffer.length (b.pending ++ readable D b.serialPort) with
  | packet f rest =>
    rw [hp] at h5
    obtain ⟨-, k2, k3, -⟩ := parse_packet hp
    simp only [reduceCtorEq, false_and, iff_false]
    rw [h5.1]
    exact frameOutcome_not_io k2 k3 e
  | tooBig req rest =>
    rw [hp] at h5
    simp [h5.1]
  | more =>
    rw [hp] at h5
    simp [h5.1, eq_comm]

/-- What is to be made of a status packet from `rid` with error byte `e` and parameters `ps`, if `want` is the motor that
was asked (`none`: any motor), and `count` parameters are wanted that stand for a value. -/
def Judged {α : Type} (want : Option Byte) (count : Nat) (Value : α → List Byte → Prop) (rid e : Byte) (ps : List Byte)
    (x : Except ReadError (Response α)) : Prop :=
  if e.toNat % 128 ≠ 0 then x = .error (.motorError ⟨e⟩)
  else if want.getD rid ≠ rid then x = .error (.invalidMessage (.packetId rid (want.getD rid)))
  else if ps.length ≠ count then x = .error (.invalidMessage (.parameterCount ps.length (.exact count)))
  else ∃ v, Value v ps ∧ x = .ok ⟨rid, decide (128 ≤ e.toNat), v⟩

/-- What is left for later: after an error of the port the bytes that are held count, otherwise all that are still to come in
time. -/
def Leaves (D : Nat) (c : Bus) (v : Outcome ReadError (Byte × Byte × List Byte)) (left : List Byte) : Prop :=
  match v with
  | .err (.io _) => c.pending = left
  | _ => stream D c = left

/-- What waiting for a status packet comes to. -/
theorem response_verdict {timeout : Nat} {b : Bus} (hb : b.RInv) :
    ∃ c o v left, Client.readStatusResponseTimeout timeout b = (c, o) ∧ c.serialPort.now ≤ b.serialPort.now + timeout ∧
      Verdict b.readBuffer.length (stream (b.serialPort.now + timeout) b)
        (readEnd (b.serialPort.now + timeout) b.serialPort) v left ∧ Leaves (b.serialPort.now + timeout) c v left ∧
      match v with
      | .err x => o = .err x
      | .panic => o = .panic
      | .hang => False
      | .ok (rid, error, ps) => ∃ pkt, o = .ok ⟨pkt⟩ ∧ Carries pkt rid 0x55#8 (error :: ps) ∧ error.toNat % 128 = 0 := by
  have hwait := waited_read (D := b.serialPort.now + timeout) hb (by omega)
  unfold Client.readStatusResponseTimeout
  rw [SO.get_bind]
  simp only [Port.makeDeadline]
  rw [SO.bind_def]
  by_cases hN : 10 ≤ b.readBuffer.length
  · obtain ⟨c, o, h, -, -, -, hm⟩ := Bus.readPacketDeadline_stream (b.serialPort.now + timeout) hb hN
    have hnow := hwait.deadline
    rw [h] at hnow ⊢
    change match parse b.readBuffer.length (stream (b.serialPort.now + timeout) b) with
        | .packet f rest => _ | .tooBig req rest => _ | .more => _ at hm
    cases hp : parse b.readBuffer.length (stream (b.serialPort.now + timeout) b) with
    | more =>
      rw [hp] at hm
      rw [hm.1]
      exact ⟨_, _, _, _, rfl, hnow, .nothing hN hp, hm.2.1, rfl⟩
    | tooBig req rest =>
      rw [hp] at hm
      rw [hm.1]
      exact ⟨_, _, _, _, rfl, hnow, .tooBig hN hp, hm.2.1, rfl⟩
    | packet f rest =>
      rw [hp] at hm
      obtain ⟨-, k2, k3, -⟩ := parse_packet hp
      rcases frameOutcome_cases k2 k3 with ⟨m, v, rfl, hv, ho⟩ | ⟨id, rfl, ho⟩ | ⟨id, wire, instr, params, pkt, rfl, hl, hu, hc, ho⟩
      · rw [hm.1, ho]
        exact ⟨_, _, _, _, rfl, hnow, .corrupt hN hp hv, hm.2.1, rfl⟩
      · rw [hm.1, ho]
        exact ⟨_, _, _, _, rfl, hnow, .noInstruction hN hp, hm.2.1, rfl⟩
      · rw [hm.1, ho]
        simp only [SO.lift_apply]
        refine ⟨c, Client.checkStatus pkt, ?_⟩
        rw [checkStatus_carries hc]
        by_cases h55 : instr = 0x55#8
        · subst h55
          rw [if_pos rfl]
          match params, hu, hc with
          | [], hu, hc => exact ⟨.panic, _, rfl, hnow, .noError hN hp hu, hm.2.1, rfl⟩
          | e :: ps, hu, hc =>
            dsimp only
            by_cases he : e &&& 0x7F#8 = 0#8
            · rw [if_pos he]
              exact ⟨.ok (id, e, ps), _, rfl, hnow, .status hN hp hu ((low_bits_zero e).mp he), hm.2.1, pkt, rfl, hc, (low_bits_zero e).mp he⟩
            · rw [if_neg he]
              exact ⟨.err _, _, rfl, hnow, .motorError hN hp hu (fun h => he ((low_bits_zero e).mpr h)), hm.2.1, rfl⟩
        · rw [if_neg h55]
          exact ⟨.err _, _, rfl, hnow, .instruction hN hp hu h55, hm.2.1, rfl⟩
  · rw [Bus.readPacketDeadline_small _ (by omega)]
    exact ⟨b, _, _, _, rfl, by omega, .small (by omega), rfl, rfl⟩

/-- A turn: a response is awaited until `D`, the result is `x`. -/
structure Turn {α : Type} (b c : Bus) (D : Nat) (want : Option Byte) (count : Nat) (Value : α → List Byte → Prop)
    (x : Except ReadError (Response α)) : Prop extends Waited b c D where
  /-- If a status packet comes first, that is the response. -/
  answered : ∀ rid e ps rest, StatusFirst b.readBuffer.length (stream D b) rid e ps rest →
    Judged want count Value rid e ps x ∧ stream D c = rest
  /-- It is taken out of the stream, and it had arrived. -/
  consumed : ∀ rid e ps rest, StatusFirst b.readBuffer.length (stream D b) rid e ps rest →
    ∃ front, stream D b = front ++ rest ∧ ∀ T, c.serialPort.now ≤ T → stream T b = front ++ stream T c
  /-- There is no success without a status packet. -/
  backed : ∀ r, x = .ok r → ∃ rid e ps rest, StatusFirst b.readBuffer.length (stream D b) rid e ps rest
  /-- Errors of the port are reported exactly if no packet came. -/
  io : 10 ≤ b.readBuffer.length →
    ∀ e, x = .error (.io e) ↔ parse b.readBuffer.length (stream D b) = .more ∧ e = readEnd D b.serialPort
  /-- All cases: what arrives decides about the result, and about what is left. -/
  decided : ∃ v left, Verdict b.readBuffer.length (stream D b) (readEnd D b.serialPort) v left ∧ Leaves D c v left ∧
    match v with
    | .ok (rid, e, ps) => Judged want count Value rid e ps x
    | .err r => x = .error r
    | _ => False

/-- Wait for a status packet and look at it. -/
def awaitStatus {α : Type} (timeout : Nat) (k : StatusPacket → Outcome ReadError (Response α)) :
    SO Bus ReadError (Response α) := do
  let s ← Client.readStatusResponseTimeout timeout
  SO.lift (k s)

/-- The result of fallible code as a value. -/
def ofExcept {ε α : Type} : Except ε α → Outcome ε α
  | .ok a => .ok a
  | .error e => .err e

theorem ofExcept_inj {ε α : Type} {x y : Except ε α} (h : ofExcept x = ofExcept y) : x = y := by
  cases x <;> cases y <;> cases h <;> rfl

/-- `k` judges status packets. -/
def Judges {α : Type} (want : Option Byte) (count : Nat) (Value : α → List Byte → Prop)
    (k : StatusPacket → Outcome ReadError (Response α)) : Prop :=
  ∀ s rid e ps, Carries s.packet rid 0x55#8 (e :: ps) → e.toNat % 128 = 0 →
    ∃ x, k s = ofExcept x ∧ Judged want count Value rid e ps x

/-- Such a packet in the stream makes the code panic (see C18). -/
def Deadly (b : Bus) (D : Nat) : Prop :=
  10 ≤ b.readBuffer.length ∧ ∃ g id rest, ¬ header <:+: g ∧
    (stream D b = g ++ frame id [] ++ rest ∨ stream D b = g ++ frame id [0x55#8] ++ rest)

theorem status_not_hang (timeout : Nat) {b : Bus} (hb : b.RInv) : (Client.readStatusResponseTimeout timeout b).2 ≠ .hang := by
  unfold Client.readStatusResponseTimeout
  rw [SO.get_bind, SO.bind_def]
  have h := c19_terminates (b.serialPort.now + timeout) hb
  simp only [Port.makeDeadline]
  rcases hr : Bus.readPacketDeadline (b.serialPort.now + timeout) b with ⟨c, o⟩
  rw [hr] at h
  cases o with
  | ok pkt =>
    obtain ⟨g, id, wire, instr, params, rest, -, -, -, -, -, h6, -⟩ := c16_returned_is_valid hb hr
    simp only [SO.lift_apply, checkStatus_carries h6]
    split
    · split
      · simp
      · split <;> simp
    · simp
  | err e => simp
  | panic => simp
  | hang => exact absurd rfl h

theorem status_io_iff {timeout : Nat} {b : Bus} (hb : b.RInv) (hN : 10 ≤ b.readBuffer.length) (e : IoErr) :
    (Client.readStatusResponseTimeout timeout b).2 = .err (.io e) ↔
      parse b.readBuffer.length (stream (b.serialPort.now + timeout) b) = .more ∧
        e = readEnd (b.serialPort.now + timeout) b.serialPort := by
  rw [← read_io_iff hb hN]
  unfold Client.readStatusResponseTimeout
  rw [SO.get_bind, SO.bind_def]
  simp only [Port.makeDeadline]
  rcases hr : Bus.readPacketDeadline (b.serialPort.now + timeout) b with ⟨c, o⟩
  cases o with
  | ok pkt =>
    obtain ⟨g, id, wire, instr, params, rest, -, -, -, -, -, h6, -⟩ := c16_returned_is_valid hb hr
    simp only [SO.lift_apply, checkStatus_carries h6]
    split
    · split
      · simp
      · split <;> simp
    · simp
  | err e => simp
  | panic => simp
  | hang => simp

theorem judged_not_io {α : Type} {want : Option Byte} {count : Nat} {Value : α → List Byte → Prop} {rid e : Byte}
    {ps : List Byte} {x : Except ReadError (Response α)} (h : Judged want count Value rid e ps x) (i : IoErr) :
    x ≠ .error (.io i) := by
  unfold Judged at h
  split at h
  · rw [h]; simp
  · split at h
    · rw [h]; simp
    · split at h
      · rw [h]; simp
      · obtain ⟨v, -, h⟩ := h
        rw [h]; simp

theorem statusFirst_not_more {cap : Nat} {s : List Byte} {id e : Byte} {ps rest : List Byte} (h : StatusFirst cap s id e ps rest) :
    parse cap s ≠ .more := by
  obtain ⟨g, wire, rfl, h2, h3, h4, h5⟩ := h
  rw [List.append_assoc, parse_good_frame id h2 h3 h4]
  simp

/-- Waiting for a status packet is a turn, or a panic. -/
theorem await_turn {α : Type} {want : Option Byte} {count : Nat} {Value : α → List Byte → Prop}
    {k : StatusPacket → Outcome ReadError (Response α)} (hk : Judges want count Value k) (timeout : Nat) {b : Bus} (hb : b.RInv) :
    ∃ c, (Deadly b (b.serialPort.now + timeout) ∧ awaitStatus timeout k b = (c, .panic)) ∨
      (¬ Deadly b (b.serialPort.now + timeout) ∧
        ∃ x, awaitStatus timeout k b = (c, ofExcept x) ∧ Turn b c (b.serialPort.now + timeout) want count Value x) := by
  have hwait := waited_read hb (D := b.serialPort.now + timeout) (Nat.le_add_right _ _)
  have hstate := readStatusResponseTimeout_state timeout b
  have hpanic := c18_status_panics_iff_partial (timeout := timeout) hb
  have hhang := status_not_hang timeout hb
  have hio := @status_io_iff timeout _ hb
  have hcomplete := fun id e ps rest => status_complete (timeout := timeout) (id := id) (e := e) (ps := ps) (rest := rest) hb
  have hcons : ∀ rid e ps rest, StatusFirst b.readBuffer.length (stream (b.serialPort.now + timeout) b) rid e ps rest →
      ∃ front, stream (b.serialPort.now + timeout) b = front ++ rest ∧
        ∀ T, (Bus.readPacketDeadline (b.serialPort.now + timeout) b).1.serialPort.now ≤ T →
          stream T b = front ++ stream T (Bus.readPacketDeadline (b.serialPort.now + timeout) b).1 := by
    rintro rid e ps rest ⟨g, wire, e1, e2, e3, e4, e5⟩
    exact ⟨g ++ frame rid wire, e1, fun T hT => read_consumes hb (Nat.le_add_right _ _) e2 e3 e4 e5 e1 hT⟩
  rw [← hstate] at hwait hcons
  rcases hr : Client.readStatusResponseTimeout timeout b with ⟨c, o⟩
  rw [hr] at hwait hcons hpanic hhang
  dsimp only at hwait hcons hpanic hhang
  obtain ⟨c', o', v, left, q1, -, q2, q3, q4⟩ := response_verdict (timeout := timeout) hb
  rw [hr] at q1
  obtain ⟨rfl, rfl⟩ := Prod.mk.inj q1
  refine ⟨c, ?_⟩
  cases o with
  | hang => exact absurd rfl hhang
  | panic =>
    left
    exact ⟨hpanic.mp rfl, SO.bind_panic hr _⟩
  | err e =>
    right
    refine ⟨fun hd => by have := hpanic.mpr hd; simp at this, .error e, SO.bind_err hr _, hwait, ?_, hcons, ?_, ?_, ?_⟩
    · intro rid e' ps rest hf
      obtain ⟨c', pkt, k1, k2, k3⟩ := hcomplete rid e' ps rest hf
      rw [hr] at k1
      simp only [Prod.mk.injEq] at k1
      obtain ⟨rfl, k1⟩ := k1
      by_cases he : e'.toNat % 128 = 0
      · rw [if_pos he] at k1
        simp at k1
      · rw [if_neg he] at k1
        simp only [Outcome.err.injEq] at k1
        subst k1
        exact ⟨by unfold Judged; rw [if_pos he], k3⟩
    · simp
    · intro hN i
      rw [← hio hN, hr]
      simp
    · refine ⟨v, left, q2, q3, ?_⟩
      cases v with
      | ok y => obtain ⟨pkt, h, -⟩ := q4; cases h
      | err y => dsimp only at q4 ⊢; rw [Outcome.err.inj q4]
      | panic => cases q4
      | hang => exact q4
  | ok s =>
    right
    obtain ⟨rid, e, ps, rest, k1, k2, k3, k4⟩ := status_sound hb hr
    obtain ⟨x, hx, hj⟩ := hk s rid e ps k2 k3
    refine ⟨fun hd => by have := hpanic.mpr hd; simp at this, x, ?_, hwait, ?_, hcons, ?_, ?_, ?_⟩
    · unfold awaitStatus
      rw [SO.bind_ok hr, SO.lift_apply, hx]
    · intro rid' e' ps' rest' hf
      obtain ⟨rfl, rfl, rfl, rfl⟩ := statusFirst_unique k1 hf
      exact ⟨hj, k4⟩
    · exact fun _ _ => ⟨rid, e, ps, rest, k1⟩
    · intro hN i
      constructor
      · intro h
        exact absurd h (judged_not_io hj i)
      · intro h
        exact absurd h.1 (statusFirst_not_more k1)
    · refine ⟨v, left, q2, q3, ?_⟩
      cases v with
      | ok y =>
        obtain ⟨pkt, h, hc, he⟩ := q4
        cases h
        obtain ⟨x', hx', hj'⟩ := hk _ _ _ _ hc he
        rw [hx] at hx'
        rwa [ofExcept_inj hx']
      | err y => cases q4
      | panic => cases q4
      | hang => exact q4

/-! ## The looks that are taken at status packets -/

theorem checkResponse_carries {s : StatusPacket} {rid e : Byte} {ps : List Byte} (h : Carries s.packet rid 0x55#8 (e :: ps))
    (id : Byte) (count : U16) :
    SyncIter.checkResponse s id count =
      if rid ≠ id then .err (.invalidMessage (.packetId rid id))
      else if ps.length ≠ count.toNat then .err (.invalidMessage (.parameterCount ps.length (.exact count.toNat)))
      else .ok () := by
  obtain ⟨h1, h2, h3⟩ := status_accessors h ReadError
  unfold SyncIter.checkResponse
  rw [h1, Outcome.ok_bind, h3]
  unfold checkPacketId checkCount
  by_cases hr : rid = id
  · rw [if_pos hr, if_neg (by simpa using hr)]
    by_cases hl : ps.length = count.toNat
    · simp [hl]
    · simp [hl]
  · rw [if_neg hr, if_pos hr]
    rfl

section judged
variable {α : Type} {want : Option Byte} {count : Nat} {Value : α → List Byte → Prop} {rid e : Byte} {ps : List Byte}

theorem judged_wrong_id {id : Byte} (he : e.toNat % 128 = 0) (hr : rid ≠ id) :
    Judged (some id) count Value rid e ps (.error (.invalidMessage (.packetId rid id))) := by
  unfold Judged
  rw [if_neg (by simpa using he), if_pos (by simpa using fun h => hr h.symm)]
  rfl

theorem judged_wrong_count (he : e.toNat % 128 = 0) (hr : want.getD rid = rid) (hl : ps.length ≠ count) :
    Judged want count Value rid e ps (.error (.invalidMessage (.parameterCount ps.length (.exact count)))) := by
  unfold Judged
  rw [if_neg (by simpa using he), if_neg (by simpa using hr), if_pos hl]

theorem judged_ok {v : α} (he : e.toNat % 128 = 0) (hr : want.getD rid = rid) (hl : ps.length = count) (hv : Value v ps) :
    Judged want count Value rid e ps (.ok ⟨rid, decide (128 ≤ e.toNat), v⟩) := by
  unfold Judged
  rw [if_neg (by simpa using he), if_neg (by simpa using hr), if_neg (by simpa using hl)]
  exact ⟨v, hv, rfl⟩

end judged

/-- The value is the bytes. -/
def IsBytes (v ps : List Byte) : Prop := v = ps

/-- What `next_response` of the byte iterators does with a packet. -/
def lookBytes (id : Byte) (count : U16) (s : StatusPacket) : Outcome ReadError (Response (List Byte)) :=
  SyncIter.checkResponse s id count >>= fun _ => (decodeStatusPacketBytes s).mapErr .motorError

theorem judges_bytes (id : Byte) (count : U16) : Judges (some id) count.toNat IsBytes (lookBytes id count) := by
  intro s rid e ps hc he
  unfold lookBytes
  rw [checkResponse_carries hc, decodeBytes_carries hc, if_pos he]
  by_cases hr : rid = id
  · rw [if_neg (by simpa using hr)]
    by_cases hl : ps.length = count.toNat
    · rw [if_neg (by simpa using hl)]
      exact ⟨.ok ⟨rid, decide (128 ≤ e.toNat), ps⟩, rfl, judged_ok he (by simp [hr]) hl rfl⟩
    · rw [if_pos hl]
      exact ⟨.error _, rfl, judged_wrong_count he (by simp [hr]) hl⟩
  · rw [if_pos hr]
    exact ⟨.error _, rfl, judged_wrong_id he hr⟩

/-- The value is encoded as these bytes. -/
def IsEncoded {α : Type} (valid : α → Prop) (f : α → List Byte) (v : α) (ps : List Byte) : Prop := valid v ∧ f v = ps

/-- What `next_response` of `SyncRead` does with a packet. -/
def lookData {α : Type} (d : DataTy α) (id : Byte) (s : StatusPacket) : Outcome ReadError (Response α) :=
  SyncIter.checkResponse s id d.size >>= fun _ => decodeStatusPacket d s

theorem judges_data {α : Type} {d : DataTy α} {valid : α → Prop} {f : α → List Byte} (hd : ImplData d valid f) (id : Byte) :
    Judges (some id) d.size.toNat (IsEncoded valid f) (lookData d id) := by
  intro s rid e ps hc he
  unfold lookData
  rw [checkResponse_carries hc, decode_carries d hc, if_pos he]
  by_cases hr : rid = id
  · rw [if_neg (by simpa using hr)]
    by_cases hl : ps.length = d.size.toNat
    · rw [if_neg (by simpa using hl)]
      obtain ⟨v, h1, h2, h3⟩ := c28_decode_onto_partial d valid f hd ps hl
      rw [h3]
      exact ⟨.ok ⟨rid, decide (128 ≤ e.toNat), v⟩, rfl, judged_ok he (by simp [hr]) hl ⟨h1, h2⟩⟩
    · rw [if_pos hl]
      exact ⟨.error _, rfl, judged_wrong_count he (by simp [hr]) hl⟩
  · rw [if_pos hr]
    exact ⟨.error _, rfl, judged_wrong_id he hr⟩

/-- The value is a model number and a firmware version. -/
def IsPing (v : Client.Ping) (ps : List Byte) : Prop := ps = le16 v.model ++ [v.firmware]

theorem judges_ping : Judges none 3 IsPing fun s => (Client.toPingResponse s).mapErr .invalidMessage := by
  intro s rid e ps hc he
  dsimp only
  rcases ping_carries hc with ⟨m, v, h1, h2⟩ | ⟨h1, h2⟩
  · rw [h2]
    exact ⟨.ok ⟨rid, decide (128 ≤ e.toNat), ⟨m, v⟩⟩, rfl, judged_ok he rfl (by rw [h1]; simp [le16]) h1⟩
  · rw [h2]
    exact ⟨.error _, rfl, judged_wrong_count he rfl h1⟩

end Props
end Dxl
