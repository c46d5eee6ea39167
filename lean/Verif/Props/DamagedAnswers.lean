import Verif.Props.LostAnswers
import Verif.Props.LineErrors
import Verif.Props.CliRun

/-! # C91: damaged answers to a group read -/

namespace Dxl.Props
open Dxl Spec

/-- A packet that was refused is gone from the stream, and it has arrived. -/
theorem read_takes {D : Nat} {b : Bus} {front f rest : List Byte} {x : InvalidMessage} (hb : b.RInv) (hD : b.serialPort.now ≤ D)
    (hN : 10 ≤ b.readBuffer.length) (hp : parse b.readBuffer.length (stream D b) = .packet f rest) (hs : stream D b = front ++ rest)
    (ho : (Bus.readPacketDeadline D b).2 = .err (.invalidMessage x))
    {T : Nat} (hT : (Bus.readPacketDeadline D b).1.serialPort.now ≤ T) :
    stream T b = front ++ stream T (Bus.readPacketDeadline D b).1 := by
  have hres := Bus.readPacketDeadline_result D hb hN
  have hwait := waited_read hb hD
  rcases hr : Bus.readPacketDeadline D b with ⟨c, o⟩
  rw [hr] at hres hwait hT ho
  dsimp only at hT hwait ho ⊢
  subst ho
  have hnow := hwait.now_le
  generalize hoo : (Outcome.err (.invalidMessage x) : Outcome ReadError Packet) = o' at hres
  cases hres with
  | packet h1 h2 h3 =>
    rename_i bs f' rest' p
    have e1 := h1.readable.1
    have e2 : stream D b = (b.pending ++ bs) ++ readable D p := by
      rw [stream, e1, List.append_assoc]
    have e3 := parse_packet_append (u := readable D p) h2
    rw [← e2, hp] at e3
    simp only [Parsed.packet.injEq] at e3
    obtain ⟨rfl, rfl⟩ := e3
    have e4 : b.pending ++ bs = front ++ rest' := by
      rw [hs, ← List.append_assoc] at e2
      exact (List.append_cancel_right e2).symm
    rw [stream_eq (by omega), stream_eq hT, h3.pending, h3.port, h1.arriving (by rw [← h3.port]; exact hT), ← List.append_assoc, e4,
      List.append_assoc]
  | tooBig => simp at hoo
  | ended => simp at hoo

/-- Bytes that look like a packet with the CRC field `v`, after garbage, when that is not the CRC of the rest of it. -/
structure BadPacket (size : Nat) (g m : List Byte) (v : U16) : Prop where
  garbage : ¬ header <:+: g
  header : header <+: m
  length : m.length + 2 = 7 + Spec.lengthField m
  seven : 7 ≤ m.length
  fits : m.length + 2 ≤ size
  size : 10 ≤ size
  wrong : v ≠ crc 0#16 m

theorem BadPacket.parse {size : Nat} {g m rest : List Byte} {v : U16} (h : BadPacket size g m v) :
    parse size (g ++ (m ++ le16 v) ++ rest) = .packet (m ++ le16 v) rest := by
  have hl : (m ++ le16 v).length = m.length + 2 := by simp [le16]
  have hf : Spec.lengthField (m ++ le16 v) = Spec.lengthField m := lengthField_append h.seven
  have h1 := h.seven
  have h2 := h.fits
  rw [List.append_assoc]
  exact parse_frame h.garbage (h.header.trans (List.prefix_append _ _)) (by rw [hl, hf, h.length]) (by omega)
    (by simp only [List.length_append, le16_length] at hl ⊢; omega)

theorem frame_not_bad {id : Byte} {wire m : List Byte} {v : U16} (hv : v ≠ crc 0#16 m) : frame id wire ≠ m ++ le16 v := by
  intro h
  rw [frame] at h
  obtain ⟨rfl, h2⟩ := List.append_inj' h (by simp [le16])
  exact hv (le16_inj h2).symm

/-- It is no reason to panic. -/
theorem BadPacket.not_deadly {b : Bus} {D : Nat} {g m rest : List Byte} {v : U16} (h : BadPacket b.readBuffer.length g m v)
    (hs : stream D b = g ++ (m ++ le16 v) ++ rest) : ¬ Deadly b D := by
  rintro ⟨hN, g', id, rest', hg, hd⟩
  have hp := h.parse (rest := rest)
  rw [← hs] at hp
  rcases hd with hd | hd
  · rw [hd, List.append_assoc, parse_good_frame id hg (by simp) (by rw [Bus.frame_length]; simp; omega)] at hp
    simp only [Parsed.packet.injEq] at hp
    exact frame_not_bad h.wrong hp.1
  · rw [hd, List.append_assoc, parse_good_frame id hg (by simp) (by rw [Bus.frame_length]; simpa using hN)] at hp
    simp only [Parsed.packet.injEq] at hp
    exact frame_not_bad h.wrong hp.1

/-- The turn in which it is read. -/
theorem BadPacket.turn {α : Type} {b c : Bus} {D : Nat} {want : Option Byte} {count : Nat} {Value : α → List Byte → Prop}
    {x : Except ReadError (Response α)} {g m rest : List Byte} {v : U16} (hb : b.RInv) (hD : b.serialPort.now ≤ D)
    (ht : Turn b c D want count Value x) (hc : c = (Bus.readPacketDeadline D b).1) (h : BadPacket b.readBuffer.length g m v)
    (hs : stream D b = g ++ (m ++ le16 v) ++ rest) :
    x = .error (.invalidMessage (.checksum v (crc 0#16 m))) ∧
      ∀ T, c.serialPort.now ≤ T → stream T b = g ++ (m ++ le16 v) ++ stream T c := by
  have hp := h.parse (rest := rest)
  rw [← hs] at hp
  refine ⟨?_, fun T hT => ?_⟩
  · obtain ⟨vd, left, hvd, -, hx⟩ := ht.decided
    have hN := h.size
    cases hvd with
    | small h1 => omega
    | nothing _ h1 => rw [hp] at h1; cases h1
    | tooBig _ h1 => rw [hp] at h1; cases h1
    | corrupt _ h1 h2 =>
      rw [hp] at h1
      simp only [Parsed.packet.injEq] at h1
      obtain ⟨rfl, h4⟩ := List.append_inj' h1.1 (by simp [le16])
      rw [le16_inj h4]
      exact hx
    | noInstruction _ h1 => rw [hp] at h1; simp only [Parsed.packet.injEq] at h1; exact absurd h1.1.symm (frame_not_bad h.wrong)
    | noError _ h1 => rw [hp] at h1; simp only [Parsed.packet.injEq] at h1; exact absurd h1.1.symm (frame_not_bad h.wrong)
    | instruction _ h1 => rw [hp] at h1; simp only [Parsed.packet.injEq] at h1; exact absurd h1.1.symm (frame_not_bad h.wrong)
    | motorError _ h1 => rw [hp] at h1; simp only [Parsed.packet.injEq] at h1; exact absurd h1.1.symm (frame_not_bad h.wrong)
    | status _ h1 => rw [hp] at h1; simp only [Parsed.packet.injEq] at h1; exact absurd h1.1.symm (frame_not_bad h.wrong)
  · subst hc
    obtain ⟨ho, -⟩ := c16_bad_crc_reported hb h.size h.garbage h.header h.length h.fits h.wrong hs h.seven
      (c := (Bus.readPacketDeadline D b).1) (o := (Bus.readPacketDeadline D b).2) rfl
    exact read_takes hb hD h.size hp hs ho hT

/-- What arrives for a turn. -/
inductive Piece where
  | reply (r : Reply)
  | damaged (g m : List Byte) (v : U16)

def Piece.bytes : Piece → List Byte
  | .reply r => r.bytes
  | .damaged g m v => g ++ (m ++ le16 v)

def Piece.Ok (size : Nat) : Piece → Prop
  | .reply r => r.Ok size
  | .damaged g m v => BadPacket size g m v

/-- What is made of it. -/
def Piece.Judged {α : Type} (want : Option Byte) (count : Nat) (Value : α → List Byte → Prop) (x : Except ReadError (Response α)) :
    Piece → Prop
  | .reply r => Props.Judged want count Value r.id r.error r.params x
  | .damaged _ m v => x = .error (.invalidMessage (.checksum v (crc 0#16 m)))

theorem Piece.not_deadly {b : Bus} {D timeout : Nat} {p : Piece} (hb : b.RInv) (hD : D = b.serialPort.now + timeout)
    (h : p.Ok b.readBuffer.length) (hs : p.bytes <+: stream D b) : ¬ Deadly b D := by
  cases p with
  | reply r =>
    obtain ⟨tail, -, hsf⟩ := reply_first h hs
    exact statusFirst_not_deadly hb hD hsf
  | damaged g m v =>
    obtain ⟨rest, hr⟩ := hs
    exact BadPacket.not_deadly h hr.symm

theorem Piece.turn {α : Type} {b c : Bus} {D : Nat} {want : Option Byte} {count : Nat} {Value : α → List Byte → Prop}
    {x : Except ReadError (Response α)} {p : Piece} (hb : b.RInv) (hD : b.serialPort.now ≤ D)
    (ht : Turn b c D want count Value x) (hc : c = (Bus.readPacketDeadline D b).1) (h : p.Ok b.readBuffer.length)
    (hs : p.bytes <+: stream D b) :
    p.Judged want count Value x ∧ ∀ T, c.serialPort.now ≤ T → stream T b = p.bytes ++ stream T c := by
  cases p with
  | reply r =>
    obtain ⟨tail, e1, hsf⟩ := reply_first h hs
    obtain ⟨hj, -⟩ := ht.answered _ _ _ _ hsf
    obtain ⟨front, c1, c2⟩ := ht.consumed _ _ _ _ hsf
    have : front = r.bytes := by
      rw [e1] at c1
      exact (List.append_cancel_right c1).symm
    subst this
    exact ⟨hj, c2⟩
  | damaged g m v =>
    obtain ⟨rest, hr⟩ := hs
    exact BadPacket.turn hb hD ht hc h hr.symm

/-- Pieces for all requests, in time: what an iterator returns. -/
theorem pieces_delivered {σ α : Type} {next : SO σ ReadError (Option (Except ReadError (Response α)))} {client : σ → Bus}
    {todo : σ → List (Byte × Nat)} {Value : α → List Byte → Prop} (h : IsIterator next client todo Value)
    (ho : OnlyReads next client todo) :
    ∀ (rounds : List ((Byte × Nat) × Piece)) (s : σ), todo s = rounds.map (·.1) →
      (client s).RInv → (client s).baudRate < 2 ^ 32 → (client s).baudRate ≠ 0 →
      (∀ r ∈ rounds, r.2.Ok (client s).readBuffer.length) →
      OnTime (client s) [] (rounds.map fun r => (responseWait (client s).baudRate r.1.2, r.2.bytes)) →
      ∃ s' xs, callTimes next rounds.length s = (s', .ok (xs.map some)) ∧ todo s' = [] ∧
        Pairwise₂ (fun (r : (Byte × Nat) × Piece) x => r.2.Judged (some r.1.1) r.1.2 Value x) rounds xs := by
  intro rounds
  induction rounds with
  | nil =>
    intro s ht _ _ _ _ _
    exact ⟨s, [], rfl, ht, .nil⟩
  | cons r rest ih =>
    intro s ht hr hb h0 hok hon
    obtain ⟨⟨id, count⟩, piece⟩ := r
    have hrep := hok _ (List.mem_cons_self ..)
    obtain ⟨hon1, hon2⟩ := hon
    have hin := hon1 _ (Nat.le_refl _) (by simp)
    rw [List.nil_append] at hin
    have hnd := Piece.not_deadly hr rfl hrep hin
    rcases h.step s id count _ ht hr hb with ⟨h1, -⟩ | ⟨-, s', x, h2, h3, h4⟩
    · rcases h1 with h1 | h1
      · exact absurd h1 h0
      · exact absurd h1 hnd
    · obtain ⟨hj, c2⟩ := Piece.turn hr (Nat.le_add_right _ _) h4 (ho s s' (id, count) _ x ht h0 hb h2) hrep hin
      have hlater := OnTime.later h4.now_le c2 _ [] (by rw [List.append_nil]; exact hon2)
      obtain ⟨s2, xs, k1, k2, k3⟩ := ih s' h3 h4.rinv (by rw [h4.like.baudRate]; exact hb)
        (by rw [h4.like.baudRate]; exact h0)
        (fun r hr => by rw [h4.like.readSize]; exact hok r (List.mem_cons_of_mem _ hr))
        (by rw [h4.like.baudRate]; exact hlater)
      refine ⟨s2, x :: xs, ?_, k2, .cons hj k3⟩
      rw [List.length_cons, callTimes_succ_ok h2, k1]
      rfl

/-- The same for a scan. -/
theorem pieces_scanned (pieces : List Piece) {b : Bus} (hr : b.RInv) (hb : b.baudRate < 2 ^ 32) (h0 : b.baudRate ≠ 0)
    (hok : ∀ p ∈ pieces, p.Ok b.readBuffer.length)
    (hon : OnTime b [] (pieces.map fun p => (scanWait b.baudRate, p.bytes))) :
    ∃ c xs, callTimes (Client.scanNext (ε := ReadError)) pieces.length b = (c, .ok (xs.map some)) ∧
      Pairwise₂ (fun (p : Piece) x => p.Judged none 3 IsPing x) pieces xs ∧
      c.RInv ∧ Bus.Like b c ∧ b.serialPort.now ≤ c.serialPort.now ∧
      (∀ T, c.serialPort.now ≤ T → stream T b = pieces.flatMap Piece.bytes ++ stream T c) ∧
      (Port.Calm b.serialPort → Port.Calm c.serialPort) := by
  induction pieces generalizing b with
  | nil => exact ⟨b, [], rfl, .nil, hr, .refl b, Nat.le_refl _, fun _ _ => rfl, id⟩
  | cons piece rest ih =>
    have hrep := hok _ (List.mem_cons_self ..)
    obtain ⟨hon1, hon2⟩ := hon
    have hin := hon1 _ (Nat.le_refl _) (by simp)
    rw [List.nil_append] at hin
    have hnd := Piece.not_deadly hr rfl hrep hin
    obtain ⟨c, h⟩ := scanNext_turn (ε := ReadError) hr h0 hb
    rcases h with ⟨h1, -⟩ | ⟨-, x, h2, h4⟩
    · exact absurd h1 hnd
    · have hc : c = (Bus.readPacketDeadline (b.serialPort.now + scanWait b.baudRate) b).1 := by
        have e := (scanNext_fst (ε := ReadError) h0 hb).1
        rw [h2] at e
        exact e
      obtain ⟨hj, c2⟩ := Piece.turn hr (Nat.le_add_right _ _) h4 hc hrep hin
      have hx : scanItem x = some x := by
        cases piece with
        | reply r =>
          have := judged_not_io hj .timedOut
          unfold scanItem
          split
          · exact absurd rfl this
          · rfl
        | damaged g m v => rw [show x = _ from hj]; rfl
      rw [hx] at h2
      have hlater := OnTime.later h4.now_le c2 _ [] (by rw [List.append_nil]; exact hon2)
      obtain ⟨c', xs, k1, k2, k3, k4, k5, k6, k7⟩ := ih h4.rinv (by rw [h4.like.baudRate]; exact hb)
        (by rw [h4.like.baudRate]; exact h0)
        (fun r hr => by rw [h4.like.readSize]; exact hok r (List.mem_cons_of_mem _ hr))
        (by rw [h4.like.baudRate]; exact hlater)
      refine ⟨c', x :: xs, ?_, .cons hj k2, k3, h4.like.trans k4, Nat.le_trans h4.now_le k5, ?_, ?_⟩
      · rw [List.length_cons, callTimes_succ_ok h2, k1]
        rfl
      · intro T hT
        rw [c2 T (by omega), k6 T hT]
        simp
      · intro hcalm
        apply k7
        rw [hc]
        exact Bus.read_kept Port.kept_calm _ hr hcalm

/-! ## The answers of devices -/

theorem DeviceAnswer.IsSent.isFrame {α : Type} {size : Nat} {a : DeviceAnswer α} (h : a.IsSent size) :
    ∃ wire, a.packet = frame a.id wire ∧ wire.length + 2 < 2 ^ 16 ∧ wire ≠ [] := by
  obtain ⟨n, enc, he, hw⟩ := h.write
  obtain ⟨params₁, wire, ⟨old, hold, hrun⟩, hform, hsent⟩ := c08_status_layout h.inv hw
  rw [he old hold] at hrun
  simp only [Prod.mk.injEq, and_true] at hrun
  subst hrun
  have hf : a.packet = frame a.id wire := by
    have hs := h.sent
    unfold Sent at hs hsent
    rw [hs] at hsent
    simpa using hsent
  have hl := Bus.frame_length a.id wire
  have h1 := h.length
  rw [hf] at h1
  exact ⟨wire, hf, by omega, unstuffs_ne_nil (survives_unstuffs hform h.body)⟩

/-- An answer, and what arrives in place of its packet, if it is damaged on the way. -/
structure Arrival (α : Type) where
  answer : DeviceAnswer α
  damage : Option (List Byte)

namespace Arrival

/-- What the client receives. -/
def bytes {α : Type} (a : Arrival α) : List Byte := a.answer.garbage ++ a.damage.getD a.answer.packet

/-- The device has sent the answer; damage leaves the header prefix and the length as they are, and the CRC does not fit. -/
structure Ok {α : Type} (size : Nat) (a : Arrival α) : Prop where
  sent : a.answer.IsSent size
  damaged : ∀ F, a.damage = some F → F.length = a.answer.packet.length ∧ SameHeader a.answer.packet F ∧
    ∃ m v, F = m ++ le16 v ∧ v ≠ crc 0#16 m

/-- The item for this answer: what the device sent, or that the CRC (which one, and which one it should be) is wrong. -/
def Gives {α : Type} (a : Arrival α) (x : Except ReadError (Response α)) : Prop :=
  match a.damage with
  | none => x = a.answer.item
  | some F => ∃ m v, F = m ++ le16 v ∧ x = .error (.invalidMessage (.checksum v (crc 0#16 m)))

/-- Damage as in C78 is damage. -/
theorem ok_of_lineDamage {α : Type} {size : Nat} {a : DeviceAnswer α} {F : List Byte} (h : a.IsSent size)
    (hl : F.length = a.packet.length) (hh : SameHeader a.packet F) (hd : LineDamage a.packet F) : Ok size ⟨a, some F⟩ := by
  refine ⟨h, ?_⟩
  rintro _ ⟨⟩
  obtain ⟨wire, hw⟩ := h.isFrame
  obtain ⟨m, v, e1, -, e2⟩ := c78_not_valid (id := a.id) (wire := wire) (F := F) (by rw [ArrivesDamaged, ← hw.1]; exact ⟨hl, hh, hd⟩)
  exact ⟨hl, hh, m, v, e1, e2⟩

theorem Ok.piece {α : Type} {size : Nat} {a : Arrival α} (h : a.Ok size) : ∃ p : Piece, p.Ok size ∧ p.bytes = a.bytes ∧
    ∀ (want : Option Byte) (count : Nat) (Value : α → List Byte → Prop) (x : Except ReadError (Response α)),
      want.getD a.answer.id = a.answer.id →
      (a.damage = none → a.answer.error.toNat % 128 = 0 →
        a.answer.params.length = count ∧ ∀ v, Value v a.answer.params → v = a.answer.value) →
      p.Judged want count Value x → a.Gives x := by
  obtain ⟨answer, damage⟩ := a
  cases damage with
  | none =>
    obtain ⟨r, k1, k2, k3, k4, k5⟩ := h.sent.reply
    refine ⟨.reply r, k1, k2, fun want count Value x hid hv hj => ?_⟩
    dsimp only at *
    unfold Piece.Judged at hj
    simp only [k3, k4, k5] at hj
    unfold Judged at hj
    unfold Gives DeviceAnswer.item
    dsimp only
    by_cases he : answer.error.toNat % 128 = 0
    · obtain ⟨l1, l2⟩ := hv rfl he
      rw [if_neg (by simpa using he), if_neg (by simpa using hid), if_neg (by simpa using l1)] at hj
      obtain ⟨v, hv1, hv2⟩ := hj
      rw [if_neg (by simpa using he), hv2, l2 v hv1]
    · rw [if_pos he] at hj
      rw [if_pos he, hj]
  | some F =>
    obtain ⟨hl, hh, m, v, rfl, hv⟩ := h.damaged F rfl
    obtain ⟨wire, hw, hlen, hne⟩ := h.sent.isFrame
    dsimp only at *
    have hfl := Bus.frameHead_length answer.id wire
    have hfl' := Bus.frame_length answer.id wire
    rw [hw] at hl hh
    rw [hfl', List.length_append, le16_length] at hl
    obtain ⟨h1, h2, h3⟩ := sameHeader_spec (id := answer.id) (wire := wire) (m' := m) (by omega) hlen (by
      obtain ⟨h1, h2⟩ := hh
      rw [frame] at h1 h2
      rw [List.take_append_of_le_length (by omega), List.take_append_of_le_length (by omega)] at h1 h2
      exact ⟨h1, h2⟩)
    have hfit := h.sent.fits
    dsimp only at hfit
    rw [hw, hfl'] at hfit
    have hpos := List.length_pos_iff.mpr hne
    refine ⟨.damaged answer.garbage m v, ⟨h.sent.garbage, h1, h2, h3, by omega, by omega, hv⟩, rfl,
      fun want count Value x _ _ hj => ⟨m, v, rfl, hj⟩⟩

end Arrival

theorem arrival_rounds {α : Type} {size : Nat} {count : DeviceAnswer α → Nat} {arrivals : List (Arrival α)}
    {Value : α → List Byte → Prop} (hs : ∀ a ∈ arrivals, a.Ok size)
    (hv : ∀ a ∈ arrivals, a.damage = none → a.answer.error.toNat % 128 = 0 →
      a.answer.params.length = count a.answer ∧ ∀ v, Value v a.answer.params → v = a.answer.value) :
    ∃ pieces : List ((Byte × Nat) × Piece), pieces.map (·.1) = arrivals.map (fun a => (a.answer.id, count a.answer)) ∧
      (∀ r ∈ pieces, r.2.Ok size) ∧
      (∀ wait : Nat → Nat, pieces.map (fun r => (wait r.1.2, r.2.bytes)) = arrivals.map (fun a => (wait (count a.answer), a.bytes))) ∧
      (∀ xs : List (Except ReadError (Response α)),
        Pairwise₂ (fun (r : (Byte × Nat) × Piece) x => r.2.Judged (some r.1.1) r.1.2 Value x) pieces xs → Pairwise₂ Arrival.Gives arrivals xs) ∧
      ∀ xs : List (Except ReadError (Response α)),
        Pairwise₂ (fun (r : (Byte × Nat) × Piece) x => r.2.Judged none r.1.2 Value x) pieces xs → Pairwise₂ Arrival.Gives arrivals xs := by
  induction arrivals with
  | nil =>
    refine ⟨[], rfl, by simp, fun _ => rfl, ?_, ?_⟩
    · intro xs h; cases h; exact .nil
    · intro xs h; cases h; exact .nil
  | cons a l ih =>
    obtain ⟨pieces, h1, h2, h3, h4, h5⟩ := ih (fun a ha => hs a (by simp [ha])) (fun a ha => hv a (by simp [ha]))
    obtain ⟨p, k1, k2, k3⟩ := (hs a (by simp)).piece
    refine ⟨((a.answer.id, count a.answer), p) :: pieces, by simp [h1], ?_, fun wait => by simp [h3 wait, k2], ?_, ?_⟩
    · intro x hx
      rcases List.mem_cons.mp hx with rfl | hx
      · exact k1
      · exact h2 x hx
    · intro xs h
      cases h with
      | cons hj hr => exact .cons (k3 _ _ _ _ rfl (hv a (by simp)) hj) (h4 _ hr)
    · intro xs h
      cases h with
      | cons hj hr => exact .cons (k3 _ _ _ _ rfl (hv a (by simp)) hj) (h5 _ hr)

theorem arrivals_delivered {σ α : Type} {next : SO σ ReadError (Option (Except ReadError (Response α)))} {client : σ → Bus}
    {todo : σ → List (Byte × Nat)} {Value : α → List Byte → Prop} (h : IsIterator next client todo Value)
    (ho : OnlyReads next client todo)
    {arrivals : List (Arrival α)} {count : DeviceAnswer α → Nat} {s : σ}
    (ht : todo s = arrivals.map fun a => (a.answer.id, count a.answer)) (hr : (client s).RInv) (hb : (client s).baudRate < 2 ^ 32)
    (h0 : (client s).baudRate ≠ 0) (hs : ∀ a ∈ arrivals, a.Ok (client s).readBuffer.length)
    (hv : ∀ a ∈ arrivals, a.damage = none → a.answer.error.toNat % 128 = 0 →
      a.answer.params.length = count a.answer ∧ ∀ v, Value v a.answer.params → v = a.answer.value)
    (hon : OnTime (client s) [] (arrivals.map fun a => (responseWait (client s).baudRate (count a.answer), a.bytes))) :
    ∃ s' xs, callTimes next (arrivals.length + 1) s = (s', .ok (xs.map some ++ [none])) ∧ Pairwise₂ Arrival.Gives arrivals xs := by
  obtain ⟨pieces, h1, h2, h3, h4, -⟩ := arrival_rounds hs hv
  obtain ⟨s', xs, k1, k2, k3⟩ := pieces_delivered h ho pieces s (by rw [ht, h1]) hr hb h0 h2
    (by rw [h3 (responseWait (client s).baudRate)]; exact hon)
  refine ⟨s', xs, ?_, h4 xs k3⟩
  have hlen : pieces.length = arrivals.length := by
    have := congrArg List.length h1
    simpa using this
  rw [← hlen, callTimes_snoc _ k1 (h.finished s' k2)]

/-- **C91** `sync_read` and answers of which some are damaged on the way: each damaged answer is reported with the two checksums, in
the turn of its device; the others are returned as if nothing had happened. For every type of data. -/
theorem c91_sync_read {α : Type} {d : DataTy α} {valid : α → Prop} {f : α → List Byte} (hd : ImplData d valid f)
    {arrivals : List (Arrival α)} {address : U16} {b b' : Bus} (hb : b.Inv) (hbaud : b.baudRate < 2 ^ 32) (h0 : b.baudRate ≠ 0)
    (h : Client.syncRead d (arrivals.map (·.answer.id)) address b = (b', .ok ()))
    (hs : ∀ a ∈ arrivals, a.Ok b.readBuffer.length)
    (hv : ∀ a ∈ arrivals, a.damage = none → a.answer.error.toNat % 128 = 0 → valid a.answer.value ∧ a.answer.params = f a.answer.value)
    (hon : OnTime b' [] (arrivals.map fun a => (responseWait b.baudRate d.size.toNat, a.bytes))) :
    ∃ s' xs, callTimes (SyncIter.next d (ε := ReadError)) (arrivals.length + 1) ⟨b', d.size, arrivals.map (·.answer.id), 0⟩ =
      (s', .ok (xs.map some ++ [none])) ∧ Pairwise₂ Arrival.Gives arrivals xs := by
  obtain ⟨params, wire, -, -, -, k⟩ := afterSend hb.wInv h
  have hc := c28_round_trip_partial d valid f hd
  refine arrivals_delivered (syncData_iterator hd ReadError) (syncData_onlyReads d ReadError) (arrivals := arrivals) (count := fun _ => d.size.toNat)
    (s := ⟨b', d.size, arrivals.map (·.answer.id), 0⟩)
    (by simp [Function.comp_def]) k.rinv (by rw [k.baudRate]; exact hbaud) (by rw [k.baudRate]; exact h0)
    (by rw [k.readBuffer]; exact hs) (fun a ha hn he => ?_) (by rw [k.baudRate]; exact hon)
  obtain ⟨h1, h2⟩ := hv a ha hn he
  refine ⟨by rw [h2, hc.length _ h1], fun v hv' => ?_⟩
  have hdec := hc.decode v hv'.1
  rw [hv'.2, h2, hc.decode _ h1] at hdec
  exact (Outcome.ok.inj hdec).symm

/-- **C91** `sync_read_bytes` and answers of which some are damaged. -/
theorem c91_sync_read_bytes {arrivals : List (Arrival (List Byte))} {address count : U16} {b b' : Bus} (hb : b.Inv)
    (hbaud : b.baudRate < 2 ^ 32) (h0 : b.baudRate ≠ 0)
    (h : Client.syncReadBytes (arrivals.map (·.answer.id)) address count b = (b', .ok ()))
    (hs : ∀ a ∈ arrivals, a.Ok b.readBuffer.length)
    (hv : ∀ a ∈ arrivals, a.damage = none → a.answer.error.toNat % 128 = 0 →
      a.answer.value.length = count.toNat ∧ a.answer.params = a.answer.value)
    (hon : OnTime b' [] (arrivals.map fun a => (responseWait b.baudRate count.toNat, a.bytes))) :
    ∃ s' xs, callTimes (SyncIter.nextBytes (ε := ReadError)) (arrivals.length + 1) ⟨b', count, arrivals.map (·.answer.id), 0⟩ =
      (s', .ok (xs.map some ++ [none])) ∧ Pairwise₂ Arrival.Gives arrivals xs := by
  obtain ⟨params, wire, -, -, -, k⟩ := afterSend hb.wInv h
  refine arrivals_delivered (syncBytes_iterator ReadError) (syncBytes_onlyReads ReadError) (arrivals := arrivals) (count := fun _ => count.toNat)
    (s := ⟨b', count, arrivals.map (·.answer.id), 0⟩)
    (by simp [syncTodo, Function.comp_def]) k.rinv (by rw [k.baudRate]; exact hbaud) (by rw [k.baudRate]; exact h0)
    (by rw [k.readBuffer]; exact hs) (fun a ha hn he => ?_) (by rw [k.baudRate]; exact hon)
  obtain ⟨h1, h2⟩ := hv a ha hn he
  exact ⟨by rw [h2, h1], fun v hv' => by rw [show v = a.answer.params from hv', h2]⟩

/-- **C91** `bulk_read_bytes` and answers of which some are damaged. -/
theorem c91_bulk_read_bytes {arrivals : List (Arrival (List Byte))} {reads : List BulkReadData} {b b' : Bus} (hb : b.Inv)
    (hbaud : b.baudRate < 2 ^ 32) (h0 : b.baudRate ≠ 0) (h : Client.bulkReadBytes reads b = (b', .ok ()))
    (hreads : reads.map (fun r => (r.motorId, r.count.toNat)) = arrivals.map fun a => (a.answer.id, a.answer.value.length))
    (hs : ∀ a ∈ arrivals, a.Ok b.readBuffer.length)
    (hv : ∀ a ∈ arrivals, a.damage = none → a.answer.error.toNat % 128 = 0 → a.answer.params = a.answer.value)
    (hon : OnTime b' [] (arrivals.map fun a => (responseWait b.baudRate a.answer.value.length, a.bytes))) :
    ∃ s' xs, callTimes (BulkIter.next (ε := ReadError)) (arrivals.length + 1) ⟨b', reads, 0⟩ =
      (s', .ok (xs.map some ++ [none])) ∧ Pairwise₂ Arrival.Gives arrivals xs := by
  unfold Client.bulkReadBytes at h
  split at h
  · cases h
  · obtain ⟨params, wire, -, -, -, k⟩ := afterSend hb.wInv h
    refine arrivals_delivered (bulk_iterator ReadError) (bulk_onlyReads ReadError) (count := fun a => a.value.length) (s := ⟨b', reads, 0⟩)
      (by simpa [bulkTodo] using hreads) k.rinv (by rw [k.baudRate]; exact hbaud) (by rw [k.baudRate]; exact h0)
      (by rw [k.readBuffer]; exact hs) (fun a ha hn he => ?_) (by rw [k.baudRate]; exact hon)
    exact ⟨by rw [hv a ha hn he], fun v hv' => by rw [show v = a.answer.params from hv', hv a ha hn he]⟩

/-- **C91** `scan` and answers to the ping of which some are damaged, with nothing else on the line: one item per answer, and then
the end. -/
theorem c91_scan {arrivals : List (Arrival Client.Ping)} {b b' : Bus} (hb : b.Inv) (hbaud : b.baudRate < 2 ^ 32)
    (h0 : b.baudRate ≠ 0) (hN : 10 ≤ b.readBuffer.length) (h : Client.scan b = (b', .ok ()))
    (hs : ∀ a ∈ arrivals, a.Ok b.readBuffer.length)
    (hv : ∀ a ∈ arrivals, a.damage = none → a.answer.error.toNat % 128 = 0 →
      a.answer.params = le16 a.answer.value.model ++ [a.answer.value.firmware])
    (hon : OnTime b' [] (arrivals.map fun a => (scanWait b.baudRate, a.bytes)))
    (hcalm : Port.Calm b'.serialPort) (hall : allBytes (newInput b.serialPort) = arrivals.flatMap Arrival.bytes)
    (k : Nat) : ∃ c xs, callTimes (Client.scanNext (ε := ReadError)) (arrivals.length + k) b' =
      (c, .ok (xs.map some ++ List.replicate k none)) ∧ Pairwise₂ Arrival.Gives arrivals xs := by
  obtain ⟨params, wire, -, -, -, after⟩ := afterSend hb.wInv h
  have hin := sent_input hb.wInv h
  obtain ⟨pieces, p1, p2, p3, -, p5⟩ := arrival_rounds (Value := IsPing) (count := fun _ => 3) hs (fun a ha hn he => by
    have e := hv a ha hn he
    refine ⟨by simp [e, le16], fun v hv' => ?_⟩
    unfold IsPing at hv'
    rw [e] at hv'
    obtain ⟨e1, e2⟩ := List.append_inj' hv' rfl
    have e1 := le16_inj e1
    simp only [List.cons.injEq, and_true] at e2
    cases hav : a.answer.value
    cases v
    rw [hav] at e1 e2
    simp only at e1 e2
    rw [e1, e2])
  have hbytes : pieces.map (fun r => r.2.bytes) = arrivals.map Arrival.bytes := by
    have := congrArg (List.map (·.2)) (p3 id)
    simpa [Function.comp_def] using this
  obtain ⟨c, xs, h1, h2, h3, h4, h5, h6, h7⟩ := pieces_scanned (pieces.map (·.2)) after.rinv (by rw [after.baudRate]; exact hbaud)
    (by rw [after.baudRate]; exact h0) (by
      intro p hp
      obtain ⟨r, hr, rfl⟩ := List.mem_map.mp hp
      rw [after.readBuffer]
      exact p2 r hr) (by
      have := p3 fun _ => scanWait b.baudRate
      rw [after.baudRate, List.map_map]
      simp only [Function.comp_def]
      rw [this]
      exact hon)
  have hlen : (pieces.map (·.2)).length = arrivals.length := by
    have := congrArg List.length p1
    simpa using this
  have hgives : Pairwise₂ Arrival.Gives arrivals xs := by
    apply p5
    have hc3 : ∀ r ∈ pieces, r.1.2 = 3 := by
      intro r hr
      have : r.1 ∈ arrivals.map fun a => (a.answer.id, 3) := by rw [← p1]; exact List.mem_map_of_mem hr
      obtain ⟨a, -, ha⟩ := List.mem_map.mp this
      rw [← ha]
    clear p1 p2 p3 p5 hbytes h1 h6 hlen
    induction pieces generalizing xs with
    | nil => cases h2; exact .nil
    | cons r l ih =>
      cases h2 with
      | cons hj hr => exact .cons (by rw [hc3 r (by simp)]; exact hj) (ih _ hr fun r' hr' => hc3 r' (by simp [hr']))
  -- nothing is left
  have hdrained : Drained c := by
    refine ⟨h3, h7 hcalm, ?_⟩
    obtain ⟨T₁, e1⟩ := arriving_finally hcalm.2
    obtain ⟨T₂, e2⟩ := arriving_finally (h7 hcalm).2
    have e := h6 (max (max T₁ T₂) c.serialPort.now) (by omega)
    have hflat : (pieces.map (·.2)).flatMap Piece.bytes = arrivals.flatMap Arrival.bytes := by
      rw [List.flatMap_def, List.flatMap_def, List.map_map, ← hbytes]
      rfl
    rw [stream_eq (by omega), stream_eq (by omega), e1 _ (by omega), e2 _ (by omega), hin, hall, hflat] at e
    have := congrArg List.length e
    rw [List.length_append] at this
    exact List.eq_nil_of_length_eq_zero (by omega)
  have hlast : ∀ k, ∃ c', callTimes (Client.scanNext (ε := ReadError)) (arrivals.length + k) b' =
      (c', .ok (xs.map some ++ List.replicate k none)) ∧ Drained c' ∧ Bus.Like b' c' := by
    intro k
    induction k with
    | zero =>
      refine ⟨c, ?_, hdrained, h4⟩
      rw [← hlen, Nat.add_zero, h1, List.replicate_zero, List.append_nil]
    | succ k ih =>
      obtain ⟨c', i1, i2, i3⟩ := ih
      obtain ⟨c'', j1, j2, j3⟩ := drained_none i2 (by rw [i3.baudRate, after.baudRate]; exact hbaud)
        (by rw [i3.baudRate, after.baudRate]; exact h0) (by rw [i3.readSize, after.readBuffer]; exact hN)
      refine ⟨c'', ?_, j2, i3.trans j3⟩
      rw [← Nat.add_assoc, callTimes_snoc _ i1 j1, List.append_assoc, List.replicate_succ']
  obtain ⟨c', e, -, -⟩ := hlast k
  exact ⟨c', xs, e, hgives⟩

/-! ## A concrete case: the devices of C59; one bit of a parameter of the second answer is wrong -/

/-- The last bit of parameter 2 is flipped: FE instead of FF. -/
def bentPacket : List Byte := (frame 2#8 [0x55#8, 0x80#8, 0xFF#8, 0xFF#8, 0xFD#8, 0xFD#8, 0x00#8]).set 10 0xFE#8

def byteArrivals : List (Arrival (List Byte)) := byteAnswers.mapIdx fun i a => ⟨a, if i = 1 then some bentPacket else none⟩

def valueArrivals : List (Arrival (BitVec (8 * 4))) := groupAnswers.mapIdx fun i a => ⟨a, if i = 1 then some bentPacket else none⟩

def bentChunks : List (Nat × List Byte) := (byteArrivals.zip [3000000, 37000000, 71000000]).map fun a => (a.2, a.1.bytes)

def bentClient : Bus :=
  { lineBus [] with serialPort := { quietPort with rx := .data 0 [1#8, 2#8] :: bentChunks.map fun c => .data c.1 c.2 } }

/-- C91: the second item is an error with both checksums, the others are as without the damage. -/
example : (callTimes (SyncIter.nextBytes (ε := ReadError)) 4
      ⟨(Client.syncReadBytes [1#8, 2#8, 9#8] 132#16 4#16 bentClient).1, 4#16, [1#8, 2#8, 9#8], 0⟩).2 =
      .ok [some (.ok ⟨1#8, false, [0x78#8, 0x56#8, 0x34#8, 0x12#8]⟩), some (.error (.invalidMessage (.checksum 0xBC6F#16 0x286C#16))),
        some (.error (.motorError ⟨0x07#8⟩)), none] := by
  decide +kernel

theorem bentClient_inv : bentClient.Inv := by
  refine ⟨?_, ?_⟩
  · constructor <;> simp [bentClient, lineBus]
  · constructor <;> simp [bentClient, lineBus, headerPrefix]

theorem bentPacket_damage : bentPacket.length = (frame 2#8 [0x55#8, 0x80#8, 0xFF#8, 0xFF#8, 0xFD#8, 0xFD#8, 0x00#8]).length ∧
    SameHeader (frame 2#8 [0x55#8, 0x80#8, 0xFF#8, 0xFF#8, 0xFD#8, 0xFD#8, 0x00#8]) bentPacket ∧
    LineDamage (frame 2#8 [0x55#8, 0x80#8, 0xFF#8, 0xFF#8, 0xFD#8, 0xFD#8, 0x00#8]) bentPacket :=
  ⟨by decide +kernel, ⟨by decide +kernel, by decide +kernel⟩, .few (by decide +kernel) (by decide +kernel) (by decide +kernel)⟩

theorem byteArrivals_ok : ∀ a ∈ byteArrivals, a.Ok bentClient.readBuffer.length := by
  have h := byteAnswers_sent
  intro a ha
  simp only [byteArrivals, byteAnswers, groupAnswers, List.map_cons, List.map_nil, List.mapIdx_cons, List.mapIdx_nil, List.mem_cons, List.not_mem_nil, or_false] at ha
  rcases ha with rfl | rfl | rfl
  · exact ⟨h _ (by simp [byteAnswers, groupAnswers]), by simp⟩
  · exact Arrival.ok_of_lineDamage (h _ (by simp [byteAnswers, groupAnswers])) bentPacket_damage.1 bentPacket_damage.2.1 bentPacket_damage.2.2
  · exact ⟨h _ (by simp [byteAnswers, groupAnswers]), by simp⟩

set_option maxRecDepth 10000 in
example := c91_sync_read_bytes (arrivals := byteArrivals) (address := 132#16) (count := 4#16) bentClient_inv (by decide) (by decide)
  (pair_eq (by decide +kernel)) byteArrivals_ok (by decide +kernel)
  (by
    have := onTime_of_spaced (b := (Client.syncReadBytes (byteArrivals.map (·.answer.id)) 132#16 4#16 bentClient).1) (by decide +kernel)
      (bentChunks.map fun c => (c.1, responseWait 57600 4, c.2)) []
      (by decide +kernel) (by refine ⟨?_, ?_, ?_, ?_, ?_, ?_, ?_, ?_, ?_, trivial⟩ <;> decide +kernel)
    exact this)

set_option maxRecDepth 10000 in
example := c91_bulk_read_bytes (arrivals := byteArrivals) (reads := [⟨1#8, 7#16, 4#16⟩, ⟨2#8, 9#16, 4#16⟩, ⟨9#8, 3#16, 0#16⟩])
  bentClient_inv (by decide) (by decide)
  (pair_eq (by decide +kernel)) (by decide +kernel) byteArrivals_ok (by decide +kernel)
  (by
    have := onTime_of_spaced
      (b := (Client.bulkReadBytes [⟨1#8, 7#16, 4#16⟩, ⟨2#8, 9#16, 4#16⟩, ⟨9#8, 3#16, 0#16⟩] bentClient).1) (by decide +kernel)
      ((bentChunks.zip [4, 4, 0]).map fun c => (c.1.1, responseWait 57600 c.2, c.1.2)) []
      (by decide +kernel) (by refine ⟨?_, ?_, ?_, ?_, ?_, ?_, ?_, ?_, ?_, trivial⟩ <;> decide +kernel)
    exact this)

theorem valueArrivals_ok : ∀ a ∈ valueArrivals, a.Ok bentClient.readBuffer.length := by
  have h := groupAnswers_sent
  intro a ha
  simp only [valueArrivals, groupAnswers, List.mapIdx_cons, List.mapIdx_nil, List.mem_cons, List.not_mem_nil, or_false] at ha
  rcases ha with rfl | rfl | rfl
  · exact ⟨h _ (by simp [groupAnswers]), by simp⟩
  · exact Arrival.ok_of_lineDamage (h _ (by simp [groupAnswers])) bentPacket_damage.1 bentPacket_damage.2.1 bentPacket_damage.2.2
  · exact ⟨h _ (by simp [groupAnswers]), by simp⟩

set_option maxRecDepth 10000 in
example := c91_sync_read (d := DataTy.unsigned 4) (valid := fun _ => True) (f := fun v => toLeBytes 4 v.toNat)
  (.unsigned (by decide) _ fun v => littleEndian_iff.mpr rfl)
  (arrivals := valueArrivals) (address := 132#16) bentClient_inv (by decide) (by decide)
  (pair_eq (by decide +kernel)) valueArrivals_ok (by decide +kernel)
  (by
    have := onTime_of_spaced (b := (Client.syncRead (DataTy.unsigned 4) (valueArrivals.map (·.answer.id)) 132#16 bentClient).1)
      (by decide +kernel) (bentChunks.map fun c => (c.1, responseWait 57600 4, c.2)) []
      (by decide +kernel) (by refine ⟨?_, ?_, ?_, ?_, ?_, ?_, ?_, ?_, ?_, trivial⟩ <;> decide +kernel)
    exact this)

/-- A scan: the firmware version in the first answer arrives as 27 instead of 26. -/
def bentPing : List Byte := (frame 3#8 [0x55#8, 0x80#8, 0x06#8, 0x04#8, 0x26#8]).set 11 0x27#8

def pingArrivals : List (Arrival Client.Ping) := pingAnswers.mapIdx fun i a => ⟨a, if i = 0 then some bentPing else none⟩

def bentPingChunks : List (Nat × List Byte) := (pingArrivals.zip [3000000, 90000000]).map fun a => (a.2, a.1.bytes)

def bentPingClient : Bus :=
  { lineBus [] with serialPort := { quietPort with rx := bentPingChunks.map fun c => .data c.1 c.2 } }

example : (callTimes (Client.scanNext (ε := ReadError)) 4 (Client.scan bentPingClient).1).2 =
    .ok [some (.error (.invalidMessage (.checksum 0xFD56#16 0x7D53#16))), some (.error (.motorError ⟨0x01#8⟩)), none, none] := by
  decide +kernel

theorem pingArrivals_ok : ∀ a ∈ pingArrivals, a.Ok bentPingClient.readBuffer.length := by
  have h := pingAnswers_sent
  intro a ha
  simp only [pingArrivals, pingAnswers, List.mapIdx_cons, List.mapIdx_nil, List.mem_cons, List.not_mem_nil, or_false] at ha
  rcases ha with rfl | rfl
  · exact Arrival.ok_of_lineDamage (h _ (by simp [pingAnswers])) (by decide +kernel) ⟨by decide +kernel, by decide +kernel⟩
      (.few (by decide +kernel) (by decide +kernel) (by decide +kernel))
  · exact ⟨h _ (by simp [pingAnswers]), by simp⟩

set_option maxRecDepth 10000 in
example := c91_scan (arrivals := pingArrivals) (b := bentPingClient)
  (by
    refine ⟨?_, ?_⟩
    · constructor <;> simp [bentPingClient, lineBus]
    · constructor <;> simp [bentPingClient, lineBus, headerPrefix])
  (by decide) (by decide) (by decide) (pair_eq (by decide +kernel)) pingArrivals_ok (by decide +kernel)
  (by
    have := onTime_of_spaced (b := (Client.scan bentPingClient).1) (by decide +kernel)
      (bentPingChunks.map fun c => (c.1, scanWait 57600, c.2)) []
      (by decide +kernel) (by refine ⟨?_, ?_, ?_, ?_, ?_, ?_, trivial⟩ <;> decide +kernel)
    exact this)
  (calm_of_data (chunks := bentPingChunks) (by decide +kernel) (by decide +kernel)) (by decide +kernel)

end Dxl.Props
