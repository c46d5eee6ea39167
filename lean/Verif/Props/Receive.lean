import Verif.Lemmas.Frames
import Verif.Props.Checksum
import Verif.Props.Stuffing
import Verif.Props.Send
import Verif.Model.Client

/-! # C12 - C20, C23: receiving packets

`Bus.RInv` (used bytes ≤ read bytes ≤ buffer size) holds in every reachable state: theorems `c22_*` in
`Props/History.lean`. -/

namespace Dxl.Props
open Spec

/-- The stream of bytes a reader with this deadline can get: bytes received earlier but not used yet, followed by the
bytes arriving in time. -/
def stream (deadline : Nat) (b : Bus) : List Byte := b.pending ++ readable deadline b.serialPort

/-- All bytes a reader can ever get. -/
def wholeStream (b : Bus) : List Byte := b.pending ++ allBytes b.serialPort.rx

/-- A packet with this ID, instruction and parameters. -/
def Carries (pkt : Packet) (id instr : Byte) (params : List Byte) : Prop :=
  ∃ x y, pkt.data = header ++ [id, x, y] ++ instr :: params

/-- What the accessors of a packet return. -/
theorem carries_accessors {pkt : Packet} {id instr : Byte} {params : List Byte} (h : Carries pkt id instr params)
    (ε : Type) :
    pkt.packetId (ε := ε) = .ok id ∧ pkt.instructionId (ε := ε) = .ok instr ∧
      (InstructionPacket.mk pkt).parameters (ε := ε) = .ok params ∧
      (∀ e ps, params = e :: ps →
        (StatusPacket.mk pkt).error (ε := ε) = .ok e ∧ (StatusPacket.mk pkt).parameters (ε := ε) = .ok ps) := by
  obtain ⟨x, y, h⟩ := h
  simp only [Packet.packetId, Packet.instructionId, InstructionPacket.parameters, StatusPacket.error,
    StatusPacket.parameters, h]
  refine ⟨rfl, rfl, ?_, ?_⟩
  · rw [sliceFrom_ok (by simp [headerSize, header])]; rfl
  · rintro e ps rfl
    exact ⟨rfl, by rw [sliceFrom_ok (by simp [headerSize, header])]; rfl⟩

theorem unstuffs_ne_nil {wire params : List Byte} {instr : Byte} (h : Unstuffs wire (instr :: params)) : wire ≠ [] := by
  rintro rfl
  rw [unstuffs_iff] at h
  exact absurd h (by simp [codeUnstuff, unstuffGo])

theorem frameOutcome_carries {id instr : Byte} {wire params : List Byte} (h : Unstuffs wire (instr :: params)) :
    ∃ pkt, Bus.frameOutcome (frame id wire) = .ok pkt ∧ Carries pkt id instr params := by
  refine ⟨_, frameOutcome_frame id (unstuffs_ne_nil h), BitVec.setWidth 8 (BitVec.ofNat 16 (wire.length + 2)),
    BitVec.setWidth 8 (BitVec.ofNat 16 (wire.length + 2) >>> 8), ?_⟩
  rw [(unstuffs_iff _ _).mp h]
  simp [le16]

theorem frameOutcome_empty (id : Byte) : Bus.frameOutcome (frame id []) = .panic := by
  unfold frame
  rw [frameOutcome_append _ (by rw [Bus.frameHead_length]; simp), if_neg (by simp), if_pos (by rfl)]

theorem frameOutcome_cases {f : List Byte} (hh : header <+: f) (hl : f.length = 7 + Spec.lengthField f) :
    (∃ m v, f = m ++ le16 v ∧ v ≠ crc 0#16 m ∧
      Bus.frameOutcome f = .err (.invalidMessage (.checksum v (crc 0#16 m)))) ∨
    (∃ id, f = frame id [] ∧ Bus.frameOutcome f = .panic) ∨
    (∃ id wire instr params pkt, f = frame id wire ∧ wire.length + 2 < 2 ^ 16 ∧ Unstuffs wire (instr :: params) ∧
      Carries pkt id instr params ∧ Bus.frameOutcome f = .ok pkt) := by
  by_cases hc : Bus.crcField f ≠ crc 0#16 (f.take (f.length - 2))
  · exact .inl ⟨_, _, frame_split (by omega), hc, by simp [Bus.frameOutcome, hc]⟩
  · have h9 : 9 ≤ f.length := by
      by_cases h8 : f.length ≤ 8
      · exact absurd (Bus.short_frame_bad hh hl h8) hc
      · omega
    obtain ⟨id, wire, rfl, hw⟩ := frame_of_valid hh hl h9 (by simpa using hc)
    right
    match wire with
    | [] => exact .inl ⟨id, rfl, frameOutcome_empty id⟩
    | x :: w =>
      obtain ⟨params, hp⟩ := codeUnstuff_cons x w
      have hu : Unstuffs (x :: w) (x :: params) := (unstuffs_iff _ _).mpr hp
      obtain ⟨pkt, h1, h2⟩ := frameOutcome_carries (id := id) hu
      exact .inr ⟨id, x :: w, x, params, pkt, rfl, hw, hu, h2, h1⟩

/-! ## C13 -/

/-- **C13** The result depends on the stream only, not on how it is split into reads or into buffered and unread bytes:
two readers with the same buffer size and the same stream get the same result and are left with the same stream; or
neither gets anything before its port fails or times out, and both keep the same bytes. -/
theorem c13_chunking_irrelevant {D₁ D₂ : Nat} {b₁ b₂ c₁ c₂ : Bus} {o₁ o₂ : Outcome ReadError Packet} (h₁ : b₁.RInv)
    (h₂ : b₂.RInv) (hN : b₁.readBuffer.length = b₂.readBuffer.length) (hs : stream D₁ b₁ = stream D₂ b₂)
    (e₁ : Bus.readPacketDeadline D₁ b₁ = (c₁, o₁)) (e₂ : Bus.readPacketDeadline D₂ b₂ = (c₂, o₂)) :
    (o₁ = o₂ ∧ stream D₁ c₁ = stream D₂ c₂) ∨
    (o₁ = .err (.io (readEnd D₁ b₁.serialPort)) ∧ o₂ = .err (.io (readEnd D₂ b₂.serialPort)) ∧
      c₁.pending = c₂.pending) := by
  by_cases hsize : 10 ≤ b₁.readBuffer.length
  · obtain ⟨c, o, h, -, -, -, hm⟩ := Bus.readPacketDeadline_stream D₁ h₁ hsize
    obtain ⟨c', o', h', -, -, -, hm'⟩ := Bus.readPacketDeadline_stream D₂ h₂ (hN ▸ hsize)
    rw [e₁] at h
    rw [e₂] at h'
    simp only [Prod.mk.injEq] at h h'
    obtain ⟨rfl, rfl⟩ := h
    obtain ⟨rfl, rfl⟩ := h'
    unfold stream at hs ⊢
    rw [← hN, ← hs] at hm'
    cases hp : parse b₁.readBuffer.length (b₁.pending ++ readable D₁ b₁.serialPort) with
    | packet f rest =>
      rw [hp] at hm hm'
      exact .inl ⟨hm.1.trans hm'.1.symm, hm.2.1.trans hm'.2.1.symm⟩
    | tooBig req rest =>
      rw [hp] at hm hm'
      exact .inl ⟨hm.1.trans hm'.1.symm, hm.2.1.trans hm'.2.1.symm⟩
    | more =>
      rw [hp] at hm hm'
      exact .inr ⟨hm.1, hm'.1, hm.2.1.trans hm'.2.1.symm⟩
  · rw [Bus.readPacketDeadline_small D₁ (by omega)] at e₁
    rw [Bus.readPacketDeadline_small D₂ (by omega)] at e₂
    simp only [Prod.mk.injEq] at e₁ e₂
    obtain ⟨rfl, rfl⟩ := e₁
    obtain ⟨rfl, rfl⟩ := e₂
    exact .inl ⟨by rw [hN], hs⟩

/-- **C13** Nor does it depend on time: two readers with the same buffer size and the same bytes still to come, however
interrupted by time-outs and read errors, get the same result if neither call is ended by such an interruption. -/
theorem c13_timing_irrelevant {D₁ D₂ : Nat} {b₁ b₂ c₁ c₂ : Bus} {o₁ o₂ : Outcome ReadError Packet} (h₁ : b₁.RInv)
    (h₂ : b₂.RInv) (hN : b₁.readBuffer.length = b₂.readBuffer.length) (hs : wholeStream b₁ = wholeStream b₂)
    (e₁ : Bus.readPacketDeadline D₁ b₁ = (c₁, o₁)) (e₂ : Bus.readPacketDeadline D₂ b₂ = (c₂, o₂))
    (n₁ : ∀ e, o₁ ≠ .err (.io e)) (n₂ : ∀ e, o₂ ≠ .err (.io e)) : o₁ = o₂ ∧ wholeStream c₁ = wholeStream c₂ := by
  by_cases hsize : 10 ≤ b₁.readBuffer.length
  · obtain ⟨c, o, h, -, -, hm⟩ := Bus.readPacketDeadline_all D₁ h₁ hsize
    obtain ⟨c', o', h', -, -, hm'⟩ := Bus.readPacketDeadline_all D₂ h₂ (hN ▸ hsize)
    rw [e₁] at h
    rw [e₂] at h'
    simp only [Prod.mk.injEq] at h h'
    obtain ⟨rfl, rfl⟩ := h
    obtain ⟨rfl, rfl⟩ := h'
    unfold wholeStream at hs ⊢
    rw [← hN, ← hs] at hm'
    rcases hm with ⟨e, he, _⟩ | ⟨f, hf, ho⟩ | ⟨req, hf, ho⟩
    · exact absurd he (n₁ e)
    · rcases hm' with ⟨e, he, _⟩ | ⟨f', hf', ho'⟩ | ⟨req', hf', ho'⟩
      · exact absurd he (n₂ e)
      · rw [hf] at hf'
        simp only [Parsed.packet.injEq] at hf'
        exact ⟨by rw [ho, ho', hf'.1], hf'.2⟩
      · rw [hf] at hf'; simp at hf'
    · rcases hm' with ⟨e, he, _⟩ | ⟨f', hf', ho'⟩ | ⟨req', hf', ho'⟩
      · exact absurd he (n₂ e)
      · rw [hf] at hf'; simp at hf'
      · rw [hf] at hf'
        simp only [Parsed.tooBig.injEq] at hf'
        exact ⟨by rw [ho, ho', hf'.1], hf'.2⟩
  · rw [Bus.readPacketDeadline_small D₁ (by omega)] at e₁
    rw [Bus.readPacketDeadline_small D₂ (by omega)] at e₂
    simp only [Prod.mk.injEq] at e₁ e₂
    obtain ⟨rfl, rfl⟩ := e₁
    obtain ⟨rfl, rfl⟩ := e₂
    exact ⟨by rw [hN], hs⟩

/-! ## C14 -/

/-- Where a packet at the front of the stream leads. -/
theorem read_front {D : Nat} {b c : Bus} {o : Outcome ReadError Packet} {f rest : List Byte} (hb : b.RInv)
    (hN : 10 ≤ b.readBuffer.length) (hp : parse b.readBuffer.length (stream D b) = .packet f rest)
    (e : Bus.readPacketDeadline D b = (c, o)) : o = Bus.frameOutcome f ∧ stream D c = rest := by
  obtain ⟨c', o', h, -, -, -, hm⟩ := Bus.readPacketDeadline_stream D hb hN
  rw [e] at h
  simp only [Prod.mk.injEq] at h
  obtain ⟨rfl, rfl⟩ := h
  rw [stream] at hp
  rw [hp] at hm
  exact ⟨hm.1, hm.2.1⟩

/-- **C14** If garbage without the header prefix, then a packet that fits the read buffer, are to be received in time,
the packet is returned, and everything after it is kept. -/
theorem c14_packet_after_garbage {D : Nat} {b c : Bus} {o : Outcome ReadError Packet} {g wire rest : List Byte}
    {id instr : Byte} {params : List Byte} (hb : b.RInv) (hg : ¬ header <:+: g) (hlen : wire.length + 2 < 2 ^ 16)
    (hfit : (frame id wire).length ≤ b.readBuffer.length) (hw : Unstuffs wire (instr :: params))
    (hs : stream D b = g ++ frame id wire ++ rest) (e : Bus.readPacketDeadline D b = (c, o)) :
    ∃ pkt, o = .ok pkt ∧ Carries pkt id instr params ∧ stream D c = rest := by
  have hne := unstuffs_ne_nil hw
  have hl := Bus.frame_length id wire
  have : 0 < wire.length := List.length_pos_iff.mpr hne
  obtain ⟨ho, hr⟩ := read_front hb (by omega)
    (by rw [hs, List.append_assoc]; exact parse_good_frame id hg hlen hfit) e
  obtain ⟨pkt, h1, h2⟩ := frameOutcome_carries (id := id) hw
  exact ⟨pkt, ho.trans h1, h2, hr⟩

/-- **C14** Garbage makes no difference: in front of any packet header, it does not change the result nor the rest of the
stream. -/
theorem c14_garbage_irrelevant {D : Nat} {b₁ b₂ c₁ c₂ : Bus} {o₁ o₂ : Outcome ReadError Packet} {g s : List Byte}
    (h₁ : b₁.RInv) (h₂ : b₂.RInv) (hN : b₁.readBuffer.length = b₂.readBuffer.length) (hg : ¬ header <:+: g)
    (hh : header <+: s) (hs₁ : stream D b₁ = s) (hs₂ : stream D b₂ = g ++ s)
    (e₁ : Bus.readPacketDeadline D b₁ = (c₁, o₁)) (e₂ : Bus.readPacketDeadline D b₂ = (c₂, o₂))
    (n₁ : ∀ e, o₁ ≠ .err (.io e)) (hsize : 10 ≤ b₁.readBuffer.length) : o₂ = o₁ ∧ stream D c₂ = stream D c₁ := by
  obtain ⟨c, o, h, -, -, -, hm⟩ := Bus.readPacketDeadline_stream D h₁ hsize
  obtain ⟨c', o', h', -, -, -, hm'⟩ := Bus.readPacketDeadline_stream D h₂ (hN ▸ hsize)
  rw [e₁] at h
  rw [e₂] at h'
  simp only [Prod.mk.injEq] at h h'
  obtain ⟨rfl, rfl⟩ := h
  obtain ⟨rfl, rfl⟩ := h'
  unfold stream at hs₁ hs₂ ⊢
  rw [← hN, hs₂, ← parse_skip, skip_garbage hg hh] at hm'
  rw [hs₁] at hm
  cases hp : parse b₁.readBuffer.length s with
  | packet f rest =>
    rw [hp] at hm hm'
    exact ⟨hm'.1.trans hm.1.symm, hm'.2.1.trans hm.2.1.symm⟩
  | tooBig req rest =>
    rw [hp] at hm hm'
    exact ⟨hm'.1.trans hm.1.symm, hm'.2.1.trans hm.2.1.symm⟩
  | more =>
    rw [hp] at hm
    exact absurd hm.1 (n₁ _)

/-! ## C15 -/

/-- A packet on the wire with the garbage before it, and what it carries. -/
structure Item where
  garbage : List Byte
  id : Byte
  wire : List Byte
  instr : Byte
  params : List Byte

/-- The item is well-formed, and its packet fits a buffer of `size` bytes. -/
structure Item.Ok (size : Nat) (i : Item) : Prop where
  garbage : ¬ header <:+: i.garbage
  length : i.wire.length + 2 < 2 ^ 16
  fits : (frame i.id i.wire).length ≤ size
  body : Unstuffs i.wire (i.instr :: i.params)

/-- The bytes of a sequence of items. -/
def itemBytes (items : List Item) : List Byte := items.flatMap fun i => i.garbage ++ frame i.id i.wire

/-- Call `read_packet_deadline` with each of the deadlines; returns all results. -/
def readAll : List Nat → Bus → Bus × List (Outcome ReadError Packet)
  | [], b => (b, [])
  | D :: Ds, b =>
    let r := Bus.readPacketDeadline D b
    let q := readAll Ds r.1
    (q.1, r.2 :: q.2)

/-- The results are exactly these packets, in order. -/
def Delivered : List (Outcome ReadError Packet) → List Item → Prop
  | [], [] => True
  | o :: os, i :: is => (∃ pkt, o = .ok pkt ∧ Carries pkt i.id i.instr i.params) ∧ Delivered os is
  | _, _ => False

/-- **C15** If a sequence of packets, separated by garbage, is to be received in time, then as many calls return exactly
these packets in order, whatever the chunking; and one more call reports the end of the input. -/
theorem c15_in_order_once_each (D : Nat) (items : List Item) (trailing : List Byte) (ht : ¬ header <:+: trailing) :
    ∀ b : Bus, b.RInv → 10 ≤ b.readBuffer.length → (∀ i ∈ items, i.Ok b.readBuffer.length) →
      stream D b = itemBytes items ++ trailing →
      let r := readAll (List.replicate items.length D) b
      Delivered r.2 items ∧ stream D r.1 = trailing ∧
        (Bus.readPacketDeadline D r.1).2 = .err (.io (readEnd D b.serialPort)) := by
  induction items with
  | nil =>
    intro b hb hN _ hs
    refine ⟨trivial, by simpa [readAll, itemBytes] using hs, ?_⟩
    obtain ⟨c, o, h, -, -, -, hm⟩ := Bus.readPacketDeadline_stream D hb hN
    simp only [itemBytes, List.flatMap_nil, List.nil_append] at hs
    rw [stream] at hs
    rw [hs, parse_garbage ht] at hm
    simp only [readAll, List.replicate, List.length_nil]
    rw [h]
    exact hm.1
  | cons i items ih =>
    intro b hb hN hok hs
    obtain ⟨c, o, h, hlike, hrinv, -, hm⟩ := Bus.readPacketDeadline_stream D hb hN
    have hi := hok i (List.mem_cons_self ..)
    have hs' : stream D b = i.garbage ++ frame i.id i.wire ++ (itemBytes items ++ trailing) := by
      rw [hs]; simp [itemBytes]
    obtain ⟨pkt, rfl, hp, hr⟩ := c14_packet_after_garbage hb hi.garbage hi.length hi.fits hi.body hs' h
    have := ih c hrinv (by rw [hlike.readSize]; exact hN)
      (fun j hj => by rw [hlike.readSize]; exact hok j (List.mem_cons_of_mem _ hj)) hr
    have hend : readEnd D c.serialPort = readEnd D b.serialPort := by
      rw [stream] at hs'
      rw [hs', List.append_assoc, parse_good_frame i.id hi.garbage hi.length hi.fits] at hm
      exact hm.2.2.1
    rw [hend] at this
    simp only [List.length_cons, List.replicate_succ, readAll, h]
    exact ⟨⟨⟨pkt, rfl, hp⟩, this.1⟩, this.2⟩

/-- Results that are not time-outs or read errors. -/
def received (outs : List (Outcome ReadError Packet)) : List (Outcome ReadError Packet) :=
  outs.filter fun o => match o with
    | .err (.io _) => false
    | _ => true

theorem skip_eq_parse {cap : Nat} {s s' : List Byte} (h : skip s = skip s') : parse cap s = parse cap s' := by
  rw [← parse_skip, h, parse_skip]

/-- **C15** With any deadlines, and with time-outs and read errors at any time, in particular in the middle of a packet:
the packets returned are the first so many packets of the stream, in order, none lost and none duplicated, and the
following ones are still to be received. -/
theorem c15_interruptions (Ds : List Nat) (trailing : List Byte) (ht : ¬ header <:+: trailing) :
    ∀ (b : Bus) (items : List Item), b.RInv → 10 ≤ b.readBuffer.length → (∀ i ∈ items, i.Ok b.readBuffer.length) →
      skip (wholeStream b) = skip (itemBytes items ++ trailing) →
      let r := readAll Ds b
      ∃ k, k ≤ items.length ∧ Delivered (received r.2) (items.take k) ∧
        skip (wholeStream r.1) = skip (itemBytes (items.drop k) ++ trailing) := by
  induction Ds with
  | nil => intro b items _ _ _ hs; exact ⟨0, by omega, trivial, hs⟩
  | cons D Ds ih =>
    intro b items hb hN hok hs
    obtain ⟨c, o, h, hlike, hrinv, hm⟩ := Bus.readPacketDeadline_all D hb hN
    have hparse := skip_eq_parse (cap := b.readBuffer.length) hs
    rw [wholeStream] at hs hparse
    simp only [readAll, h]
    rcases hm with ⟨e, rfl, hsk⟩ | ⟨f, hf, rfl⟩ | ⟨req, hf, rfl⟩
    · exact ih c items hrinv (by rw [hlike.readSize]; exact hN) (by rw [hlike.readSize]; exact hok) (hsk.trans hs)
    · rw [hf] at hparse
      match items with
      | [] =>
        rw [itemBytes, List.flatMap_nil, List.nil_append, parse_garbage ht] at hparse
        simp at hparse
      | i :: items =>
        have hi := hok i (List.mem_cons_self ..)
        have hs' : itemBytes (i :: items) ++ trailing
            = i.garbage ++ (frame i.id i.wire ++ (itemBytes items ++ trailing)) := by
          simp [itemBytes]
        rw [hs', parse_good_frame i.id hi.garbage hi.length hi.fits] at hparse
        simp only [Parsed.packet.injEq] at hparse
        obtain ⟨rfl, hrest⟩ := hparse
        obtain ⟨k, hk, hd, hsk⟩ := ih c items hrinv (by rw [hlike.readSize]; exact hN)
          (fun j hj => by rw [hlike.readSize]; exact hok j (List.mem_cons_of_mem _ hj))
          (by rw [wholeStream, hrest])
        obtain ⟨pkt, h1, h2⟩ := frameOutcome_carries (id := i.id) hi.body
        refine ⟨k + 1, by simp; omega, ?_, hsk⟩
        rw [h1]
        simp only [received, List.filter_cons_of_pos, List.take_succ_cons]
        exact ⟨⟨pkt, rfl, h2⟩, hd⟩
    · rw [hf] at hparse
      match items with
      | [] =>
        rw [itemBytes, List.flatMap_nil, List.nil_append, parse_garbage ht] at hparse
        simp at hparse
      | i :: items =>
        have hi := hok i (List.mem_cons_self ..)
        have hs' : itemBytes (i :: items) ++ trailing
            = i.garbage ++ (frame i.id i.wire ++ (itemBytes items ++ trailing)) := by
          simp [itemBytes]
        rw [hs', parse_good_frame i.id hi.garbage hi.length hi.fits] at hparse
        simp at hparse

/-! ## C16 -/

/-- **C16** Whatever is returned is the first packet of the stream, and it has a valid CRC. -/
theorem c16_returned_is_valid {D : Nat} {b c : Bus} {pkt : Packet} (hb : b.RInv)
    (e : Bus.readPacketDeadline D b = (c, .ok pkt)) :
    ∃ g id wire instr params rest, stream D b = g ++ frame id wire ++ rest ∧ ¬ header <:+: g ∧
      wire.length + 2 < 2 ^ 16 ∧ (frame id wire).length ≤ b.readBuffer.length ∧ Unstuffs wire (instr :: params) ∧
      Carries pkt id instr params ∧ stream D c = rest := by
  by_cases hN : 10 ≤ b.readBuffer.length
  · obtain ⟨c', o', h, -, -, -, hm⟩ := Bus.readPacketDeadline_stream D hb hN
    rw [e] at h
    simp only [Prod.mk.injEq] at h
    obtain ⟨rfl, rfl⟩ := h
    change match parse b.readBuffer.length (stream D b) with
      | .packet f rest => _ | .tooBig req rest => _ | .more => _ at hm
    cases hp : parse b.readBuffer.length (stream D b) with
    | packet f rest =>
      rw [hp] at hm
      simp only at hm
      obtain ⟨hsk, hh, hl, hle, _⟩ := parse_packet hp
      obtain ⟨g, hg, hgh⟩ := skip_split (stream D b)
      rw [hsk, ← List.append_assoc] at hg
      rcases frameOutcome_cases hh hl with ⟨m, v, _, _, h⟩ | ⟨_, _, h⟩ | ⟨id, wire, instr, params, pkt', rfl, h1, h2, h3, h⟩
      · rw [h] at hm; simp at hm
      · rw [h] at hm; simp at hm
      · rw [h] at hm
        simp only [Outcome.ok.injEq] at hm
        exact ⟨g, id, wire, instr, params, rest, hg, hgh, h1, hle, h2, by rw [hm.1]; exact h3, hm.2.1⟩
    | tooBig req rest => rw [hp] at hm; simp at hm
    | more => rw [hp] at hm; simp at hm
  · rw [Bus.readPacketDeadline_small D (by omega)] at e
    simp at e

/-- **C16** A frame whose CRC does not match is reported with both checksums, and exactly the frame (and the garbage
before it) is dropped. -/
theorem c16_bad_crc_reported {D : Nat} {b c : Bus} {o : Outcome ReadError Packet} {g m rest : List Byte} {v : U16}
    (hb : b.RInv) (hN : 10 ≤ b.readBuffer.length) (hg : ¬ header <:+: g) (hm : header <+: m)
    (hlen : m.length + 2 = 7 + Spec.lengthField m) (hfit : m.length + 2 ≤ b.readBuffer.length) (hv : v ≠ crc 0#16 m)
    (hs : stream D b = g ++ (m ++ le16 v) ++ rest) (h7 : 7 ≤ m.length)
    (e : Bus.readPacketDeadline D b = (c, o)) :
    o = .err (.invalidMessage (.checksum v (crc 0#16 m))) ∧ stream D c = rest := by
  have hl : (m ++ le16 v).length = m.length + 2 := by simp [le16]
  have hf : Spec.lengthField (m ++ le16 v) = Spec.lengthField m := lengthField_append h7
  obtain ⟨ho, hr⟩ := read_front hb hN
    (by rw [hs, List.append_assoc]
        exact parse_frame hg (hm.trans (List.prefix_append _ _)) (by rw [hl, hf, hlen]) (by omega)
          (by simp only [List.length_append, le16_length] at hl ⊢; omega)) e
  rw [frameOutcome_append _ h7, if_pos hv] at ho
  exact ⟨ho, hr⟩

/-- A change of message `m` with CRC field `v` into `m'`, `v'` by one of the error patterns of C02: an odd number of bits
anywhere, a burst of at most 16 bits in the message, or two bits of the message less than 32767 positions apart. -/
inductive Corrupted (m : List Byte) (v : U16) (m' : List Byte) (v' : U16) : Prop
  | odd (h : (diff (bits (m ++ le16 v)) (bits (m' ++ le16 v'))).count true % 2 = 1)
  | burst (a b : Nat) (w : List Bool) (hw : w.length ≤ 16) (hne : true ∈ w) (hv : v' = v)
      (h : diff (bits m) (bits m') = List.replicate a false ++ w ++ List.replicate b false)
  | two (a d b : Nat) (hd : d + 1 < 32767) (hv : v' = v)
      (h : diff (bits m) (bits m') =
        List.replicate a false ++ [true] ++ List.replicate d false ++ [true] ++ List.replicate b false)

/-- Header prefix and length field are intact. -/
def SameHeader (m m' : List Byte) : Prop := m'.take 4 = m.take 4 ∧ (m'.take 7).drop 5 = (m.take 7).drop 5

theorem corrupted_crc {m m' : List Byte} {v' : U16} (hlen : m.length = m'.length)
    (h : Corrupted m (crc 0#16 m) m' v') : v' ≠ crc 0#16 m' := by
  intro hv
  have h1 : Accepted m (crc 0#16 m) := c01_checksum_is_crc16 0#16 m
  have h2 : Accepted m' v' := by rw [hv]; exact c01_checksum_is_crc16 0#16 m'
  cases h with
  | odd h => exact c02_odd_errors_detected m m' _ _ hlen h ⟨h1, h2⟩
  | burst a b w hw hne hv' h => subst hv'; exact c02_bursts_detected m m' _ hlen a b w hw hne h ⟨h1, h2⟩
  | two a d b hd hv' h => subst hv'; exact c02_two_bit_errors_detected m m' _ hlen a d b hd h ⟨h1, h2⟩

theorem sameHeader_spec {id : Byte} {wire m' : List Byte} (hl : m'.length = (frameHead id wire).length)
    (hlen : wire.length + 2 < 2 ^ 16) (h : SameHeader (frameHead id wire) m') :
    header <+: m' ∧ m'.length + 2 = 7 + Spec.lengthField m' ∧ 7 ≤ m'.length := by
  have hfl := Bus.frameHead_length id wire
  obtain ⟨h1, h2⟩ := h
  have h7 : 7 ≤ m'.length := by omega
  match m', h7 with
  | x0 :: x1 :: x2 :: x3 :: x4 :: x5 :: x6 :: r, _ =>
    have e1 : (frameHead id wire).take 4 = header := by simp [frameHead, header]
    have e2 : ((frameHead id wire).take 7).drop 5 = le16 (BitVec.ofNat 16 (wire.length + 2)) := by
      simp [frameHead, header, le16]
    rw [e1] at h1
    rw [e2] at h2
    have hx : [x5, x6] = le16 (BitVec.ofNat 16 (wire.length + 2)) := h2
    refine ⟨⟨x4 :: x5 :: x6 :: r, ?_⟩, ?_, by simp⟩
    · rw [← h1]; rfl
    · have h3 := readU16Le_le16 (ε := Empty) (BitVec.ofNat 16 (wire.length + 2)) []
      rw [List.append_nil, ← hx, readU16Le_cons] at h3
      have h4 := congrArg (fun o : Outcome Empty U16 => match o with | .ok v => v.toNat | _ => 0) h3
      simp only [mk16_toNat, BitVec.toNat_ofNat] at h4
      have h5 : Spec.lengthField (x0 :: x1 :: x2 :: x3 :: x4 :: x5 :: x6 :: r) = x5.toNat + 256 * x6.toNat := rfl
      rw [h5, h4, hl, hfl]
      omega

/-- **C16** A packet corrupted in transit (header prefix and length field intact, errors in one of the classes of C02) is
never returned: it is reported as a checksum error. Just the packet is dropped: the packet after it, possibly with more
garbage in front, is returned by the next call. -/
theorem c16_corrupted_packet {D : Nat} {b c c₂ : Bus} {o o₂ : Outcome ReadError Packet} {g g₂ wire m' rest : List Byte}
    {id : Byte} {v' : U16} {id₂ instr₂ : Byte} {wire₂ params₂ : List Byte} (hb : b.RInv) (hg : ¬ header <:+: g)
    (hlen : wire.length + 2 < 2 ^ 16) (hne : wire ≠ []) (hfit : (frame id wire).length ≤ b.readBuffer.length)
    (hl : m'.length = (frameHead id wire).length) (hh : SameHeader (frameHead id wire) m')
    (hc : Corrupted (frameHead id wire) (crc 0#16 (frameHead id wire)) m' v')
    (hg₂ : ¬ header <:+: g₂) (hlen₂ : wire₂.length + 2 < 2 ^ 16)
    (hfit₂ : (frame id₂ wire₂).length ≤ b.readBuffer.length) (hw₂ : Unstuffs wire₂ (instr₂ :: params₂))
    (hs : stream D b = g ++ (m' ++ le16 v') ++ (g₂ ++ frame id₂ wire₂ ++ rest))
    (e : Bus.readPacketDeadline D b = (c, o)) (e₂ : Bus.readPacketDeadline D c = (c₂, o₂)) :
    o = .err (.invalidMessage (.checksum v' (crc 0#16 m'))) ∧
    ∃ pkt, o₂ = .ok pkt ∧ Carries pkt id₂ instr₂ params₂ ∧ stream D c₂ = rest := by
  have hpos : 0 < wire.length := List.length_pos_iff.mpr hne
  obtain ⟨h1, h2, h3⟩ := sameHeader_spec hl hlen hh
  have hfl := Bus.frameHead_length id wire
  have hfl' := Bus.frame_length id wire
  have hN : 10 ≤ b.readBuffer.length := by omega
  obtain ⟨ho, hr⟩ := c16_bad_crc_reported hb hN hg h1 h2 (by omega) (corrupted_crc hl.symm hc) hs h3 e
  refine ⟨ho, ?_⟩
  obtain ⟨c', o', h, hlike, hrinv, -, -⟩ := Bus.readPacketDeadline_stream D hb hN
  rw [e] at h
  simp only [Prod.mk.injEq] at h
  obtain ⟨rfl, rfl⟩ := h
  exact c14_packet_after_garbage hrinv hg₂ hlen₂ (by rw [hlike.readSize]; exact hfit₂) hw₂ hr e₂

/-! ## C17 -/

/-- **C17** A header announcing a packet that is larger than the read buffer is reported with the right sizes as soon as
one more byte is there; just that header is dropped. -/
theorem c17_too_big_reported {D : Nat} {b c : Bus} {o : Outcome ReadError Packet} {g hd rest : List Byte}
    (hb : b.RInv) (hN : 10 ≤ b.readBuffer.length) (hg : ¬ header <:+: g) (hh : header <+: hd) (h7 : hd.length = 7)
    (hbig : b.readBuffer.length < 7 + Spec.lengthField hd) (hrest : rest ≠ []) (hs : stream D b = g ++ hd ++ rest)
    (e : Bus.readPacketDeadline D b = (c, o)) :
    o = .err (.bufferFull ⟨7 + Spec.lengthField hd, b.readBuffer.length⟩) ∧ stream D c = rest ∧ c.RInv ∧
      c.readBuffer.length = b.readBuffer.length := by
  obtain ⟨c', o', h, hlike, hrinv, -, hm⟩ := Bus.readPacketDeadline_stream D hb hN
  rw [e] at h
  simp only [Prod.mk.injEq] at h
  obtain ⟨rfl, rfl⟩ := h
  rw [stream, List.append_assoc] at hs
  rw [hs, parse_big hg hh h7 hbig hrest] at hm
  exact ⟨hm.1, hm.2.1, hrinv, hlike.readSize⟩

/-- **C17** The remains of the large packet are skipped like any garbage, and the packet after it is received. -/
theorem c17_next_packet {D : Nat} {b c c₂ : Bus} {o o₂ : Outcome ReadError Packet} {g hd body wire rest : List Byte}
    {id instr : Byte} {params : List Byte}
    (hb : b.RInv) (hg : ¬ header <:+: g) (hh : header <+: hd) (h7 : hd.length = 7)
    (hbig : b.readBuffer.length < 7 + Spec.lengthField hd) (hbody : ¬ header <:+: body)
    (hlen : wire.length + 2 < 2 ^ 16) (hfit : (frame id wire).length ≤ b.readBuffer.length)
    (hw : Unstuffs wire (instr :: params)) (hs : stream D b = g ++ hd ++ (body ++ frame id wire ++ rest))
    (e : Bus.readPacketDeadline D b = (c, o)) (e₂ : Bus.readPacketDeadline D c = (c₂, o₂)) :
    o = .err (.bufferFull ⟨7 + Spec.lengthField hd, b.readBuffer.length⟩) ∧
    ∃ pkt, o₂ = .ok pkt ∧ Carries pkt id instr params ∧ stream D c₂ = rest := by
  have hl := Bus.frame_length id wire
  have hne := unstuffs_ne_nil hw
  have : 0 < wire.length := List.length_pos_iff.mpr hne
  obtain ⟨ho, hr, hrinv, hsize⟩ := c17_too_big_reported hb (by omega) hg hh h7 hbig
    (by intro h; have := congrArg List.length h; simp [hl] at this) hs e
  exact ⟨ho, c14_packet_after_garbage hrinv hbody hlen (by rw [hsize]; exact hfit) hw hr e₂⟩

/-- **C17** A read buffer of less than 10 bytes holds no packet at all: that is reported by every call, without reading
anything. -/
theorem c17_tiny_buffer (D : Nat) {b : Bus} (h : b.readBuffer.length < 10) :
    Bus.readPacketDeadline D b = (b, .err (.bufferFull ⟨10, b.readBuffer.length⟩)) :=
  Bus.readPacketDeadline_small D h

/-! ## C18 -/

/-- The full claim C18 for the functions of this file. -/
def C18_statement : Prop :=
  ∀ (b : Bus) (D : Nat), b.RInv →
    (Bus.readPacketDeadline D b).2 ≠ .panic ∧ (Client.readStatusResponseTimeout D b).2 ≠ .panic

/-- **C18** (partial: the English claim is that there is no such case) Reading a packet panics exactly if the first packet
of the stream has no body (length field 2) and a valid CRC. -/
theorem c18_read_panics_iff_partial {D : Nat} {b : Bus} (hb : b.RInv) :
    (Bus.readPacketDeadline D b).2 = .panic ↔
      10 ≤ b.readBuffer.length ∧
      ∃ g id rest, ¬ header <:+: g ∧ stream D b = g ++ frame id [] ++ rest := by
  by_cases hN : 10 ≤ b.readBuffer.length
  · obtain ⟨c, o, h, -, -, -, hm⟩ := Bus.readPacketDeadline_stream D hb hN
    rw [h]
    change o = .panic ↔ _
    constructor
    · intro ho
      refine ⟨hN, ?_⟩
      change match parse b.readBuffer.length (stream D b) with
        | .packet f rest => _ | .tooBig req rest => _ | .more => _ at hm
      cases hp : parse b.readBuffer.length (stream D b) with
      | packet f rest =>
        rw [hp] at hm
        simp only at hm
        obtain ⟨hsk, hh, hl, _, _⟩ := parse_packet hp
        obtain ⟨g, hg, hgh⟩ := skip_split (stream D b)
        rw [hsk, ← List.append_assoc] at hg
        rcases frameOutcome_cases hh hl with ⟨m, v, _, _, h'⟩ | ⟨id, rfl, _⟩ | ⟨_, _, _, _, _, _, _, _, _, h'⟩
        · rw [h', ho] at hm; simp at hm
        · exact ⟨g, id, rest, hgh, hg⟩
        · rw [h', ho] at hm; simp at hm
      | tooBig req rest => rw [hp, ho] at hm; simp at hm
      | more => rw [hp, ho] at hm; simp at hm
    · rintro ⟨-, g, id, rest, hg, hs⟩
      have hp := parse_good_frame (cap := b.readBuffer.length) (wire := []) (rest := rest) id hg (by decide)
        (by rw [Bus.frame_length]; simp; omega)
      rw [stream, List.append_assoc] at hs
      rw [hs, hp] at hm
      rw [hm.1, frameOutcome_empty]
  · rw [Bus.readPacketDeadline_small D (by omega)]
    simp only [reduceCtorEq, false_iff, not_and]
    omega

/-- A port on which these bytes arrive at time 0. -/
def portWith (bytes : List Byte) : Port := { quietPort with rx := [.data 0 bytes] }

/-- A fresh bus on that port. -/
def busWith (bytes : List Byte) : Bus := { quietBus true 40 with serialPort := portWith bytes }

theorem busWith_rInv (bytes : List Byte) : (busWith bytes).RInv := by
  constructor <;> simp [busWith, quietBus]

/-- What the client makes of a packet. -/
theorem checkStatus_carries {pkt : Packet} {id instr : Byte} {params : List Byte} (h : Carries pkt id instr params) :
    Client.checkStatus pkt =
      if instr = 0x55#8 then
        match params with
        | [] => .panic
        | e :: _ => if e &&& 0x7F#8 = 0#8 then .ok ⟨pkt⟩ else .err (.motorError ⟨e⟩)
      else .err (.invalidMessage (.instruction instr 0x55#8)) := by
  obtain ⟨-, hi, -, hs⟩ := carries_accessors h ReadError
  unfold Client.checkStatus Packet.asStatus
  rw [hi]
  by_cases h55 : instr = 0x55#8
  · subst h55
    match params with
    | [] =>
      obtain ⟨x, y, hd⟩ := h
      simp [InstructionId.status, StatusPacket.error, hd, header, idx]
    | e :: ps =>
      have := (hs e ps rfl).1
      simp only [InstructionId.status, Outcome.ok_bind, Outcome.pure_eq, if_true, this, MotorError.check]
      have : ~~~(0x80#8) = 0x7F#8 := by decide
      rw [this]
      split <;> rfl
  · simp [InstructionId.status, h55]

theorem unstuffs_singleton {wire : List Byte} {x : Byte} : Unstuffs wire [x] ↔ wire = [x] := by
  rw [unstuffs_iff]
  constructor
  · intro h
    match wire with
    | [] => simp [codeUnstuff, unstuffGo] at h
    | [y] =>
      obtain ⟨d, hd⟩ := codeUnstuff_cons y []
      rw [h] at hd
      simp at hd
      rw [hd.1]
    | y :: z :: w =>
      obtain ⟨d, hd⟩ := codeUnstuff_two y z w
      rw [h] at hd
      simp at hd
  · rintro rfl
    obtain ⟨d, hd⟩ := codeUnstuff_cons x []
    have := unstuffGo_length [x] 0
    rw [← codeUnstuff, hd] at this
    simp at this
    rw [hd, this]

/-- **C18** (partial: the English claim is that there is no such case) Waiting for a status response panics exactly if the
first packet of the stream is one of those, or a status packet without an error byte (length field 3), with a valid CRC. -/
theorem c18_status_panics_iff_partial {timeout : Nat} {b : Bus} (hb : b.RInv) :
    (Client.readStatusResponseTimeout timeout b).2 = .panic ↔
      10 ≤ b.readBuffer.length ∧
      ∃ g id rest, ¬ header <:+: g ∧ (stream (b.serialPort.now + timeout) b = g ++ frame id [] ++ rest ∨
        stream (b.serialPort.now + timeout) b = g ++ frame id [0x55#8] ++ rest) := by
  have hread := c18_read_panics_iff_partial (D := b.serialPort.now + timeout) hb
  unfold Client.readStatusResponseTimeout
  rw [SO.get_bind]
  simp only [Port.makeDeadline]
  rw [SO.bind_def]
  rcases hr : Bus.readPacketDeadline (b.serialPort.now + timeout) b with ⟨c, o⟩
  rw [hr] at hread
  have back : 10 ≤ b.readBuffer.length → ∀ g id rest, ¬ header <:+: g →
      stream (b.serialPort.now + timeout) b = g ++ frame id [0x55#8] ++ rest →
      ∃ pkt, o = .ok pkt ∧ Carries pkt id 0x55#8 [] := by
    intro hN g id rest hg hs
    obtain ⟨pkt, h1, h2, _⟩ := c14_packet_after_garbage hb hg (by simp) (by rw [Bus.frame_length]; simpa using hN)
      (unstuffs_singleton.mpr rfl) hs hr
    exact ⟨pkt, h1, h2⟩
  cases o with
  | ok pkt =>
    simp only [SO.lift_apply]
    obtain ⟨g, id, wire, instr, params, rest, h1, h2, h3, h4, h5, h6, h7⟩ := c16_returned_is_valid hb hr
    rw [checkStatus_carries h6]
    have hN : 10 ≤ b.readBuffer.length := by
      by_cases hN : 10 ≤ b.readBuffer.length
      · exact hN
      · rw [Bus.readPacketDeadline_small _ (by omega)] at hr
        simp at hr
    constructor
    · intro h
      refine ⟨hN, g, id, rest, h2, .inr ?_⟩
      split at h
      · rename_i h55
        subst h55
        split at h
        · rw [unstuffs_singleton.mp h5] at h1
          exact h1
        · split at h <;> simp at h
      · simp at h
    · rintro ⟨-, g', id', rest', hg', hs' | hs'⟩
      · have := hread.mpr ⟨hN, g', id', rest', hg', hs'⟩
        simp at this
      · obtain ⟨pkt', h1', h2'⟩ := back hN g' id' rest' hg' hs'
        simp only [Outcome.ok.injEq] at h1'
        subst h1'
        rw [← checkStatus_carries h6, checkStatus_carries h2']
        rfl
  | panic =>
    simp only [true_iff] at hread ⊢
    obtain ⟨hN, g, id, rest, hg, hs⟩ := hread
    exact ⟨hN, g, id, rest, hg, .inl hs⟩
  | err e =>
    simp only [reduceCtorEq, false_iff] at hread ⊢
    rintro ⟨hN, g, id, rest, hg, hs | hs⟩
    · exact hread ⟨hN, g, id, rest, hg, hs⟩
    · obtain ⟨pkt, h1, _⟩ := back hN g id rest hg hs
      simp at h1
  | hang =>
    simp only [reduceCtorEq, false_iff] at hread ⊢
    rintro ⟨hN, g, id, rest, hg, hs | hs⟩
    · exact hread ⟨hN, g, id, rest, hg, hs⟩
    · obtain ⟨pkt, h1, _⟩ := back hN g id rest hg hs
      simp at h1

/-- **C18** is false as stated: these 9 bytes crash any program that reads a packet. -/
theorem c18_refuted_empty_body : ¬ C18_statement := by
  intro h
  have := (h (busWith [0xFF#8, 0xFF#8, 0xFD#8, 0x00#8, 0x01#8, 0x02#8, 0x00#8, 0xCF#8, 0x7C#8]) 5 (busWith_rInv _)).1
  revert this
  decide +kernel

/-- **C18** is false as stated: these 10 bytes (a status packet without error byte) crash any client waiting for a
response. -/
theorem c18_refuted_status : ¬ C18_statement := by
  intro h
  have := (h (busWith [0xFF#8, 0xFF#8, 0xFD#8, 0x00#8, 0x01#8, 0x03#8, 0x00#8, 0x55#8, 0xE2#8, 0xCF#8]) 5
    (busWith_rInv _)).2
  revert this
  decide +kernel

/-- **C18** The check meant for status packets without error byte (`src/bus/mod.rs:290-296`) reports nothing: reading a
packet never fails with a parameter count, whatever bytes arrive. It counts the instruction byte as a parameter, so by the
time it could find too few the program has crashed on the missing instruction byte. -/
theorem c18_missing_error_byte_unreported_partial (D : Nat) {b : Bus} (hb : b.RInv) (n : Nat) (x : ExpectedCount) :
    (Bus.readPacketDeadline D b).2 ≠ .err (.invalidMessage (.parameterCount n x)) := by
  by_cases hN : 10 ≤ b.readBuffer.length
  · have hres := Bus.readPacketDeadline_result D hb hN
    generalize Bus.readPacketDeadline D b = r at hres
    cases hres with
    | packet h1 h2 h3 =>
      obtain ⟨_, hh, hl, _, _⟩ := parse_packet h2
      rcases frameOutcome_cases hh hl with ⟨_, _, _, _, h'⟩ | ⟨_, _, h'⟩ | ⟨_, _, _, _, _, _, _, _, _, h'⟩ <;> simp [h']
    | tooBig h1 h2 h3 => simp
    | ended h1 h2 h3 h4 h5 => simp
  · rw [Bus.readPacketDeadline_small D (by omega)]
    simp

/-- The status packet without error byte is delivered as a packet with an instruction and no parameters. -/
example : (Bus.readPacketDeadline 5 (busWith [0xFF#8, 0xFF#8, 0xFD#8, 0x00#8, 0x01#8, 0x03#8, 0x00#8, 0x55#8, 0xE2#8,
    0xCF#8])).2 = .ok ⟨[0xFF#8, 0xFF#8, 0xFD#8, 0x00#8, 0x01#8, 0x03#8, 0x00#8, 0x55#8]⟩ := by
  decide +kernel

/-! ## C19 -/

/-- **C19** Reading a packet terminates. -/
theorem c19_terminates (D : Nat) {b : Bus} (hb : b.RInv) : (Bus.readPacketDeadline D b).2 ≠ .hang := by
  by_cases hN : 10 ≤ b.readBuffer.length
  · have hres := Bus.readPacketDeadline_result D hb hN
    generalize Bus.readPacketDeadline D b = r at hres
    cases hres with
    | packet h1 h2 h3 =>
      obtain ⟨_, hh, hl, _, _⟩ := parse_packet h2
      rcases frameOutcome_cases hh hl with ⟨_, _, _, _, h'⟩ | ⟨_, _, h'⟩ | ⟨_, _, _, _, _, _, _, _, _, h'⟩ <;> simp [h']
    | tooBig h1 h2 h3 => simp
    | ended h1 h2 h3 h4 h5 => simp
  · rw [Bus.readPacketDeadline_small D (by omega)]
    simp

/-- **C19, C20** The serial port is only asked to read, never into an empty slice, every time with the given deadline, and
at most once more than there are bytes and events in its script. Time does not advance beyond the deadline. -/
theorem c19_reads_progress (D : Nat) {b : Bus} (hb : b.RInv) :
    ∃ calls, (Bus.readPacketDeadline D b).1.serialPort.log = b.serialPort.log ++ calls ∧
      (∀ c ∈ calls, ∃ cap, 0 < cap ∧ c = .read cap D) ∧ calls.length ≤ b.serialPort.measure + 1 := by
  by_cases hN : 10 ≤ b.readBuffer.length
  · obtain ⟨c, o, h, -, -, hor, -⟩ := Bus.readPacketDeadline_stream D hb hN
    obtain ⟨calls, h1, h2, h3⟩ := hor.log
    rw [h]
    exact ⟨calls, h1, h2, by omega⟩
  · rw [Bus.readPacketDeadline_small D (by omega)]
    exact ⟨[], by simp, by simp, by simp⟩

/-! ## C20 -/

/-- **C20** A call does not return later than its deadline (if it was made before), and time does not run backwards. -/
theorem c20_deadline (D : Nat) {b : Bus} (hb : b.RInv) :
    b.serialPort.now ≤ (Bus.readPacketDeadline D b).1.serialPort.now ∧
      (Bus.readPacketDeadline D b).1.serialPort.now ≤ max b.serialPort.now D := by
  by_cases hN : 10 ≤ b.readBuffer.length
  · obtain ⟨c, o, h, -, -, hor, -⟩ := Bus.readPacketDeadline_stream D hb hN
    rw [h]
    exact ⟨hor.now_le, hor.le_deadline⟩
  · rw [Bus.readPacketDeadline_small D (by omega)]
    exact ⟨Nat.le_refl _, by simp; omega⟩

theorem readStatusResponseTimeout_state (timeout : Nat) (b : Bus) :
    (Client.readStatusResponseTimeout timeout b).1
      = (Bus.readPacketDeadline (b.serialPort.now + timeout) b).1 := by
  unfold Client.readStatusResponseTimeout
  rw [SO.get_bind]
  simp only [Port.makeDeadline]
  rw [SO.bind_def]
  rcases Bus.readPacketDeadline (b.serialPort.now + timeout) b with ⟨c, o⟩
  cases o <;> rfl

/-- **C20** Every read made for one response carries the deadline call time + timeout, and the call does not return later
than that. -/
theorem c20_response_deadline (timeout : Nat) {b : Bus} (hb : b.RInv) :
    (Client.readStatusResponseTimeout timeout b).1.serialPort.now ≤ b.serialPort.now + timeout ∧
    ∃ calls, (Client.readStatusResponseTimeout timeout b).1.serialPort.log = b.serialPort.log ++ calls ∧
      ∀ c ∈ calls, ∃ cap, 0 < cap ∧ c = .read cap (b.serialPort.now + timeout) := by
  rw [readStatusResponseTimeout_state]
  obtain ⟨calls, h1, h2, _⟩ := c19_reads_progress (b.serialPort.now + timeout) hb
  have := (c20_deadline (b.serialPort.now + timeout) hb).2
  exact ⟨by omega, calls, h1, h2⟩

/-! ## C12 -/

/-- The events of the receiving side that are not in the past. -/
def notYetArrived (now : Nat) (rx : List RxEvent) : List RxEvent :=
  rx.filter fun e => match e with
    | .data t _ => now < t
    | .fail _ _ => true

theorem sent_state {b b₁ : Bus} {id instr : Byte} {n : Nat} {enc : Encoder} (hb : b.WInv)
    (hw : Bus.writeInstruction id instr n enc b = (b₁, .ok ())) :
    b₁.pending = [] ∧ b₁.RInv ∧ b₁.serialPort.rx = b.serialPort.dropArrived ∧ b₁.readBuffer = b.readBuffer := by
  obtain ⟨params, dt, h1, h2, h3, _, _, _, rfl⟩ := Bus.writePacket_ok hb hw
  refine ⟨by simp [Bus.pending], ⟨Nat.le_refl _, Nat.zero_le _⟩, rfl, rfl⟩

/-- **C12** A packet received after an instruction was sent consists of bytes that arrived after the input buffer was
discarded: nothing that was buffered in the client, or had arrived at the serial port by then, is part of it. (On a port
that can not discard its input, `discardIsNoop`, only the former.) -/
theorem c12_response_from_new_bytes {b b₁ c : Bus} {id instr : Byte} {n D : Nat} {enc : Encoder} {pkt : Packet}
    (hb : b.WInv) (hw : Bus.writeInstruction id instr n enc b = (b₁, .ok ()))
    (hr : Bus.readPacketDeadline D b₁ = (c, .ok pkt)) :
    ∃ g id' wire instr' params rest,
      arriving D (if b.serialPort.discardIsNoop then b.serialPort.rx
        else notYetArrived b.serialPort.now b.serialPort.rx) = g ++ frame id' wire ++ rest ∧
      Unstuffs wire (instr' :: params) ∧ Carries pkt id' instr' params := by
  obtain ⟨hp, hinv, hrx, -⟩ := sent_state hb hw
  obtain ⟨g, id', wire, instr', params, rest, h1, h2, h3, h4, h5, h6, h7⟩ := c16_returned_is_valid hinv hr
  refine ⟨g, id', wire, instr', params, rest, ?_, h5, h6⟩
  rw [stream, hp, List.nil_append, readable] at h1
  split at h1
  · have := congrArg List.length h1
    have hl := Bus.frame_length id' wire
    simp [hl] at this
    omega
  · rw [hrx] at h1
    rw [← h1, Port.dropArrived]
    split
    · rfl
    · congr 1
      unfold notYetArrived
      congr 1
      funext e
      cases e <;> simp [RxEvent.discardable, ← Nat.not_le]

theorem sendFrame_port (f : List Byte) (q : Port) :
    ∃ p o, ∀ b : Bus, b.serialPort = q → Bus.sendFrame f b = ({ b with serialPort := p }, o) := by
  have hs : ∀ b : Bus, Bus.sendFrame f b =
      match Port.discardInputBuffer b.serialPort with
      | (p, .ok ()) => ({ b with serialPort := (Port.writeAll f p).1 }, (Port.writeAll f p).2.mapErr .write)
      | (p, .err e) => ({ b with serialPort := p }, .err (.discardBuffer e))
      | (p, .panic) => ({ b with serialPort := p }, .panic)
      | (p, .hang) => ({ b with serialPort := p }, .hang) := by
    intro b
    unfold Bus.sendFrame
    rw [SO.bind_def, Bus.onPort_apply, SO.mapErr_apply]
    rcases Port.discardInputBuffer b.serialPort with ⟨p, o⟩
    cases o <;> rfl
  rcases hq : Port.discardInputBuffer q with ⟨p, o⟩
  cases o with
  | ok u => exact ⟨_, _, fun b hb => by rw [hs, hb, hq]⟩
  | err e => exact ⟨_, _, fun b hb => by rw [hs, hb, hq]⟩
  | panic => exact ⟨_, _, fun b hb => by rw [hs, hb, hq]⟩
  | hang => exact ⟨_, _, fun b hb => by rw [hs, hb, hq]⟩

theorem same_outcome {D : Nat} {b b' : Bus} (hb : b.RInv) (hb' : b'.RInv) (hsize : b.readBuffer.length = b'.readBuffer.length)
    (hs : stream D b = stream D b') (hp : b.serialPort = b'.serialPort) :
    (Bus.readPacketDeadline D b).2 = (Bus.readPacketDeadline D b').2 := by
  rcases hr : Bus.readPacketDeadline D b with ⟨c, o⟩
  rcases hr' : Bus.readPacketDeadline D b' with ⟨c', o'⟩
  rcases c13_chunking_irrelevant hb hb' hsize hs hr hr' with ⟨h, _⟩ | ⟨h, h', _⟩
  · exact h
  · rw [h, h', hp]

/-- **C12** What the client had received before makes no difference to the next exchange: from two states that differ only
in the contents of the read buffer, sending gives the same result, and if it succeeds, reading does too. -/
theorem c12_old_bytes_irrelevant {b b' b₁ : Bus} {id instr : Byte} {n : Nat} {enc : Encoder} (hb : b.WInv)
    (hport : b'.serialPort = b.serialPort) (hwb : b'.writeBuffer = b.writeBuffer) (hdebug : b'.debug = b.debug)
    (hsize : b'.readBuffer.length = b.readBuffer.length)
    (hw : Bus.writeInstruction id instr n enc b = (b₁, .ok ())) :
    ∃ b₁', Bus.writeInstruction id instr n enc b' = (b₁', .ok ()) ∧ b₁'.serialPort = b₁.serialPort ∧
      ∀ D, (Bus.readPacketDeadline D b₁').2 = (Bus.readPacketDeadline D b₁).2 := by
  have hb' : b'.WInv := ⟨by rw [hwb]; exact hb.size, by rw [hwb]; exact hb.prefix_eq⟩
  obtain ⟨params, dt, h1, h2, h3, h4, h5, _, hb₁⟩ := Bus.writePacket_ok hb hw
  have hsend := Bus.writePacket_send (id := id) hb h1 h3 (by rw [← Bus.frame_length id]; exact h4) h5
  have hsend' := Bus.writePacket_send (b := b') (id := id) (instr := instr) (n := n) (enc := enc) (params := params) hb'
    (by rw [show b'.paramSlice n = b.paramSlice n by simp [Bus.paramSlice, hwb]]; exact h1) (by rw [hwb]; exact h3)
    (by rw [hwb, ← Bus.frame_length id]; exact h4) (by rw [hdebug]; exact h5)
  unfold Bus.writeInstruction at hw ⊢
  rw [hsend] at hw
  rw [hsend']
  obtain ⟨p, o, hpo⟩ := sendFrame_port (frame id (codeStuff (instr :: params))) b.serialPort
  rw [hpo _ (by rfl)] at hw
  rw [hpo _ (by exact hport)]
  simp only [Prod.mk.injEq] at hw
  obtain ⟨rfl, rfl⟩ := hw
  refine ⟨_, rfl, rfl, fun D => ?_⟩
  apply same_outcome
  · exact ⟨Nat.le_refl _, Nat.zero_le _⟩
  · exact ⟨Nat.le_refl _, Nat.zero_le _⟩
  · exact hsize
  · simp [stream, Bus.pending]
  · rfl

/-! ## C23 -/

/-- The full claim C23 (for packets that fit the 16-bit length field and the buffer of the reader). -/
def C23_statement : Prop :=
  ∀ (w w' r c : Bus) (id instr : Byte) (n D : Nat) (enc : Encoder) (params g f rest : List Byte)
    (o : Outcome ReadError Packet), w.WInv → r.RInv → (∀ s, s.length = n → enc.run s = (params, .ok ())) →
    Bus.writeInstruction id instr n enc w = (w', .ok ()) → Sent w w' f → ¬ header <:+: g →
    f.length ≤ 65542 → f.length ≤ r.readBuffer.length → stream D r = g ++ f ++ rest →
    Bus.readPacketDeadline D r = (c, o) → ∃ pkt, o = .ok pkt ∧ Carries pkt id instr params

/-- When a stuffed body is unstuffed to the original. -/
theorem unstuffs_iff_survives {body wire : List Byte} (hst : StuffedForm body wire) : Unstuffs wire body ↔ Survives body := by
  rw [unstuffs_iff, stuffedForm_iff.mp hst]
  exact codeUnstuff_codeStuff_iff body

theorem survives_unstuffs {body wire : List Byte} (hst : StuffedForm body wire) (h : Survives body) : Unstuffs wire body :=
  (unstuffs_iff_survives hst).mpr h

/-- **C23** (partial: the English claim says that the parameters are always the same) A packet sent by one side arrives at the
other with the same ID and instruction, whatever the chunking and the garbage on the line; what follows it is kept. The
parameters are the same exactly if the body survives stuffing and unstuffing (`Spec.Survives`). -/
theorem c23_transfer_exact_partial {w w' r c : Bus} {id instr : Byte} {n D : Nat} {enc : Encoder}
    {params g f rest : List Byte} {o : Outcome ReadError Packet} (hw : w.WInv) (hr : r.RInv)
    (henc : ∀ s, s.length = n → enc.run s = (params, .ok ()))
    (h : Bus.writeInstruction id instr n enc w = (w', .ok ())) (hsent : Sent w w' f) (hg : ¬ header <:+: g)
    (hlen : f.length ≤ 65542) (hfit : f.length ≤ r.readBuffer.length) (hs : stream D r = g ++ f ++ rest)
    (hread : Bus.readPacketDeadline D r = (c, o)) :
    ∃ pkt params', o = .ok pkt ∧ Carries pkt id instr params' ∧ stream D c = rest ∧
      (params' = params ↔ Survives (instr :: params)) := by
  obtain ⟨params₁, wire, ⟨old, hold, he⟩, hst, hsent'⟩ := c08_instruction_layout hw h
  rw [henc old hold] at he
  simp only [Prod.mk.injEq, and_true] at he
  subst he
  have hf : f = frame id wire := by
    unfold Sent at hsent hsent'
    rw [hsent] at hsent'
    simpa using hsent'
  subst hf
  rw [Bus.frame_length] at hlen
  obtain ⟨params', hp⟩ : ∃ params', codeUnstuff wire = instr :: params' := by
    obtain ⟨t, ht⟩ : ∃ t, wire = instr :: t := by
      rw [stuffedForm_iff.mp hst]
      exact codeStuff_cons instr params
    rw [ht]
    exact codeUnstuff_cons instr t
  obtain ⟨pkt, h1, h2, h3⟩ := c14_packet_after_garbage hr hg (by omega) hfit ((unstuffs_iff _ _).mpr hp) hs hread
  refine ⟨pkt, params', h1, h2, h3, ?_⟩
  rw [← unstuffs_iff_survives hst, unstuffs_iff, hp]
  simp

/-- **C23** (partial: the English claim is without the last hypothesis on the body) A packet sent by one side arrives at the
other with the same ID, instruction and parameters, whatever the chunking and the garbage on the line; what follows it is
kept. The condition on the body holds, for example, if there is no `FF FF FF FD` in it. -/
theorem c23_transfer_partial {w w' r c : Bus} {id instr : Byte} {n D : Nat} {enc : Encoder} {params g f rest : List Byte}
    {o : Outcome ReadError Packet} (hw : w.WInv) (hr : r.RInv) (henc : ∀ s, s.length = n → enc.run s = (params, .ok ()))
    (h : Bus.writeInstruction id instr n enc w = (w', .ok ())) (hsent : Sent w w' f) (hg : ¬ header <:+: g)
    (hlen : f.length ≤ 65542) (hfit : f.length ≤ r.readBuffer.length) (hs : stream D r = g ++ f ++ rest)
    (hread : Bus.readPacketDeadline D r = (c, o)) (hbody : Survives (instr :: params)) :
    ∃ pkt, o = .ok pkt ∧ Carries pkt id instr params ∧ stream D c = rest := by
  obtain ⟨pkt, params', h1, h2, h3, h4⟩ := c23_transfer_exact_partial hw hr henc h hsent hg hlen hfit hs hread
  exact ⟨pkt, h1, h4.mpr hbody ▸ h2, h3⟩

/-- **C23** The condition on the body: a simple case. -/
theorem c23_survives_partial {d : List Byte} (h : ¬ [0xFF#8, 0xFF#8, 0xFF#8, 0xFD#8] <:+: d) : Survives d :=
  survives_of_runsOk (runsOk_of_no_infix h)

/-- Bytes that the two sides disagree about. -/
def trickyParams : List Byte := [0xFF#8, 0xFF#8, 0xFD#8, 0xFF#8, 0xFF#8, 0xFF#8, 0xFF#8, 0xFD#8]

/-- The packet that is sent for them. -/
def trickyFrame : List Byte := frame 1#8 (codeStuff (0x03#8 :: trickyParams))

/-- **C23** is false as stated: a write of `FF FF FD FF FF FF FF FD` arrives as something else. -/
theorem c23_refuted : ¬ C23_statement := by
  intro h
  obtain ⟨c, o, hr⟩ : ∃ c o, Bus.readPacketDeadline 5 (busWith trickyFrame) = (c, o) :=
    ⟨_, _, (Prod.eta _).symm⟩
  have h := h (quietBus true 40) (Bus.writeInstruction 1#8 0x03#8 8 (bytesEncoder trickyParams) (quietBus true 40)).1
    (busWith trickyFrame) c 1#8 0x03#8 8 5 (bytesEncoder trickyParams) trickyParams []
    trickyFrame [] o (quietBus_wInv _ _ (by decide)) (busWith_rInv _)
    (fun s hs => by simp [bytesEncoder, copyFromSlice, hs, trickyParams]) (Prod.ext rfl (by decide +kernel))
    (by unfold Sent; decide +kernel) (by decide) (by decide +kernel) (by decide +kernel) (by decide +kernel) hr
  obtain ⟨pkt, rfl, x, y, h2⟩ := h
  have h4 : (match (Bus.readPacketDeadline 5 (busWith trickyFrame)).2 with
    | .ok p => decide (p.data.drop 8 = trickyParams)
    | _ => true) = false := by decide +kernel
  rw [hr] at h4
  simp [header, h2] at h4

/-! ## Concrete cases of the theorems above -/

/-- A status packet (ID 1, no error, parameters `A6 00 00 00`), an example in the protocol documentation. -/
def sampleFrame : List Byte := [0xFF#8, 0xFF#8, 0xFD#8, 0x00#8, 0x01#8, 0x08#8, 0x00#8, 0x55#8, 0x00#8, 0xA6#8, 0x00#8,
  0x00#8, 0x00#8, 0x8C#8, 0xC0#8]

/-- Garbage with half a header in it. -/
def sampleGarbage : List Byte := [0x12#8, 0xFF#8, 0xFF#8, 0xFD#8, 0x34#8, 0xFF#8]

def samplePacket (frame : List Byte) : Packet := ⟨frame.take (frame.length - 2)⟩

/-- The same bytes in several pieces, with an empty read and at different times. -/
def busWithChunks (chunks : List (Nat × List Byte)) : Bus :=
  { quietBus true 40 with serialPort := { quietPort with rx := chunks.map fun c => .data c.1 c.2 } }

/-- C13, C14: the packet is found in the garbage, whatever the pieces. -/
example : (Bus.readPacketDeadline 50 (busWith (sampleGarbage ++ sampleFrame ++ [0xFF#8]))).2 = .ok (samplePacket sampleFrame) ∧
    (Bus.readPacketDeadline 50 (busWithChunks [(1, sampleGarbage ++ [0xFF#8]), (7, []), (9, (sampleFrame ++ [0xFF#8]).tail.take 5),
      (30, (sampleFrame ++ [0xFF#8]).tail.drop 5)])).2 = .ok (samplePacket sampleFrame) ∧
    stream 50 (busWithChunks [(1, sampleGarbage ++ [0xFF#8]), (7, []), (9, (sampleFrame ++ [0xFF#8]).tail.take 5),
      (30, (sampleFrame ++ [0xFF#8]).tail.drop 5)]) = stream 50 (busWith (sampleGarbage ++ sampleFrame ++ [0xFF#8])) ∧
    ¬ header <:+: sampleGarbage := by
  decide +kernel

/-- C15: two packets of different length, garbage between them, and a timeout in the middle of the second one. -/
example : (readAll [10, 10, 50, 50] (busWithChunks [(1, sampleFrame ++ sampleGarbage ++ (frame 9#8 [0x55#8, 0x80#8, 7#8, 8#8]).take 9),
      (20, (frame 9#8 [0x55#8, 0x80#8, 7#8, 8#8]).drop 9)])).2 =
    [.ok (samplePacket sampleFrame), .err (.io .timedOut), .ok (samplePacket (frame 9#8 [0x55#8, 0x80#8, 7#8, 8#8])),
      .err (.io .timedOut)] := by
  decide +kernel

/-- C16: one flipped bit is reported with both checksums, and the next packet is received. -/
example : (readAll [10, 10] (busWith (sampleFrame.set 9 0xA7#8 ++ sampleFrame))).2 =
    [.err (.invalidMessage (.checksum 0xC08C#16 (crc 0#16 ((sampleFrame.set 9 0xA7#8).take 13)))),
      .ok (samplePacket sampleFrame)] := by
  decide +kernel

/-- C17: a packet of 27 bytes does not fit the buffer of 20; its body is skipped and the next packet received. -/
example : (readAll [10, 10] (busWith (frame 1#8 (List.replicate 18 0x55#8) ++ sampleFrame))).2 =
    [.err (.bufferFull ⟨27, 20⟩), .ok (samplePacket sampleFrame)] := by
  decide +kernel

/-- C18: the panic is there in front of other packets as well. -/
example : (Bus.readPacketDeadline 10 (busWith (sampleGarbage ++ frame 1#8 [] ++ sampleFrame))).2 = .panic ∧
    (Client.readStatusResponseTimeout 10 (busWith (sampleGarbage ++ frame 1#8 [0x55#8] ++ sampleFrame))).2 = .panic := by
  decide +kernel

/-- C19, C20: bytes trickle in, and the call returns at the deadline after four reads. -/
example : let r := Bus.readPacketDeadline 50 (busWithChunks [(10, sampleFrame.take 3), (20, (sampleFrame.drop 3).take 3), (40, [1#8]), (60, [2#8])])
    r.2 = .err (.io .timedOut) ∧ r.1.serialPort.now = 50 ∧ r.1.serialPort.log.length = 4 := by
  decide +kernel

/-- C12: an old packet in the read buffer and one that arrived at the port are not taken for the response. -/
example : let b := { busWithChunks [(0, frame 2#8 [0x55#8, 0#8]), (5, sampleFrame)] with
      readBuffer := frame 3#8 [0x55#8, 0#8] ++ List.replicate 20 0#8, readLen := 11 }
    let b₁ := (Bus.writeInstruction 1#8 0x01#8 0 (bytesEncoder []) b).1
    (Bus.readPacketDeadline 50 b₁).2 = .ok (samplePacket sampleFrame) ∧
    (Bus.readPacketDeadline 50 b).2 = .ok (samplePacket (frame 3#8 [0x55#8, 0#8])) := by
  decide +kernel

/-- C23: parameters that need stuffing arrive unchanged. -/
example : (Bus.readPacketDeadline 50 (busWith (frame 1#8 (codeStuff [0x03#8, 0x74#8, 0#8, 0xFF#8, 0xFF#8, 0xFD#8])))).2 =
    .ok ⟨header ++ [1#8, 9#8, 0#8] ++ [0x03#8, 0x74#8, 0#8, 0xFF#8, 0xFF#8, 0xFD#8]⟩ ∧
    codeStuff [0x03#8, 0x74#8, 0#8, 0xFF#8, 0xFF#8, 0xFD#8] = [0x03#8, 0x74#8, 0#8, 0xFF#8, 0xFF#8, 0xFD#8, 0xFD#8] := by
  decide +kernel

/-! ## The hypotheses of each theorem are met

Each theorem on a concrete case. -/

theorem busWithChunks_rInv (chunks : List (Nat × List Byte)) : (busWithChunks chunks).RInv := ⟨Nat.le_refl _, Nat.zero_le _⟩

/-- The body of the sample packet. -/
theorem sampleBody : Unstuffs [0x55#8, 0#8, 0xA6#8, 0#8, 0#8, 0#8] (0x55#8 :: [0#8, 0xA6#8, 0#8, 0#8, 0#8]) :=
  (unstuffs_iff _ _).2 (by decide +kernel)

/-- A body with a stuffed byte. -/
theorem stuffedBody : Unstuffs [0x03#8, 0xFF#8, 0xFF#8, 0xFD#8, 0xFD#8] (0x03#8 :: [0xFF#8, 0xFF#8, 0xFD#8]) :=
  (unstuffs_iff _ _).2 (by decide +kernel)

/-- C13: garbage and a packet in one piece, and in four pieces at different times. -/
example := c13_chunking_irrelevant (D₁ := 50) (D₂ := 60) (busWith_rInv (sampleGarbage ++ sampleFrame ++ [0xFF#8]))
  (busWithChunks_rInv [(1, sampleGarbage ++ [0xFF#8]), (7, []), (9, (sampleFrame ++ [0xFF#8]).tail.take 5),
    (30, (sampleFrame ++ [0xFF#8]).tail.drop 5)]) rfl (by decide +kernel) (Prod.eta _).symm (Prod.eta _).symm

/-- C13: with more bytes to come after the deadline of one of them. -/
example := c13_timing_irrelevant (D₁ := 50) (D₂ := 60) (busWith_rInv (sampleGarbage ++ sampleFrame ++ [0xFF#8]))
  (busWithChunks_rInv [(1, sampleGarbage ++ sampleFrame.take 5), (30, sampleFrame.drop 5), (70, [0xFF#8])]) rfl
  (by decide +kernel) (Prod.eta _).symm (Prod.eta _).symm
  (by rw [show (Bus.readPacketDeadline 50 _).2 = .ok (samplePacket sampleFrame) by decide +kernel]; nofun)
  (by rw [show (Bus.readPacketDeadline 60 _).2 = .ok (samplePacket sampleFrame) by decide +kernel]; nofun)

/-- C14 -/
example := c14_packet_after_garbage (D := 50) (g := sampleGarbage) (rest := [0xFF#8, 0xFF#8]) (id := 1#8)
  (busWithChunks_rInv [(1, sampleGarbage ++ sampleFrame.take 5), (30, sampleFrame.drop 5 ++ [0xFF#8, 0xFF#8])])
  (by decide +kernel) (by decide) (by decide +kernel) sampleBody (by decide +kernel) (Prod.eta _).symm

/-- C14 -/
example := c14_garbage_irrelevant (D := 50) (g := sampleGarbage) (s := sampleFrame) (busWith_rInv sampleFrame)
  (busWithChunks_rInv [(1, sampleGarbage ++ sampleFrame.take 5), (30, sampleFrame.drop 5)]) rfl
  (by decide +kernel) (by decide +kernel) (by decide +kernel) (by decide +kernel) (Prod.eta _).symm (Prod.eta _).symm
  (by rw [show (Bus.readPacketDeadline 50 _).2 = .ok (samplePacket sampleFrame) by decide +kernel]; nofun) (by decide)

/-- Two packets with garbage before the second one. -/
def sampleItems : List Item :=
  [⟨[], 1#8, [0x55#8, 0#8, 0xA6#8, 0#8, 0#8, 0#8], 0x55#8, [0#8, 0xA6#8, 0#8, 0#8, 0#8]⟩,
   ⟨sampleGarbage, 9#8, [0x03#8, 0xFF#8, 0xFF#8, 0xFD#8, 0xFD#8], 0x03#8, [0xFF#8, 0xFF#8, 0xFD#8]⟩]

theorem sampleItems_ok : ∀ i ∈ sampleItems, i.Ok 20 := by
  intro i hi
  simp only [sampleItems, List.mem_cons, List.not_mem_nil, or_false] at hi
  rcases hi with rfl | rfl
  · exact ⟨by decide, by decide, by decide +kernel, sampleBody⟩
  · exact ⟨by decide +kernel, by decide, by decide +kernel, stuffedBody⟩

/-- C15 -/
example := c15_in_order_once_each 50 sampleItems [0xFF#8, 0xFF#8] (by decide +kernel)
  (busWithChunks [(1, (itemBytes sampleItems).take 18), (20, (itemBytes sampleItems).drop 18 ++ [0xFF#8, 0xFF#8])])
  (busWithChunks_rInv _) (by decide) sampleItems_ok (by decide +kernel)

/-- C15: the second read times out within the second packet. -/
example := c15_interruptions [10, 10, 50] [0xFF#8, 0xFF#8] (by decide +kernel)
  (busWithChunks [(1, (itemBytes sampleItems).take 28), (20, (itemBytes sampleItems).drop 28 ++ [0xFF#8, 0xFF#8])])
  sampleItems (busWithChunks_rInv _) (by decide) sampleItems_ok (by decide +kernel)

/-- C16 -/
example := c16_returned_is_valid (D := 50) (pkt := samplePacket sampleFrame) (busWith_rInv (sampleGarbage ++ sampleFrame))
  (pair_eq (by decide +kernel))

/-- C16: one flipped bit. -/
example := c16_bad_crc_reported (D := 50) (g := sampleGarbage) (m := (sampleFrame.set 9 0xA7#8).take 13) (v := 0xC08C#16)
  (rest := sampleFrame) (busWith_rInv (sampleGarbage ++ sampleFrame.set 9 0xA7#8 ++ sampleFrame)) (by decide) (by decide +kernel)
  (by decide +kernel) (by decide +kernel) (by decide +kernel) (by decide +kernel) (by decide +kernel) (by decide +kernel)
  (Prod.eta _).symm

/-- C16: one flipped bit, and another packet behind it. -/
example := c16_corrupted_packet (D := 50) (g := sampleGarbage) (g₂ := [0x12#8]) (wire := [0x55#8, 0#8, 0xA6#8, 0#8, 0#8, 0#8])
  (m' := (sampleFrame.set 9 0xA7#8).take 13) (v' := 0xC08C#16) (id := 1#8) (id₂ := 9#8) (rest := [1#8])
  (busWith_rInv (sampleGarbage ++ sampleFrame.set 9 0xA7#8 ++ ([0x12#8] ++ frame 9#8 [0x03#8, 0xFF#8, 0xFF#8, 0xFD#8, 0xFD#8] ++ [1#8])))
  (by decide +kernel) (by decide) (by decide) (by decide +kernel) (by decide +kernel) ⟨by decide +kernel, by decide +kernel⟩
  (.odd (by decide +kernel)) (by decide +kernel) (by decide) (by decide +kernel) stuffedBody (by decide +kernel)
  (Prod.eta _).symm (Prod.eta _).symm

/-- C17: a packet of 27 bytes and a buffer of 20. -/
example := c17_too_big_reported (D := 50) (g := sampleGarbage) (hd := header ++ [1#8, 20#8, 0#8])
  (rest := List.replicate 20 0x55#8) (busWith_rInv (sampleGarbage ++ (header ++ [1#8, 20#8, 0#8]) ++ List.replicate 20 0x55#8))
  (by decide) (by decide +kernel) (by decide +kernel) (by decide) (by decide +kernel) (by decide) (by decide +kernel)
  (Prod.eta _).symm

/-- C17 -/
example := c17_next_packet (D := 50) (g := sampleGarbage) (hd := header ++ [1#8, 20#8, 0#8]) (body := List.replicate 20 0x55#8)
  (id := 1#8) (rest := [3#8])
  (busWith_rInv (sampleGarbage ++ (header ++ [1#8, 20#8, 0#8]) ++ (List.replicate 20 0x55#8 ++ sampleFrame ++ [3#8])))
  (by decide +kernel) (by decide +kernel) (by decide) (by decide +kernel) (by decide +kernel) (by decide) (by decide +kernel)
  sampleBody (by decide +kernel) (Prod.eta _).symm (Prod.eta _).symm

/-- C17 -/
example := c17_tiny_buffer 50 (b := { busWith sampleFrame with readBuffer := [0#8, 0#8, 0#8] }) (by decide)

/-- C18 -/
example := (c18_read_panics_iff_partial (D := 50) (busWith_rInv (sampleGarbage ++ frame 1#8 [] ++ sampleFrame))).2
  ⟨by decide, sampleGarbage, 1#8, sampleFrame, by decide +kernel, by decide +kernel⟩

/-- C18 -/
example := (c18_status_panics_iff_partial (timeout := 50) (busWith_rInv (sampleGarbage ++ frame 1#8 [0x55#8] ++ sampleFrame))).2
  ⟨by decide, sampleGarbage, 1#8, sampleFrame, by decide +kernel, .inr (by decide +kernel)⟩

/-- C18 -/
example := c18_missing_error_byte_unreported_partial 50 (busWith_rInv (frame 1#8 [0x55#8])) 0 (.min 1)

/-- C19 -/
example := c19_terminates 50 (busWithChunks_rInv [(10, sampleFrame.take 3), (20, sampleFrame.drop 3), (60, [2#8])])

/-- C19 -/
example := c19_reads_progress 50 (busWithChunks_rInv [(10, sampleFrame.take 3), (20, sampleFrame.drop 3), (60, [2#8])])

/-- C20 -/
example := c20_deadline 50 (busWithChunks_rInv [(10, sampleFrame.take 3), (60, sampleFrame.drop 3)])

/-- C20 -/
example := c20_response_deadline 50 (busWithChunks_rInv [(10, sampleFrame.take 3), (60, sampleFrame.drop 3)])

/-- C12: an old packet at the port, another one in the read buffer. -/
def staleBus : Bus :=
  { busWithChunks [(0, frame 2#8 [0x55#8, 0#8]), (5, sampleFrame)] with
    readBuffer := frame 3#8 [0x55#8, 0#8] ++ List.replicate 9 0#8, readLen := 11 }

theorem staleBus_wInv : staleBus.WInv := ⟨by decide, by decide⟩

example := c12_response_from_new_bytes (b := staleBus) (id := 1#8) (instr := 0x01#8) (n := 0) (D := 50) (enc := bytesEncoder [])
  (pkt := samplePacket sampleFrame) staleBus_wInv (pair_eq (by decide +kernel)) (pair_eq (by decide +kernel))

example := c12_old_bytes_irrelevant (b := staleBus) (b' := { staleBus with readLen := 0, readBuffer := List.replicate 20 1#8 })
  (id := 1#8) (instr := 0x01#8) (n := 0) (enc := bytesEncoder []) staleBus_wInv rfl rfl rfl (by decide)
  (pair_eq (by decide +kernel))

/-- C23: parameters that need stuffing. -/
theorem survives_FFFFFD : Survives [0x03#8, 0x74#8, 0#8, 0xFF#8, 0xFF#8, 0xFD#8] := c23_survives_partial (by decide +kernel)

example := c23_transfer_exact_partial (w := quietBus true 40) (id := 1#8) (instr := 0x03#8) (n := 5) (D := 50)
  (enc := bytesEncoder [0x74#8, 0#8, 0xFF#8, 0xFF#8, 0xFD#8]) (params := [0x74#8, 0#8, 0xFF#8, 0xFF#8, 0xFD#8]) (g := sampleGarbage)
  (f := frame 1#8 [0x03#8, 0x74#8, 0#8, 0xFF#8, 0xFF#8, 0xFD#8, 0xFD#8]) (rest := [1#8])
  (quietBus_wInv true 40 (by decide))
  (busWith_rInv (sampleGarbage ++ frame 1#8 [0x03#8, 0x74#8, 0#8, 0xFF#8, 0xFF#8, 0xFD#8, 0xFD#8] ++ [1#8]))
  (fun s hs => by simp [bytesEncoder, copyFromSlice, hs]) (pair_eq (by decide +kernel)) (by unfold Sent; decide +kernel) (by decide +kernel)
  (by decide +kernel) (by decide +kernel) (by decide +kernel) (Prod.eta _).symm

example := c23_transfer_partial (w := quietBus true 40) (id := 1#8) (instr := 0x03#8) (n := 5) (D := 50)
  (enc := bytesEncoder [0x74#8, 0#8, 0xFF#8, 0xFF#8, 0xFD#8]) (params := [0x74#8, 0#8, 0xFF#8, 0xFF#8, 0xFD#8]) (g := sampleGarbage)
  (f := frame 1#8 [0x03#8, 0x74#8, 0#8, 0xFF#8, 0xFF#8, 0xFD#8, 0xFD#8]) (rest := [1#8])
  (quietBus_wInv true 40 (by decide))
  (busWith_rInv (sampleGarbage ++ frame 1#8 [0x03#8, 0x74#8, 0#8, 0xFF#8, 0xFF#8, 0xFD#8, 0xFD#8] ++ [1#8]))
  (fun s hs => by simp [bytesEncoder, copyFromSlice, hs]) (pair_eq (by decide +kernel)) (by unfold Sent; decide +kernel) (by decide +kernel)
  (by decide +kernel) (by decide +kernel) (by decide +kernel) (Prod.eta _).symm survives_FFFFFD

end Dxl.Props
