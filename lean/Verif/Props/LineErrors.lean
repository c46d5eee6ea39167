import Verif.Lemmas.LineErrors
import Verif.Props.Damage

/-! # C78: what the checksum finds on the line -/

namespace Dxl.Props
open Dxl Spec

/-- A packet arrives with damage that leaves its header prefix and its length field as they are. -/
def ArrivesDamaged (id : Byte) (wire F : List Byte) : Prop :=
  F.length = (frame id wire).length ∧ SameHeader (frame id wire) F ∧ LineDamage (frame id wire) F

/-- **C78** One to three wrong bits in a packet of at most 4099 bytes, anywhere but in the header prefix and the length, or wrong bits
within 10 bits on the line, whatever the size of the packet: the CRC is not right. -/
theorem c78_not_valid {id : Byte} {wire F : List Byte} (h : ArrivesDamaged id wire F) :
    ∃ m v, F = m ++ le16 v ∧ m.length = (frameHead id wire).length ∧ v ≠ crc 0#16 m := by
  obtain ⟨hl, hsame, hd⟩ := h
  rw [Bus.frame_length] at hl
  obtain ⟨m, v, rfl, hml⟩ := split_le16 (show F.length = (7 + wire.length) + 2 by omega)
  have hfl := Bus.frameHead_length id wire
  refine ⟨m, v, rfl, by omega, ?_⟩
  rintro rfl
  have hlen : (frameHead id wire).length = m.length := by omega
  have hx : xorBytes (frame id wire) (m ++ le16 (crc 0#16 m)) =
      xorBytes (frameHead id wire) m ++ le16 (crc 0#16 (xorBytes (frameHead id wire) m)) := by
    rw [frame, xorBytes_append hlen, xorBytes_le16, xor_codeword hlen]
  have hdiff : diff (lineBits (frame id wire)) (lineBits (m ++ le16 (crc 0#16 m))) =
      lineBits (xorBytes (frameHead id wire) m ++ le16 (crc 0#16 (xorBytes (frameHead id wire) m))) := by
    rw [diff_lineBits (by rw [Bus.frame_length]; omega), hx]
  -- the first four bytes are the same
  have h4 : ∃ e, xorBytes (frameHead id wire) m = List.replicate 4 0#8 ++ e ∧ e.length + 4 = (frameHead id wire).length := by
    have e1 : (frame id wire).take 4 = (frameHead id wire).take 4 := by
      rw [frame, List.take_append_of_le_length (by omega)]
    have e2 : (m ++ le16 (crc 0#16 m)).take 4 = m.take 4 := by
      rw [List.take_append_of_le_length (by omega)]
    have e3 : m.take 4 = (frameHead id wire).take 4 := by rw [← e1, ← e2]; exact hsame.1
    refine ⟨xorBytes ((frameHead id wire).drop 4) (m.drop 4), ?_, ?_⟩
    · have : xorBytes ((frameHead id wire).take 4 ++ (frameHead id wire).drop 4) (m.take 4 ++ m.drop 4) =
          List.replicate 4 0#8 ++ xorBytes ((frameHead id wire).drop 4) (m.drop 4) := by
        rw [e3, xorBytes_append rfl, xorBytes_self, List.length_take, hfl]
        congr 2
        omega
      rwa [List.take_append_drop, List.take_append_drop] at this
    · rw [xorBytes_length (by simp [hlen])]
      simp
      omega
  obtain ⟨e, he, hel⟩ := h4
  cases hd with
  | few hsize hsome hfew =>
    rw [hdiff, count_lineBits] at hsome hfew
    have hcount : (bits (xorBytes (frameHead id wire) m ++ le16 (crc 0#16 (xorBytes (frameHead id wire) m)))).count true = 2 := by
      refine Classical.byContradiction fun hc => ?_
      have hodd : (diff (bits (frame id wire)) (bits (m ++ le16 (crc 0#16 m)))).count true % 2 = 1 := by
        rw [diff_bits (by rw [Bus.frame_length]; omega), hx]
        omega
      exact c02_odd_errors_detected _ _ _ _ hlen hodd ⟨c01_checksum_is_crc16 0#16 _, c01_checksum_is_crc16 0#16 _⟩
    rw [he, List.append_assoc, crc_zeros_head, count_bits_append] at hcount
    have h0 : (bits (List.replicate 4 0#8)).count true = 0 := by decide
    rw [h0, Nat.zero_add] at hcount
    rw [Bus.frame_length] at hsize
    exact two_bits_of_codeword (by omega) hcount
  | burst a b w hw hsome h =>
    rw [hdiff] at h
    exact burst_of_codeword (by intro h0; have := congrArg List.length h0; rw [xorBytes_length hlen, hfl] at this; simp at this)
      hw hsome h

theorem arrivesDamaged_header {id : Byte} {wire m : List Byte} {v : U16} (h : ArrivesDamaged id wire (m ++ le16 v))
    (hl : m.length = (frameHead id wire).length) (hlen : wire.length + 2 < 2 ^ 16) :
    header <+: m ∧ m.length + 2 = 7 + Spec.lengthField m ∧ 7 ≤ m.length := by
  refine sameHeader_spec hl hlen ?_
  have hfl := Bus.frameHead_length id wire
  obtain ⟨-, ⟨h1, h2⟩, -⟩ := h
  rw [frame] at h1 h2
  rw [List.take_append_of_le_length (by omega), List.take_append_of_le_length (by omega)] at h1 h2
  exact ⟨h1, h2⟩

/-- **C78** Such a packet is reported with the two checksums, and exactly this packet (and the garbage before it) is dropped. -/
theorem c78_reported {D : Nat} {b c : Bus} {o : Outcome ReadError Packet} {id : Byte} {g wire F rest : List Byte} (hb : b.RInv)
    (hg : ¬ header <:+: g) (hne : wire ≠ []) (hlen : wire.length + 2 < 2 ^ 16) (hfit : F.length ≤ b.readBuffer.length)
    (hd : ArrivesDamaged id wire F) (hs : stream D b = g ++ F ++ rest) (e : Bus.readPacketDeadline D b = (c, o)) :
    ∃ m v, F = m ++ le16 v ∧ v ≠ crc 0#16 m ∧ o = .err (.invalidMessage (.checksum v (crc 0#16 m))) ∧ stream D c = rest := by
  obtain ⟨m, v, rfl, hml, hv⟩ := c78_not_valid hd
  obtain ⟨h1, h2, h3⟩ := arrivesDamaged_header hd hml hlen
  have hfl := Bus.frameHead_length id wire
  have hpos : 0 < wire.length := List.length_pos_iff.mpr hne
  simp only [List.length_append, le16_length] at hfit
  obtain ⟨ho, hr⟩ := c16_bad_crc_reported hb (by omega) hg h1 h2 hfit hv hs h3 e
  exact ⟨m, v, rfl, hv, ho, hr⟩

/-- A packet that arrives damaged, or the first part of it, is not taken for a valid one. -/
theorem damaged_unparsed {cap : Nat} {id id' : Byte} {wire w F s rest : List Byte} (hlen : wire.length + 2 < 2 ^ 16)
    (hd : ArrivesDamaged id wire F) (hs : s <+: F) (hp : parse cap s = .packet (frame id' w) rest) : False := by
  obtain ⟨rest', hp⟩ := parse_prefix hs hp
  obtain ⟨m, v, rfl, hml, hv⟩ := c78_not_valid hd
  obtain ⟨h1, h2, h3⟩ := arrivesDamaged_header hd hml hlen
  have hfl := Bus.frameHead_length id wire
  have hl : (m ++ le16 v).length = m.length + 2 := by simp [le16]
  have hf : Spec.lengthField (m ++ le16 v) = Spec.lengthField m := lengthField_append h3
  obtain ⟨hskip, -, hl', -, -⟩ := parse_packet hp
  have hs0 : skip (m ++ le16 v) = m ++ le16 v := by
    have := skip_garbage (g := []) (by simp [header]) (h1.trans (List.prefix_append m (le16 v)))
    simpa using this
  rw [hs0] at hskip
  have h7 : 7 ≤ (frame id' w).length := by rw [Bus.frame_length]; omega
  have hlf : Spec.lengthField (frame id' w) = Spec.lengthField m := by
    rw [← lengthField_append (u := rest') h7, ← hskip, hf]
  obtain ⟨e1, -⟩ := List.append_inj (hskip.symm.trans (List.append_nil _).symm) (by rw [hl', hlf, hl, h2])
  rw [frame] at e1
  obtain ⟨e2, e3⟩ := List.append_inj' e1 rfl
  have := le16_inj e3
  rw [e2] at this
  exact hv this.symm

theorem comes_damaged {α : Type} {b : Bus} {body : List Byte} {exp : Nat} {Means : Byte → Byte → List Byte → Outcome TransferError α → Prop}
    {r : Bus × Outcome TransferError α} (h : Comes b body exp Means r) {id : Byte} {wire F : List Byte}
    (hlen : wire.length + 2 < 2 ^ 16) (hd : ArrivesDamaged id wire F) (harr : OnlyArrives b F) (x : α) : r.2 ≠ .ok x := by
  intro hx
  obtain ⟨wire', -, h⟩ := h
  cases hs : sending b (body.length - 1) wire' with
  | err w => rw [hs] at h; dsimp only at h; rw [hx] at h; cases h
  | panic => rw [hs] at h; dsimp only at h; rw [hx] at h; cases h
  | hang => rw [hs] at h; exact h.elim
  | ok u =>
    rw [hs] at h
    dsimp only at h
    split at h
    · rw [hx] at h; cases h
    · obtain ⟨D, v, left, -, -, hv, -, h⟩ := h
      cases v with
      | err w => dsimp only at h; rw [hx] at h; cases h
      | panic => dsimp only at h; rw [hx] at h; cases h
      | hang => exact h.elim
      | ok y =>
        cases hv with
        | status hcap hp hu' he => exact damaged_unparsed hlen hd (harr D) hp

/-- **C78** No call of the client that waits for an answer succeeds if what arrives in answer is a damaged packet, or the first part of it. -/
theorem c78_client {b : Bus} (hb : b.WInv) (hbaud : b.baudRate < 2 ^ 32) {m : Byte} {wire F : List Byte} (hlen : wire.length + 2 < 2 ^ 16)
    (hd : ArrivesDamaged m wire F) (harr : OnlyArrives b F) (id : Byte) :
    (∀ r, (Client.ping id b).2 ≠ .ok r) ∧ (∀ address count r, (Client.readBytes id address count b).2 ≠ .ok r) ∧
      (∀ {α : Type} {d : DataTy α} {valid : α → Prop} {f : α → List Byte}, ImplData d valid f →
        ∀ address r, (Client.read d id address b).2 ≠ .ok r) ∧
      ∀ {w : WriteCall} {body : List Byte}, w.Orders body → id ≠ 0xFE#8 → ∀ r, (w.run id b).2 ≠ .ok r :=
  ⟨comes_damaged (c62_ping hb hbaud id) hlen hd harr,
    fun address count => comes_damaged (c62_read_bytes hb hbaud id address count) hlen hd harr,
    fun hdt address => comes_damaged (c62_read hdt hb hbaud id address) hlen hd harr,
    fun hw hid => comes_damaged (c62_write hw hb hbaud hid) hlen hd harr⟩

/-- **C78** A device gets no instruction from a damaged packet, or the first part of it: the read fails. -/
theorem c78_device {timeout : Nat} {b : Bus} (hb : b.RInv) {to : Byte} {wire F : List Byte} (hlen : wire.length + 2 < 2 ^ 16)
    (hd : ArrivesDamaged to wire F) (harr : stream (b.serialPort.now + timeout) b <+: F) :
    (∃ e, (Device.readRawInstructionTimeout timeout b).2 = .err e) ∧ (∃ e, (Device.read timeout b).2 = .err e) := by
  obtain ⟨c, o, v, left, h1, -, -, hv, -, ho⟩ := c64_read_raw timeout hb
  have key : ∃ e, o = .err e := by
    generalize stream (b.serialPort.now + timeout) b = s at hv harr
    cases hv with
    | small | nothing | tooBig | corrupt => exact ⟨_, ho⟩
    | noInstruction hcap hp => exact (damaged_unparsed hlen hd harr hp).elim
    | status hcap hp hu' hrest => exact (damaged_unparsed hlen hd harr hp).elim
    | instruction hcap hp hu' hi' => exact (damaged_unparsed hlen hd harr hp).elim
  obtain ⟨e, rfl⟩ := key
  refine ⟨⟨e, by rw [h1]⟩, e, ?_⟩
  unfold Device.read
  rw [SO.bind_def, h1]

/-! ## The bounds can not be improved -/

/-- A register with just the last bit set, after 32751 zero bits before: one less than the period of the generator, with 16 bits of CRC. -/
theorem crc_far : crc 0#16 (0x80#8 :: List.replicate 4093 0#8) = 1#16 := by
  have hz : ∀ n, bits (List.replicate n 0#8) = zeros (8 * n) := by
    intro n
    induction n with
    | zero => rfl
    | succ n ih =>
      have e1 : bits (List.replicate (n + 1) 0#8) = zeros 8 ++ bits (List.replicate n 0#8) := rfl
      rw [e1, ih, zeros, zeros, List.replicate_append_replicate, zeros]
      congr 1
      omega
  have e1 : ∀ n, crc 0#16 (0x80#8 :: List.replicate n 0#8) = crcBits 0x8005#16 (zeros (7 + 8 * n)) := by
    intro n
    have e : crcBits 0#16 (byteBits 0x80#8) = crcBits 0x8005#16 (zeros 7) := by decide
    rw [crc_cons, crc, hz, crcBits_zeros_add, e]
  rw [e1]
  apply crcBits_zeros_inj (n := 16)
  rw [← crcBits_zeros_add]
  have e2 : crcBits 1#16 (zeros 16) = 0x8005#16 := by decide +kernel
  have e3 : ∀ k, k = 32767 → crcBits 0x8005#16 (zeros k) = 0x8005#16 := by rintro k rfl; exact period
  rw [e2]
  exact e3 _ (by omega)

/-- Packets for motors 0 and 128 with a body of 4091 zeros: the CRC is different in one bit. -/
theorem far_apart (wire : List Byte) (hw : wire.length = 4091) :
    xorBytes (frame 0#8 wire) (frame 0x80#8 wire) = List.replicate 4 0#8 ++ 0x80#8 :: List.replicate 4093 0#8 ++ [1#8, 0#8] := by
  have hx : xorBytes (frameHead 0#8 wire) (frameHead 0x80#8 wire) = List.replicate 4 0#8 ++ 0x80#8 :: List.replicate 4093 0#8 := by
    unfold frameHead
    rw [List.append_assoc, List.append_assoc (header ++ [0x80#8]), xorBytes_append (show (header ++ [0#8]).length = (header ++ [0x80#8]).length from rfl), xorBytes_self]
    have : (le16 (BitVec.ofNat 16 (wire.length + 2)) ++ wire).length = 4093 := by rw [List.length_append, hw]; rfl
    rw [this]
    generalize List.replicate 4093 0#8 = z
    rfl
  rw [frame, frame, xorBytes_append (by simp [frameHead]), xorBytes_le16, ← xor_codeword (by simp [frameHead]), hx, crc_zeros_head, crc_far]
  generalize List.replicate 4093 0#8 = z
  rfl

/-- **C78** The bounds are the best possible: four wrong bits, or wrong bits within 11 bits on the line, or just two wrong bits in a packet
of 4100 bytes can make another valid packet of a packet, without damage to its header prefix and length. -/
theorem c78_sharp :
    (∃ id wire wire', SameHeader (frame id wire) (frame id wire') ∧
      (diff (lineBits (frame id wire)) (lineBits (frame id wire'))).count true = 4) ∧
    (∃ id wire wire' a w b, SameHeader (frame id wire) (frame id wire') ∧ w.length = 11 ∧ true ∈ w ∧
      diff (lineBits (frame id wire)) (lineBits (frame id wire')) = List.replicate a false ++ w ++ List.replicate b false) ∧
    ∀ wire, wire.length = 4091 → (frame 0#8 wire).length = 4100 ∧ SameHeader (frame 0#8 wire) (frame 0x80#8 wire) ∧
      (diff (lineBits (frame 0#8 wire)) (lineBits (frame 0x80#8 wire))).count true = 2 := by
  refine ⟨⟨1#8, [0x55#8, 0#8, 0#8, 0#8, 0#8], [0x55#8, 0#8, 0x01#8, 0x80#8, 0x05#8], ⟨by decide +kernel, by decide +kernel⟩, by decide +kernel⟩,
    ⟨1#8, [0x55#8, 0#8, 0#8, 0#8, 0#8], [0x55#8, 0#8, 0x80#8, 0x83#8, 0x03#8], 79,
      [true, true, true, false, false, false, false, false, true, true, true], 22, ⟨by decide +kernel, by decide +kernel⟩, rfl, by simp,
      by decide +kernel⟩, fun wire hw => ⟨by have := Bus.frame_length 0#8 wire; omega, ⟨by simp [frame, frameHead, header], by simp [frame, frameHead, header, le16]⟩, ?_⟩⟩
  rw [diff_lineBits (by rw [Bus.frame_length, Bus.frame_length]), far_apart wire hw, count_lineBits, count_bits_append]
  have hz : ∀ n, (bits (List.replicate n 0#8)).count true = 0 := by
    intro n
    induction n with
    | zero => rfl
    | succ n ih =>
      have e1 : bits (List.replicate (n + 1) 0#8) = zeros 8 ++ bits (List.replicate n 0#8) := rfl
      rw [e1, List.count_append, ih]
      rfl
  have e1 : ∀ z, 0x80#8 :: z = [0x80#8] ++ z := fun _ => rfl
  rw [e1, count_bits_append, count_bits_append, hz, hz]
  decide

/-! ## Cases -/

/-- The answer of C76's example with three bits wrong: in the ID, in the data and in the CRC. -/
example : ArrivesDamaged 2#8 [0x55#8, 0x00#8, 7#8, 8#8, 9#8]
    ((readAnswer.set 4 0x12#8).set 9 6#8 |>.set 13 (readAnswer.getD 13 0#8 ^^^ 0x40#8)) :=
  ⟨by decide +kernel, ⟨by decide +kernel, by decide +kernel⟩, .few (by decide +kernel) (by decide +kernel) (by decide +kernel)⟩

/-- A burst of ten bits in the last byte of the data and the first of the CRC. -/
example : ArrivesDamaged 2#8 [0x55#8, 0x00#8, 7#8, 8#8, 9#8]
      ((readAnswer.set 11 (9#8 ^^^ 0xF8#8)).set 12 (readAnswer.getD 12 0#8 ^^^ 0x1F#8)) ∧
    (Client.readBytes 2#8 0#16 3#16 (busWithChunks [(5, (readAnswer.set 11 (9#8 ^^^ 0xF8#8)).set 12 (readAnswer.getD 12 0#8 ^^^ 0x1F#8))])).2 =
      .err (.readError (.invalidMessage (.checksum (crc 0#16 (frameHead 2#8 [0x55#8, 0x00#8, 7#8, 8#8, 9#8]) ^^^ 0x1F#16)
        (crc 0#16 (frameHead 2#8 [0x55#8, 0x00#8, 7#8, 8#8, 9#8 ^^^ 0xF8#8]))))) :=
  ⟨⟨by decide +kernel, ⟨by decide +kernel, by decide +kernel⟩, .burst 91 11 (List.replicate 10 true) (by decide) (by decide) (by decide +kernel)⟩,
    by decide +kernel⟩

/-! ## The theorems on these cases -/

/-- A burst of ten bits over the end of the body and the CRC. -/
def burstAnswer : List Byte := (readAnswer.set 11 (9#8 ^^^ 0xF8#8)).set 12 (readAnswer.getD 12 0#8 ^^^ 0x1F#8)

theorem burstAnswer_damaged : ArrivesDamaged 2#8 [0x55#8, 0x00#8, 7#8, 8#8, 9#8] burstAnswer :=
  ⟨by decide +kernel, ⟨by decide +kernel, by decide +kernel⟩, .burst 91 11 (List.replicate 10 true) (by decide) (by decide) (by decide +kernel)⟩

/-- An instruction with two wrong bits. -/
theorem damagedRead : ArrivesDamaged 1#8 [0x02#8, 0x74#8, 0#8, 4#8, 0#8] ((frame 1#8 [0x02#8, 0x74#8, 0#8, 4#8, 0#8]).set 8 0x77#8) :=
  ⟨by decide +kernel, ⟨by decide +kernel, by decide +kernel⟩, .few (by decide +kernel) (by decide +kernel) (by decide +kernel)⟩

example := c78_not_valid burstAnswer_damaged
example := c78_reported (D := 50) (b := busWithChunks [(5, sampleGarbage ++ burstAnswer ++ [1#8])]) (g := sampleGarbage) (rest := [1#8])
  (busWithChunks_rInv _) (by decide +kernel) (by decide) (by decide) (by decide +kernel) burstAnswer_damaged (by decide +kernel) (Prod.eta _).symm
example := c78_client (b := busWithChunks [(5, burstAnswer)]) ⟨by decide, by decide⟩ (by decide) (by decide) burstAnswer_damaged
  (onlyArrives_chunk _) 2#8
example := c78_device (timeout := 100) (b := busWithChunks [(5, (frame 1#8 [0x02#8, 0x74#8, 0#8, 4#8, 0#8]).set 8 0x77#8)])
  (busWithChunks_rInv _) (by decide) damagedRead (by decide +kernel)

end Dxl.Props
