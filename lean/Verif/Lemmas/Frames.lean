import Verif.Lemmas.Read
import Verif.Lemmas.Write

/-! # Frames in a stream -/

namespace Dxl
open Spec

/-- Garbage without a header is skipped: no header can start in it, not even one that ends in what follows. -/
theorem skip_garbage {g t : List Byte} (hg : ¬ header <:+: g) (ht : header <+: t) : skip (g ++ t) = t := by
  induction g with
  | nil => exact skip_of_header ht
  | cons b g ih =>
    have ih := ih (fun h => hg (h.trans (List.suffix_cons b g).isInfix))
    obtain ⟨r, rfl⟩ := ht
    rw [List.cons_append, skip, if_neg]
    · exact ih
    · rintro (h | h)
      · have := h.length_le
        simp [header] at this
        omega
      · match g with
        | [] => simp [header] at h
        | [_] => simp [header] at h
        | [_, _] => simp [header] at h
        | x :: y :: z :: g' =>
          apply hg
          refine List.IsPrefix.isInfix ?_
          simp only [header, List.cons_append, List.cons_prefix_cons] at h ⊢
          exact ⟨h.1, h.2.1, h.2.2.1, h.2.2.2.1, List.nil_prefix⟩

/-- What is skipped is garbage without a header. -/
theorem skip_split (s : List Byte) : ∃ g, s = g ++ skip s ∧ ¬ header <:+: g := by
  induction s with
  | nil => exact ⟨[], rfl, by simp [header]⟩
  | cons b rest ih =>
    rw [skip]
    split
    · exact ⟨[], rfl, by simp [header]⟩
    · rename_i hc
      obtain ⟨g, h1, h2⟩ := ih
      refine ⟨b :: g, by rw [List.cons_append, ← h1], ?_⟩
      intro h
      rcases List.infix_cons_iff.1 h with h | h
      · apply hc
        right
        rw [h1]
        exact h.trans (List.prefix_append (b :: g) (skip rest))
      · exact h2 h

/-- Only garbage: nothing but (the start of) a header may be left. -/
theorem parse_garbage {g : List Byte} (hg : ¬ header <:+: g) (cap : Nat) : parse cap g = .more := by
  have : (skip g).length ≤ 7 := by
    by_cases h : 4 ≤ (skip g).length
    · exact absurd ((skip_header_of_long h).isInfix.trans (skip_suffix g).isInfix) hg
    · omega
  simp [parse, this]

theorem parse_frame {cap : Nat} {g f rest : List Byte} (hg : ¬ header <:+: g) (hf : header <+: f)
    (hlen : f.length = 7 + Spec.lengthField f) (hfit : f.length ≤ cap) (h8 : 8 ≤ (f ++ rest).length) :
    parse cap (g ++ (f ++ rest)) = .packet f rest := by
  have hs : skip (g ++ (f ++ rest)) = f ++ rest := skip_garbage hg (hf.trans (List.prefix_append _ _))
  have hl : Spec.lengthField (f ++ rest) = Spec.lengthField f := lengthField_append (by omega)
  unfold parse
  rw [hs, hl, ← hlen, if_neg (by omega), if_neg (by omega), if_neg (by simp), List.take_left, List.drop_left]

theorem parse_big {cap : Nat} {g hd rest : List Byte} (hg : ¬ header <:+: g) (hh : header <+: hd) (h7 : hd.length = 7)
    (hbig : cap < 7 + Spec.lengthField hd) (hrest : rest ≠ []) :
    parse cap (g ++ (hd ++ rest)) = .tooBig (7 + Spec.lengthField hd) rest := by
  have hs : skip (g ++ (hd ++ rest)) = hd ++ rest := skip_garbage hg (hh.trans (List.prefix_append _ _))
  have hl : Spec.lengthField (hd ++ rest) = Spec.lengthField hd := lengthField_append (by omega)
  have : 0 < rest.length := List.length_pos_iff.mpr hrest
  unfold parse
  rw [hs, hl, if_neg (by simp; omega), if_pos hbig, ← h7, List.drop_left]

theorem lengthField_frame (id : Byte) (wire : List Byte) :
    Spec.lengthField (frame id wire) = (wire.length + 2) % 2 ^ 16 := by
  simp only [Spec.lengthField, frame, frameHead, header, le16, List.cons_append, List.nil_append, List.append_assoc]
  have e5 : ∀ (x0 x1 x2 x3 x4 x5 : Byte) (l : List Byte), (x0 :: x1 :: x2 :: x3 :: x4 :: x5 :: l).getD 5 0#8 = x5 := by
    intros; rfl
  have e6 : ∀ (x0 x1 x2 x3 x4 x5 x6 : Byte) (l : List Byte),
    (x0 :: x1 :: x2 :: x3 :: x4 :: x5 :: x6 :: l).getD 6 0#8 = x6 := by intros; rfl
  rw [e5, e6, BitVec.toNat_setWidth, BitVec.toNat_setWidth, BitVec.toNat_ushiftRight, BitVec.toNat_ofNat,
    Nat.shiftRight_eq_div_pow]
  omega

theorem header_frame (id : Byte) (wire : List Byte) : header <+: frame id wire := by
  simp [frame, frameHead, List.append_assoc]

theorem parse_good_frame {cap : Nat} {g wire rest : List Byte} (id : Byte) (hg : ¬ header <:+: g)
    (hlen : wire.length + 2 < 2 ^ 16) (hfit : (frame id wire).length ≤ cap) :
    parse cap (g ++ (frame id wire ++ rest)) = .packet (frame id wire) rest := by
  have hl := Bus.frame_length id wire
  refine parse_frame hg (header_frame id wire) ?_ hfit (by simp; omega)
  rw [lengthField_frame, hl]
  omega

theorem getD_append_right {l r : List Byte} {i j : Nat} (h : i = l.length + j) : (l ++ r).getD i 0#8 = r.getD j 0#8 := by
  subst h
  rw [List.getD_eq_getElem?_getD, List.getD_eq_getElem?_getD, List.getElem?_append_right (by omega)]
  congr 2
  omega

/-- The two bytes at the end are the CRC field. -/
theorem crcField_append (m : List Byte) (v : U16) : Bus.crcField (m ++ le16 v) = v := by
  unfold Bus.crcField
  rw [getD_append_right (j := 0) (by simp [le16]), getD_append_right (j := 1) (by simp [le16])]
  exact mk16_le16 v

theorem take_append_le16 (m : List Byte) (v : U16) : (m ++ le16 v).take ((m ++ le16 v).length - 2) = m := by
  rw [show (m ++ le16 v).length - 2 = m.length by simp [le16]]
  exact List.take_left

/-- The outcome of a frame, given as message and CRC field. -/
theorem frameOutcome_append {m : List Byte} (v : U16) (hl : 7 ≤ m.length) :
    Bus.frameOutcome (m ++ le16 v) =
      if v ≠ crc 0#16 m then .err (.invalidMessage (.checksum v (crc 0#16 m)))
      else if m.length = 7 then .panic
      else .ok ⟨m.take 7 ++ codeUnstuff (m.drop 7)⟩ := by
  unfold Bus.frameOutcome
  rw [crcField_append, take_append_le16]
  by_cases hv : v ≠ crc 0#16 m
  · rw [if_pos hv, if_pos hv]
  · rw [if_neg hv, if_neg hv]
    by_cases h7 : m.length = 7
    · rw [if_pos h7, if_pos (by simp [le16, h7])]
    · rw [if_neg h7, if_neg (by simp [le16]; omega)]
      rw [List.take_append_of_le_length hl]

theorem frame_drop {f : List Byte} (h : 2 ≤ f.length) : f.drop (f.length - 2) = le16 (Bus.crcField f) := by
  unfold Bus.crcField
  rw [le16_mk16]
  have hd : (f.drop (f.length - 2)).length = 2 := by simp; omega
  match hm : f.drop (f.length - 2), hd with
  | [x, y], _ =>
    have e1 : f[f.length - 2]? = some x := by
      have : (f.drop (f.length - 2))[0]? = some x := by rw [hm]; rfl
      simpa using this
    have e2 : f[f.length - 1]? = some y := by
      have : (f.drop (f.length - 2))[1]? = some y := by rw [hm]; rfl
      rw [List.getElem?_drop] at this
      rw [← this]; congr 1; omega
    simp [List.getD_eq_getElem?_getD, e1, e2]

/-- Every frame is a message followed by a CRC field. -/
theorem frame_split {f : List Byte} (h : 2 ≤ f.length) : f = f.take (f.length - 2) ++ le16 (Bus.crcField f) := by
  rw [← frame_drop h, List.take_append_drop]

/-- A frame with a valid CRC and at least 9 bytes has the layout of `frame`. -/
theorem frame_of_valid {f : List Byte} (hh : header <+: f) (hl : f.length = 7 + Spec.lengthField f) (h9 : 9 ≤ f.length)
    (hc : Bus.crcField f = crc 0#16 (f.take (f.length - 2))) :
    ∃ id wire, f = frame id wire ∧ wire.length + 2 < 2 ^ 16 := by
  have hsplit := frame_split (f := f) (by omega)
  rw [hc] at hsplit
  obtain ⟨r, rfl⟩ := hh
  have hr : 5 ≤ r.length := by simp [header] at h9; omega
  obtain ⟨id, x5, x6, w, rfl⟩ : ∃ id x5 x6 w, r = id :: x5 :: x6 :: w := by
    clear hsplit hc h9 hl
    match r, hr with
    | id :: x5 :: x6 :: w, _ => exact ⟨id, x5, x6, w, rfl⟩
  have hw : 2 ≤ w.length := by simp at hr; omega
  have hlf : Spec.lengthField (header ++ id :: x5 :: x6 :: w) = x5.toNat + 256 * x6.toNat := rfl
  have hlen : (header ++ id :: x5 :: x6 :: w).length = 7 + w.length := by simp [header]; omega
  have hx5 := x5.isLt
  have hx6 := x6.isLt
  have hw2 : (w.take (w.length - 2)).length = w.length - 2 := by simp
  have hle : le16 (BitVec.ofNat 16 (w.length - 2 + 2)) = [x5, x6] := by
    rw [← le16_mk16 x5 x6]
    congr 1
    apply BitVec.eq_of_toNat_eq
    rw [mk16_toNat, BitVec.toNat_ofNat]
    omega
  have hhead : frameHead id (w.take (w.length - 2)) = (header ++ id :: x5 :: x6 :: w).take (7 + w.length - 2) := by
    unfold frameHead
    rw [hw2, hle, show 7 + w.length - 2 = 4 + (3 + (w.length - 2)) by omega,
      show header ++ [id] ++ [x5, x6] ++ w.take (w.length - 2) = header ++ (id :: x5 :: x6 :: w.take (w.length - 2)) by
        simp,
      show (4 : Nat) = header.length from rfl, List.take_length_add_append]
    rw [show 3 + (w.length - 2) = (w.length - 2) + 3 by omega]
    rfl
  refine ⟨id, w.take (w.length - 2), ?_, by omega⟩
  rw [hlen] at hsplit
  rw [hsplit, ← hhead]
  rfl

theorem codeUnstuff_two (a b : Byte) (d : List Byte) : ∃ d', codeUnstuff (a :: b :: d) = a :: b :: d' := by
  have h1 : ∀ x, ustep 0 x ≠ 4 := by intro x; unfold ustep; simp; split <;> omega
  have h2 : ustep (ustep 0 a) b ≠ 4 := by
    have : ustep 0 a = 0 ∨ ustep 0 a = 1 := by
      unfold ustep
      by_cases h : a = 0xFF#8 <;> simp [h]
    rcases this with h | h <;> rw [h]
    · exact h1 b
    · unfold ustep; simp; split <;> omega
  exact ⟨unstuffGo (ustep (ustep 0 a) b) d, by simp [codeUnstuff, unstuffGo, h1, h2]⟩

theorem frameOutcome_frame {wire : List Byte} (id : Byte) (h : wire ≠ []) :
    Bus.frameOutcome (frame id wire) =
      .ok ⟨header ++ [id] ++ le16 (BitVec.ofNat 16 (wire.length + 2)) ++ codeUnstuff wire⟩ := by
  have hl := Bus.frameHead_length id wire
  have : 0 < wire.length := List.length_pos_iff.mpr h
  unfold frame
  rw [frameOutcome_append _ (by omega), if_neg (by simp), if_neg (by omega)]
  have h7 : (header ++ [id] ++ le16 (BitVec.ofNat 16 (wire.length + 2))).length = 7 := rfl
  unfold frameHead
  rw [← h7, List.take_left, List.drop_left]

namespace Bus

/-- The fate of the reader, from all bytes that will ever arrive. -/
theorem readPacketDeadline_all (D : Nat) {b : Bus} (hr : b.RInv) (hN : 10 ≤ b.readBuffer.length) :
    ∃ c o, readPacketDeadline D b = (c, o) ∧ Like b c ∧ c.RInv ∧
      ((∃ e, o = .err (.io e) ∧
          skip (c.pending ++ allBytes c.serialPort.rx) = skip (b.pending ++ allBytes b.serialPort.rx)) ∨
       (∃ f, parse b.readBuffer.length (b.pending ++ allBytes b.serialPort.rx)
            = .packet f (c.pending ++ allBytes c.serialPort.rx) ∧ o = frameOutcome f) ∨
       (∃ req, parse b.readBuffer.length (b.pending ++ allBytes b.serialPort.rx)
            = .tooBig req (c.pending ++ allBytes c.serialPort.rx) ∧
          o = .err (.bufferFull ⟨req, b.readBuffer.length⟩))) := by
  have hres := readPacketDeadline_result D hr hN
  generalize readPacketDeadline D b = r at hres
  cases hres with
  | packet h1 h2 h3 =>
    rename_i bs f rest p c
    refine ⟨c, _, rfl, h3.like, h3.rInv, .inr (.inl ⟨f, ?_, rfl⟩)⟩
    rw [h1.allBytes, ← List.append_assoc, parse_packet_append h2, h3.port, h3.pending]
  | tooBig h1 h2 h3 =>
    rename_i bs rest req p c
    refine ⟨c, _, rfl, h3.like, h3.rInv, .inr (.inr ⟨req, ?_, rfl⟩)⟩
    rw [h1.allBytes, ← List.append_assoc, parse_tooBig_append h2, h3.port, h3.pending]
  | ended h1 h2 h3 h4 h5 =>
    rename_i bs p p' cap e c
    refine ⟨c, _, rfl, h5.like, h5.rInv, .inl ⟨e, rfl, ?_⟩⟩
    rw [h1.allBytes, ← List.append_assoc, h5.port, h5.pending, Port.read_err_allBytes h4, ← skip_append]

end Bus
end Dxl
