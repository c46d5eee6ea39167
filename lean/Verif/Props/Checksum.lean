import Verif.Lemmas.CrcDetect

/-! # C01, C02: the checksum -/

namespace Dxl.Props
open Spec

/-- **C01** `calculate_checksum(init, data)` never panics and is the bit-serial CRC-16 with generator `0x8005`. -/
theorem c01_checksum_is_crc16 (init : U16) (data : List Byte) :
    calculateChecksum (ε := Empty) init data = .ok (crc init data) :=
  calculateChecksum_eq init data

/-- **C01** Checksumming in pieces: the checksum of a concatenation is the checksum of the second part started from
the checksum of the first part. -/
theorem c01_checksum_in_pieces (init : U16) (a b : List Byte) :
    calculateChecksum (ε := Empty) init (a ++ b) =
      calculateChecksum init a >>= fun c => calculateChecksum c b := by
  simp [calculateChecksum_eq, crc_append]

/-- Sanity: the example of the unit test, `src/checksum.rs:55-70`. -/
example : calculateChecksum (ε := Empty) 0#16
    [0xFF#8, 0xFF#8, 0xFD#8, 0x00#8, 0x01#8, 0x03#8, 0x00#8, 0x01#8] = .ok 0x4E19#16 := by decide

/-- A frame `m` with CRC field `c` passes the checksum test. -/
def Accepted (m : List Byte) (c : U16) : Prop := calculateChecksum (ε := Empty) 0#16 m = .ok c

/-- **C02** Odd errors: if two equally long frames (message and CRC field, as transmitted) differ in an odd number of
bits, they do not both pass the checksum test. -/
theorem c02_odd_errors_detected (m m' : List Byte) (c c' : U16) (hlen : m.length = m'.length)
    (hodd : (diff (bits (m ++ le16 c)) (bits (m' ++ le16 c'))).count true % 2 = 1) :
    ¬ (Accepted m c ∧ Accepted m' c') := by
  rintro ⟨h, h'⟩
  simp only [Accepted, calculateChecksum_eq, Outcome.ok.injEq] at h h'
  have hp : parity (diff (bits (m ++ le16 c)) (bits (m' ++ le16 c'))) = true := by
    rw [parity_count]; simpa using hodd
  rw [parity_diff _ _ (by simp [bits_length, hlen, le16]), bits_append, bits_append, parity_append, parity_append,
    parity_le16, parity_le16, ← h, ← h'] at hp
  have e : ∀ x : List Byte, parity16 (crc 0#16 x) = parity (bits x) := by
    intro x
    rw [crc, parity16_crcBits]
    simp [parity16]
  rw [e, e] at hp
  simp at hp

/-- **C02** Bursts: if two equally long messages differ within a window of at most 16 consecutive bits (and there is a
difference), they do not both pass with the same CRC field. -/
theorem c02_bursts_detected (m m' : List Byte) (c : U16) (hlen : m.length = m'.length) (a b : Nat) (w : List Bool)
    (hw : w.length ≤ 16) (hne : true ∈ w)
    (hdiff : diff (bits m) (bits m') = List.replicate a false ++ w ++ List.replicate b false) :
    ¬ (Accepted m c ∧ Accepted m' c) := by
  rintro ⟨h, h'⟩
  simp only [Accepted, calculateChecksum_eq, Outcome.ok.injEq] at h h'
  have := (crc_eq_iff 0#16 m m' hlen).mp (h.trans h'.symm)
  rw [hdiff] at this
  exact crcBits_burst hw hne a b this

/-- **C02** Two bits: if two equally long messages differ in exactly two bits, less than 32767 bit positions apart, they
do not both pass with the same CRC field. -/
theorem c02_two_bit_errors_detected (m m' : List Byte) (c : U16) (hlen : m.length = m'.length) (a d b : Nat)
    (hd : d + 1 < 32767)
    (hdiff : diff (bits m) (bits m') =
      List.replicate a false ++ [true] ++ List.replicate d false ++ [true] ++ List.replicate b false) :
    ¬ (Accepted m c ∧ Accepted m' c) := by
  rintro ⟨h, h'⟩
  simp only [Accepted, calculateChecksum_eq, Outcome.ok.injEq] at h h'
  have := (crc_eq_iff 0#16 m m' hlen).mp (h.trans h'.symm)
  rw [hdiff] at this
  exact crcBits_two d hd a b this

/-! The hypotheses are met by concrete frames. -/

example : (diff (bits ([0x55#8, 0x01#8] ++ le16 0x1234#16)) (bits ([0x55#8, 0x00#8] ++ le16 0x1234#16))).count true % 2
    = 1 := by decide

example : diff (bits [0xFF#8, 0x18#8, 0x00#8]) (bits [0xFF#8, 0x00#8, 0x80#8])
    = List.replicate 11 false ++ [true, true, false, false, false, true] ++ List.replicate 7 false := by decide

example : diff (bits [0x80#8, 0x18#8]) (bits [0x00#8, 0x19#8])
    = List.replicate 0 false ++ [true] ++ List.replicate 14 false ++ [true] ++ List.replicate 0 false := by decide

/-- The bound 32767 in `c02_two_bit_errors_detected` can not be improved. -/
theorem c02_two_bit_bound_is_sharp (b : Nat) :
    crcBits 0#16 ([true] ++ List.replicate 32766 false ++ [true] ++ List.replicate b false) = 0#16 :=
  crcBits_two_return 32766 32767 b rfl period

/-! Each theorem with hypotheses on a concrete case. -/

example := c02_odd_errors_detected [0x55#8, 0x01#8] [0x55#8, 0x00#8] 0x1234#16 0x1234#16 rfl (by decide)

example := c02_bursts_detected [0xFF#8, 0x18#8, 0x00#8] [0xFF#8, 0x00#8, 0x80#8] 0x1234#16 rfl 11 7
  [true, true, false, false, false, true] (by decide) (by decide) (by decide)

end Dxl.Props
