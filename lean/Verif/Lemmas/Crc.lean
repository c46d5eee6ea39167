import Verif.Lemmas.Basic
import Verif.Model.Checksum
import Verif.Spec.Crc

/-! # CRC: the table-driven code computes the bit-serial CRC; linearity -/

namespace Dxl
open Spec

theorem crcBits_append (init : BitVec 16) (a b : List Bool) :
    crcBits init (a ++ b) = crcBits (crcBits init a) b := by
  simp [crcBits, List.foldl_append]

theorem crc_append (init : BitVec 16) (a b : List (BitVec 8)) : crc init (a ++ b) = crc (crc init a) b := by
  simp [crc, bits, crcBits_append]

theorem crc_cons (init : BitVec 16) (a : BitVec 8) (b : List (BitVec 8)) :
    crc init (a :: b) = crc (crcBits init (byteBits a)) b := by
  simp [crc, bits, crcBits_append]

/-- A zero bit is a linear map. -/
theorem crcBit_xor (c c' : BitVec 16) (b b' : Bool) :
    crcBit (c ^^^ c') (b != b') = crcBit c b ^^^ crcBit c' b' := by
  unfold crcBit
  simp only [BitVec.getLsbD_xor, BitVec.shiftLeft_xor_distrib]
  cases c.getLsbD 15 <;> cases c'.getLsbD 15 <;> cases b <;> cases b' <;> simp <;> grind

theorem crcBits_xor (a b : List Bool) (h : a.length = b.length) (c c' : BitVec 16) :
    crcBits (c ^^^ c') (diff a b) = crcBits c a ^^^ crcBits c' b := by
  induction a generalizing b c c' with
  | nil => cases b with
    | nil => rfl
    | cons _ _ => simp at h
  | cons x a ih => cases b with
    | nil => simp at h
    | cons y b =>
      have := ih b (by simpa using h) (crcBit c x) (crcBit c' y)
      simp only [diff, crcBits, List.zipWith_cons_cons, List.foldl_cons] at this ⊢
      rw [crcBit_xor]
      exact this

/-- `n` zero bits. -/
def zeros (n : Nat) : List Bool := List.replicate n false

theorem diff_zeros (a : List Bool) : diff a (zeros a.length) = a := by
  induction a with
  | nil => rfl
  | cons x a ih => simp_all [diff, zeros, List.replicate_succ]

theorem byteBits_length (b : BitVec 8) : (byteBits b).length = 8 := rfl

theorem bits_length (m : List (BitVec 8)) : (bits m).length = 8 * m.length := by
  induction m with
  | nil => rfl
  | cons a m ih => simp [bits] at ih ⊢; rw [ih, byteBits_length]; omega

/-- Feeding a byte to an empty register is the same as starting with the byte in the register. -/
theorem crcBits_byte_zero : ∀ b : BitVec 8,
    crcBits (b.setWidth 16 <<< 8) (byteBits b) = 0#16 := by decide +kernel

theorem crcBits_byte (c : BitVec 16) (b : BitVec 8) :
    crcBits c (byteBits b) = crcBits (c ^^^ (b.setWidth 16 <<< 8)) (zeros 8) := by
  have h := crcBits_xor (byteBits b) (zeros 8) rfl (b.setWidth 16 <<< 8) (c ^^^ (b.setWidth 16 <<< 8))
  rw [crcBits_byte_zero, show diff (byteBits b) (zeros 8) = byteBits b from diff_zeros (byteBits b)] at h
  rw [BitVec.zero_xor] at h
  rw [← h]
  congr 1
  rw [BitVec.xor_comm, BitVec.xor_assoc, BitVec.xor_self, BitVec.xor_zero]

/-- The table lists the CRC of every byte. -/
theorem crcTable_eq : ∀ h : BitVec 8,
    crcTable[h.toNat]? = some (crcBits (h.setWidth 16 <<< 8) (zeros 8)) := by decide +kernel

theorem crcBits_low : ∀ l : BitVec 8,
    crcBits (l.setWidth 16) (zeros 8) = l.setWidth 16 <<< 8 := by decide +kernel

theorem split_bytes (d : BitVec 16) :
    d = ((d >>> 8).setWidth 8).setWidth 16 <<< 8 ^^^ (d.setWidth 8).setWidth 16 := by
  ext i hi
  simp only [BitVec.getElem_xor, BitVec.getElem_shiftLeft, BitVec.getElem_setWidth, BitVec.getLsbD_setWidth,
    BitVec.getLsbD_ushiftRight]
  by_cases h : i < 8 <;> simp [h]
  · rw [BitVec.getLsbD_eq_getElem]
  · rw [show 8 + (i - 8) = i by omega, BitVec.getLsbD_eq_getElem hi]
    simp; intro _; omega

theorem mask_bit : ∀ (i : Nat) (hi : i < 16), (255#16)[i] = decide (i < 8) := by decide

theorem checksumStep_eq {ε : Type} (c : BitVec 16) (b : BitVec 8) :
    checksumStep (ε := ε) c b = .ok (crcBits c (byteBits b)) := by
  rw [crcBits_byte]
  have hidx : ((c >>> 8) ^^^ (b.setWidth 16 &&& 0xff#16)).toNat
      = (((c ^^^ (b.setWidth 16 <<< 8)) >>> 8).setWidth 8).toNat := by
    have : ((c >>> 8) ^^^ (b.setWidth 16 &&& 0xff#16))
      = (((c ^^^ (b.setWidth 16 <<< 8)) >>> 8).setWidth 8).setWidth 16 := by
      ext i hi
      simp only [BitVec.getElem_xor, BitVec.getElem_ushiftRight, BitVec.getElem_and, BitVec.getElem_setWidth,
        BitVec.getLsbD_setWidth, BitVec.getLsbD_ushiftRight, BitVec.getLsbD_xor, BitVec.getLsbD_shiftLeft]
      rw [mask_bit i hi]
      by_cases h : i < 8
      · simp [h]; grind
      · simp [h]; exact BitVec.getLsbD_of_ge _ _ (by omega)
    rw [this]
    simp
    omega
  unfold checksumStep
  simp only
  rw [hidx, crcTable_eq]
  generalize hd : c ^^^ (b.setWidth 16 <<< 8) = d
  have hsh : c <<< 8 = d <<< 8 := by
    rw [← hd, BitVec.shiftLeft_xor_distrib, ← BitVec.shiftLeft_add]
    simp
  rw [hsh]
  have h := crcBits_xor (zeros 8) (zeros 8) rfl (((d >>> 8).setWidth 8).setWidth 16 <<< 8) ((d.setWidth 8).setWidth 16)
  rw [← split_bytes, crcBits_low, show diff (zeros 8) (zeros 8) = zeros 8 from rfl] at h
  rw [h, BitVec.xor_comm]
  show Outcome.ok _ = Outcome.ok _
  congr 2
  ext i hi
  simp only [BitVec.getElem_shiftLeft, BitVec.getElem_setWidth, BitVec.getLsbD_setWidth]
  have h8 : i - 8 < 8 := by omega
  simp [h8, BitVec.getLsbD_eq_getElem (show i - 8 < 16 by omega)]

theorem calculateChecksum_eq {ε : Type} (init : BitVec 16) (m : List (BitVec 8)) :
    calculateChecksum (ε := ε) init m = .ok (crc init m) := by
  induction m generalizing init with
  | nil => rfl
  | cons a m ih => simp [calculateChecksum, checksumStep_eq, ih, crc_cons]

end Dxl
