import Verif.Lemmas.Basic
import Verif.Model.Endian
import Verif.Spec.Crc

/-! # Little-endian 16-bit numbers -/

namespace Dxl
open Spec

theorem and_low (v : BitVec 16) : (v &&& 0xFF#16).setWidth 8 = v.setWidth 8 := by
  ext i hi
  simp only [BitVec.getElem_setWidth, BitVec.getLsbD_and]
  have : ∀ (i : Nat), i < 8 → (0xFF#16).getLsbD i = true := by decide
  simp [this i hi]

theorem writeU16Le_eq {ε : Type} (v : U16) (a b : Byte) (rest : List Byte) :
    writeU16Le (ε := ε) v (a :: b :: rest) = (le16 v ++ rest, .ok ()) := by
  unfold writeU16Le
  rw [SO.bind_ok (setIdx_ok _ (by simp))]
  rw [setIdx_ok _ (by simp)]
  simp only [and_low]
  simp [le16]

theorem writeU16Le_short {ε : Type} (v : U16) {l : List Byte} (h : l.length < 2) :
    ∃ l', writeU16Le (ε := ε) v l = (l', .panic) ∧ l'.length = l.length := by
  match l, h with
  | [], _ => exact ⟨[], by simp [writeU16Le, setIdx, SO.bind_def], rfl⟩
  | [a], _ => exact ⟨[(v &&& 0xFF#16).setWidth 8], rfl, rfl⟩

/-- The number with the given low and high byte. -/
def mk16 (low high : Byte) : U16 := low.setWidth 16 ||| (high.setWidth 16 <<< 8)

theorem readU16Le_cons {ε : Type} (a b : Byte) (rest : List Byte) :
    readU16Le (ε := ε) (a :: b :: rest) = .ok (mk16 a b) := by
  simp [readU16Le, idx, mk16]

theorem mk16_le16 (v : U16) : mk16 (v.setWidth 8) ((v >>> 8).setWidth 8) = v := by
  ext i hi
  simp only [mk16, BitVec.getElem_or, BitVec.getElem_setWidth, BitVec.getLsbD_setWidth, BitVec.getElem_shiftLeft,
    BitVec.getLsbD_ushiftRight]
  by_cases h : i < 8
  · simp [h, BitVec.getLsbD_eq_getElem hi]
  · have : i - 8 < 8 := by omega
    have e : 8 + (i - 8) = i := by omega
    simp [h, this, e, BitVec.getLsbD_eq_getElem hi]

theorem mk16_toNat (a b : Byte) : (mk16 a b).toNat = a.toNat + 256 * b.toNat := by
  have h1 : (a.setWidth 16).toNat = a.toNat := by simp; have := a.isLt; omega
  have h2 : (b.setWidth 16 <<< 8).toNat = b.toNat <<< 8 := by
    rw [BitVec.toNat_shiftLeft]
    have : (b.setWidth 16).toNat = b.toNat := by simp; have := b.isLt; omega
    rw [this, Nat.shiftLeft_eq]
    have := b.isLt
    omega
  rw [mk16, BitVec.toNat_or, h1, h2]
  have := Nat.shiftLeft_add_eq_or_of_lt (i := 8) (b := a.toNat) a.isLt b.toNat
  rw [Nat.or_comm, ← this, Nat.shiftLeft_eq]
  omega

theorem le16_mk16 (a b : Byte) : le16 (mk16 a b) = [a, b] := by
  simp only [le16, List.cons.injEq, and_true]
  constructor
  · apply BitVec.eq_of_toNat_eq
    rw [BitVec.toNat_setWidth, mk16_toNat]
    have := a.isLt; have := b.isLt; omega
  · apply BitVec.eq_of_toNat_eq
    rw [BitVec.toNat_setWidth, BitVec.toNat_ushiftRight, mk16_toNat, Nat.shiftRight_eq_div_pow]
    have := a.isLt; have := b.isLt; omega

theorem readU16Le_le16 {ε : Type} (v : U16) (rest : List Byte) : readU16Le (ε := ε) (le16 v ++ rest) = .ok v := by
  simp only [le16, List.cons_append, List.nil_append]
  rw [readU16Le_cons, mk16_le16]

theorem le16_length (v : U16) : (le16 v).length = 2 := rfl

theorem le16_inj {v w : U16} (h : le16 v = le16 w) : v = w := by
  have h1 := readU16Le_le16 (ε := Empty) v []
  have h2 := readU16Le_le16 (ε := Empty) w []
  rw [h, h2] at h1
  simpa using h1.symm

end Dxl
