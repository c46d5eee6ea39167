import Verif.Model.Basic

/-! # Spec: the byte representation of integers

Written from the protocol description (all multi-byte values are sent least significant byte first, negative numbers in
two's complement), without reference to the code. -/

namespace Dxl

/-- Little-endian bytes of a number: byte `i` has the weight `256 ^ i`. -/
def LittleEndian (n v : Nat) (bytes : List Byte) : Prop :=
  bytes.length = n ∧ ∀ (i : Nat) (h : i < bytes.length), bytes[i].toNat = v / 256 ^ i % 256

/-- Little-endian two's complement: the bytes of the residue of the number modulo `256 ^ n`. -/
def TwosComplement (n : Nat) (z : Int) (bytes : List Byte) : Prop :=
  LittleEndian n (z % (256 ^ n : Nat)).toNat bytes

/-- The range of an `n` byte signed integer. -/
def InSignedRange (n : Nat) (z : Int) : Prop := -(256 ^ n : Nat) ≤ 2 * z ∧ 2 * z < (256 ^ n : Nat)

end Dxl
