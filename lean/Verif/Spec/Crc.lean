/-! # Specification: the CRC of the DYNAMIXEL protocol 2.0

Written from the definition of a CRC, with no reference to the model: generator polynomial
`x^16 + x^15 + x^2 + 1` (`0x8005`), most significant bit first, no reflection, no final XOR. -/

namespace Dxl.Spec

/-- The bits of a byte, most significant first. -/
def byteBits (b : BitVec 8) : List Bool :=
  [b.getLsbD 7, b.getLsbD 6, b.getLsbD 5, b.getLsbD 4, b.getLsbD 3, b.getLsbD 2, b.getLsbD 1, b.getLsbD 0]

/-- The bits of a message, in order of transmission into the CRC register. -/
def bits (m : List (BitVec 8)) : List Bool := m.flatMap byteBits

/-- One step of the bit-serial CRC register: shift left; if the bit shifted out differs from the message bit,
subtract the generator. -/
def crcBit (register : BitVec 16) (bit : Bool) : BitVec 16 :=
  if register.getLsbD 15 = bit then register <<< 1 else (register <<< 1) ^^^ 0x8005#16

/-- The bit-serial CRC of a string of bits. -/
def crcBits (init : BitVec 16) (bs : List Bool) : BitVec 16 := bs.foldl crcBit init

/-- The CRC of a message. -/
def crc (init : BitVec 16) (m : List (BitVec 8)) : BitVec 16 := crcBits init (bits m)

/-- Bitwise difference of two strings of bits. -/
def diff (a b : List Bool) : List Bool := List.zipWith (fun x y => x != y) a b

/-- Low byte, high byte: a 16-bit number as sent on the wire. -/
def le16 (v : BitVec 16) : List (BitVec 8) := [v.setWidth 8, (v >>> 8).setWidth 8]

end Dxl.Spec
