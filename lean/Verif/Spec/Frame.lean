import Verif.Spec.Crc
import Verif.Spec.Stuff

/-! # Specification: the layout of a packet on the wire -/

namespace Dxl.Spec

/-- The packet header prefix. -/
def header : List (BitVec 8) := [0xFF#8, 0xFF#8, 0xFD#8, 0x00#8]

/-- Everything of a packet but its CRC: header prefix, packet ID, length of what follows (with the CRC), body. -/
def frameHead (id : BitVec 8) (wireBody : List (BitVec 8)) : List (BitVec 8) :=
  header ++ [id] ++ le16 (BitVec.ofNat 16 (wireBody.length + 2)) ++ wireBody

/-- A packet on the wire, given its ID and its body after stuffing. -/
def frame (id : BitVec 8) (wireBody : List (BitVec 8)) : List (BitVec 8) :=
  frameHead id wireBody ++ le16 (crc 0#16 (frameHead id wireBody))

end Dxl.Spec
