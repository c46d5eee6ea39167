import Verif.Model.Basic

/-! # `src/bus/endian.rs` -/

namespace Dxl

/-- `write_u8_le`, `src/bus/endian.rs:5-7`. -/
def writeU8Le {ε : Type} (v : Byte) : SO (List Byte) ε Unit := setIdx 0 v

/-- `read_u8_le`, `src/bus/endian.rs:13-15`. -/
def readU8Le {ε : Type} (buffer : List Byte) : Outcome ε Byte := idx buffer 0

/-- `write_u16_le`, `src/bus/endian.rs:18-21`. -/
def writeU16Le {ε : Type} (v : U16) : SO (List Byte) ε Unit := do
  setIdx 0 ((v &&& 0xFF#16).setWidth 8)
  setIdx 1 (((v >>> 8) &&& 0xFF#16).setWidth 8)

/-- `read_u16_le`, `src/bus/endian.rs:24-28`. -/
def readU16Le {ε : Type} (buffer : List Byte) : Outcome ε U16 := do
  let low ← idx buffer 0
  let high ← idx buffer 1
  pure (low.setWidth 16 ||| (high.setWidth 16 <<< 8))

end Dxl
