import Verif.Model.EncodedSize
import Verif.Spec.Integer

/-! # What a type is on the wire -/

namespace Dxl

/-- The number of bytes of an integer: the number in its name, divided by 8. -/
def IntWidth.octets : IntWidth → Nat
  | .w8 => 8 / 8
  | .w16 => 16 / 8
  | .w32 => 32 / 8
  | .w64 => 64 / 8
  | .w128 => 128 / 8

/-- The number of bytes of a value: the width of the number, times all the lengths. -/
def DataShape.bytes : DataShape → Nat
  | .unsigned w => w.octets
  | .signed w => w.octets
  | .array elem n => elem.bytes * n

/-- The lengths of the arrays in a type, from the outermost to the innermost. -/
def DataShape.lengths : DataShape → List Nat
  | .unsigned _ => []
  | .signed _ => []
  | .array elem n => n :: elem.lengths

/-- The arrays that a type is made of, the type itself first. -/
def DataShape.arrays : DataShape → List DataShape
  | .unsigned _ => []
  | .signed _ => []
  | .array elem n => .array elem n :: elem.arrays

/-- One after the other, the bytes of each value. -/
def InARow {α : Type} (of : α → List Byte → Prop) : List α → List Byte → Prop
  | [], bytes => bytes = []
  | v :: vs, bytes => ∃ first rest, bytes = first ++ rest ∧ of v first ∧ InARow of vs rest

/-- A value that exists in Rust: integers in range, arrays of the right length. -/
def DataShape.Exists : (s : DataShape) → s.Val → Prop
  | .unsigned _, _ => True
  | .signed w, z => InSignedRange w.octets z
  | .array elem n, vs => List.length (α := elem.Val) vs = n ∧ ∀ v : elem.Val, List.Mem v vs → elem.Exists v

/-- The bytes of a value: little-endian integers, one after the other. -/
def DataShape.Wire : (s : DataShape) → s.Val → List Byte → Prop
  | .unsigned w, v, bytes => LittleEndian w.octets (BitVec.toNat (w := 8 * w.sizeOf) v) bytes
  | .signed w, z, bytes => TwosComplement w.octets z bytes
  | .array elem _, vs, bytes => InARow elem.Wire vs bytes

end Dxl
