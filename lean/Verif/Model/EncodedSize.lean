import Verif.Model.Data

/-! # The types that implement `Data`, and the evaluation of `ENCODED_SIZE`

`Model/Data.lean` models the implementations of the trait; here is what the compiler computes for a type. -/

namespace Dxl

/-- The widths of the integers of `impl_data_for_number!`, `src/bus/data.rs:73-82`. -/
inductive IntWidth
  | w8 | w16 | w32 | w64 | w128
  deriving Repr, DecidableEq

/-- `core::mem::size_of` of such an integer, `src/bus/data.rs:54`. -/
def IntWidth.sizeOf : IntWidth → Nat
  | .w8 => 1
  | .w16 => 2
  | .w32 => 4
  | .w64 => 8
  | .w128 => 16

/-- The types for which the crate implements `Data`, `src/bus/data.rs:73-82` and `84`. The length of an array is a `usize`,
here any number. Implementations by users of the crate are not included. -/
inductive DataShape
  | unsigned (w : IntWidth)
  | signed (w : IntWidth)
  | array (elem : DataShape) (n : Nat)
  deriving Repr, DecidableEq

/-- `to_u16`, `src/bus/data.rs:163-166`. -/
def toU16 {ε : Type} (input : Nat) : Outcome ε U16 :=
  if input ≤ 65535 then .ok (BitVec.ofNat 16 input) else .panic

/-- `u16::checked_mul`, standard library, `src/bus/data.rs:85`. -/
def checkedMulU16 (a b : U16) : Option U16 :=
  if a.toNat * b.toNat < 2 ^ 16 then some (a * b) else none

/-- `ENCODED_SIZE`, `src/bus/data.rs:54` and `85`. It is evaluated by the compiler: a panic is a program that does not
compile. -/
def DataShape.encodedSize {ε : Type} : DataShape → Outcome ε U16
  | .unsigned w => toU16 w.sizeOf
  | .signed w => toU16 w.sizeOf
  | .array elem n => do
    let size ← elem.encodedSize
    let count ← toU16 n
    match checkedMulU16 size count with
    | some product => .ok product
    | none => .panic

/-- The values of a type, as in `DataTy.unsigned`, `DataTy.signed` and `DataTy.array`, `src/bus/data.rs:51-111`. -/
def DataShape.Val : DataShape → Type
  | .unsigned w => BitVec (8 * w.sizeOf)
  | .signed _ => Int
  | .array elem _ => List elem.Val

/-- The implementation of `Data` for a type, `src/bus/data.rs:51-111`, if there is one in the model. -/
def DataShape.data : (s : DataShape) → Option (DataTy s.Val)
  | .unsigned w => some (DataTy.unsigned w.sizeOf)
  | .signed w => some (DataTy.signed w.sizeOf)
  | .array elem n =>
    match elem.data with
    | some d => if h : d.size.toNat * n < 2 ^ 16 then some (DataTy.array d n h) else none
    | none => none

end Dxl
