import Verif.Model.Unwind

/-! # Specification: what a conversion of the caller adds

The conversion is applied to the data of a response that is read as bytes, and to nothing else. -/

namespace Dxl.Spec

/-- A response with other data. -/
def withData {α : Type} (r : Response (List Byte)) (a : α) : Response α := ⟨r.motorId, r.alert, a⟩

/-- The result of a call that would return bytes, for a caller with this conversion: only a response is converted, and a panic of the
conversion is one of the call. -/
def converted {W α ε : Type} (f : List Byte → W → W × Option α) (w : W) :
    Outcome ε (Response (List Byte)) → W × Outcome ε (Response α)
  | .ok r => ((f r.data w).1, match (f r.data w).2 with | some a => .ok (withData r a) | none => .panic)
  | .err e => (w, .err e)
  | .panic => (w, .panic)
  | .hang => (w, .hang)

/-- The same for an item of an iterator. -/
def convertedItem {W α ε : Type} (f : List Byte → W → W × Option α) (w : W) :
    Outcome ε (Option (Except ReadError (Response (List Byte)))) → W × Outcome ε (Option (Except ReadError (Response α)))
  | .ok (some (.ok r)) => ((f r.data w).1, match (f r.data w).2 with | some a => .ok (some (.ok (withData r a))) | none => .panic)
  | .ok (some (.error e)) => (w, .ok (some (.error e)))
  | .ok none => (w, .ok none)
  | .err e => (w, .err e)
  | .panic => (w, .panic)
  | .hang => (w, .hang)

/-- Code that asks for converted items, as code that asks for bytes and converts them itself. -/
def byHand {W α ω : Type} (f : List Byte → W → W × Option α) :
    LoopCode (Except ReadError (Response α)) ω → W → LoopCode (Except ReadError (Response (List Byte))) (W × ω)
  | .returns a, w => .returns (w, a)
  | .panics, _ => .panics
  | .asks k, w => .asks fun x =>
    match x with
    | none => byHand f (k none) w
    | some (.error e) => byHand f (k (some (.error e))) w
    | some (.ok r) =>
      match f r.data w with
      | (_, none) => .panics
      | (w', some a) => byHand f (k (some (.ok (withData r a)))) w'

end Dxl.Spec
