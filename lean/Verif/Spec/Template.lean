import Verif.Spec.Text

/-! # Texts with gaps -/

namespace Dxl.Spec

/-- A part of a template: fixed text, a number, a list of numbers, a truth value. -/
inductive FormPart where
  | lit (s : String)
  | nat (n : Nat)
  | nats (ns : List Nat)
  | flag (b : Bool)

/-- `as` are the numbers `ns`, each written in decimal without leading zeros. -/
inductive AllWritten : List (List Char) → List Nat → Prop
  | nil : AllWritten [] []
  | cons {a n as ns} (h : Written 10 1 a n) (hs : AllWritten as ns) : AllWritten (a :: as) (n :: ns)

/-- This text is the template with the gaps filled in. -/
inductive FillsForm : List FormPart → List Char → Prop
  | nil : FillsForm [] []
  | lit {l ps s} (h : FillsForm ps s) : FillsForm (.lit l :: ps) (l.toList ++ s)
  | nat {n a ps s} (ha : Written 10 1 a n) (h : FillsForm ps s) : FillsForm (.nat n :: ps) (a ++ s)
  | nats {ns as ps s} (ha : AllWritten as ns) (h : FillsForm ps s) :
      FillsForm (.nats ns :: ps) (('[' :: List.intercalate [',', ' '] as) ++ ']' :: s)
  | yes {ps s} (h : FillsForm ps s) : FillsForm (.flag true :: ps) ("true".toList ++ s)
  | no {ps s} (h : FillsForm ps s) : FillsForm (.flag false :: ps) ("false".toList ++ s)

/-- A text without its spaces and line breaks. -/
def squeezed (s : List Char) : List Char := s.filter fun c => c ≠ ' ' ∧ c ≠ '\n'

/-- A text without the commas that are followed by a closing bracket. -/
def untrailed : List Char → List Char
  | [] => []
  | c :: s => if c = ',' ∧ (s.head? = some ')' ∨ s.head? = some ']' ∨ s.head? = some '}') then untrailed s else c :: untrailed s

end Dxl.Spec
