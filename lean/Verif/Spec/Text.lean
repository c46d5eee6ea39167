/-! # Numbers in text -/

namespace Dxl.Spec

/-- `c` is the digit for `d` in this base, at most 16. -/
def DigitFor (base : Nat) (c : Char) (d : Nat) : Prop := d < base ∧ "0123456789ABCDEF".toList[d]? = some c

/-- Reading the digits `s` from left to right gives `n`. -/
inductive ReadsAs (base : Nat) : List Char → Nat → Prop
  | nil : ReadsAs base [] 0
  | snoc {s n c d} (h : ReadsAs base s n) (hd : DigitFor base c d) : ReadsAs base (s ++ [c]) (base * n + d)

/-- `s` is `n` written with at least `width` digits, and with no more than necessary. -/
structure Written (base width : Nat) (s : List Char) (n : Nat) : Prop where
  reads : ReadsAs base s n
  wide : width ≤ s.length
  one : 1 ≤ s.length
  least : width < s.length → 1 < s.length → s.head? ≠ some '0'

end Dxl.Spec
