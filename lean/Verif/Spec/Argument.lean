/-! # Specification: motor IDs on the command line

As the documentation and the error message of the tool put it: "a number in the range 0..255 or the special value broadcast".
Strings are lists of bytes (UTF-8). No reference to the model. -/

namespace Dxl.Spec

/-- The two forms of each letter of the word "broadcast". -/
def broadcastLetters : List (BitVec 8 × BitVec 8) :=
  ['b', 'r', 'o', 'a', 'd', 'c', 'a', 's', 't'].map fun c => (BitVec.ofNat 8 c.toNat, BitVec.ofNat 8 c.toUpper.toNat)

/-- The word "broadcast", where each letter may be in either case. -/
def IsBroadcastWord (s : List (BitVec 8)) : Prop :=
  s.length = broadcastLetters.length ∧ ∀ (i : Nat) (c : BitVec 8) (l : BitVec 8 × BitVec 8), s[i]? = some c → broadcastLetters[i]? = some l → c = l.1 ∨ c = l.2

/-- `s` is a nonempty list of decimal digits, with this value. -/
inductive Digits : List (BitVec 8) → Nat → Prop
  | one (d : Nat) (h : d < 10) : Digits [BitVec.ofNat 8 ('0'.toNat + d)] d
  | more {s : List (BitVec 8)} {n : Nat} (h : Digits s n) (d : Nat) (hd : d < 10) :
      Digits (s ++ [BitVec.ofNat 8 ('0'.toNat + d)]) (10 * n + d)

/-- `s` denotes the number `n`: digits, possibly with a plus sign in front. -/
def Numeral (s : List (BitVec 8)) (n : Nat) : Prop :=
  Digits s n ∨ ∃ t, s = BitVec.ofNat 8 '+'.toNat :: t ∧ Digits t n

end Dxl.Spec
