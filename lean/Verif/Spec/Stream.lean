import Verif.Spec.Frame

/-! # Specification: receiving packets from a stream of bytes

No reference to the model. -/

namespace Dxl.Spec

/-- Skip to the first place where a packet header starts, or may start (at the very end, where the rest is not
known yet). -/
def skip : List (BitVec 8) → List (BitVec 8)
  | [] => []
  | b :: rest => if (b :: rest) <+: header ∨ header <+: (b :: rest) then b :: rest else skip rest

/-- The number in the length field of a packet. -/
def lengthField (f : List (BitVec 8)) : Nat := (f.getD 5 0#8).toNat + 256 * (f.getD 6 0#8).toNat

/-- What the stream starts with. -/
inductive Parsed where
  /-- More bytes are needed. -/
  | more
  /-- A packet of `required` bytes that does not fit; only its header is skipped. -/
  | tooBig (required : Nat) (rest : List (BitVec 8))
  /-- A complete packet (header up to CRC, stuffed, CRC not checked), and what follows it. -/
  | packet (frame rest : List (BitVec 8))
  deriving Repr, DecidableEq

/-- Cut the first packet off a stream, for a receiver that can hold `cap` bytes. -/
def parse (cap : Nat) (s : List (BitVec 8)) : Parsed :=
  if (skip s).length ≤ 7 then .more
  else if cap < 7 + lengthField (skip s) then .tooBig (7 + lengthField (skip s)) ((skip s).drop 7)
  else if (skip s).length < 7 + lengthField (skip s) then .more
  else .packet ((skip s).take (7 + lengthField (skip s))) ((skip s).drop (7 + lengthField (skip s)))

end Dxl.Spec
