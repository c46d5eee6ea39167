import Verif.Spec.Stream

/-! # Specification: what is moved while a packet is received

No reference to the model. -/

namespace Dxl.Spec

/-- The bytes that are moved if, before the first and after every read, all that has come is moved to the start of the buffer, from the
first place where a packet may start: `pending` was there before, then come the chunks. -/
def moved (pending : List (BitVec 8)) : List (List (BitVec 8)) → Nat
  | [] => (skip pending).length
  | chunk :: chunks => (skip pending).length + moved (pending ++ chunk) chunks

/-- What is moved after the last read: what follows a header with a length that does not fit, or a packet with a wrong CRC. -/
def movedLast (cap : Nat) (s : List (BitVec 8)) : Nat :=
  match parse cap s with
  | .more => 0
  | .tooBig _ rest => rest.length
  | .packet f rest => if f.drop (f.length - 2) = le16 (crc 0#16 (f.take (f.length - 2))) then 0 else rest.length

end Dxl.Spec
