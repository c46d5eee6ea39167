import Verif.Spec.Argument

/-! # Specification: settings from the environment, and who has the port

No reference to the model. -/

namespace Dxl.Spec

/-- `s` lists these numbers, with commas between them. -/
inductive NumberList : List (BitVec 8) → List Nat → Prop
  | one {s : List (BitVec 8)} {n : Nat} (h : Numeral s n) : NumberList s [n]
  | more {p s : List (BitVec 8)} {n : Nat} {ns : List Nat} (h : Numeral p n) (h' : NumberList s ns) :
      NumberList (p ++ BitVec.ofNat 8 ','.toNat :: s) (n :: ns)

/-- After these openings (`true`) and closings (`false`) by the threads, thread `i` has the port open. -/
def HasOpen (i : Nat) (events : List (Nat × Bool)) : Prop :=
  ∃ before after, events = before ++ (i, true) :: after ∧ (i, false) ∉ after

end Dxl.Spec
