import Verif.Model.Unwind

/-! # What the code that uses an iterator makes of the items it gets -/

namespace Dxl.Spec

/-- Given just these items, the code comes to its end by itself: it returns a value, or it panics (`none`). -/
inductive Concludes {ι ω : Type} : LoopCode ι ω → List (Option ι) → Option ω → Prop
  | returns (a : ω) : Concludes (.returns a) [] (some a)
  | panics : Concludes .panics [] none
  | asks {k : Option ι → LoopCode ι ω} {x : Option ι} {xs : List (Option ι)} {v : Option ω} :
      Concludes (k x) xs v → Concludes (.asks k) (x :: xs) v

/-- Given just these items, the code asks for one more. -/
inductive WantsMore {ι ω : Type} : LoopCode ι ω → List (Option ι) → Prop
  | now (k : Option ι → LoopCode ι ω) : WantsMore (.asks k) []
  | later {k : Option ι → LoopCode ι ω} {x : Option ι} {xs : List (Option ι)} : WantsMore (k x) xs → WantsMore (.asks k) (x :: xs)

/-- The end of a scope: one panic can be caught, two can not. `trouble`: the destructor panics. -/
def settled {ω : Type} (own : Option ω) (trouble : Bool) : ScopeEnd ω :=
  match own, trouble with
  | some a, false => .returned a
  | some _, true => .unwound
  | none, false => .unwound
  | none, true => .aborted

end Dxl.Spec
