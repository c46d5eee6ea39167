import Verif.Model.Basic

/-! # A line with several ports, as seen from outside -/

namespace Dxl.Spec.Line

/-- What can be seen of a line: writes being asked for, and results of reads. -/
inductive Event where
  | wrote (i : Nat) (data : List Byte)
  | got (j : Nat) (bytes : List Byte)
  deriving Repr, DecidableEq

/-- What port `i` was asked to write, in order. -/
def written (i : Nat) (es : List Event) : List (List Byte) :=
  es.filterMap fun e => match e with
    | .wrote k data => if k = i then some data else none
    | .got _ _ => none

/-- What the reads of port `j` returned, in order. -/
def reads (j : Nat) (es : List Event) : List (List Byte) :=
  es.filterMap fun e => match e with
    | .got k bytes => if k = j then some bytes else none
    | .wrote _ _ => none

/-- A message on the line: who wrote it, and what. -/
abbrev Msg := Nat × List Byte

/-- The messages of port `i` among these. -/
def from_ (i : Nat) (ms : List Msg) : List (List Byte) := (ms.filter fun m => m.1 == i).map (·.2)

/-- The bytes of these messages. -/
def bytes (ms : List Msg) : List Byte := (ms.map (·.2)).flatten

end Dxl.Spec.Line
