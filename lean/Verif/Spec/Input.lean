import Verif.Model.Port

/-! # Specification: what a serial port has to offer to a reader

Definitions on the script of the environment (`Port`), used to state properties of reception. They do not refer to any
code of the crate. -/

namespace Dxl.Spec

/-- The bytes that arrive until `deadline`, if nothing goes wrong before. -/
def arriving (deadline : Nat) : List RxEvent → List (BitVec 8)
  | [] => []
  | .data t bs :: rest => if t ≤ deadline then bs ++ arriving deadline rest else []
  | .fail _ _ :: _ => []

/-- The bytes a reader with this deadline can obtain from the port before it gets an error or times out. -/
def readable (deadline : Nat) (p : Port) : List (BitVec 8) :=
  if deadline < p.now then [] else arriving deadline p.rx

/-- Why a reader with this deadline gets no more bytes than `readable`: the first failure to come in time, or a
time-out. -/
def obstacle (deadline : Nat) : List RxEvent → Tail → IoErr
  | [], .silent => .timedOut
  | [], .broken e => e
  | .data t _ :: rest, tail => if t ≤ deadline then obstacle deadline rest tail else .timedOut
  | .fail t e :: _, _ => if t ≤ deadline then e else .timedOut

/-- The error a reader with this deadline gets when it has received all of `readable`. -/
def readEnd (deadline : Nat) (p : Port) : IoErr :=
  if deadline < p.now then .timedOut else obstacle deadline p.rx p.tail

/-- All bytes the port will ever deliver. -/
def allBytes : List RxEvent → List (BitVec 8)
  | [] => []
  | .data _ bs :: rest => bs ++ allBytes rest
  | .fail _ _ :: rest => allBytes rest

end Dxl.Spec
