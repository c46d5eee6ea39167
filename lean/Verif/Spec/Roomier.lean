import Verif.Spec.Forget

/-! # Two buses with buffers of different sizes

What C101 is about: a bus, and one with larger buffers on a port of its own on which the same happens. -/

namespace Dxl
open Spec

/-- Bytes arrive in the order of the script. -/
def Sequential (rx : List RxEvent) : Prop :=
  (rx.filterMap fun e => match e with | .data t _ => some t | .fail _ _ => none).Pairwise (· ≤ ·)

/-- Nowhere in these bytes is something that looks like the start of a packet of more than `n` bytes. -/
def NoneLarger (n : Nat) (s : List Byte) : Prop :=
  ∀ k, header <+: s.drop k → 7 < (s.drop k).length → 7 + Spec.lengthField (s.drop k) ≤ n

/-- Is this something else than a read? -/
def Call.isOther : Call → Bool
  | .read _ _ => false
  | _ => true

/-- Two ports on which it is the same time, with the same calls so far (apart from reads), and on which calls other than reads will
go the same. -/
structure SamePort (p q : Port) : Prop where
  now : q.now = p.now
  tail : q.tail = p.tail
  discardRes : q.discardRes = p.discardRes
  discardIsNoop : q.discardIsNoop = p.discardIsNoop
  writeRes : q.writeRes = p.writeRes
  baudRes : q.baudRes = p.baudRes
  rate : q.rate = p.rate
  rateErr : q.rateErr = p.rateErr
  calls : q.log.filter Call.isOther = p.log.filter Call.isOther

/-- What there is to read for a bus that holds `held`: first `unread`, which has arrived, later `rx`. Some of `unread` may still
be in the port, as the rest of a piece that did not fit in the read buffer. -/
inductive Sees (held : List Byte) (p : Port) (unread : List Byte) (rx : List RxEvent) : Prop
  | all (h : held = unread) (hrx : p.rx = rx) : Sees held p unread rx
  | part (t : Nat) (x : List Byte) (h : held ++ x = unread) (ht : t ≤ p.now) (hx : x ≠ []) (hrx : p.rx = .data t x :: rx) :
      Sees held p unread rx

/-- The same bus, but the second one with buffers that are as large or larger. They have the same to read, in which nothing looks
like a packet that is too large for the smaller read buffer. Discarding input works. -/
structure Bus.Roomier (b c : Bus) : Prop where
  read_ok : b.RInv ∧ c.RInv
  write_ok : b.WInv ∧ c.WInv
  baudRate : c.baudRate = b.baudRate
  debug : c.debug = b.debug
  readSize : 10 ≤ b.readBuffer.length ∧ b.readBuffer.length ≤ c.readBuffer.length
  writeSize : b.writeBuffer.length ≤ c.writeBuffer.length
  port : SamePort b.serialPort c.serialPort
  discards : b.serialPort.discardIsNoop = false ∧ ∀ r ∈ b.serialPort.discardRes, r = none
  unread : ∃ unread rx, Sees b.pending b.serialPort unread rx ∧ Sees c.pending c.serialPort unread rx ∧ Sequential rx ∧
    NoneLarger b.readBuffer.length (unread ++ allBytes rx)

/-- The call says that the write buffer is too small, or panics (which also happens when only the checksum does not fit, see
C09). -/
inductive NoRoom : {ε α : Type} → Outcome ε α → Prop
  | panic {ε α : Type} : NoRoom (.panic : Outcome ε α)
  | write {α : Type} (e : BufferTooSmall) : NoRoom (.err (.bufferTooSmall e) : Outcome WriteError α)
  | transfer {α : Type} (e : BufferTooSmall) : NoRoom (.err (.writeError (.bufferTooSmall e)) : Outcome TransferError α)

/-- All these calls, one after another, have the same outcome with both buses, at the same times, and the same is sent; until one
says that the write buffer of the first is too small. -/
def SameUntilFull (b c : Bus) : List BusCall → Prop
  | [] => True
  | m :: rest => NoRoom (m.run b).2 ∨
      ((m.run c).2 = (m.run b).2 ∧ SamePort (m.run b).1.serialPort (m.run c).1.serialPort ∧
        SameUntilFull (m.run b).1 (m.run c).1 rest)

end Dxl
