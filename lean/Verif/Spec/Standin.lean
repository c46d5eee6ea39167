import Verif.Model.AnyClient
import Verif.Lemmas.Read
import Verif.Lemmas.Script

/-! # A script port in the place of another port -/

namespace Dxl

namespace PortImpl

variable (P : PortImpl)

/-- The port does not panic, and never says that it read more than fits. It may return errors, take any time, or not return. -/
structure Polite : Prop where
  read : ∀ D old p, (P.read D old p).2.2 ≠ .panic ∧ ∀ n, (P.read D old p).2.2 = .ok n → n ≤ old.length
  discard : ∀ p, (P.discardInputBuffer p).2 ≠ .panic
  write : ∀ bytes p, (P.writeAll bytes p).2 ≠ .panic
  baud : ∀ rate p, (P.setBaudRate rate p).2 ≠ .panic
  deadline : ∀ timeout p, (P.makeDeadline timeout p).2 ≠ .panic

/-- What a script port has for an error of this port: all that matters is if it is a timeout. -/
def ioErr (e : P.Error) : IoErr := if P.isTimeoutError e then .timedOut else .other 0

/-- `rec` is a record of all calls of the port that returned. The deadlines of reads are left out. -/
structure Records (rec : P.Port → List Exchange) : Prop where
  read_ok : ∀ D old p n, (P.read D old p).2.2 = .ok n →
    rec (P.read D old p).1 = rec p ++ [.read old.length 0 (.ok ((P.read D old p).2.1.take n))]
  read_err : ∀ D old p e, (P.read D old p).2.2 = .err e →
    rec (P.read D old p).1 = rec p ++ [.read old.length 0 (.error (P.ioErr e))]
  discard_ok : ∀ p, (P.discardInputBuffer p).2 = .ok () → rec (P.discardInputBuffer p).1 = rec p ++ [.discard none]
  discard_err : ∀ p e, (P.discardInputBuffer p).2 = .err e →
    rec (P.discardInputBuffer p).1 = rec p ++ [.discard (some (P.ioErr e))]
  write_ok : ∀ bytes p, (P.writeAll bytes p).2 = .ok () → rec (P.writeAll bytes p).1 = rec p ++ [.write bytes none]
  write_err : ∀ bytes p e, (P.writeAll bytes p).2 = .err e →
    rec (P.writeAll bytes p).1 = rec p ++ [.write bytes (some (P.ioErr e))]
  baud_ok : ∀ rate p, (P.setBaudRate rate p).2 = .ok () → rec (P.setBaudRate rate p).1 = rec p ++ [.setBaud rate none]
  baud_err : ∀ rate p e, (P.setBaudRate rate p).2 = .err e →
    rec (P.setBaudRate rate p).1 = rec p ++ [.setBaud rate (some (P.ioErr e))]
  deadline : ∀ timeout p, rec (P.makeDeadline timeout p).1 = rec p

def writeErr : WriteErrorOf P.Error → WriteError
  | .bufferTooSmall e => .bufferTooSmall e
  | .discardBuffer e => .discardBuffer (P.ioErr e)
  | .write e => .write (P.ioErr e)

def readErr : ReadErrorOf P.Error → ReadError
  | .bufferFull e => .bufferFull e
  | .io e => .io (P.ioErr e)
  | .invalidMessage e => .invalidMessage e
  | .motorError e => .motorError e

def transferErr : TransferErrorOf P.Error → TransferError
  | .writeError e => .writeError (P.writeErr e)
  | .readError e => .readError (P.readErr e)

/-- An item of an iterator. -/
def item {α : Type} : Option (Except (ReadErrorOf P.Error) α) → Option (Except ReadError α)
  | none => none
  | some (.ok a) => some (.ok a)
  | some (.error e) => some (.error (P.readErr e))

end PortImpl

/-- The same outcome, with other errors and values. -/
def Outcome.both {ε ε' α α' : Type} (f : ε → ε') (g : α → α') : Outcome ε α → Outcome ε' α'
  | .ok a => .ok (g a)
  | .err e => .err (f e)
  | .panic => .panic
  | .hang => .hang

/-- A log without the deadlines of reads. -/
def untimed (log : List Call) : List Call :=
  log.map fun c => match c with
    | .read cap _ => .read cap 0
    | c => c

/-- The script of the port is this, and the time is 0. -/
structure Scripted (p : Port) (es : List Exchange) : Prop where
  now : p.now = 0
  noop : p.discardIsNoop = true
  rx : p.rx = Script.rx es
  writeRes : p.writeRes = Script.writeRes es
  discardRes : p.discardRes = Script.discardRes es
  baudRes : p.baudRes = Script.baudRes es

/-- The calls of a script, without the deadlines of reads. -/
def callsOf : List Exchange → List Call
  | [] => []
  | .read cap _ _ :: es => .read cap 0 :: callsOf es
  | .write bytes a :: es => .write bytes a.isNone :: callsOf es
  | .discard a :: es => .discard a.isNone :: callsOf es
  | .setBaud rate a :: es => .setBaud rate a.isNone :: callsOf es

/-- Two buses in the same state, whatever the ports: the same bytes waiting, buffers of the same size, the same bytes in the write
buffer, the same baud rate. -/
structure Bus.Alike (b c : Bus) : Prop where
  rInv : c.RInv
  pending : c.pending = b.pending
  like : Bus.Like b c

/-- A script port that answers like this. -/
def replay (t : List Exchange) : Port where
  now := 0
  rx := Script.rx t
  tail := .silent
  discardRes := Script.discardRes t
  discardIsNoop := true
  writeRes := Script.writeRes t
  baudRes := Script.baudRes t
  rate := 0
  rateErr := none
  log := []

/-- The bytes received until the first read that failed. -/
def receivedIn : List Exchange → List Byte
  | [] => []
  | .read _ _ (.ok bytes) :: t => bytes ++ receivedIn t
  | .read _ _ (.error _) :: _ => []
  | _ :: t => receivedIn t

end Dxl
