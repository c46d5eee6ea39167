import Verif.Lemmas.Write
import Verif.Lemmas.Read

/-! # Two buses with a different past

What C87 is about: which part of the state of a bus can have an effect on what it does next. -/

namespace Dxl

/-- Two buses on the same port, with the same baud rate, in the same build, with buffers of the same sizes. What the buffers
contain, what was received and not used yet, and the positions in the read buffer may be different. -/
structure Bus.Kin (b c : Bus) : Prop where
  read_ok : b.RInv ∧ c.RInv
  write_ok : b.WInv ∧ c.WInv
  port : c.serialPort = b.serialPort
  baudRate : c.baudRate = b.baudRate
  debug : c.debug = b.debug
  readSize : c.readBuffer.length = b.readBuffer.length
  writeSize : c.writeBuffer.length = b.writeBuffer.length

/-- Two such buses that hold the same received bytes that are not used yet. -/
structure Bus.Twins (b c : Bus) : Prop extends Bus.Kin b c where
  unread : c.pending = b.pending

/-- Code that has the same outcome with two states that are related, and leaves related states. -/
def Forgets {σ ε α : Type} (R R' : σ → σ → Prop) (m : SO σ ε α) : Prop :=
  ∀ s t, R s t → (m t).2 = (m s).2 ∧ R' (m s).1 (m t).1

/-- An encoder that, given a slice of `n` bytes, does the same whatever is in it: it fails, or leaves no old byte. -/
def Overwrites (n : Nat) (m : SO (List Byte) BufferTooSmall Unit) : Prop :=
  ∀ s t, s.length = n → t.length = n → (m t).2 = (m s).2 ∧ ((m s).2 = .ok () → (m t).1 = (m s).1)

/-- A call of a method, with its arguments. -/
structure BusCall : Type 1 where
  {ε α : Type}
  run : SO Bus ε α

/-- All these calls, one after another, have the same outcome with both buses, and the same happens on the port. -/
def SameTalk (b c : Bus) : List BusCall → Prop
  | [] => c.serialPort = b.serialPort
  | m :: rest => (m.run c).2 = (m.run b).2 ∧ (m.run c).1.serialPort = (m.run b).1.serialPort ∧
      SameTalk (m.run b).1 (m.run c).1 rest

end Dxl
