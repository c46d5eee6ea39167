import Verif.Model.Device

/-! # How much time passes: what is needed to state C100 -/

namespace Dxl

/-- Is this a call of `write_all`? -/
def Call.isWrite : Call → Bool
  | .write _ _ => true
  | _ => false

/-- From `b` to `b'` there are at most `writes` calls of `write_all`; and apart from the time that these take, at most `wait`
nanoseconds pass. -/
def Spends (writes wait : Nat) (b b' : Bus) : Prop :=
  (∃ calls, b'.serialPort.log = b.serialPort.log ++ calls ∧ (calls.filter Call.isWrite).length ≤ writes) ∧
  ∃ used : List (Nat × Option IoErr), b.serialPort.writeRes = used ++ b'.serialPort.writeRes ∧ used.length ≤ writes ∧
    b.serialPort.now + (used.map Prod.fst).sum ≤ b'.serialPort.now ∧
    b'.serialPort.now ≤ b.serialPort.now + (used.map Prod.fst).sum + wait

/-- The calls that send something; with the number of parameters of the response that is awaited, if one is. -/
inductive Waits : {ε α : Type} → SO Bus ε α → Option Nat → Prop
  | writeInstruction (id instr n enc) : Waits (Client.writeInstruction id instr n enc) none
  | transferSingle (id instr n) (expected : U16) (enc) : Waits (Client.transferSingle id instr n expected enc) (some expected.toNat)
  | action (id) : Waits (Client.action id) (if id = 0xFE#8 then none else some 0)
  | broadcastAction : Waits Client.broadcastAction none
  | reboot (id) : Waits (Client.reboot id) (if id = 0xFE#8 then none else some 0)
  | broadcastReboot : Waits Client.broadcastReboot none
  | clearRevolutionCounter (id) : Waits (Client.clearRevolutionCounter id) (if id = 0xFE#8 then none else some 0)
  | broadcastClearRevolutionCounter : Waits Client.broadcastClearRevolutionCounter none
  | clearError (id) : Waits (Client.clearError id) (if id = 0xFE#8 then none else some 0)
  | broadcastClearError : Waits Client.broadcastClearError none
  | factoryReset (id kind) : Waits (Client.factoryReset id kind) (if id = 0xFE#8 then none else some 0)
  | broadcastFactoryReset (kind) : Waits (Client.broadcastFactoryReset kind) none
  | readRaw (id address) (count : U16) : Waits (Client.readRaw id address count) (some count.toNat)
  | readBytes (id address) (count : U16) : Waits (Client.readBytes id address count) (some count.toNat)
  | read {α : Type} (d : DataTy α) (id address) : Waits (Client.read d id address) (some d.size.toNat)
  | write {α : Type} (d : DataTy α) (id address) (value : α) :
      Waits (Client.write d id address value) (if id = 0xFE#8 then none else some 0)
  | writeBytes (id address data) : Waits (Client.writeBytes id address data) (if id = 0xFE#8 then none else some 0)
  | regWrite {α : Type} (d : DataTy α) (id address) (value : α) :
      Waits (Client.regWrite d id address value) (if id = 0xFE#8 then none else some 0)
  | regWriteBytes (id address data) : Waits (Client.regWriteBytes id address data) (if id = 0xFE#8 then none else some 0)
  | ping (id) : Waits (Client.ping id) (some 3)
  | scan : Waits Client.scan none
  | syncReadBytes (ids address count) : Waits (Client.syncReadBytes ids address count) none
  | syncRead {α : Type} (d : DataTy α) (ids address) : Waits (Client.syncRead d ids address) none
  | bulkReadBytes (reads) : Waits (Client.bulkReadBytes reads) none
  | syncWriteBytes (address count data) : Waits (Client.syncWriteBytes address count data) none
  | syncWrite {α : Type} (d : DataTy α) (address) (data : List (SyncWriteData α)) : Waits (Client.syncWrite d address data) none
  | bulkWrite (writes) : Waits (Client.bulkWrite writes) none
  | deviceWriteStatus (id error n enc) : Waits (Device.writeStatus id error n enc) none
  | deviceWriteStatusError (id error) : Waits (Device.writeStatusError id error) none
  | deviceWriteStatusOk (id) : Waits (Device.writeStatusOk id) none

/-- The methods with which a device waits for an instruction; with the time-out that is given. -/
inductive Listening : {ε α : Type} → SO Bus ε α → Nat → Prop
  | readRaw (timeout) : Listening (Device.readRawInstructionTimeout timeout) timeout
  | read (timeout) : Listening (Device.read timeout) timeout
  | readOwned (timeout) : Listening (Device.readOwned timeout) timeout

/-- An iterator over the responses to a sync read is used, and dropped or not. -/
inductive SyncUse (s : SyncIter) : SyncIter → Prop
  | none : SyncUse s s
  | nextBytes {s' : SyncIter} (h : SyncUse s s') : SyncUse s (SyncIter.nextBytes (ε := Empty) s').1
  | next {s' : SyncIter} (h : SyncUse s s') {α : Type} (d : DataTy α) (hd : d.size = s.count) :
      SyncUse s (SyncIter.next (ε := Empty) d s').1
  | dropBytes {s' : SyncIter} (h : SyncUse s s') (fuel : Nat) : SyncUse s (SyncIter.dropBytes (ε := Empty) fuel s').1
  | drop {s' : SyncIter} (h : SyncUse s s') {α : Type} (d : DataTy α) (hd : d.size = s.count) (fuel : Nat) :
      SyncUse s (SyncIter.drop (ε := Empty) d fuel s').1

/-- The same for a bulk read; the end is when it is dropped. -/
inductive BulkUse (s : BulkIter) : BulkIter → Prop
  | none : BulkUse s s
  | next {s' : BulkIter} (h : BulkUse s s') : BulkUse s (BulkIter.next (ε := Empty) s').1

end Dxl
