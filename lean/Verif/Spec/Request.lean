import Verif.Spec.Frame

/-! # Specification: the instructions of the protocol

The body of an instruction packet (instruction number and parameters) for each instruction, from the protocol 2.0
documentation of the manufacturer; no reference to the model. -/

namespace Dxl.Spec

/-- What to keep in a factory reset. -/
inductive ResetKind where
  | resetAll
  | keepId
  | keepIdAndBaudRate
  deriving Repr, DecidableEq

/-- The instructions of the protocol with their arguments. -/
inductive Request where
  | ping
  | read (address count : BitVec 16)
  | write (address : BitVec 16) (data : List (BitVec 8))
  | regWrite (address : BitVec 16) (data : List (BitVec 8))
  | action
  | factoryReset (kind : ResetKind)
  | reboot
  | clearRevolutionCount
  | clearError
  | syncRead (address count : BitVec 16) (ids : List (BitVec 8))
  | syncWrite (address count : BitVec 16) (writes : List (BitVec 8 × List (BitVec 8)))
  | bulkRead (reads : List (BitVec 8 × BitVec 16 × BitVec 16))
  | bulkWrite (writes : List (BitVec 8 × BitVec 16 × List (BitVec 8)))
  deriving Repr, DecidableEq

namespace Request

/-- The instruction number. -/
def number : Request → BitVec 8
  | ping => 0x01#8
  | read .. => 0x02#8
  | write .. => 0x03#8
  | regWrite .. => 0x04#8
  | action => 0x05#8
  | factoryReset _ => 0x06#8
  | reboot => 0x08#8
  | clearRevolutionCount => 0x10#8
  | clearError => 0x10#8
  | syncRead .. => 0x82#8
  | syncWrite .. => 0x83#8
  | bulkRead _ => 0x92#8
  | bulkWrite _ => 0x93#8

/-- The parameters. Numbers are sent least significant byte first (`le16`). -/
def parameters : Request → List (BitVec 8)
  | ping | action | reboot => []
  | read address count => le16 address ++ le16 count
  | write address data => le16 address ++ data
  | regWrite address data => le16 address ++ data
  | factoryReset .resetAll => [0xFF#8]
  | factoryReset .keepId => [0x01#8]
  | factoryReset .keepIdAndBaudRate => [0x02#8]
  | clearRevolutionCount => [0x01#8, 0x44#8, 0x58#8, 0x4C#8, 0x22#8]
  | clearError => [0x02#8, 0x45#8, 0x52#8, 0x43#8, 0x4C#8]
  | syncRead address count ids => le16 address ++ le16 count ++ ids
  | syncWrite address count writes => le16 address ++ le16 count ++ writes.flatMap fun w => w.1 :: w.2
  | bulkRead reads => reads.flatMap fun r => r.1 :: (le16 r.2.1 ++ le16 r.2.2)
  | bulkWrite writes => writes.flatMap fun w => w.1 :: (le16 w.2.1 ++ le16 (BitVec.ofNat 16 w.2.2.length) ++ w.2.2)

/-- The body of the packet, before stuffing. -/
def body (r : Request) : List (BitVec 8) := r.number :: r.parameters

end Request
end Dxl.Spec
