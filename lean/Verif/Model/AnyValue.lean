import Verif.Model.Unwind

/-! # Conversions of the caller

The methods that read bytes return a `Response<T>` for any `T: From<&[u8]>` of the caller, or a `Response<&T>` for any `T` with
`[u8]: Borrow<T>`. The rest of the model has `T` a list of bytes. Here the conversion is any code of the caller: it may panic, and it
may use and change a state of its own. Simplification: it ends. -/

namespace Dxl

/-- `T::from` and `<[u8] as Borrow<T>>::borrow`, `src/bus/data.rs:35, 48`: what the code of the caller makes of the bytes, and of its
own state. `none` is a panic. -/
abbrev Conversion (W α : Type) := List Byte → W → W × Option α

/-- A call of the conversion, `src/bus/data.rs:35, 48`. -/
def Conversion.call {W α ε : Type} (f : Conversion W α) (data : List Byte) : SO W ε α := fun w =>
  match f data w with
  | (w, some a) => (w, .ok a)
  | (w, none) => (w, .panic)

/-- `decode_status_packet_bytes` and `decode_status_packet_bytes_borrow`, `src/bus/data.rs:26-50`. The fields are evaluated in the
order in which they are written. -/
def decodeStatusPacketBytesAs {W α : Type} (f : Conversion W α) (s : StatusPacket) : SO W MotorError (Response α) := do
  let e ← SO.lift s.error
  SO.lift (MotorError.check e)
  let motorId ← SO.lift s.packetId
  let alert ← SO.lift s.alert
  let parameters ← SO.lift s.parameters
  let data ← f.call parameters
  pure { motorId, alert, data }

/-- Run code of the caller, `src/bus/data.rs:35`: it has no access to the client. -/
def SO.outside {W σ ε α : Type} (m : SO W ε α) : SO (W × σ) ε α := SO.zoom Prod.fst (fun w s => (w, s.2)) m

/-- Run code of the library, for example `src/instructions/read.rs:30`: it has no access to the state of the caller. -/
def SO.inside {W σ ε α : Type} (m : SO σ ε α) : SO (W × σ) ε α := SO.zoom Prod.snd (fun t s => (s.1, t)) m

/-- `Client::read_bytes`, `src/instructions/read.rs:26-32`, for any `T`. -/
def Client.readBytesAs {W α : Type} (f : Conversion W α) (motorId : Byte) (address count : U16) :
    SO (W × Bus) TransferError (Response α) := do
  let status ← SO.inside (Client.readRaw motorId address count)
  SO.outside ((decodeStatusPacketBytesAs f status).mapErr fun e => .readError (.motorError e))

namespace SyncIter

/-- `SyncReadBytes::next_response` and `next_response_borrow`, `src/instructions/sync_read.rs:194-216`, for any `T`. -/
def nextResponseBytesAs {W α : Type} (f : Conversion W α) (motorId : Byte) : SO (W × SyncIter) ReadError (Response α) := do
  let s ← SO.get
  let response ← SO.inside (onClient (Client.readStatusResponse s.2.count))
  SO.lift (checkResponse response motorId s.2.count)
  SO.outside ((decodeStatusPacketBytesAs f response).mapErr .motorError)

/-- `SyncReadBytes::read_next`, `read_next_borrow` and `Iterator::next`, `src/instructions/sync_read.rs:150-186`, for any `T`. -/
def nextBytesAs {W α ε : Type} (f : Conversion W α) : SO (W × SyncIter) ε (Option (Except ReadError (Response α))) := do
  match ← SO.inside popMotorId with
  | none => pure none
  | some id =>
    let r ← (nextResponseBytesAs f id).attempt
    pure (some r)

/-- `Drop for SyncReadBytes`, `src/instructions/sync_read.rs:135-139`, for any `T`: nothing is converted. -/
def dropBytesAs {W ε : Type} (fuel : Nat) : SO (W × SyncIter) ε Unit := SO.inside (dropBytes fuel)

end SyncIter

namespace BulkIter

/-- `next_response` and `next_response_borrow`, `src/instructions/bulk_read.rs:183-206`, for any `T`. -/
def nextResponseAs {W α : Type} (f : Conversion W α) (motorId : Byte) (count : U16) :
    SO (W × BulkIter) ReadError (Response α) := do
  let response ← SO.inside (onClient (Client.readStatusResponse count))
  SO.lift (SyncIter.checkResponse response motorId count)
  SO.outside ((decodeStatusPacketBytesAs f response).mapErr .motorError)

/-- `read_next`, `read_next_borrow` and `Iterator::next`, `src/instructions/bulk_read.rs:140-175`, for any `T`. -/
def nextAs {W α ε : Type} (f : Conversion W α) : SO (W × BulkIter) ε (Option (Except ReadError (Response α))) := do
  match ← SO.inside pop with
  | none => pure none
  | some r =>
    let x ← (nextResponseAs f r.motorId r.count).attempt
    pure (some x)

/-- `Drop for BulkReadBytes`, `src/instructions/bulk_read.rs:125-129`, for any `T`: nothing is converted. -/
def dropAs {W ε : Type} : SO (W × BulkIter) ε Unit := SO.inside drop

end BulkIter
end Dxl
