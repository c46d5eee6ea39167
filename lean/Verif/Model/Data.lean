import Verif.Model.Encoder

/-! # `src/bus/data.rs` -/

namespace Dxl

/-- The trait `Data`, `src/bus/data.rs:6-15`, as a record of its items. `encode_length` is guaranteed by
the type `&mut [u8]`. -/
structure DataTy (α : Type) where
  /-- `ENCODED_SIZE`. -/
  size : U16
  encode : α → SO (List Byte) BufferTooSmall Unit
  encode_length : ∀ v, KeepsLength (encode v)
  decode : List Byte → Outcome InvalidMessage α

/-- `to_le_bytes` of an unsigned integer of `n` bytes: byte `i` is `(v >> 8 i) as u8`. Standard library,
`src/bus/data.rs:59`. -/
def toLeBytes : (n v : Nat) → List Byte
  | 0, _ => []
  | n + 1, v => BitVec.ofNat 8 v :: toLeBytes n (v / 256)

/-- `from_le_bytes` of an unsigned integer. Standard library, `src/bus/data.rs:66`. -/
def fromLeBytes : List Byte → Nat
  | [] => 0
  | b :: rest => b.toNat + 256 * fromLeBytes rest

/-- `encode` of `impl_data_for_number!`, `src/bus/data.rs:56-61`, for the bit pattern `v` of an `n` byte integer. -/
def encodeNumber (n v : Nat) : SO (List Byte) BufferTooSmall Unit := do
  let buffer ← SO.get
  SO.lift (BufferTooSmall.check n buffer.length)
  onSlice 0 n (copyFromSlice (toLeBytes n v))

/-- `decode` of `impl_data_for_number!`, `src/bus/data.rs:63-68`, up to the interpretation of the bit pattern.
`try_into().unwrap()` can not fail on a slice of length `N`. -/
def decodeNumber (n : Nat) (buffer : List Byte) : Outcome InvalidMessage Nat := do
  checkCount buffer.length n
  let s ← slice buffer 0 n
  pure (fromLeBytes s)

theorem encodeNumber_length (n v : Nat) : KeepsLength (encodeNumber n v) :=
  .bind .get fun _ => .bind (.lift _) fun _ => .onSlice _ _ (.copyFromSlice _)

/-- `impl Data for u8, u16, u32, u64, u128` (`n` = 1, 2, 4, 8, 16), `src/bus/data.rs:51-77`.
A value is a bit vector of `8 n` bits, read as unsigned. -/
def DataTy.unsigned (n : Nat) : DataTy (BitVec (8 * n)) where
  size := BitVec.ofNat 16 n
  encode v := encodeNumber n v.toNat
  encode_length v := encodeNumber_length n v.toNat
  decode buffer := do
    let v ← decodeNumber n buffer
    pure (BitVec.ofNat (8 * n) v)

/-- `impl Data for i8, i16, i32, i64, i128` (`n` = 1, 2, 4, 8, 16), `src/bus/data.rs:78-82`.
A value is an integer (in range of the type); `to_le_bytes` gives the bytes of its two's complement. -/
def DataTy.signed (n : Nat) : DataTy Int where
  size := BitVec.ofNat 16 n
  encode v := encodeNumber n (BitVec.ofInt (8 * n) v).toNat
  encode_length _ := encodeNumber_length n _
  decode buffer := do
    let v ← decodeNumber n buffer
    pure (BitVec.ofNat (8 * n) v).toInt

/-- The loop of `encode` for arrays, `src/bus/data.rs:90-92`, starting at index `i`. -/
def encodeArrayLoop {α : Type} (d : DataTy α) : (i : Nat) → List α → SO (List Byte) BufferTooSmall Unit
  | _, [] => pure ()
  | i, v :: rest => do
    onSlice (i * d.size.toNat) (i * d.size.toNat + d.size.toNat) (d.encode v)
    encodeArrayLoop d (i + 1) rest

theorem encodeArrayLoop_length {α : Type} (d : DataTy α) (l : List α) :
    ∀ i, KeepsLength (encodeArrayLoop d i l) := by
  induction l with
  | nil => intro i; exact .pure ()
  | cons v rest ih => intro i; exact .bind (.onSlice _ _ (d.encode_length v)) fun _ => ih (i + 1)

/-- `encode` for arrays, `src/bus/data.rs:87-94`. -/
def encodeArray {α : Type} (d : DataTy α) (N : Nat) (vs : List α) : SO (List Byte) BufferTooSmall Unit := do
  let buffer ← SO.get
  SO.lift (BufferTooSmall.check (d.size.toNat * N) buffer.length)
  encodeArrayLoop d 0 vs

/-- The loop of `decode` for arrays, `src/bus/data.rs:99-105`: `n` more elements starting at index `i`.
The `ArrayInitializer` is a list here; ownership is modelled separately in `ArrayInit.lean`. -/
def decodeArrayLoop {α : Type} (d : DataTy α) (buffer : List Byte) : (n i : Nat) → Outcome InvalidMessage (List α)
  | 0, _ => .ok []
  | n + 1, i => do
    let s ← slice buffer (i * d.size.toNat) (i * d.size.toNat + d.size.toNat)
    let v ← d.decode s
    let rest ← decodeArrayLoop d buffer n (i + 1)
    pure (v :: rest)

/-- `impl<T: Data, const N: usize> Data for [T; N]`, `src/bus/data.rs:84-111`. An array value is a list (of length `N`).
`ENCODED_SIZE` is evaluated at compile time, which fails unless `h`. -/
def DataTy.array {α : Type} (d : DataTy α) (N : Nat) (_h : d.size.toNat * N < 2 ^ 16) : DataTy (List α) where
  size := BitVec.ofNat 16 (d.size.toNat * N)
  encode vs := encodeArray d N vs
  encode_length vs := .bind .get fun _ => .bind (.lift _) fun _ => encodeArrayLoop_length d vs 0
  decode buffer := decodeArrayLoop d buffer N 0

/-- `Response`, `src/response.rs:8-20`. -/
structure Response (α : Type) where
  motorId : Byte
  alert : Bool
  data : α
  deriving Repr, DecidableEq

/-- `decode_status_packet`, `src/bus/data.rs:17-24`. -/
def decodeStatusPacket {α : Type} (d : DataTy α) (s : StatusPacket) : Outcome ReadError (Response α) := do
  let e ← s.error
  (MotorError.check e).mapErr .motorError
  let motorId ← s.packetId
  let alert ← s.alert
  let parameters ← s.parameters
  let data ← (d.decode parameters).mapErr .invalidMessage
  pure { motorId, alert, data }

/-- `decode_status_packet_bytes`, `src/bus/data.rs:26-36`, and `decode_status_packet_bytes_borrow`,
`src/bus/data.rs:38-49`: for bytes, owned or borrowed, the data is the parameter list. -/
def decodeStatusPacketBytes (s : StatusPacket) : Outcome MotorError (Response (List Byte)) := do
  let e ← s.error
  MotorError.check e
  let motorId ← s.packetId
  let alert ← s.alert
  let parameters ← s.parameters
  pure { motorId, alert, data := parameters }

/-- `TryFrom<StatusPacket> for Response<()>`, `src/response.rs:22-33`. -/
def StatusPacket.toEmptyResponse (s : StatusPacket) : Outcome InvalidMessage (Response Unit) := do
  let parameters ← s.parameters
  checkCount parameters.length 0
  let motorId ← s.packetId
  let alert ← s.alert
  pure { motorId, alert, data := () }

/-- `From<StatusPacket> for Response<&[u8]>`, `src/response.rs:35-43`. -/
def StatusPacket.toBytesResponse {ε : Type} (s : StatusPacket) : Outcome ε (Response (List Byte)) := do
  let motorId ← s.packetId
  let alert ← s.alert
  let parameters ← s.parameters
  pure { motorId, alert, data := parameters }

end Dxl
