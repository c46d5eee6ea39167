import Verif.Model.Error
import Verif.Spec.Stream

/-! # What becomes of the bytes that arrive

Two descriptions of what should come of waiting for a packet: on the side of the client, which waits for one status packet, and on
the side of the device, which waits for an instruction and ignores status packets. -/

namespace Dxl.Spec

/-- What comes of waiting for a status packet with a read buffer of `cap` bytes, when the bytes `s` arrive in time and then
`e` happens, and which bytes are `left`: one of these cases, always. A result is the sender, the error byte and the parameters. -/
inductive Verdict (cap : Nat) (s : List Byte) (e : IoErr) :
    Outcome ReadError (Byte × Byte × List Byte) → (left : List Byte) → Prop
  /-- The read buffer is too small for any packet. -/
  | small : cap < 10 → Verdict cap s e (.err (.bufferFull ⟨10, cap⟩)) s
  /-- No complete packet; what may be the start of one is kept. -/
  | nothing : 10 ≤ cap → parse cap s = .more → Verdict cap s e (.err (.io e)) (skip s)
  /-- The first packet is too large. -/
  | tooBig {required : Nat} {rest : List Byte} : 10 ≤ cap → parse cap s = .tooBig required rest →
      Verdict cap s e (.err (.bufferFull ⟨required, cap⟩)) rest
  /-- Its CRC is wrong. -/
  | corrupt {m rest : List Byte} {v : U16} : 10 ≤ cap → parse cap s = .packet (m ++ le16 v) rest → v ≠ crc 0#16 m →
      Verdict cap s e (.err (.invalidMessage (.checksum v (crc 0#16 m)))) rest
  /-- It has no instruction byte. -/
  | noInstruction {id : Byte} {rest : List Byte} : 10 ≤ cap → parse cap s = .packet (frame id []) rest →
      Verdict cap s e .panic rest
  /-- It is a status packet without error byte. -/
  | noError {id : Byte} {wire rest : List Byte} : 10 ≤ cap → parse cap s = .packet (frame id wire) rest →
      Unstuffs wire [0x55#8] → Verdict cap s e .panic rest
  /-- It is no status packet. -/
  | instruction {id instr : Byte} {wire params rest : List Byte} : 10 ≤ cap →
      parse cap s = .packet (frame id wire) rest → Unstuffs wire (instr :: params) → instr ≠ 0x55#8 →
      Verdict cap s e (.err (.invalidMessage (.instruction instr 0x55#8))) rest
  /-- It reports an error. -/
  | motorError {id error : Byte} {wire ps rest : List Byte} : 10 ≤ cap → parse cap s = .packet (frame id wire) rest →
      Unstuffs wire (0x55#8 :: error :: ps) → error.toNat % 128 ≠ 0 → Verdict cap s e (.err (.motorError ⟨error⟩)) rest
  /-- It is a status packet without error. -/
  | status {id error : Byte} {wire ps rest : List Byte} : 10 ≤ cap → parse cap s = .packet (frame id wire) rest →
      Unstuffs wire (0x55#8 :: error :: ps) → error.toNat % 128 = 0 → Verdict cap s e (.ok (id, error, ps)) rest

/-- What comes of waiting for an instruction, in the same way. A result is the ID, the number of the instruction and the
parameters. -/
inductive Hears (cap : Nat) (e : IoErr) : (s : List Byte) → Outcome ReadError (Byte × Byte × List Byte) → (left : List Byte) → Prop
  /-- The read buffer is too small for any packet. -/
  | small {s : List Byte} : cap < 10 → Hears cap e s (.err (.bufferFull ⟨10, cap⟩)) s
  /-- No complete packet; what may be the start of one is kept. -/
  | nothing {s : List Byte} : 10 ≤ cap → parse cap s = .more → Hears cap e s (.err (.io e)) (skip s)
  /-- The first packet is too large. -/
  | tooBig {s rest : List Byte} {required : Nat} : 10 ≤ cap → parse cap s = .tooBig required rest →
      Hears cap e s (.err (.bufferFull ⟨required, cap⟩)) rest
  /-- Its CRC is wrong. -/
  | corrupt {s m rest : List Byte} {v : U16} : 10 ≤ cap → parse cap s = .packet (m ++ le16 v) rest → v ≠ crc 0#16 m →
      Hears cap e s (.err (.invalidMessage (.checksum v (crc 0#16 m)))) rest
  /-- It has no instruction byte. -/
  | noInstruction {s rest : List Byte} {id : Byte} : 10 ≤ cap → parse cap s = .packet (frame id []) rest →
      Hears cap e s .panic rest
  /-- It is a status packet, even one without an error byte: what comes after it decides. -/
  | status {s wire ps rest left : List Byte} {id : Byte} {v : Outcome ReadError (Byte × Byte × List Byte)} : 10 ≤ cap →
      parse cap s = .packet (frame id wire) rest → Unstuffs wire (0x55#8 :: ps) → Hears cap e rest v left → Hears cap e s v left
  /-- It is an instruction. -/
  | instruction {s wire params rest : List Byte} {id instr : Byte} : 10 ≤ cap →
      parse cap s = .packet (frame id wire) rest → Unstuffs wire (instr :: params) → instr ≠ 0x55#8 →
      Hears cap e s (.ok (id, instr, params)) rest

end Dxl.Spec
