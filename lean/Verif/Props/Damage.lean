import Verif.Lemmas.Damage
import Verif.Props.DeviceCalls

/-! # C76: one wrong bit -/

namespace Dxl.Props
open Dxl Spec

/-! ## The client -/

/-- What arrives in answer to the call is the packet `F`, or the first part of it, at any time and in any pieces. -/
def OnlyArrives (b : Bus) (F : List Byte) : Prop := ∀ D, arriving D (newInput b.serialPort) <+: F

theorem parse_prefix {cap : Nat} {s F f rest : List Byte} (h : s <+: F) (hp : parse cap s = .packet f rest) :
    ∃ rest', parse cap F = .packet f rest' := by
  obtain ⟨u, rfl⟩ := h
  exact ⟨_, parse_packet_append hp⟩

theorem comes_one_bit_off {α : Type} {b : Bus} {body : List Byte} {exp : Nat} {Means : Byte → Byte → List Byte → Outcome TransferError α → Prop}
    {r : Bus × Outcome TransferError α} {x : α} (h : Comes b body exp Means r) (hx : r.2 = .ok x) {i : Nat} {id error : Byte}
    {wire data F : List Byte} (hlen : wire.length + 2 < 2 ^ 16) (hu : Unstuffs wire (0x55#8 :: error :: data))
    (hoff : OneBitOff i (frame id wire) F) (harr : OnlyArrives b F) :
    ∃ rid e ps, Means rid e ps (.ok x) ∧ (ps.length < data.length ∨ (rid = id ∧ e = error ∧ ps = data ∧ wire.length % 2 = 1 ∧
      data.length + 3 ≤ wire.length ∧ 3 * wire.length ≤ 4 * data.length + 8 ∧ [0xFF#8, 0xFF#8, 0xFD#8] <:+ 0x55#8 :: error :: data)) := by
  obtain ⟨wire', -, h⟩ := h
  cases hs : sending b (body.length - 1) wire' with
  | err w => rw [hs] at h; dsimp only at h; rw [hx] at h; cases h
  | panic => rw [hs] at h; dsimp only at h; rw [hx] at h; cases h
  | hang => rw [hs] at h; exact h.elim
  | ok u =>
    rw [hs] at h
    dsimp only at h
    split at h
    · rw [hx] at h; cases h
    · obtain ⟨D, v, left, -, -, hv, -, h⟩ := h
      cases v with
      | err w => dsimp only at h; rw [hx] at h; cases h
      | panic => dsimp only at h; rw [hx] at h; cases h
      | hang => exact h.elim
      | ok y =>
        obtain ⟨rid, e, ps⟩ := y
        dsimp only at h
        rw [hx] at h
        refine ⟨rid, e, ps, h, ?_⟩
        cases hv with
        | status hcap hp hu' he =>
          obtain ⟨rest', hp'⟩ := parse_prefix (harr D) hp
          exact status_one_bit_off hlen hu hoff (.status (e := .timedOut) hcap hp' hu' he)

theorem answer_ok {α : Type} {id rid e : Byte} {count : Nat} {ps : List Byte} {v : α} {r : Response α}
    (h : .ok r = answer id count rid e ps v) :
    rid = id ∧ ps.length = count ∧ r = ⟨rid, decide (128 ≤ e.toNat), v⟩ ∧ e.toNat % 128 = 0 := by
  unfold answer at h
  split at h
  · cases h
  · split at h
    · cases h
    · split at h
      · cases h
      · rename_i h0 h1 h2
        cases h
        exact ⟨by simpa using h1, by simpa using h2, rfl, by omega⟩

theorem suffix_of_status {error : Byte} {data : List Byte} (h : [0xFF#8, 0xFF#8, 0xFD#8] <:+ 0x55#8 :: error :: data)
    (he : error.toNat % 128 = 0) : [0xFF#8, 0xFF#8, 0xFD#8] <:+ data := by
  rcases List.suffix_cons_iff.mp h with h | h
  · simp at h
  · rcases List.suffix_cons_iff.mp h with h | h
    · simp only [List.cons.injEq] at h
      rw [← h.1] at he
      exact absurd he (by decide)
    · exact h

/-- **C76** If motor `m` answers a read with as many bytes as were asked for, and one bit of the answer is wrong when it arrives, then
the read fails, or returns what the motor sent. The latter happens only with data that end in `FF FF FD`. -/
theorem c76_read_bytes {b : Bus} (hb : b.WInv) (hbaud : b.baudRate < 2 ^ 32) {id m error : Byte} {address count : U16}
    {wire data F : List Byte} {i : Nat} {r : Response (List Byte)} (hlen : wire.length + 2 < 2 ^ 16)
    (hu : Unstuffs wire (0x55#8 :: error :: data)) (hcount : data.length = count.toNat) (hoff : OneBitOff i (frame m wire) F)
    (harr : OnlyArrives b F) (h : (Client.readBytes id address count b).2 = .ok r) :
    r = ⟨m, decide (128 ≤ error.toNat), data⟩ ∧ m = id ∧ [0xFF#8, 0xFF#8, 0xFD#8] <:+ data := by
  obtain ⟨rid, e, ps, h1, h2⟩ := comes_one_bit_off (c62_read_bytes hb hbaud id address count) h hlen hu hoff harr
  obtain ⟨k1, k2, k3, k4⟩ := answer_ok h1
  rcases h2 with h2 | ⟨rfl, rfl, rfl, -, -, -, h3⟩
  · omega
  · exact ⟨k3, k1, suffix_of_status h3 k4⟩

/-- **C76** The same for a read of any type. -/
theorem c76_read {α : Type} {d : DataTy α} {valid : α → Prop} {f : α → List Byte} (hd : ImplData d valid f) {b : Bus}
    (hb : b.WInv) (hbaud : b.baudRate < 2 ^ 32) {id m error : Byte} {address : U16} {wire data F : List Byte} {i : Nat} {r : Response α}
    (hlen : wire.length + 2 < 2 ^ 16) (hu : Unstuffs wire (0x55#8 :: error :: data)) (hcount : data.length = d.size.toNat)
    (hoff : OneBitOff i (frame m wire) F) (harr : OnlyArrives b F) (h : (Client.read d id address b).2 = .ok r) :
    r.motorId = m ∧ r.alert = decide (128 ≤ error.toNat) ∧ f r.data = data ∧ m = id ∧ [0xFF#8, 0xFF#8, 0xFD#8] <:+ data := by
  obtain ⟨rid, e, ps, ⟨v, hv, h1⟩, h2⟩ := comes_one_bit_off (c62_read hd hb hbaud id address) h hlen hu hoff harr
  obtain ⟨k1, k2, rfl, k4⟩ := answer_ok h1
  rcases h2 with h2 | ⟨rfl, rfl, rfl, -, -, -, h3⟩
  · omega
  · exact ⟨rfl, rfl, (hv k2).2, k1, suffix_of_status h3 k4⟩

/-- **C76** A ping always fails if one bit of the answer is wrong. -/
theorem c76_ping {b : Bus} (hb : b.WInv) (hbaud : b.baudRate < 2 ^ 32) (id : Byte) {m error firmware : Byte} {model : U16}
    {wire F : List Byte} {i : Nat} (hlen : wire.length + 2 < 2 ^ 16)
    (hu : Unstuffs wire (0x55#8 :: error :: (le16 model ++ [firmware]))) (hoff : OneBitOff i (frame m wire) F)
    (harr : OnlyArrives b F) (r : Response Client.Ping) : (Client.ping id b).2 ≠ .ok r := by
  intro h
  obtain ⟨rid, e, ps, ⟨v, hv, h1⟩, h2⟩ := comes_one_bit_off (c62_ping hb hbaud id) h hlen hu hoff harr
  obtain ⟨k1, k2, -, -⟩ := answer_ok h1
  rcases h2 with h2 | ⟨-, -, rfl, hodd, hge, hle, -⟩
  · simp [le16_length, k2] at h2
  · simp only [List.length_append, le16_length, List.length_cons, List.length_nil] at hle hge
    omega

/-- **C76** So does any other call for one motor that waits for a confirmation (`write`, `write_bytes`, `reg_write_bytes`, `action`, ...). -/
theorem c76_write {w : WriteCall} {body : List Byte} (hw : w.Orders body) {b : Bus} (hb : b.WInv) (hbaud : b.baudRate < 2 ^ 32)
    {id m error : Byte} (hid : id ≠ 0xFE#8) {wire F : List Byte} {i : Nat} (hlen : wire.length + 2 < 2 ^ 16)
    (hu : Unstuffs wire [0x55#8, error]) (hoff : OneBitOff i (frame m wire) F) (harr : OnlyArrives b F) (r : Response Unit) :
    (w.run id b).2 ≠ .ok r := by
  intro h
  obtain ⟨rid, e, ps, h1, h2⟩ := comes_one_bit_off (c62_write hw hb hbaud hid) h hlen hu hoff harr
  rcases h2 with h2 | ⟨-, -, -, -, -, -, h3⟩
  · simp at h2
  · have := h3.length_le
    simp at this

/-! ## The device -/

/-- A device whose instruction arrives with one wrong bit gets it as it was sent, or not at all. -/
def C76_device_statement : Prop :=
  ∀ (timeout : Nat) (b : Bus) (i : Nat) (to instr : Byte) (wire params F : List Byte) (p : Instruction), b.RInv →
    wire.length + 2 < 2 ^ 16 → Unstuffs wire (instr :: params) → OneBitOff i (frame to wire) F →
    stream (b.serialPort.now + timeout) b = F → (Device.read timeout b).2 = .ok p → p.id = to ∧ Says instr params p.instruction

/-- The bytes 1, 2, 3 are written to address 0; the bytes that follow in the packet are the CRC of that instruction. -/
def unluckyWire : List Byte :=
  [0x03#8, 0#8, 0#8, 1#8, 2#8, 3#8] ++ le16 (crc 0#16 (frameHead 1#8 [0x03#8, 0#8, 0#8, 1#8, 2#8, 3#8]))

/-- The packet with length 8 instead of 10. -/
def unluckyBytes : List Byte := (frame 1#8 unluckyWire).set 5 8#8

/-- **C76** is false of instructions: a write of five bytes arrives as a write of three bytes if one bit of the length is wrong and the other
two bytes are those of the CRC. (The protocol does not protect the length.) -/
theorem c76_refuted_device : ¬ C76_device_statement := by
  intro h
  have hoff : OneBitOff 5 (frame 1#8 unluckyWire) unluckyBytes := by
    refine ⟨(frame 1#8 unluckyWire).take 5, 10#8, (frame 1#8 unluckyWire).drop 6, 1, ?_, ?_, ?_⟩ <;> decide +kernel
  have hu : Unstuffs unluckyWire (0x03#8 :: unluckyWire.tail) := (unstuffs_iff _ _).mpr (by decide +kernel)
  have hs : stream ((busWith unluckyBytes).serialPort.now + 5) (busWith unluckyBytes) = unluckyBytes := by decide +kernel
  have hr : (Device.read 5 (busWith unluckyBytes)).2 = .ok ⟨1#8, .write 0#16 [1#8, 2#8, 3#8]⟩ := by decide +kernel
  obtain ⟨-, -, -, -, h⟩ := h 5 _ 5 1#8 0x03#8 unluckyWire _ _ _ (busWith_rInv _) (by decide +kernel) hu hoff hs hr
  exact absurd (h (by decide) (by decide) (by decide) (by decide)) (by decide +kernel)

/-- **C76** (partial) But it arrives shortened at worst: if the header prefix is found in the packet only at its start then the device gets
no instruction with a wrong bit outside of the length field; with one in the length field it gets none, or one for the same motor
that has the same number and the first of the parameters. -/
theorem c76_device_partial {timeout : Nat} {b c : Bus} {o : Outcome ReadError InstructionPacket} {i : Nat} {to instr : Byte}
    {wire params F : List Byte} (hb : b.RInv) (hlen : wire.length + 2 < 2 ^ 16) (hu : Unstuffs wire (instr :: params))
    (hi : instr ≠ 0x55#8) (hplain : ¬ header <:+: (frame to wire).drop 1) (hoff : OneBitOff i (frame to wire) F)
    (harr : stream (b.serialPort.now + timeout) b <+: F) (h : Device.readRawInstructionTimeout timeout b = (c, o)) :
    (i ≠ 5 → i ≠ 6 → ∃ e, o = .err e) ∧
      (∀ p, o = .ok p → ∃ params', params' <+: params ∧ Carries p.packet to instr params') := by
  have key : ∀ {cap : Nat} {s rest w : List Byte} {id' : Byte}, s <+: F → parse cap s = .packet (frame id' w) rest →
      (i = 5 ∨ i = 6) ∧ id' = to ∧ w <+: wire := by
    intro cap s rest w id' hs hp
    obtain ⟨rest', hp'⟩ := parse_prefix hs hp
    rcases one_bit_off hlen hoff hp' with ⟨h1, h2, h3, -⟩ | ⟨-, a, ha, hin⟩
    · exact ⟨h1, h2, h3⟩
    · exfalso
      apply hplain
      match a, ha, hin with
      | _ :: a, _, hin =>
        rw [hin]
        obtain ⟨lo, hi', body, hF, -, -⟩ := frame_cons id' w
        refine ⟨a, id' :: lo :: hi' :: body ++ rest', ?_⟩
        rw [hF]
        simp [header]
  obtain ⟨c', o', v, left, h1, -, -, hv, -, ho⟩ := c64_read_raw timeout hb
  rw [h] at h1
  cases h1
  rw [unstuffs_iff] at hu
  generalize hs : stream (b.serialPort.now + timeout) b = s at hv harr
  cases hv with
  | small | nothing | tooBig | corrupt =>
    dsimp only at ho
    subst ho
    exact ⟨fun _ _ => ⟨_, rfl⟩, fun p hp => by cases hp⟩
  | noInstruction hcap hp =>
    dsimp only at ho
    subst ho
    exact ⟨fun h5 h6 => absurd (key harr hp).1 (by omega), fun p hp => by cases hp⟩
  | @status _ w ps _ _ id' v hcap hp hu' hrest =>
    exfalso
    obtain ⟨-, -, hpre⟩ := key harr hp
    have := unstuff_prefix hpre
    rw [hu, (unstuffs_iff _ _).mp hu', List.cons_prefix_cons] at this
    exact hi this.1.symm
  | @instruction _ w params' _ id' instr' hcap hp hu' hi' =>
    obtain ⟨h56, rfl, hpre⟩ := key harr hp
    obtain ⟨pkt, rfl, hc⟩ := ho
    have := unstuff_prefix hpre
    rw [hu, (unstuffs_iff _ _).mp hu', List.cons_prefix_cons] at this
    obtain ⟨rfl, hpp⟩ := this
    refine ⟨fun h5 h6 => by omega, fun p hp => ?_⟩
    cases hp
    exact ⟨params', hpp, hc⟩

/-! ## Cases -/

/-- The answer of motor 2 to a read of three bytes. -/
def readAnswer : List Byte := frame 2#8 [0x55#8, 0x00#8, 7#8, 8#8, 9#8]

/-- The bytes are returned; with any bit of the 14 bytes wrong the read fails. -/
example : (Client.readBytes 2#8 0#16 3#16 (busWithChunks [(5, readAnswer)])).2 = .ok ⟨2#8, false, [7#8, 8#8, 9#8]⟩ ∧
    (List.range 14).all (fun i => (List.finRange 8).all fun k =>
      match (Client.readBytes 2#8 0#16 3#16 (busWithChunks [(5, readAnswer.set i ((readAnswer.getD i 0#8) ^^^ (1#8 <<< k.val)))])).2 with
      | .err _ => true | _ => false) = true := by decide +kernel

/-- The answer of motor 1 to a read of 8 bytes, which end in `FF FF FD`, so that another `FD` is stuffed behind them. -/
def luckyAnswer : List Byte :=
  frame 1#8 [0x55#8, 0x00#8, 8#8, 146#8, 38#8, 0#8, 0#8, 0xFF#8, 0xFF#8, 0xFD#8, 0xFD#8]

/-- If it is received with length 12 instead of 13 then the bytes are returned nevertheless: the stuffed byte and the first of the CRC are
the CRC of the shorter packet. -/
example : OneBitOff 5 luckyAnswer (luckyAnswer.set 5 12#8) ∧
    (Client.readBytes 1#8 0#16 8#16 (busWithChunks [(5, luckyAnswer.set 5 12#8)])).2 =
      .ok ⟨1#8, false, [8#8, 146#8, 38#8, 0#8, 0#8, 0xFF#8, 0xFF#8, 0xFD#8]⟩ :=
  ⟨⟨luckyAnswer.take 5, 13#8, luckyAnswer.drop 6, 0, by decide +kernel, by decide +kernel, by decide +kernel⟩, by decide +kernel⟩

/-! ## The theorems on these cases -/

/-- The answer with the wrong length. -/
theorem luckyAnswer_off : OneBitOff 5 luckyAnswer (luckyAnswer.set 5 12#8) :=
  ⟨luckyAnswer.take 5, 13#8, luckyAnswer.drop 6, 0, by decide +kernel, by decide +kernel, by decide +kernel⟩

/-- One chunk: nothing else arrives. -/
theorem onlyArrives_chunk (F : List Byte) : OnlyArrives (busWithChunks [(5, F)]) F := by
  intro D
  simp [newInput, busWithChunks, quietPort, quietBus, notYetArrived, arriving]
  split <;> simp

example := c76_read_bytes (b := busWithChunks [(5, luckyAnswer.set 5 12#8)]) (id := 1#8) (m := 1#8) (error := 0#8) (address := 0#16)
  (count := 8#16) (wire := [0x55#8, 0x00#8, 8#8, 146#8, 38#8, 0#8, 0#8, 0xFF#8, 0xFF#8, 0xFD#8, 0xFD#8])
  (data := [8#8, 146#8, 38#8, 0#8, 0#8, 0xFF#8, 0xFF#8, 0xFD#8]) ⟨by decide, by decide⟩ (by decide) (by decide)
  ((unstuffs_iff _ _).2 (by decide +kernel)) (by decide) luckyAnswer_off (onlyArrives_chunk _)
  (r := ⟨1#8, false, [8#8, 146#8, 38#8, 0#8, 0#8, 0xFF#8, 0xFF#8, 0xFD#8]⟩) (by decide +kernel)

example := c76_read (d := DataTy.array (DataTy.unsigned 1) 8 (by decide)) (.array (implUnsigned (n := 1) (by decide)) 8 (by decide)) (b := busWithChunks [(5, luckyAnswer.set 5 12#8)]) (id := 1#8) (m := 1#8) (error := 0#8)
  (address := 0#16) (wire := [0x55#8, 0x00#8, 8#8, 146#8, 38#8, 0#8, 0#8, 0xFF#8, 0xFF#8, 0xFD#8, 0xFD#8])
  (data := [8#8, 146#8, 38#8, 0#8, 0#8, 0xFF#8, 0xFF#8, 0xFD#8]) ⟨by decide, by decide⟩ (by decide) (by decide)
  ((unstuffs_iff _ _).2 (by decide +kernel)) (by decide) luckyAnswer_off (onlyArrives_chunk _)
  (r := ⟨1#8, false, [8, 146, 38, 0, 0, 0xFF, 0xFF, 0xFD]⟩) (by decide +kernel)

/-- An answer to a ping whose firmware version has a wrong bit. -/
example := c76_ping (b := busWithChunks [(5, (frame 1#8 [0x55#8, 0#8, 0x06#8, 0x04#8, 0x26#8]).set 11 0x27#8)]) ⟨by decide, by decide⟩
  (by decide) 1#8 (m := 1#8) (error := 0#8) (model := 0x0406#16) (firmware := 0x26#8) (wire := [0x55#8, 0#8, 0x06#8, 0x04#8, 0x26#8])
  (i := 11) (by decide) ((unstuffs_iff _ _).2 (by decide +kernel))
  ⟨(frame 1#8 [0x55#8, 0#8, 0x06#8, 0x04#8, 0x26#8]).take 11, 0x27#8 ^^^ 1#8,
    (frame 1#8 [0x55#8, 0#8, 0x06#8, 0x04#8, 0x26#8]).drop 12, 0, by decide +kernel, by decide +kernel, by decide +kernel⟩
  (onlyArrives_chunk _) ⟨1#8, false, ⟨0x0406#16, 0x27#8⟩⟩

/-- A confirmation of a write with a wrong bit in its CRC. -/
example := c76_write (.writeBytes 116#16 [1#8]) (b := busWithChunks [(5, (frame 1#8 [0x55#8, 0#8]).set 9 ((frame 1#8 [0x55#8, 0#8]).getD 9 0#8 ^^^ 4#8))])
  ⟨by decide, by decide⟩ (by decide) (id := 1#8) (m := 1#8) (error := 0#8) (by decide) (wire := [0x55#8, 0#8])
  (i := 9) (by decide) ((unstuffs_iff _ _).2 (by decide +kernel))
  ⟨(frame 1#8 [0x55#8, 0#8]).take 9, (frame 1#8 [0x55#8, 0#8]).getD 9 0#8,
    (frame 1#8 [0x55#8, 0#8]).drop 10, 2, by decide +kernel, by decide +kernel, by decide +kernel⟩
  (onlyArrives_chunk _) ⟨1#8, false, ()⟩

end Dxl.Props
