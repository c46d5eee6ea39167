import Verif.Lemmas.Stuff
import Verif.Lemmas.Crc
import Verif.Lemmas.Endian
import Verif.Model.Bus
import Verif.Spec.Frame

/-! # `Bus::write_packet`: what it does in every case -/

namespace Dxl
open Spec

/-- The invariant of the write buffer. -/
structure Bus.WInv (b : Bus) : Prop where
  size : 10 ≤ b.writeBuffer.length
  prefix_eq : b.writeBuffer.take 4 = headerPrefix

/-- The last two steps of `write_packet`: discard the input, write the packet. -/
def Bus.sendFrame (frame : List Byte) : SO Bus WriteError Unit := do
  Bus.onPort (Port.discardInputBuffer.mapErr .discardBuffer)
  Bus.onPort ((Port.writeAll frame).mapErr .write)

theorem split_buffer {wb : List Byte} {n : Nat} (h4 : wb.take 4 = headerPrefix) (hn : n + 10 ≤ wb.length) :
    ∃ (a b c d : Byte) (tail : List Byte),
      wb = 0xFF#8 :: 0xFF#8 :: 0xFD#8 :: 0x00#8 :: a :: b :: c :: d :: ((wb.take (8 + n)).drop 8 ++ tail) ∧
        ((wb.take (8 + n)).drop 8).length = n ∧ 2 ≤ tail.length := by
  match wb, hn with
  | x0 :: x1 :: x2 :: x3 :: a :: b :: c :: d :: rest, hn =>
    simp [headerPrefix] at h4
    obtain ⟨rfl, rfl, rfl, rfl⟩ := h4
    refine ⟨a, b, c, d, rest.drop n, ?_, ?_, ?_⟩
    · have : 8 + n = n + 8 := by omega
      simp [this]
    · have : 8 + n = n + 8 := by omega
      simp only [List.length_cons] at hn
      simp [this]; omega
    · simp only [List.length_cons] at hn
      simp; omega

theorem lengthField_ok {ε : Type} {debug : Bool} {m : Nat} (h : ¬ (debug = true ∧ 2 ^ 16 ≤ m % 2 ^ 16 + 2)) :
    Bus.lengthField (ε := ε) debug m = .ok (BitVec.ofNat 16 (m + 2)) := by
  unfold Bus.lengthField
  simp only [BitVec.toNat_ofNat, ge_iff_le]
  rw [if_neg h, BitVec.ofNat_add]

theorem lengthField_panic {ε : Type} {debug : Bool} {m : Nat} (h : debug = true ∧ 2 ^ 16 ≤ m % 2 ^ 16 + 2) :
    Bus.lengthField (ε := ε) debug m = .panic := by
  unfold Bus.lengthField
  simp only [BitVec.toNat_ofNat, ge_iff_le]
  rw [if_pos h]

namespace Bus

theorem onWriteBuffer_apply {ε α : Type} (m : SO (List Byte) ε α) (b : Bus) :
    onWriteBuffer m b = ({ b with writeBuffer := (m b.writeBuffer).1 }, (m b.writeBuffer).2) := rfl

theorem onPort_apply {ε α : Type} (m : SO Port ε α) (b : Bus) :
    onPort m b = ({ b with serialPort := (m b.serialPort).1 }, (m b.serialPort).2) := rfl

theorem onWriteBuffer_eq {ε α : Type} {m : SO (List Byte) ε α} {b : Bus} {w : List Byte} {o : Outcome ε α}
    (h : m b.writeBuffer = (w, o)) : onWriteBuffer m b = ({ b with writeBuffer := w }, o) := by
  rw [onWriteBuffer_apply, h]

/-- The packet does not fit even without stuffing. -/
theorem writePacket_too_small (id instr : Byte) (n : Nat) (enc : Encoder) (b : Bus)
    (h : b.writeBuffer.length < n + 10) :
    writePacket id instr n enc b = (b, .err (.bufferTooSmall ⟨n + 10, b.writeBuffer.length⟩)) := by
  unfold writePacket
  rw [SO.get_bind]
  have : BufferTooSmall.check (InstructionPacket.messageLen n) b.writeBuffer.length
      = .err ⟨n + 10, b.writeBuffer.length⟩ := by
    unfold BufferTooSmall.check InstructionPacket.messageLen headerSize
    rw [if_neg (by omega)]
    congr 2; omega
  rw [this]
  rfl

/-- The part of `write_packet` after the parameters are encoded. -/
def writeStuffed (n : Nat) : SO Bus WriteError Unit := do
  let debug := (← SO.get).debug
  let stuffedBodyLen ← onWriteBuffer
    ((onSliceFrom headerSize (stuffInplace debug (1 + n))).mapErr .bufferTooSmall)
  let len ← SO.lift (lengthField debug stuffedBodyLen)
  onWriteBuffer (onSliceFrom 5 (writeU16Le len))
  let checksumIndex := headerSize + stuffedBodyLen
  let buffer := (← SO.get).writeBuffer
  let summed ← SO.lift (slice buffer 0 checksumIndex)
  let checksum ← SO.lift (calculateChecksum 0#16 summed)
  onWriteBuffer (onSliceFrom checksumIndex (writeU16Le checksum))
  SO.modify fun b => { b with readLen := 0, usedBytes := 0 }
  onPort (Port.discardInputBuffer.mapErr .discardBuffer)
  let buffer := (← SO.get).writeBuffer
  let stuffedMessage ← SO.lift (slice buffer 0 (checksumIndex + 2))
  onPort ((Port.writeAll stuffedMessage).mapErr .write)

/-- The slice handed to the parameter encoder: what happens to be in the write buffer. -/
def paramSlice (b : Bus) (n : Nat) : List Byte := (b.writeBuffer.take (8 + n)).drop 8

theorem paramSlice_length {b : Bus} {n : Nat} (h : n + 10 ≤ b.writeBuffer.length) : (b.paramSlice n).length = n := by
  simp [paramSlice]; omega

/-- The write buffer after the encoder ran. -/
def encoded (b : Bus) (id instr : Byte) (n : Nat) (params : List Byte) : Bus :=
  { b with writeBuffer := headerPrefix ++ [id, 0#8, 0#8, instr] ++ params ++ b.writeBuffer.drop (8 + n) }

theorem writePacket_encode (id instr : Byte) (n : Nat) (enc : Encoder) (b : Bus) (hb : b.WInv)
    (h : n + 10 ≤ b.writeBuffer.length) :
    writePacket id instr n enc b =
      match enc.run (b.paramSlice n) with
      | (params, .ok ()) => writeStuffed n (b.encoded id instr n params)
      | (params, .err e) => (b.encoded id instr n params, .err (.bufferTooSmall e))
      | (params, .panic) => (b.encoded id instr n params, .panic)
      | (params, .hang) => (b.encoded id instr n params, .hang) := by
  obtain ⟨a0, a1, a2, a3, tail, hw, hl, ht⟩ := split_buffer hb.prefix_eq h
  unfold writePacket
  rw [SO.get_bind]
  have : BufferTooSmall.check (InstructionPacket.messageLen n) b.writeBuffer.length = .ok () := by
    unfold BufferTooSmall.check InstructionPacket.messageLen headerSize
    rw [if_pos (by omega)]
  rw [this, Outcome.mapErr_ok, SO.lift_ok_bind]
  rw [show (b.writeBuffer.take (8 + n)).drop 8 = b.paramSlice n from rfl] at hw hl
  have hdrop : b.writeBuffer.drop (8 + n) = tail := by
    rw [hw, show 8 + n = n + 8 by omega]
    simp only [List.drop_succ_cons]
    rw [List.drop_append, hl, List.drop_eq_nil_of_le (by omega)]
    simp
  rw [SO.bind_ok (onWriteBuffer_eq (setIdx_ok _ (by omega)))]
  rw [SO.bind_ok (onWriteBuffer_eq (setIdx_ok _ (by simp; omega)))]
  rw [SO.bind_ok (onWriteBuffer_eq (setIdx_ok _ (by simp; omega)))]
  rw [SO.bind_ok (onWriteBuffer_eq (setIdx_ok _ (by simp; omega)))]
  simp only
  have hw4 : (((b.writeBuffer.set 4 id).set 5 0#8).set 6 0#8).set 7 instr
      = headerPrefix ++ [id, 0#8, 0#8, instr] ++ b.paramSlice n ++ tail := by
    rw [hw]; simp [headerPrefix]
  rw [hw4]
  have hs : onSlice 8 (8 + n) enc.run (headerPrefix ++ [id, 0#8, 0#8, instr] ++ b.paramSlice n ++ tail)
      = (headerPrefix ++ [id, 0#8, 0#8, instr] ++ (enc.run (b.paramSlice n)).1 ++ tail, (enc.run (b.paramSlice n)).2) := by
    rw [onSlice_ok _ (by omega) (by simp [headerPrefix, hl]; omega)]
    have e1 : ((headerPrefix ++ [id, 0#8, 0#8, instr] ++ b.paramSlice n ++ tail).take (8 + n)).drop 8
        = b.paramSlice n := by
      rw [show 8 + n = n + 8 by omega]
      simp [headerPrefix]
      rw [List.take_append, hl, List.take_of_length_le (by omega)]
      simp
    have e2 : (headerPrefix ++ [id, 0#8, 0#8, instr] ++ b.paramSlice n ++ tail).take 8
        = headerPrefix ++ [id, 0#8, 0#8, instr] := by simp [headerPrefix]
    have e3 : (headerPrefix ++ [id, 0#8, 0#8, instr] ++ b.paramSlice n ++ tail).drop (8 + n) = tail := by
      rw [show 8 + n = n + 8 by omega]
      simp only [headerPrefix, List.cons_append, List.nil_append, List.drop_succ_cons]
      rw [List.drop_append, hl, List.drop_eq_nil_of_le (by omega)]
      simp
    rw [e1, e2, e3]
  have hs' : SO.mapErr WriteError.bufferTooSmall (onSlice 8 (8 + n) enc.run)
      (headerPrefix ++ [id, 0#8, 0#8, instr] ++ b.paramSlice n ++ tail)
      = (headerPrefix ++ [id, 0#8, 0#8, instr] ++ (enc.run (b.paramSlice n)).1 ++ tail,
          (enc.run (b.paramSlice n)).2.mapErr .bufferTooSmall) := by
    rw [SO.mapErr_apply, hs]
  rcases hr : enc.run (b.paramSlice n) with ⟨params, o⟩
  rw [hr] at hs'
  cases o with
  | ok u =>
    rw [SO.bind_ok (onWriteBuffer_eq (by exact hs'))]
    simp only [encoded, hdrop]
    rfl
  | err e =>
    rw [SO.bind_err (onWriteBuffer_eq (by exact hs'))]
    simp only [encoded, hdrop]
  | panic =>
    rw [SO.bind_panic (onWriteBuffer_eq (by exact hs'))]
    simp only [encoded, hdrop]
  | hang =>
    rw [SO.bind_hang (onWriteBuffer_eq (by exact hs'))]
    simp only [encoded, hdrop]

theorem encoded_buffer (b : Bus) (id instr : Byte) (n : Nat) (params : List Byte) :
    (b.encoded id instr n params).writeBuffer
      = (headerPrefix ++ [id, 0#8, 0#8]) ++ ((instr :: params) ++ b.writeBuffer.drop (8 + n)) := by
  simp [encoded]

theorem mapErr_eq {σ ε ε' α : Type} {m : SO σ ε α} {s s' : σ} {o : Outcome ε α} (f : ε → ε') (h : m s = (s', o)) :
    m.mapErr f s = (s', o.mapErr f) := by
  rw [SO.mapErr_apply, h]

/-- The stuffing step, in the whole write buffer. -/
theorem stuff_step {b : Bus} {id instr : Byte} {n : Nat} {params : List Byte} {body rest : List Byte}
    {o : Outcome BufferTooSmall Nat}
    (h : stuffInplace b.debug (1 + n) ((instr :: params) ++ b.writeBuffer.drop (8 + n)) = (body ++ rest, o)) :
    onWriteBuffer ((onSliceFrom headerSize (stuffInplace b.debug (1 + n))).mapErr WriteError.bufferTooSmall)
      (b.encoded id instr n params)
      = ({ b with writeBuffer := headerPrefix ++ [id, 0#8, 0#8] ++ body ++ rest }, o.mapErr WriteError.bufferTooSmall) := by
  have h7 : (headerPrefix ++ [id, 0#8, 0#8]).length = headerSize := rfl
  rw [onWriteBuffer_apply, mapErr_eq (s' := headerPrefix ++ [id, 0#8, 0#8] ++ body ++ rest) (o := o)]
  · rfl
  · rw [encoded_buffer, onSliceFrom_ok _ (by simp [headerPrefix, headerSize])]
    rw [← h7, List.take_left, List.drop_left, h]
    simp

variable {b : Bus} {id instr : Byte} {n : Nat} {params : List Byte}

/-- Stuffing does not fit. -/
theorem writeStuffed_too_small (hp : params.length = n)
    (h : (b.writeBuffer.drop (8 + n)).length < ncount (instr :: params).reverse) :
    writeStuffed n (b.encoded id instr n params) = (b.encoded id instr n params,
      .err (.bufferTooSmall ⟨1 + n + ncount (instr :: params).reverse,
        1 + n + (b.writeBuffer.drop (8 + n)).length⟩)) := by
  have hl : (instr :: params).length = 1 + n := by simp [hp]; omega
  have hs := stuffInplace_too_small b.debug (instr :: params) _ h
  rw [hl] at hs
  unfold writeStuffed
  rw [SO.get_bind]
  have hd : (b.encoded id instr n params).debug = b.debug := rfl
  rw [hd, SO.bind_err (stuff_step hs)]
  rw [← hl]
  simp [encoded]

/-- The length computation overflows (only with overflow checks). -/
theorem writeStuffed_overflow (hp : params.length = n)
    (h : ncount (instr :: params).reverse ≤ (b.writeBuffer.drop (8 + n)).length)
    (ho : b.debug = true ∧ 2 ^ 16 ≤ (codeStuff (instr :: params)).length % 2 ^ 16 + 2) :
    ∃ w, writeStuffed n (b.encoded id instr n params) = ({ b with writeBuffer := w }, .panic) ∧
      w.length = (b.encoded id instr n params).writeBuffer.length ∧ w.take 4 = headerPrefix := by
  have hl : (instr :: params).length = 1 + n := by simp [hp]; omega
  have hs := stuffInplace_fits b.debug (instr :: params) _ h
  rw [hl] at hs
  rw [codeStuff_length, hl] at ho
  unfold writeStuffed
  rw [SO.get_bind]
  have hd : (b.encoded id instr n params).debug = b.debug := rfl
  rw [hd, SO.bind_ok (stuff_step hs), lengthField_panic ho]
  refine ⟨_, rfl, ?_, by simp [headerPrefix]⟩
  rw [encoded_buffer]
  simp [codeStuff_length, hp] at h ⊢
  omega

/-- The packet without its CRC, in the write buffer. -/
theorem length_step {ε : Type} (b : Bus) (id : Byte) (body rest : List Byte) :
    onWriteBuffer (ε := ε) (onSliceFrom 5 (writeU16Le (BitVec.ofNat 16 (body.length + 2))))
      { b with writeBuffer := headerPrefix ++ [id, 0#8, 0#8] ++ body ++ rest }
      = ({ b with writeBuffer := frameHead id body ++ rest }, .ok ()) := by
  rw [onWriteBuffer_apply, onSliceFrom_ok _ (by simp [headerPrefix])]
  simp only [headerPrefix, List.cons_append, List.nil_append, List.drop_succ_cons, List.drop_zero, writeU16Le_eq]
  simp [frameHead, header]

theorem frameHead_length (id : Byte) (body : List Byte) : (frameHead id body).length = 7 + body.length := by
  simp [frameHead, header, le16]; omega

theorem frame_length (id : Byte) (body : List Byte) : (frame id body).length = 9 + body.length := by
  simp [frame, frameHead_length, le16]; omega

/-- The steps of `writeStuffed` up to the checksum. -/
theorem writeStuffed_head (hp : params.length = n)
    (h : ncount (instr :: params).reverse ≤ (b.writeBuffer.drop (8 + n)).length)
    (ho : ¬ (b.debug = true ∧ 2 ^ 16 ≤ (codeStuff (instr :: params)).length % 2 ^ 16 + 2)) :
    writeStuffed n (b.encoded id instr n params) =
      (do
        onWriteBuffer (onSliceFrom (frameHead id (codeStuff (instr :: params))).length
          (writeU16Le (crc 0#16 (frameHead id (codeStuff (instr :: params))))))
        SO.modify fun b => { b with readLen := 0, usedBytes := 0 }
        onPort (Port.discardInputBuffer.mapErr .discardBuffer)
        let buffer := (← SO.get).writeBuffer
        let stuffedMessage ← SO.lift (slice buffer 0 ((frameHead id (codeStuff (instr :: params))).length + 2))
        onPort ((Port.writeAll stuffedMessage).mapErr .write) : SO Bus WriteError Unit)
      { b with writeBuffer := frameHead id (codeStuff (instr :: params)) ++
                (b.writeBuffer.drop (8 + n)).drop (ncount (instr :: params).reverse) } := by
  have hl : (instr :: params).length = 1 + n := by simp [hp]; omega
  have hs := stuffInplace_fits b.debug (instr :: params) _ h
  rw [← codeStuff_length, hl] at hs
  unfold writeStuffed
  rw [SO.get_bind]
  have hd : (b.encoded id instr n params).debug = b.debug := rfl
  rw [hd, SO.bind_ok (stuff_step hs), lengthField_ok ho, SO.lift_ok_bind, SO.bind_ok (length_step _ _ _ _),
    SO.get_bind]
  simp only
  rw [show headerSize + (codeStuff (instr :: params)).length = (frameHead id (codeStuff (instr :: params))).length from
    (frameHead_length _ _).symm]
  rw [slice_ok (by omega) (by simp)]
  simp only [List.take_left, List.drop_zero]
  rw [SO.lift_ok_bind, calculateChecksum_eq, SO.lift_ok_bind]

/-- The CRC does not fit: a panic. -/
theorem writeStuffed_crc_panic (hp : params.length = n)
    (h : ncount (instr :: params).reverse ≤ (b.writeBuffer.drop (8 + n)).length)
    (h' : (b.writeBuffer.drop (8 + n)).length < ncount (instr :: params).reverse + 2)
    (ho : ¬ (b.debug = true ∧ 2 ^ 16 ≤ (codeStuff (instr :: params)).length % 2 ^ 16 + 2)) :
    ∃ w, writeStuffed n (b.encoded id instr n params) = ({ b with writeBuffer := w }, .panic) ∧
      w.length = (b.encoded id instr n params).writeBuffer.length ∧ w.take 4 = headerPrefix := by
  rw [writeStuffed_head hp h ho]
  obtain ⟨l', hl', hlen⟩ := writeU16Le_short (ε := WriteError) (crc 0#16 (frameHead id (codeStuff (instr :: params))))
    (l := (b.writeBuffer.drop (8 + n)).drop (ncount (instr :: params).reverse)) (by simp at *; omega)
  refine ⟨frameHead id (codeStuff (instr :: params)) ++ l', ?_, ?_, by simp [frameHead, header, headerPrefix]⟩
  · rw [SO.bind_panic]
    rw [onWriteBuffer_apply, onSliceFrom_ok _ (by simp)]
    simp only [List.take_left, List.drop_left, hl']
  · rw [encoded_buffer]
    simp [frameHead_length, codeStuff_length, hp, hlen, headerPrefix] at h ⊢
    omega

/-- The packet fits: it is sent. -/
theorem writeStuffed_send (hp : params.length = n)
    (h : ncount (instr :: params).reverse + 2 ≤ (b.writeBuffer.drop (8 + n)).length)
    (ho : ¬ (b.debug = true ∧ 2 ^ 16 ≤ (codeStuff (instr :: params)).length % 2 ^ 16 + 2)) :
    writeStuffed n (b.encoded id instr n params) =
      sendFrame (frame id (codeStuff (instr :: params)))
        { b with
          writeBuffer := frame id (codeStuff (instr :: params)) ++
            b.writeBuffer.drop (frame id (codeStuff (instr :: params))).length
          readLen := 0
          usedBytes := 0 } := by
  rw [writeStuffed_head hp (by omega) ho]
  have hlen : (frame id (codeStuff (instr :: params))).length = 8 + n + (ncount (instr :: params).reverse + 2) := by
    rw [frame_length, codeStuff_length]; simp [hp]; omega
  match hm : (b.writeBuffer.drop (8 + n)).drop (ncount (instr :: params).reverse) with
  | [] => have := congrArg List.length hm; simp at this h; omega
  | [x] => have := congrArg List.length hm; simp at this h; omega
  | x :: y :: rest =>
    have hrest : rest = b.writeBuffer.drop (frame id (codeStuff (instr :: params))).length := by
      rw [hlen, ← List.drop_drop, ← List.drop_drop, hm]; rfl
    have hcrc : onWriteBuffer (ε := WriteError) (onSliceFrom (frameHead id (codeStuff (instr :: params))).length
          (writeU16Le (crc 0#16 (frameHead id (codeStuff (instr :: params))))))
        { b with writeBuffer := frameHead id (codeStuff (instr :: params)) ++ x :: y :: rest }
        = ({ b with writeBuffer := frame id (codeStuff (instr :: params)) ++ rest }, .ok ()) := by
      rw [onWriteBuffer_apply, onSliceFrom_ok _ (by simp)]
      simp only [List.take_left, List.drop_left, writeU16Le_eq]
      simp [frame]
    rw [SO.bind_ok hcrc, SO.modify_bind, ← hrest]
    unfold sendFrame
    rw [SO.bind_def, SO.bind_def, onPort_apply]
    simp only
    split
    · rename_i heq
      simp only [Prod.mk.injEq] at heq
      obtain ⟨rfl, heq⟩ := heq
      rw [SO.get_bind]
      simp only
      rw [slice_ok (by omega) (by simp [frame, le16])]
      rw [SO.lift_ok_bind]
      have : (frameHead id (codeStuff (instr :: params))).length + 2
        = (frame id (codeStuff (instr :: params))).length := by simp [frame, le16]
      rw [this, List.take_left, List.drop_zero]
    all_goals rfl

/-- The port after `discard_input_buffer` succeeded. -/
def _root_.Dxl.Port.discarded (p : Port) : Port :=
  { p with discardRes := p.discardRes.tail, rx := p.dropArrived, log := p.log ++ [.discard true] }

/-- The port after `write_all` of `f`, which took time `dt`. -/
def _root_.Dxl.Port.wrote (p : Port) (f : List Byte) (dt : Nat) (ok : Bool) : Port :=
  { p with writeRes := p.writeRes.tail, now := p.now + dt, log := p.log ++ [.write f ok] }

theorem discard_cases (p : Port) :
    (∃ e, p.discardRes.head? = some (some e) ∧ Port.discardInputBuffer p =
      ({ p with discardRes := p.discardRes.tail, log := p.log ++ [.discard false] }, .err e)) ∨
    ((∀ e, p.discardRes.head? ≠ some (some e)) ∧ Port.discardInputBuffer p = (p.discarded, .ok ())) := by
  unfold Port.discardInputBuffer Port.discarded
  split
  · rename_i e rest heq; exact .inl ⟨e, by simp [heq], by simp [heq]⟩
  · rename_i heq; exact .inr ⟨by simp [heq], by simp [heq]⟩
  · rename_i heq; exact .inr ⟨by simp [heq], by simp [heq]⟩

theorem writeAll_cases (p : Port) (f : List Byte) :
    (∃ dt e, p.writeRes.head? = some (dt, some e) ∧ Port.writeAll f p = (p.wrote f dt false, .err e)) ∨
    (∃ dt, (∀ dt e, p.writeRes.head? ≠ some (dt, some e)) ∧ Port.writeAll f p = (p.wrote f dt true, .ok ())) := by
  unfold Port.writeAll Port.wrote
  split
  · rename_i dt e rest heq; exact .inl ⟨dt, e, by simp [heq], by simp [heq]⟩
  · rename_i dt rest heq; exact .inr ⟨dt, by simp [heq], by simp [heq]⟩
  · rename_i heq; exact .inr ⟨0, by simp [heq], by simp [heq]⟩

/-- Discarding and sending: the three outcomes. -/
theorem sendFrame_cases (f : List Byte) (b : Bus) :
    (∃ e, sendFrame f b =
        ({ b with serialPort := { b.serialPort with discardRes := b.serialPort.discardRes.tail,
                                                    log := b.serialPort.log ++ [.discard false] } },
          .err (.discardBuffer e)) ∧ b.serialPort.discardRes.head? = some (some e)) ∨
    (∃ dt e, sendFrame f b = ({ b with serialPort := b.serialPort.discarded.wrote f dt false }, .err (.write e)) ∧
      (∀ e, b.serialPort.discardRes.head? ≠ some (some e)) ∧ b.serialPort.writeRes.head? = some (dt, some e)) ∨
    (∃ dt, sendFrame f b = ({ b with serialPort := b.serialPort.discarded.wrote f dt true }, .ok ()) ∧
      (∀ e, b.serialPort.discardRes.head? ≠ some (some e)) ∧
      (∀ dt e, b.serialPort.writeRes.head? ≠ some (dt, some e))) := by
  unfold sendFrame
  rcases discard_cases b.serialPort with ⟨e, he, h⟩ | ⟨he, h⟩
  · left
    refine ⟨e, ?_, he⟩
    rw [SO.bind_err]
    rw [onPort_apply, SO.mapErr_apply, h]; rfl
  · right
    have hd : onPort (Port.discardInputBuffer.mapErr WriteError.discardBuffer) b
        = ({ b with serialPort := b.serialPort.discarded }, .ok ()) := by
      rw [onPort_apply, SO.mapErr_apply, h]; rfl
    rw [SO.bind_ok hd, onPort_apply, SO.mapErr_apply]
    have hw : b.serialPort.discarded.writeRes = b.serialPort.writeRes := rfl
    rcases writeAll_cases b.serialPort.discarded f with ⟨dt, e, h', h''⟩ | ⟨dt, h', h''⟩
    · left; exact ⟨dt, e, by simp [h''], he, h'⟩
    · right; exact ⟨dt, by simp [h''], he, h'⟩

/-- What every outcome of `write_packet` leaves unchanged. -/
structure Kept (b b' : Bus) : Prop where
  writeLength : b'.writeBuffer.length = b.writeBuffer.length
  writePrefix : b'.writeBuffer.take 4 = headerPrefix
  readBuffer : b'.readBuffer = b.readBuffer
  baudRate : b'.baudRate = b.baudRate
  debug : b'.debug = b.debug
  received : (b'.serialPort = b.serialPort ∧ b'.readLen = b.readLen ∧ b'.usedBytes = b.usedBytes) ∨
    (b'.readLen = 0 ∧ b'.usedBytes = 0)

theorem encoded_kept (hb : b.WInv) (h : n + 10 ≤ b.writeBuffer.length) (hp : params.length = n) :
    Kept b (b.encoded id instr n params) := by
  refine ⟨?_, ?_, rfl, rfl, rfl, .inl ⟨rfl, rfl, rfl⟩⟩
  · simp [encoded, headerPrefix, hp]; omega
  · simp [encoded, headerPrefix]

theorem sendFrame_kept {f : List Byte} (hb : b.WInv) (b0 : Bus)
    (h : b0 = { b with writeBuffer := f ++ b.writeBuffer.drop f.length, readLen := 0, usedBytes := 0 })
    (hf : f.take 4 = headerPrefix) (hl : f.length ≤ b.writeBuffer.length) :
    Kept b (sendFrame f b0).1 := by
  have hlen : (f ++ b.writeBuffer.drop f.length).length = b.writeBuffer.length := by simp; omega
  have hpre : (f ++ b.writeBuffer.drop f.length).take 4 = headerPrefix := by
    rw [List.take_append_of_le_length, hf]
    have := congrArg List.length hf
    simp [headerPrefix] at this
    omega
  subst h
  rcases sendFrame_cases f { b with writeBuffer := f ++ b.writeBuffer.drop f.length, readLen := 0, usedBytes := 0 } with
    ⟨e, h, _⟩ | ⟨dt, e, h, _⟩ | ⟨dt, h, _⟩ <;> rw [h] <;> exact ⟨hlen, hpre, rfl, rfl, rfl, .inr ⟨rfl, rfl⟩⟩

theorem frame_take4 (id : Byte) (body : List Byte) : (frame id body).take 4 = headerPrefix := by
  simp [frame, frameHead, header, headerPrefix]

theorem writePacket_kept (id instr : Byte) (n : Nat) (enc : Encoder) (hb : b.WInv) :
    Kept b (writePacket id instr n enc b).1 := by
  by_cases h : n + 10 ≤ b.writeBuffer.length
  · rw [writePacket_encode id instr n enc b hb h]
    have hlen := enc.length_eq (b.paramSlice n)
    rw [paramSlice_length h] at hlen
    rcases hr : enc.run (b.paramSlice n) with ⟨params, o⟩
    rw [hr] at hlen
    change params.length = n at hlen
    have hk := encoded_kept (id := id) (instr := instr) hb h hlen
    cases o with
    | ok u =>
      simp only
      by_cases h1 : ncount (instr :: params).reverse ≤ (b.writeBuffer.drop (8 + n)).length
      · by_cases ho : b.debug = true ∧ 2 ^ 16 ≤ (codeStuff (instr :: params)).length % 2 ^ 16 + 2
        · obtain ⟨w, hw, h2, h3⟩ := writeStuffed_overflow (id := id) hlen h1 ho
          rw [hw]
          exact ⟨h2.trans hk.1, h3, rfl, rfl, rfl, .inl ⟨rfl, rfl, rfl⟩⟩
        · by_cases h' : (b.writeBuffer.drop (8 + n)).length < ncount (instr :: params).reverse + 2
          · obtain ⟨w, hw, h2, h3⟩ := writeStuffed_crc_panic (id := id) hlen h1 h' ho
            rw [hw]
            exact ⟨h2.trans hk.1, h3, rfl, rfl, rfl, .inl ⟨rfl, rfl, rfl⟩⟩
          · rw [writeStuffed_send hlen (by omega) ho]
            refine sendFrame_kept hb _ rfl (frame_take4 _ _) ?_
            rw [frame_length, codeStuff_length]
            simp at hlen h' ⊢
            omega
      · rw [writeStuffed_too_small hlen (by omega)]
        exact hk
    | err e => exact hk
    | panic => exact hk
    | hang => exact hk
  · rw [writePacket_too_small _ _ _ _ _ (by omega)]
    exact ⟨rfl, hb.prefix_eq, rfl, rfl, rfl, .inl ⟨rfl, rfl, rfl⟩⟩

theorem Kept.wInv {b' : Bus} (hk : Kept b b') (hb : b.WInv) : b'.WInv := ⟨by rw [hk.1]; exact hb.size, hk.2⟩

end Bus
end Dxl

namespace Dxl
open Spec
namespace Bus
variable {b b' : Bus} {id instr : Byte} {n : Nat} {enc : Encoder}

/-- A successful `write_packet`. -/
theorem writePacket_ok (hb : b.WInv) (h : writePacket id instr n enc b = (b', .ok ())) :
    ∃ params dt, enc.run (b.paramSlice n) = (params, .ok ()) ∧ params.length = n ∧ n + 10 ≤ b.writeBuffer.length ∧
      (frame id (codeStuff (instr :: params))).length ≤ b.writeBuffer.length ∧
      ¬ (b.debug = true ∧ 2 ^ 16 ≤ (codeStuff (instr :: params)).length % 2 ^ 16 + 2) ∧
      (∀ e, b.serialPort.discardRes.head? ≠ some (some e)) ∧
      b' = { b with
              serialPort := b.serialPort.discarded.wrote (frame id (codeStuff (instr :: params))) dt true
              writeBuffer := frame id (codeStuff (instr :: params)) ++
                b.writeBuffer.drop (frame id (codeStuff (instr :: params))).length
              readLen := 0
              usedBytes := 0 } := by
  by_cases hn : n + 10 ≤ b.writeBuffer.length
  · rw [writePacket_encode id instr n enc b hb hn] at h
    have hlen := enc.length_eq (b.paramSlice n)
    rw [paramSlice_length hn] at hlen
    rcases hr : enc.run (b.paramSlice n) with ⟨params, o⟩
    rw [hr] at hlen h
    change params.length = n at hlen
    cases o with
    | ok u =>
      simp only at h
      by_cases h1 : ncount (instr :: params).reverse ≤ (b.writeBuffer.drop (8 + n)).length
      · by_cases ho : b.debug = true ∧ 2 ^ 16 ≤ (codeStuff (instr :: params)).length % 2 ^ 16 + 2
        · obtain ⟨w, hw, h2, h3⟩ := writeStuffed_overflow (id := id) hlen h1 ho
          rw [hw] at h; simp at h
        · by_cases h' : (b.writeBuffer.drop (8 + n)).length < ncount (instr :: params).reverse + 2
          · obtain ⟨w, hw, h2, h3⟩ := writeStuffed_crc_panic (id := id) hlen h1 h' ho
            rw [hw] at h; simp at h
          · rw [writeStuffed_send hlen (by omega) ho] at h
            rcases sendFrame_cases (frame id (codeStuff (instr :: params))) { b with
              writeBuffer := frame id (codeStuff (instr :: params)) ++
                b.writeBuffer.drop (frame id (codeStuff (instr :: params))).length
              readLen := 0
              usedBytes := 0 } with ⟨e, h2, _⟩ | ⟨dt, e, h2, _⟩ | ⟨dt, h2, h3, _⟩
            · rw [h2] at h; simp at h
            · rw [h2] at h; simp at h
            · rw [h2] at h
              refine ⟨params, dt, rfl, hlen, hn, ?_, ho, h3, ?_⟩
              · rw [frame_length, codeStuff_length]
                simp at hlen h' ⊢
                omega
              · simpa using h.symm
      · rw [writeStuffed_too_small hlen (by omega)] at h
        simp at h
    | err e => simp at h
    | panic => simp at h
    | hang => simp at h
  · rw [writePacket_too_small _ _ _ _ _ (by omega)] at h
    simp at h

/-- Either nothing is done but preparing the write buffer, or a packet is handed to the serial port. -/
theorem writePacket_split (id instr : Byte) (n : Nat) (enc : Encoder) (hb : b.WInv) :
    (∃ w o, writePacket id instr n enc b = ({ b with writeBuffer := w }, o) ∧
      ((∃ e, o = .err (.bufferTooSmall e)) ∨ o = .panic ∨ o = .hang)) ∨
    (∃ params, enc.run (b.paramSlice n) = (params, .ok ()) ∧ params.length = n ∧
      writePacket id instr n enc b = sendFrame (frame id (codeStuff (instr :: params))) { b with
              writeBuffer := frame id (codeStuff (instr :: params)) ++
                b.writeBuffer.drop (frame id (codeStuff (instr :: params))).length
              readLen := 0
              usedBytes := 0 }) := by
  by_cases hn : n + 10 ≤ b.writeBuffer.length
  · rw [writePacket_encode id instr n enc b hb hn]
    have hlen := enc.length_eq (b.paramSlice n)
    rw [paramSlice_length hn] at hlen
    rcases hr : enc.run (b.paramSlice n) with ⟨params, o⟩
    rw [hr] at hlen
    change params.length = n at hlen
    cases o with
    | ok u =>
      simp only
      by_cases h1 : ncount (instr :: params).reverse ≤ (b.writeBuffer.drop (8 + n)).length
      · by_cases ho : b.debug = true ∧ 2 ^ 16 ≤ (codeStuff (instr :: params)).length % 2 ^ 16 + 2
        · obtain ⟨w, hw, h2, h3⟩ := writeStuffed_overflow (id := id) hlen h1 ho
          exact .inl ⟨w, _, hw, .inr (.inl rfl)⟩
        · by_cases h' : (b.writeBuffer.drop (8 + n)).length < ncount (instr :: params).reverse + 2
          · obtain ⟨w, hw, h2, h3⟩ := writeStuffed_crc_panic (id := id) hlen h1 h' ho
            exact .inl ⟨w, _, hw, .inr (.inl rfl)⟩
          · rw [writeStuffed_send hlen (by omega) ho]
            exact .inr ⟨params, rfl, hlen, rfl⟩
      · rw [writeStuffed_too_small hlen (by omega)]
        exact .inl ⟨_, _, rfl, .inl ⟨_, rfl⟩⟩
    | err e => exact .inl ⟨_, _, rfl, .inl ⟨_, rfl⟩⟩
    | panic => exact .inl ⟨_, _, rfl, .inr (.inl rfl)⟩
    | hang => exact .inl ⟨_, _, rfl, .inr (.inr rfl)⟩
  · rw [writePacket_too_small _ _ _ _ _ (by omega)]
    exact .inl ⟨_, _, rfl, .inl ⟨_, rfl⟩⟩

/-- The packet is handed to the port if it fits. -/
theorem writePacket_send (hb : b.WInv) {params : List Byte} (hr : enc.run (b.paramSlice n) = (params, .ok ()))
    (hn : n + 10 ≤ b.writeBuffer.length) (hf : 9 + (codeStuff (instr :: params)).length ≤ b.writeBuffer.length)
    (ho : ¬ (b.debug = true ∧ 2 ^ 16 ≤ (codeStuff (instr :: params)).length % 2 ^ 16 + 2)) :
    writePacket id instr n enc b = sendFrame (frame id (codeStuff (instr :: params))) { b with
              writeBuffer := frame id (codeStuff (instr :: params)) ++
                b.writeBuffer.drop (frame id (codeStuff (instr :: params))).length
              readLen := 0
              usedBytes := 0 } := by
  have hlen := enc.length_eq (b.paramSlice n)
  rw [paramSlice_length hn, hr] at hlen
  change params.length = n at hlen
  rw [writePacket_encode id instr n enc b hb hn, hr]
  simp only
  rw [writeStuffed_send hlen _ ho]
  rw [codeStuff_length] at hf
  simp at hf ⊢
  omega

end Bus
end Dxl
