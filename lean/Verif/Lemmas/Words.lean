import Verif.Model.Words
import Verif.Lemmas.Write
import Verif.Lemmas.Read
import Verif.Lemmas.Encoders

/-! # Sizes as machine words: when they are the natural numbers of the rest of the model -/

namespace Dxl
open Spec (skip)

theorem usizeAdd_ok {ε : Type} {w : Nat} {debug : Bool} {a b : Nat} (h : a + b < 2 ^ w) :
    usizeAdd (ε := ε) w debug a b = .ok (a + b) := by rw [usizeAdd, if_pos h]

theorem usizeMul_ok {ε : Type} {w : Nat} {debug : Bool} {a b : Nat} (h : a * b < 2 ^ w) :
    usizeMul (ε := ε) w debug a b = .ok (a * b) := by rw [usizeMul, if_pos h]

theorem usizeSub_ok {ε : Type} {w : Nat} {debug : Bool} {a b : Nat} (h : b ≤ a) :
    usizeSub (ε := ε) w debug a b = .ok (a - b) := by rw [usizeSub, if_pos h]

theorem usizeAdd_over {ε : Type} {w : Nat} {debug : Bool} {a b : Nat} (h : 2 ^ w ≤ a + b) :
    usizeAdd (ε := ε) w debug a b = if debug then .panic else .ok ((a + b) % 2 ^ w) := by
  rw [usizeAdd, if_neg (by omega)]

theorem usizeMul_over {ε : Type} {w : Nat} {debug : Bool} {a b : Nat} (h : 2 ^ w ≤ a * b) :
    usizeMul (ε := ε) w debug a b = if debug then .panic else .ok ((a * b) % 2 ^ w) := by
  rw [usizeMul, if_neg (by omega)]

/-- In both cases. -/
theorem usizeAdd_cases {ε : Type} (w : Nat) (debug : Bool) (a b : Nat) :
    usizeAdd (ε := ε) w debug a b = .ok ((a + b) % 2 ^ w) ∨
      (usizeAdd (ε := ε) w debug a b = .panic ∧ debug = true ∧ 2 ^ w ≤ a + b) := by
  by_cases h : a + b < 2 ^ w
  · rw [usizeAdd_ok h, Nat.mod_eq_of_lt h]; exact .inl rfl
  · rw [usizeAdd_over (by omega)]
    cases debug
    · exact .inl rfl
    · exact .inr ⟨rfl, rfl, by omega⟩

theorem usizeMul_cases {ε : Type} (w : Nat) (debug : Bool) (a b : Nat) :
    usizeMul (ε := ε) w debug a b = .ok ((a * b) % 2 ^ w) ∨
      (usizeMul (ε := ε) w debug a b = .panic ∧ debug = true ∧ 2 ^ w ≤ a * b) := by
  by_cases h : a * b < 2 ^ w
  · rw [usizeMul_ok h, Nat.mod_eq_of_lt h]; exact .inl rfl
  · rw [usizeMul_over (by omega)]
    cases debug
    · exact .inl rfl
    · exact .inr ⟨rfl, rfl, by omega⟩

theorem two_pow_16 {w : Nat} (hw : 16 ≤ w) : 65536 ≤ 2 ^ w :=
  Nat.le_trans (by decide) (Nat.pow_le_pow_right (by decide) hw)

theorem two_pow_17 {w : Nat} (hw : 17 ≤ w) : 131072 ≤ 2 ^ w :=
  Nat.le_trans (by decide) (Nat.pow_le_pow_right (by decide) hw)

theorem two_pow_half {w : Nat} (hw : 16 ≤ w) : 2 ^ w = 2 * 2 ^ (w - 1) := by
  obtain ⟨k, rfl⟩ : ∃ k, w = k + 1 := ⟨w - 1, by omega⟩
  rw [Nat.pow_succ]; simp [Nat.mul_comm]

theorem instructionLenW_ok {ε : Type} {w : Nat} {debug : Bool} {n : Nat} (h : n + 10 < 2 ^ w) :
    InstructionPacket.messageLenW (ε := ε) w debug n = .ok (n + 10) := by
  unfold InstructionPacket.messageLenW headerSize
  rw [usizeAdd_ok (by omega), Outcome.ok_bind, usizeAdd_ok (by omega), Outcome.ok_bind, usizeAdd_ok (by omega)]
  congr 1; omega

theorem instructionLenW_over {ε : Type} {w : Nat} {debug : Bool} {n : Nat} (hw : 16 ≤ w) (hn : n < 2 ^ w)
    (h : 2 ^ w ≤ n + 10) :
    InstructionPacket.messageLenW (ε := ε) w debug n = if debug then .panic else .ok (n + 10 - 2 ^ w) := by
  have h16 := two_pow_16 hw
  unfold InstructionPacket.messageLenW headerSize
  rw [usizeAdd_ok (by omega), Outcome.ok_bind]
  by_cases h8 : 7 + 1 + n < 2 ^ w
  · rw [usizeAdd_ok h8, Outcome.ok_bind, usizeAdd_over (by omega)]
    split
    · rfl
    · rw [Nat.mod_eq_sub_mod (by omega), Nat.mod_eq_of_lt (by omega)]
      congr 1; omega
  · rw [usizeAdd_over (by omega)]
    split
    · rfl
    · rw [Outcome.ok_bind, Nat.mod_eq_sub_mod (by omega), Nat.mod_eq_of_lt (by omega), usizeAdd_ok (by omega)]
      congr 1; omega

theorem statusLenW_ok {ε : Type} {w : Nat} {debug : Bool} {n : Nat} (h : n + 11 < 2 ^ w) :
    StatusPacket.messageLenW (ε := ε) w debug n = .ok (n + 11) := by
  unfold StatusPacket.messageLenW headerSize
  rw [usizeAdd_ok (by omega), Outcome.ok_bind, usizeAdd_ok (by omega), Outcome.ok_bind, usizeAdd_ok (by omega)]
  congr 1; omega

theorem statusLenW_over {ε : Type} {w : Nat} {debug : Bool} {n : Nat} (hw : 16 ≤ w) (hn : n < 2 ^ w)
    (h : 2 ^ w ≤ n + 11) :
    StatusPacket.messageLenW (ε := ε) w debug n = if debug then .panic else .ok (n + 11 - 2 ^ w) := by
  have h16 := two_pow_16 hw
  unfold StatusPacket.messageLenW headerSize
  rw [usizeAdd_ok (by omega), Outcome.ok_bind]
  by_cases h8 : 7 + 2 + n < 2 ^ w
  · rw [usizeAdd_ok h8, Outcome.ok_bind, usizeAdd_over (by omega)]
    split
    · rfl
    · rw [Nat.mod_eq_sub_mod (by omega), Nat.mod_eq_of_lt (by omega)]
      congr 1; omega
  · rw [usizeAdd_over (by omega)]
    split
    · rfl
    · rw [Outcome.ok_bind, Nat.mod_eq_sub_mod (by omega), Nat.mod_eq_of_lt (by omega), usizeAdd_ok (by omega)]
      congr 1; omega

/-- Two programs that agree up to some point and from there on. -/
theorem SO.bind_agree {σ ε α β : Type} {m m' : SO σ ε α} {f f' : α → SO σ ε β} {s : σ} (hm : m s = m' s)
    (hf : ∀ a s', m' s = (s', .ok a) → f a s' = f' a s') : (m >>= f) s = (m' >>= f') s := by
  rw [SO.bind_def, SO.bind_def, hm]
  rcases h : m' s with ⟨s', o⟩
  cases o with
  | ok a => exact hf a s' h
  | err e => rfl
  | panic => rfl
  | hang => rfl

/-- `&mut l[a..][..n]` is `&mut l[a..a + n]`. -/
theorem onSliceFrom_onSlice {ε α : Type} (a n : Nat) (m : SO (List Byte) ε α) (l : List Byte) :
    onSliceFrom a (onSlice 0 n m) l = onSlice a (a + n) m l := by
  by_cases h : a ≤ l.length
  · rw [onSliceFrom_ok _ h]
    by_cases h' : a + n ≤ l.length
    · rw [onSlice_ok m (by omega) h', onSlice_ok m (by omega) (by simp; omega)]
      simp only [List.take_zero, List.nil_append, List.drop_zero, List.drop_drop]
      rw [List.drop_take, show a + n - a = n by omega]
      simp
    · have hi : onSlice 0 n m (l.drop a) = (l.drop a, .panic) := by
        rw [onSlice, if_neg (by simp; omega)]
      rw [hi, onSlice, if_neg (by omega)]
      simp
  · rw [onSliceFrom, onSlice, if_neg (by omega), onSlice, if_neg (by omega)]

theorem occR_le (p : List Byte) : occR p ≤ p.length := by
  induction p with
  | nil => simp [occR]
  | cons b p ih => simp only [occR, List.length_cons]; split <;> omega

theorem stuffInplaceW_eq {w : Nat} (hw : 16 ≤ w) (debug : Bool) (n : Nat) (l : List Byte) (hl : l.length < 2 ^ (w - 1)) :
    stuffInplaceW w debug n l = stuffInplace debug n l := by
  have h2 := two_pow_half hw
  unfold stuffInplaceW stuffInplace
  refine SO.bind_agree rfl fun buffer s hs => ?_
  obtain ⟨rfl, rfl⟩ : l = s ∧ l = buffer := by simp at hs; exact hs
  refine SO.bind_agree rfl fun used s hs => ?_
  refine SO.bind_agree rfl fun required s' hs' => ?_
  simp only [SO.lift_apply, Prod.mk.injEq] at hs hs'
  obtain ⟨hsl, hs⟩ := hs
  obtain ⟨hsl', hs'⟩ := hs'
  subst hsl hsl'
  rw [stuffingRequired_eq] at hs'
  have hn : n ≤ l.length := by
    unfold slice at hs
    by_cases h : 0 ≤ n ∧ n ≤ l.length
    · exact h.2
    · rw [if_neg h] at hs; simp at hs
  rw [slice_ok (by omega) hn] at hs
  simp only [Outcome.ok.injEq] at hs hs'
  have hu : used.length = n := by rw [← hs]; simp; omega
  have hreq : required ≤ n := by
    rw [← hs', ← hu]
    exact Nat.le_trans (ncount_le_occR _) (by have := occR_le used.reverse; simpa using this)
  by_cases h0 : required = 0
  · rw [if_pos h0, if_pos h0]
  · rw [if_neg h0, if_neg h0, usizeAdd_ok (by omega), SO.lift_ok_bind]
    refine SO.bind_agree rfl fun _ s _ => ?_
    refine SO.bind_agree rfl fun _ s _ => ?_
    refine SO.bind_agree rfl fun _ s _ => ?_
    rfl

theorem stuffInplace_le {debug : Bool} {n : Nat} {l l' : List Byte} {k : Nat}
    (h : stuffInplace debug n l = (l', .ok k)) : k ≤ l.length := by
  unfold stuffInplace at h
  rw [SO.get_bind] at h
  by_cases hn : n ≤ l.length
  · rw [slice_ok (by omega) hn, SO.lift_ok_bind, stuffingRequired_eq, SO.lift_ok_bind] at h
    generalize ncount (List.drop 0 (List.take n l)).reverse = r at h
    by_cases h0 : r = 0
    · rw [if_pos h0] at h; simp at h; omega
    · rw [if_neg h0] at h
      by_cases hc : n + r ≤ l.length
      · rw [BufferTooSmall.check, if_pos hc, SO.lift_ok_bind] at h
        rw [SO.bind_def] at h
        rcases hx : stuffLoop (ε := BufferTooSmall) n r n 0 0 l with ⟨s, o⟩
        rw [hx] at h
        cases o with
        | ok a =>
          simp only [SO.bind_def] at h
          rcases hy : (SO.assert (!debug || decide (a = r)) : SO (List Byte) BufferTooSmall Unit) s with ⟨s', o'⟩
          rw [hy] at h
          cases o' <;> simp at h
          omega
        | err e => simp at h
        | panic => simp at h
        | hang => simp at h
      · rw [BufferTooSmall.check, if_neg hc, SO.lift_err_bind] at h
        simp at h
  · rw [slice, if_neg (by omega), SO.lift_panic_bind] at h
    simp at h

/-- The write buffer keeps its length. -/
theorem onWriteBuffer_len {ε α : Type} {m : SO (List Byte) ε α} (hm : KeepsLength m) {b b' : Bus} {o : Outcome ε α}
    (h : Bus.onWriteBuffer m b = (b', o)) : b'.writeBuffer.length = b.writeBuffer.length := by
  rw [Bus.onWriteBuffer_apply] at h
  simp only [Prod.mk.injEq] at h
  rw [← h.1]
  exact hm _

theorem KeepsLength.mapErr {ε ε' α : Type} {m : SO (List Byte) ε α} (hm : KeepsLength m) (f : ε → ε') :
    KeepsLength (m.mapErr f) := fun s => hm s

/-- With a write buffer as large as Rust allows, and a parameter count whose packet size is a `usize`. -/
theorem writePacketW_eq {w : Nat} (hw : 16 ≤ w) (id instr : Byte) {n : Nat} (enc : Encoder) {b : Bus}
    (hl : b.writeBuffer.length < 2 ^ (w - 1)) (hn : n + 10 < 2 ^ w) :
    Bus.writePacketW w id instr n enc b = Bus.writePacket id instr n enc b := by
  have h16 := two_pow_16 hw
  have h2 := two_pow_half hw
  unfold Bus.writePacketW Bus.writePacket
  rw [SO.get_bind, SO.get_bind, instructionLenW_ok hn, SO.lift_ok_bind]
  have hml : InstructionPacket.messageLen n = n + 10 := by unfold InstructionPacket.messageLen headerSize; omega
  rw [hml]
  by_cases hc' : b.writeBuffer.length < n + 10
  · rw [BufferTooSmall.check, if_neg (by omega)]; rfl
  have hc : n + 10 ≤ b.writeBuffer.length := by omega
  rw [BufferTooSmall.check, if_pos hc, Outcome.mapErr_ok, SO.lift_ok_bind, SO.lift_ok_bind]
  refine SO.bind_agree rfl fun _ b1 h1 => ?_
  replace h1 := onWriteBuffer_len (.setIdx _ _) h1
  refine SO.bind_agree rfl fun _ b2 h2' => ?_
  replace h2' := onWriteBuffer_len (.setIdx _ _) h2'
  refine SO.bind_agree rfl fun _ b3 h3 => ?_
  replace h3 := onWriteBuffer_len (.setIdx _ _) h3
  refine SO.bind_agree rfl fun _ b4 h4 => ?_
  replace h4 := onWriteBuffer_len (.setIdx _ _) h4
  refine SO.bind_agree ?_ fun _ b5 h5 => ?_
  · rw [Bus.onWriteBuffer_apply, Bus.onWriteBuffer_apply]
    simp only [SO.mapErr_apply, onSliceFrom_onSlice]
  replace h5 := onWriteBuffer_len (KeepsLength.mapErr (.onSlice _ _ enc.length_eq) _) h5
  rw [usizeAdd_ok (by omega), SO.lift_ok_bind]
  have h7 : headerSize ≤ b5.writeBuffer.length := by simp only [headerSize]; omega
  have hst := stuffInplaceW_eq hw b.debug (1 + n) (b5.writeBuffer.drop headerSize) (by simp; omega)
  refine SO.bind_agree ?_ fun k b6 h6 => ?_
  · rw [Bus.onWriteBuffer_apply, Bus.onWriteBuffer_apply]
    simp only [SO.mapErr_apply]
    rw [onSliceFrom_ok _ h7, onSliceFrom_ok _ h7, hst]
  have hk : k ≤ b5.writeBuffer.length - 7 := by
    rw [Bus.onWriteBuffer_apply] at h6
    simp only [SO.mapErr_apply] at h6
    rw [onSliceFrom_ok _ h7] at h6
    simp only [Prod.mk.injEq] at h6
    rcases hx : stuffInplace b.debug (1 + n) (b5.writeBuffer.drop headerSize) with ⟨l', o⟩
    rw [hx] at h6
    cases o with
    | ok v =>
      have := stuffInplace_le hx
      simp [headerSize] at h6 this
      omega
    | err e => simp at h6
    | panic => simp at h6
    | hang => simp at h6
  have hk2 : headerSize + k < 2 ^ w := by simp only [headerSize]; omega
  have hk3 : headerSize + k + 2 < 2 ^ w := by simp only [headerSize]; omega
  refine SO.bind_agree rfl fun _ b7 _ => ?_
  refine SO.bind_agree rfl fun _ b8 _ => ?_
  rw [usizeAdd_ok hk2, SO.lift_ok_bind]
  refine SO.bind_agree rfl fun _ b9 _ => ?_
  refine SO.bind_agree rfl fun _ b10 _ => ?_
  refine SO.bind_agree rfl fun _ b11 _ => ?_
  refine SO.bind_agree rfl fun _ b12 _ => ?_
  refine SO.bind_agree rfl fun _ b13 _ => ?_
  refine SO.bind_agree rfl fun _ b14 _ => ?_
  rw [usizeAdd_ok hk3, SO.lift_ok_bind]

/-- A parameter count so large that the size of the packet is no `usize`. -/
theorem writePacketW_over {w : Nat} (hw : 16 ≤ w) (id instr : Byte) {n : Nat} (enc : Encoder) {b : Bus} (hb : b.WInv)
    (hl : b.writeBuffer.length < 2 ^ (w - 1)) (hn : n < 2 ^ w) (h : 2 ^ w ≤ n + 10) :
    ∃ buf, Bus.writePacketW w id instr n enc b = ({ b with writeBuffer := buf }, .panic) ∧
      buf.length = b.writeBuffer.length ∧ buf.take 4 = headerPrefix := by
  have h16 := two_pow_16 hw
  have h2 := two_pow_half hw
  have hsize := hb.size
  unfold Bus.writePacketW
  rw [SO.get_bind, instructionLenW_over hw hn h]
  by_cases hd : b.debug = true
  · rw [if_pos hd]
    exact ⟨b.writeBuffer, rfl, rfl, hb.prefix_eq⟩
  rw [if_neg hd, SO.lift_ok_bind, BufferTooSmall.check, if_pos (by omega), Outcome.mapErr_ok, SO.lift_ok_bind]
  rw [SO.bind_ok (Bus.onWriteBuffer_eq (setIdx_ok _ (by omega)))]
  rw [SO.bind_ok (Bus.onWriteBuffer_eq (setIdx_ok _ (by simp; omega)))]
  rw [SO.bind_ok (Bus.onWriteBuffer_eq (setIdx_ok _ (by simp; omega)))]
  rw [SO.bind_ok (Bus.onWriteBuffer_eq (setIdx_ok _ (by simp; omega)))]
  simp only
  generalize hg : (((b.writeBuffer.set 4 id).set 5 0#8).set 6 0#8).set 7 instr = g
  have hgl : g.length = b.writeBuffer.length := by rw [← hg]; simp
  refine ⟨g, SO.bind_panic (Bus.onWriteBuffer_eq ?_) _, hgl, ?_⟩
  · simp only [SO.mapErr_apply]
    rw [onSliceFrom_onSlice, onSlice, if_neg (by omega)]
    rfl
  · rw [← hg]
    simp [List.take_set_of_le, hb.prefix_eq]

/-! ## Status packets -/

theorem writeStatusW_eq {w : Nat} (hw : 16 ≤ w) (id error : Byte) {n : Nat} (enc : Encoder) {b : Bus}
    (hl : b.writeBuffer.length < 2 ^ (w - 1)) (hn : n + 11 < 2 ^ w) :
    Bus.writeStatusW w id error n enc b = Bus.writeStatus id error n enc b := by
  unfold Bus.writeStatusW Bus.writeStatus
  rw [SO.get_bind, SO.get_bind, statusLenW_ok hn, SO.lift_ok_bind,
    show StatusPacket.messageLen n = n + 11 by unfold StatusPacket.messageLen headerSize; omega]
  refine SO.bind_agree rfl fun _ b' hb' => ?_
  have hb2 : b' = b := by simp at hb'; exact hb'.1.symm
  subst hb2
  rw [usizeAdd_ok (by omega), SO.lift_ok_bind, writePacketW_eq hw _ _ _ hl (by omega)]

theorem writeStatusW_over {w : Nat} (hw : 16 ≤ w) (id error : Byte) {n : Nat} (enc : Encoder) {b : Bus} (hb : b.WInv)
    (hl : b.writeBuffer.length < 2 ^ (w - 1)) (hn : n < 2 ^ w) (h : 2 ^ w ≤ n + 11) :
    ∃ buf, Bus.writeStatusW w id error n enc b = ({ b with writeBuffer := buf }, .panic) := by
  have h16 := two_pow_16 hw
  have hsize := hb.size
  unfold Bus.writeStatusW
  rw [SO.get_bind, statusLenW_over hw hn h]
  by_cases hd : b.debug = true
  · rw [if_pos hd]
    exact ⟨b.writeBuffer, rfl⟩
  rw [if_neg hd, SO.lift_ok_bind, BufferTooSmall.check, if_pos (by omega), Outcome.mapErr_ok, SO.lift_ok_bind]
  by_cases hm : n + 1 < 2 ^ w
  · rw [usizeAdd_ok hm, SO.lift_ok_bind]
    obtain ⟨buf, h1, _⟩ := writePacketW_over hw id InstructionId.status (Bus.statusEncoder error enc) hb hl hm (by omega)
    exact ⟨buf, h1⟩
  · rw [usizeAdd_over (by omega), if_neg hd, show n + 1 = 2 ^ w by omega, Nat.mod_self, SO.lift_ok_bind,
      writePacketW_eq hw _ _ _ hl (by omega), Bus.writePacket_encode _ _ _ _ _ hb (by omega)]
    have h0 : b.paramSlice 0 = [] := List.eq_nil_of_length_eq_zero (Bus.paramSlice_length (by omega))
    rw [h0]
    exact ⟨_, rfl⟩

/-! ## Receiving -/

theorem messageReadyW_eq {w : Nat} (hw : 17 ≤ w) : Bus.messageReadyW w = Bus.messageReady := by
  have h17 := two_pow_17 hw
  funext b
  unfold Bus.messageReadyW Bus.messageReady
  rw [SO.get_bind, SO.get_bind]
  by_cases h : b.readLen > headerSize
  · rw [if_pos h, if_pos h]
    refine SO.bind_agree rfl fun _ s hs => ?_
    refine SO.bind_agree rfl fun _ s hs => ?_
    refine SO.bind_agree rfl fun len s hs => ?_
    have hlt := len.isLt
    rw [usizeAdd_ok (by simp only [headerSize]; omega), SO.lift_ok_bind]
    rfl
  · rw [if_neg h, if_neg h]

theorem readLoopW_eq {w : Nat} (hw : 17 ≤ w) (D fuel : Nat) : Bus.readLoopW w D fuel = Bus.readLoop D fuel := by
  induction fuel with
  | zero => rfl
  | succ fuel ih =>
    unfold Bus.readLoopW Bus.readLoop
    rw [messageReadyW_eq hw, ih]
    rfl

theorem finishPacketW_eq {w n : Nat} {b : Bus} (h2 : 2 ≤ n) (hn : n + 7 < 2 ^ w)
    (hu : b.usedBytes + n < 2 ^ w) : Bus.finishPacketW w n b = Bus.finishPacket n b := by
  unfold Bus.finishPacketW Bus.finishPacket
  rw [SO.get_bind, SO.get_bind, usizeSub_ok h2, SO.lift_ok_bind]
  refine SO.bind_agree rfl fun _ s1 hs1 => ?_
  refine SO.bind_agree rfl fun _ s2 hs2 => ?_
  refine SO.bind_agree rfl fun _ s3 hs3 => ?_
  refine SO.bind_agree rfl fun _ s4 hs4 => ?_
  have hs : s4 = b := by
    simp only [SO.lift_apply, Prod.mk.injEq] at hs1 hs2 hs3 hs4
    rw [← hs4.1, ← hs3.1, ← hs2.1, ← hs1.1]
  subst hs
  split
  · rfl
  · rw [usizeAdd_ok hu, SO.lift_ok_bind, SO.modify_bind, SO.modify_bind]
    refine SO.bind_agree rfl fun k s5 hs5 => ?_
    have hk : k ≤ n := by
      simp only [Bus.onReadBuffer, SO.zoom_apply, Prod.mk.injEq] at hs5
      by_cases hsl : headerSize ≤ n - 2 ∧ n - 2 ≤ s4.readBuffer.length
      · rw [onSlice_ok _ hsl.1 hsl.2] at hs5
        obtain ⟨junk, h5, h6⟩ := unstuffInplace_eq (ε := ReadError) ((s4.readBuffer.take (n - 2)).drop headerSize)
        rw [h5] at hs5
        simp at hs5 h6
        omega
      · rw [onSlice, if_neg hsl] at hs5
        simp at hs5
    rw [usizeAdd_ok (by simp only [headerSize]; omega), SO.lift_ok_bind]

theorem readPacketDeadlineW_eq {w : Nat} (hw : 17 ≤ w) (D : Nat) {b : Bus} (hr : b.RInv) :
    Bus.readPacketDeadlineW w D b = Bus.readPacketDeadline D b := by
  unfold Bus.readPacketDeadlineW Bus.readPacketDeadline
  rw [SO.get_bind, SO.get_bind]
  by_cases hN : b.readBuffer.length < 10
  · rw [BufferTooSmall.check, if_neg (by simp [headerSize]; omega)]; rfl
  rw [BufferTooSmall.check, if_pos (by simp [headerSize]; omega), Outcome.mapErr_ok, SO.lift_ok_bind, SO.lift_ok_bind,
    readLoopW_eq hw]
  refine SO.bind_agree rfl fun n c hc => ?_
  have hres := Bus.readLoop_result D (b.serialPort.measure + 1) b hr (by omega) (by omega)
  rw [hc] at hres
  have hhalf := two_pow_half (w := w) (by omega)
  cases hres with
  | packet hread hparse hholds =>
    rename_i bs f rest p
    obtain ⟨_, _, h1, h2, _⟩ := parse_packet hparse
    have hlf : Spec.lengthField f ≤ 65535 := by
      unfold Spec.lengthField
      have h5 := (f.getD 5 0#8).isLt
      have h6 := (f.getD 6 0#8).isLt
      omega
    have h17 := two_pow_17 hw
    exact finishPacketW_eq (by omega) (by omega) (by rw [hholds.used]; omega)

/-! ### Words of 16 bits -/

/-- The length field of a header, where the code reads it. -/
theorem readLengthField {t : List Byte} (h : 7 ≤ t.length) :
    ∃ v : U16, readU16Le (ε := ReadError) (t.drop 5) = .ok v ∧ v.toNat = Spec.lengthField t := by
  match t, h with
  | x0 :: x1 :: x2 :: x3 :: x4 :: x5 :: x6 :: rest, _ => exact ⟨mk16 x5 x6, readU16Le_cons _ _ _, mk16_toNat _ _⟩

theorem messageReadyW_16_same {b : Bus} {t : List Byte} (h : 8 ≤ t.length → Spec.lengthField t < 65529) :
    Bus.messageReadyW 16 (b.withPending t) = Bus.messageReady (b.withPending t) := by
  unfold Bus.messageReadyW Bus.messageReady
  rw [SO.get_bind, SO.get_bind]
  simp only [show (b.withPending t).readLen = t.length from rfl]
  by_cases h7 : t.length > headerSize
  · rw [if_pos h7, if_pos h7]
    simp only [headerSize] at h7
    rw [ slice_ok (by omega) (by simp [Bus.withPending]), SO.lift_ok_bind, SO.lift_ok_bind]
    have ht : ((b.withPending t).readBuffer.take t.length).drop 0 = t := by simp [Bus.withPending]
    obtain ⟨v, hv, hvn⟩ := readLengthField (t := t) (by omega)
    have := h (by omega)
    rw [ht, sliceFrom_ok (by omega), SO.lift_ok_bind, SO.lift_ok_bind, hv, SO.lift_ok_bind, SO.lift_ok_bind,
      usizeAdd_ok (by simp only [headerSize]; omega), SO.lift_ok_bind]
    rfl
  · rw [if_neg h7, if_neg h7]

/-- A received length field of 65529 or more makes the sum overflow. -/
theorem messageReadyW_16 {b : Bus} {t : List Byte} (hl : t.length ≤ b.readBuffer.length) (h8 : 8 ≤ t.length)
    (hf : 65529 ≤ Spec.lengthField t) :
    Bus.messageReadyW 16 (b.withPending t) =
      (b.withPending t, if b.debug then .panic else .ok (some (Spec.lengthField t - 65529))) := by
  unfold Bus.messageReadyW
  rw [SO.get_bind]
  simp only [show (b.withPending t).readLen = t.length from rfl]
  rw [if_pos (by simp [headerSize]; omega), slice_ok (by omega) (by simp [Bus.withPending]), SO.lift_ok_bind]
  have ht : ((b.withPending t).readBuffer.take t.length).drop 0 = t := by simp [Bus.withPending]
  obtain ⟨v, hv, hvn⟩ := readLengthField (t := t) (by omega)
  have hlt := v.isLt
  rw [ht, sliceFrom_ok (by omega), SO.lift_ok_bind, hv, SO.lift_ok_bind, hvn, usizeAdd_over (by simp only [headerSize]; omega),
    show (b.withPending t).debug = b.debug from rfl]
  cases b.debug
  · rw [if_neg (by simp), if_neg (by simp), SO.lift_ok_bind, Bus.withPending_length hl,
      show (headerSize + Spec.lengthField t) % 2 ^ 16 = Spec.lengthField t - 65529 by simp only [headerSize]; omega,
      BufferTooSmall.check, if_pos (by omega)]
    simp only
    rw [if_pos (by omega)]
    rfl
  · rfl

/-- The read loop: as with numbers, or it meets a header whose length makes the sum overflow. -/
theorem readLoopW_16 (D fuel : Nat) : ∀ b : Bus, b.RInv → 10 ≤ b.readBuffer.length → b.readBuffer.length < 65536 →
    (Bus.readLoopW 16 D fuel b = Bus.readLoop D fuel b ∧
      ∀ e, (Bus.readLoop D fuel b).2 = .err (.bufferFull e) → e.requiredSize < 65536) ∨
    ∃ (c : Bus) (t : List Byte), c.readBuffer.length = b.readBuffer.length ∧ c.debug = b.debug ∧ t.length ≤ c.readBuffer.length ∧ 8 ≤ t.length ∧
      Spec.header <+: t ∧ 65529 ≤ Spec.lengthField t ∧
      Bus.readLoopW 16 D fuel b = (c.withPending t, if b.debug then .panic else .ok (Spec.lengthField t - 65529)) ∧
      (Bus.readLoop D fuel b).2 = .err (.bufferFull ⟨7 + Spec.lengthField t, b.readBuffer.length⟩) := by
  induction fuel with
  | zero => intro b _ _ _; exact .inl ⟨rfl, fun e h => by simp [Bus.readLoop, SO.hang] at h⟩
  | succ fuel ih =>
    intro b hr hN hcap
    have hlen : (skip b.pending).length ≤ b.readBuffer.length :=
      Nat.le_trans (skip_suffix _).length_le (Bus.pending_length_le hr)
    have hmr := Bus.messageReady_eq b (skip b.pending) hlen (skip_skip _)
    rw [parse_skip] at hmr
    unfold Bus.readLoopW Bus.readLoop
    rw [SO.bind_ok (Bus.removeGarbage_eq hr), SO.bind_ok (Bus.removeGarbage_eq hr)]
    by_cases hover : 8 ≤ (skip b.pending).length ∧ 65529 ≤ Spec.lengthField (skip b.pending)
    · have hp : Spec.parse b.readBuffer.length b.pending =
          .tooBig (7 + Spec.lengthField (skip b.pending)) ((skip b.pending).drop 7) := by
        unfold Spec.parse
        rw [if_neg (by omega), if_pos (by omega)]
      rw [hp] at hmr
      obtain ⟨hd, h1, h2, _⟩ := parse_tooBig hp
      refine .inr ⟨b, skip b.pending, rfl, rfl, hlen, hover.1, ?_, hover.2, ?_, ?_⟩
      · rw [h1]; exact h2.trans (List.prefix_append _ _)
      · cases hdb : b.debug
        · rw [SO.bind_ok (a := some (Spec.lengthField (skip b.pending) - 65529))
            (s' := b.withPending (skip b.pending)) (by rw [messageReadyW_16 hlen hover.1 hover.2, hdb]; rfl)]
          rfl
        · rw [SO.bind_panic (s' := b.withPending (skip b.pending)) (by rw [messageReadyW_16 hlen hover.1 hover.2, hdb]; rfl)]
          rfl
      · rw [SO.bind_err hmr]
    · have hsame := messageReadyW_16_same (b := b) (t := skip b.pending) (by omega)
      cases hp : Spec.parse b.readBuffer.length b.pending with
      | packet f rest =>
        rw [hp] at hmr
        rw [SO.bind_ok (hsame.trans hmr), SO.bind_ok hmr]
        exact .inl ⟨rfl, fun e h => by simp at h⟩
      | tooBig req rest =>
        rw [hp] at hmr
        rw [SO.bind_err (hsame.trans hmr), SO.bind_err hmr]
        refine .inl ⟨rfl, fun e h => ?_⟩
        simp only [Outcome.err.injEq, ReadError.bufferFull.injEq] at h
        subst h
        unfold Spec.parse at hp
        by_cases h7 : (skip b.pending).length ≤ 7
        · rw [if_pos h7] at hp; simp at hp
        · rw [if_neg h7] at hp
          have : req = 7 + Spec.lengthField (skip b.pending) := by
            split at hp
            · simp only [Spec.Parsed.tooBig.injEq] at hp; exact hp.1.symm
            · split at hp <;> simp at hp
          show req < 65536
          omega
      | more =>
        rw [hp] at hmr
        rw [SO.bind_ok (hsame.trans hmr), SO.bind_ok hmr]
        simp only
        have hrm := Bus.readMore_eq b (skip b.pending) D hlen
        rcases Port.read_cases (b.readBuffer.length - (skip b.pending).length) D b.serialPort with
          ⟨p1, bs, hread⟩ | ⟨p1, e, hread⟩
        · rw [hread] at hrm
          rw [SO.bind_ok hrm, SO.bind_ok hrm]
          have hbs := Port.read_length hread
          have hh := Bus.holds_withPending b p1 (t := skip b.pending ++ bs) (by simp; omega)
          have hstep := ih _ hh.rInv (by rw [hh.like.readSize]; exact hN) (by rw [hh.like.readSize]; exact hcap)
          rw [hh.like.readSize, hh.like.debug] at hstep
          exact hstep
        · rw [hread] at hrm
          rw [SO.bind_err hrm, SO.bind_err hrm]
          exact .inl ⟨rfl, fun e h => by simp at h⟩

/-- What a release build makes of such a header. -/
theorem finishPacketW_16 {c : Bus} {t : List Byte} (hl : t.length ≤ c.readBuffer.length) (hcap : c.readBuffer.length < 2 ^ 15)
    (h8 : 8 ≤ t.length) (hh : Spec.header <+: t) (hf : 65529 ≤ Spec.lengthField t) (hd : c.debug = false) :
    (Spec.lengthField t ≤ 65530 ∧
      Bus.finishPacketW 16 (Spec.lengthField t - 65529) (c.withPending t) = (c.withPending t, .panic)) ∨
    (65531 ≤ Spec.lengthField t ∧ ∃ m k, m ≠ k ∧
      Bus.finishPacketW 16 (Spec.lengthField t - 65529) (c.withPending t) =
        ((c.withPending t).withPending (t.drop (Spec.lengthField t - 65529)), .err (.invalidMessage (.checksum m k)))) := by
  obtain ⟨r, rfl⟩ := hh
  match r, h8 with
  | x4 :: x5 :: x6 :: x7 :: r, _ =>
    have h5 := x5.isLt
    have h6 := x6.isLt
    have e : Spec.lengthField (Spec.header ++ x4 :: x5 :: x6 :: x7 :: r) = x5.toNat + 256 * x6.toNat := rfl
    rw [e] at hf ⊢
    have h6 : x6 = 0xFF#8 := BitVec.eq_of_toNat_eq (by simp; omega)
    subst h6
    have h5 : x5 = 0xF9#8 ∨ x5 = 0xFA#8 ∨ x5 = 0xFB#8 ∨ x5 = 0xFC#8 ∨ x5 = 0xFD#8 ∨ x5 = 0xFE#8 ∨ x5 = 0xFF#8 := by
      have : x5.toNat = 0xF9 ∨ x5.toNat = 0xFA ∨ x5.toNat = 0xFB ∨ x5.toNat = 0xFC ∨ x5.toNat = 0xFD ∨ x5.toNat = 0xFE ∨
        x5.toNat = 0xFF := by simp at hf; omega
      rcases this with h | h | h | h | h | h | h
      · exact .inl (BitVec.eq_of_toNat_eq h)
      · exact .inr (.inl (BitVec.eq_of_toNat_eq h))
      · exact .inr (.inr (.inl (BitVec.eq_of_toNat_eq h)))
      · exact .inr (.inr (.inr (.inl (BitVec.eq_of_toNat_eq h))))
      · exact .inr (.inr (.inr (.inr (.inl (BitVec.eq_of_toNat_eq h)))))
      · exact .inr (.inr (.inr (.inr (.inr (.inl (BitVec.eq_of_toNat_eq h))))))
      · exact .inr (.inr (.inr (.inr (.inr (.inr (BitVec.eq_of_toNat_eq h))))))
    clear e hf
    generalize hb : c.withPending (Spec.header ++ x4 :: x5 :: 0xFF#8 :: x7 :: r) = b
    have hdb : b.debug = false := by rw [← hb]; exact hd
    have hbl : b.readBuffer.length < 2 ^ 15 := by rw [← hb, Bus.withPending_length hl]; exact hcap
    have hr : b.RInv := by rw [← hb]; exact Bus.withPending_rInv
    obtain ⟨q, hq⟩ : ∃ q, b.readBuffer = 0xFF#8 :: 0xFF#8 :: 0xFD#8 :: 0#8 :: x4 :: x5 :: 0xFF#8 :: q :=
      ⟨_, by rw [← hb]; rfl⟩
    have hlen : b.readLen = (Spec.header ++ x4 :: x5 :: 0xFF#8 :: x7 :: r).length := by rw [← hb]; rfl
    have hused : b.usedBytes = 0 := by rw [← hb]; rfl
    have htake : b.readBuffer.take b.readLen = Spec.header ++ x4 :: x5 :: 0xFF#8 :: x7 :: r := by
      rw [hlen, ← hb]; exact List.take_left' rfl
    -- the two lengths that make the subtraction wrap as well
    have hwrap : ∀ n, n < 2 → Bus.finishPacketW 16 n b = (b, .panic) := by
      intro n hn
      unfold Bus.finishPacketW
      rw [SO.get_bind, usizeSub, if_neg (by omega), if_neg (by rw [hdb]; simp), SO.lift_ok_bind, sliceFrom, slice,
        if_neg (by omega), SO.lift_panic_bind]
    have hsum : ∀ n m k, 2 ≤ n → n ≤ 6 → m ≠ k → readU16Le (ε := ReadError) (b.readBuffer.drop (n - 2)) = .ok m →
        calculateChecksum (ε := ReadError) 0#16 (b.readBuffer.take (n - 2)) = .ok k →
        Bus.finishPacketW 16 n b =
          (b.withPending ((Spec.header ++ x4 :: x5 :: 0xFF#8 :: x7 :: r).drop n), .err (.invalidMessage (.checksum m k))) := by
      intro n m k h2 h6 hne hm hk
      have hb7 : 7 ≤ b.readBuffer.length := by rw [hq]; simp
      unfold Bus.finishPacketW
      rw [SO.get_bind, usizeSub_ok h2, SO.lift_ok_bind, sliceFrom_ok (by omega), SO.lift_ok_bind, hm, SO.lift_ok_bind,
        slice_ok (by omega) (by omega), SO.lift_ok_bind, List.drop_zero, hk, SO.lift_ok_bind, if_pos hne,
        SO.bind_ok (Bus.consumeReadBytes_eq hr (by rw [hlen]; simp [Spec.header]; omega) (by omega)), htake]
      rfl
    rcases h5 with rfl | rfl | rfl | rfl | rfl | rfl | rfl
    · exact .inl ⟨by decide, hwrap 0 (by decide)⟩
    · exact .inl ⟨by decide, hwrap 1 (by decide)⟩
    · refine .inr ⟨by decide, _, _, ?_, hsum 2 _ _ (by decide) (by decide) ?_ (by rw [hq]; rfl) (by rw [hq]; rfl)⟩ <;> decide +kernel
    · refine .inr ⟨by decide, _, _, ?_, hsum 3 _ _ (by decide) (by decide) ?_ (by rw [hq]; rfl) (by rw [hq]; rfl)⟩ <;> decide +kernel
    · refine .inr ⟨by decide, _, _, ?_, hsum 4 _ _ (by decide) (by decide) ?_ (by rw [hq]; rfl) (by rw [hq]; rfl)⟩ <;> decide +kernel
    · refine .inr ⟨by decide, _, _, ?_, hsum 5 _ _ (by decide) (by decide) ?_ (by rw [hq]; rfl) (by rw [hq]; rfl)⟩ <;>
        (clear hsum hwrap htake hused hlen hq hb hl; rename_i hx; clear hx; revert x4; decide +kernel)
    · refine .inr ⟨by decide, _, _, ?_, hsum 6 _ _ (by decide) (by decide) ?_ (by rw [hq]; rfl) (by rw [hq]; rfl)⟩ <;>
        (clear hsum hwrap htake hused hlen hq hb hl; rename_i hx; clear hx; revert x4; decide +kernel)

/-- `read_packet_deadline` with words of 16 bits. -/
theorem readPacketDeadlineW_16 (D : Nat) {b : Bus} (hr : b.RInv) (hN : 10 ≤ b.readBuffer.length) (hcap : b.readBuffer.length < 2 ^ 15) :
    (Bus.readPacketDeadlineW 16 D b = Bus.readPacketDeadline D b ∧
      ∀ e, (Bus.readPacketDeadline D b).2 = .err (.bufferFull e) → e.requiredSize < 65536) ∨
    ∃ L, 65529 ≤ L ∧ (Bus.readPacketDeadline D b).2 = .err (.bufferFull ⟨7 + L, b.readBuffer.length⟩) ∧
      (b.debug = true ∨ L ≤ 65530 → (Bus.readPacketDeadlineW 16 D b).2 = .panic) ∧
      (b.debug = false → 65531 ≤ L → ∃ m k, m ≠ k ∧
        (Bus.readPacketDeadlineW 16 D b).2 = .err (.invalidMessage (.checksum m k))) := by
  unfold Bus.readPacketDeadlineW Bus.readPacketDeadline
  rw [SO.get_bind, SO.get_bind, BufferTooSmall.check, if_pos (by simp [headerSize]; omega), Outcome.mapErr_ok, SO.lift_ok_bind,
    SO.lift_ok_bind]
  rcases readLoopW_16 D (b.serialPort.measure + 1) b hr hN (by omega) with ⟨h1, h2⟩ | ⟨c, t, hc, hcd, hl, h8, hh, hf, h1, h2⟩
  · left
    have hres := Bus.readLoop_result D (b.serialPort.measure + 1) b hr hN (by omega)
    rcases hx : Bus.readLoop D (b.serialPort.measure + 1) b with ⟨c, o⟩
    rw [hx] at h1 h2 hres
    cases hres with
    | packet hread hparse hholds =>
      rename_i bs f rest p
      obtain ⟨_, h9, h3, h4, _⟩ := parse_packet hparse
      have hfl : f.length ≤ b.readBuffer.length := by
        have := hholds.data.length_le
        rw [hholds.like.readSize, List.length_append] at this
        omega
      rw [SO.bind_ok h1, SO.bind_ok hx]
      refine ⟨finishPacketW_eq (by omega) (by omega) (by rw [hholds.used]; omega), fun e he => ?_⟩
      obtain ⟨c', h5, _⟩ := Bus.finishPacket_eq hholds h9 h3
      rw [h5] at he
      simp only [Bus.frameOutcome] at he
      repeat' split at he
      all_goals simp at he
    | tooBig hread hparse hholds =>
      rw [SO.bind_err h1, SO.bind_err hx]
      exact ⟨rfl, fun e he => h2 e (by simpa using he)⟩
    | ended hread hparse hcap' hio hholds =>
      rw [SO.bind_err h1, SO.bind_err hx]
      exact ⟨rfl, fun e he => by simp at he⟩
  · right
    refine ⟨Spec.lengthField t, hf, ?_, ?_, ?_⟩
    · rcases hx : Bus.readLoop D (b.serialPort.measure + 1) b with ⟨c', o⟩
      rw [hx] at h2
      simp only at h2
      subst h2
      rw [SO.bind_err hx]
    · intro hor
      by_cases hd : b.debug = true
      · rw [if_pos hd] at h1
        rw [SO.bind_panic h1]
      · rw [if_neg hd] at h1
        have hL := hor.resolve_left hd
        rcases finishPacketW_16 hl (by omega) h8 hh hf (by rw [hcd]; simpa using hd) with ⟨_, h3⟩ | ⟨h3, _⟩
        · rw [SO.bind_ok h1, h3]
        · omega
    · intro hd hL
      rw [hd, if_neg (by simp)] at h1
      rcases finishPacketW_16 hl (by omega) h8 hh hf (by rw [hcd]; exact hd) with ⟨h3, _⟩ | ⟨_, m, k, hne, h3⟩
      · omega
      · exact ⟨m, k, hne, by rw [SO.bind_ok h1, h3]⟩

end Dxl
