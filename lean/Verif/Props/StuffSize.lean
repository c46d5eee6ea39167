import Verif.Props.Response

/-! # C63: how much room is enough for any data -/

namespace Dxl.Props
open Dxl.Spec

/-- The test helper `maximum_stuffed_len`, `src/bus/bytestuff.rs:99-102`: "the maximum required size for stuffing arbitrary data of
a certain length". -/
def maximumStuffedLen (n : Nat) : Nat := n / 3 * 4 + n % 3

/-- Data of `n` bytes with as many occurrences of `FF FF FD` as possible. -/
def densest : Nat → List Byte
  | n + 3 => 0xFF#8 :: 0xFF#8 :: 0xFD#8 :: densest n
  | n => List.replicate n 0#8

theorem densest_length : ∀ n, (densest n).length = n
  | 0 => rfl
  | 1 => rfl
  | 2 => rfl
  | n + 3 => by simp [densest, densest_length n]

theorem densest_count (p : List Byte) (hp : nstate p = 0) : ∀ n, ncount ((densest n).reverse ++ p) = ncount p + n / 3
  | 0 => by simp [densest]
  | 1 => by simp [densest, ncount]
  | 2 => by simp [densest, ncount]
  | n + 3 => by
    have h := densest_count (0xFD#8 :: 0xFF#8 :: 0xFF#8 :: p) (by simp [nstate]) n
    rw [densest, List.reverse_cons, List.reverse_cons, List.reverse_cons]
    simp only [List.append_assoc, List.cons_append, List.nil_append]
    rw [h]
    simp [ncount, nstate, hp]
    omega

/-- **C63** A buffer of `maximum_stuffed_len` bytes is enough to stuff any data of that length. -/
theorem c63_stuffing_enough (debug : Bool) (d space : List Byte) (h : maximumStuffedLen d.length ≤ d.length + space.length) :
    ∃ wire, StuffedForm d wire ∧ wire.length ≤ maximumStuffedLen d.length ∧
      stuffInplace debug d.length (d ++ space) = (wire ++ space.drop (wire.length - d.length), .ok wire.length) := by
  have h1 := codeStuff_length d
  have h2 := ncount_le_third d.reverse
  rw [List.length_reverse] at h2
  unfold maximumStuffedLen at h ⊢
  refine ⟨codeStuff d, stuffedForm_iff.mpr rfl, by omega, ?_⟩
  rw [stuffInplace_fits debug d space (by omega), h1, Nat.add_sub_cancel_left]

/-- **C63** And no smaller size is, for any length: some data need exactly that much, and in a smaller buffer the error says so
and the data are as they were. -/
theorem c63_stuffing_needed (n : Nat) : ∃ d : List Byte, d.length = n ∧ ∀ (debug : Bool) (space : List Byte),
    n + space.length < maximumStuffedLen n →
      stuffInplace debug n (d ++ space) = (d ++ space, .err ⟨maximumStuffedLen n, n + space.length⟩) := by
  refine ⟨densest n, densest_length n, fun debug space h => ?_⟩
  have hc := densest_count [] rfl n
  rw [List.append_nil] at hc
  unfold maximumStuffedLen at h ⊢
  have := stuffInplace_too_small debug (densest n) space (by rw [hc]; simp [ncount]; omega)
  rw [hc, densest_length] at this
  rw [this]
  simp [ncount]
  omega

theorem ncount_body {instr : Byte} (h : instr ≠ 0xFF#8) (p : List Byte) :
    3 * ncount (p ++ [instr]) + nstate (p ++ [instr]) ≤ p.length := by
  induction p with
  | nil => simp [ncount, nstate, h]
  | cons b p ih =>
    simp only [List.cons_append, ncount, nstate, List.length_cons]
    repeat' split
    all_goals simp_all
    all_goals omega

/-- **C63** A write buffer of `10 + n + n / 3` bytes is enough for every instruction packet with `n` parameters, and no smaller
one is: for some parameters it fails. -/
theorem c63_write_buffer {b : Bus} {id instr : Byte} {n : Nat} (hb : b.WInv) (hp : b.serialPort.SendOk) (hi : instr ≠ 0xFF#8)
    (hn : n + n / 3 + 3 < 2 ^ 16) :
    (∀ enc params, Fills enc.run n params → ∃ b', Bus.writeInstruction id instr n enc b = (b', .ok ())) ↔
      10 + n + n / 3 ≤ b.writeBuffer.length := by
  constructor
  · intro h
    have hl := densest_length n
    obtain ⟨b', h⟩ := h (bytesEncoder (densest n)) (densest n) fun s hs => by simp [bytesEncoder, copyFromSlice, hs, hl]
    by_cases hsmall : 10 + n + n / 3 ≤ b.writeBuffer.length
    · exact hsmall
    have hlen := codeStuff_length (instr :: densest n)
    rw [List.reverse_cons, densest_count [instr] (by simp [nstate, hi])] at hlen
    have h0 : ncount [instr] = 0 := by simp [ncount, nstate]
    rw [h0, List.length_cons, hl] at hlen
    have he : ∀ s : List Byte, s.length = n → (bytesEncoder (densest n)).run s = (densest n, .ok ()) := fun s hs => by
      simp [bytesEncoder, copyFromSlice, hs, hl]
    by_cases hg : CrcGap b.writeBuffer.length n (codeStuff (instr :: densest n))
    · have := c09_gap_panics (id := id) hb he (stuffedForm_iff.mpr rfl) hg
      rw [h] at this
      cases this
    · obtain ⟨b'', h'⟩ := c09_reported_partial (id := id) hb he (stuffedForm_iff.mpr rfl) (by rw [Bus.frame_length]; omega) hg
      rw [h] at h'
      cases (Prod.mk.inj h').2
  · intro h enc params he
    have hl := he.length
    have h1 := codeStuff_length (instr :: params)
    have h2 := ncount_body hi params.reverse
    rw [List.reverse_cons, List.length_cons] at h1
    rw [List.length_reverse] at h2
    exact Bus.writeInstruction_fits hb he hp (by omega) (by omega) (by omega)

/-- **C63** The same for status packets with `n` parameters and the error byte. -/
theorem c63_write_buffer_status {b : Bus} {id : Byte} {n : Nat} (hb : b.WInv) (hp : b.serialPort.SendOk)
    (hn : n + 1 + (n + 1) / 3 + 3 < 2 ^ 16) :
    (∀ error enc params, Fills enc.run n params → ∃ b', Bus.writeStatus id error n enc b = (b', .ok ())) ↔
      11 + n + (n + 1) / 3 ≤ b.writeBuffer.length := by
  have hi : (0x55#8 : Byte) ≠ 0xFF#8 := by decide
  constructor
  · intro h
    have hl := densest_length (n + 1)
    cases hd : densest (n + 1) with
    | nil => rw [hd] at hl; cases hl
    | cons error params =>
      rw [hd, List.length_cons, Nat.add_right_cancel_iff] at hl
      have he : ∀ s : List Byte, s.length = n → (bytesEncoder params).run s = (params, .ok ()) := fun s hs => by
        simp [bytesEncoder, copyFromSlice, hs, hl]
      obtain ⟨b', h⟩ := h error (bytesEncoder params) params he
      by_cases hsmall : 11 + n + (n + 1) / 3 ≤ b.writeBuffer.length
      · exact hsmall
      have hlen := codeStuff_length (0x55#8 :: densest (n + 1))
      rw [List.reverse_cons, densest_count [0x55#8] (by decide)] at hlen
      rw [show ncount [0x55#8] = 0 by decide, List.length_cons, densest_length, hd] at hlen
      obtain ⟨h1, h2⟩ := c09_status_partial (id := id) (error := error) hb he (stuffedForm_iff.mpr rfl) (by rw [Bus.frame_length]; omega)
      by_cases hg : CrcGap b.writeBuffer.length (n + 1) (codeStuff (0x55#8 :: error :: params))
      · have := h1 hg
        rw [h] at this
        cases this
      · obtain ⟨b'', h'⟩ := h2 hg
        rw [h] at h'
        cases (Prod.mk.inj h').2
  · intro h error enc params he
    have hl := he.length
    have h1 := codeStuff_length (0x55#8 :: error :: params)
    have h2 := ncount_body hi (error :: params).reverse
    rw [List.reverse_cons, List.length_cons, List.length_cons] at h1
    rw [List.length_reverse, List.length_cons] at h2
    rw [writeStatus_eq]
    exact Bus.writeInstruction_fits hb (statusEncoder_fills he) hp (by omega) (by omega) (by omega)

/-- The data that need the most room. -/
example : densest 7 = [0xFF#8, 0xFF#8, 0xFD#8, 0xFF#8, 0xFF#8, 0xFD#8, 0#8] ∧ maximumStuffedLen 7 = 9 ∧
    stuffInplace true 7 (densest 7 ++ [0#8]) = (densest 7 ++ [0#8], .err ⟨9, 8⟩) ∧
    stuffInplace true 7 (densest 7 ++ [0#8, 0#8]) =
      ([0xFF#8, 0xFF#8, 0xFD#8, 0xFD#8, 0xFF#8, 0xFF#8, 0xFD#8, 0xFD#8, 0#8], .ok 9) := by decide

/-- With the default write buffer of 128 bytes, 89 parameters are always possible, and 90 are not. -/
example : (10 + 89 + 89 / 3 ≤ 128) ∧ ¬ (10 + 90 + 90 / 3 ≤ 128) := by decide

/-! Each theorem with hypotheses on a concrete case. -/

example := c63_stuffing_enough true (densest 7) [0#8, 0#8] (by decide)

example := (c63_write_buffer (b := quietBus true 124) (id := 1#8) (instr := 0x03#8) (n := 89) (quietBus_wInv _ _ (by decide))
  ⟨by simp [quietBus, quietPort], by simp [quietBus, quietPort]⟩ (by decide) (by decide)).2 (by decide +kernel)

/-- Room for one byte more where two are needed. -/
example : ∃ d : List Byte, stuffInplace true 7 (d ++ [0#8]) = (d ++ [0#8], .err ⟨9, 8⟩) :=
  (c63_stuffing_needed 7).elim fun d h => ⟨d, h.2 true [0#8] (by decide)⟩

end Dxl.Props
