import Verif.Props.Send
import Verif.Lemmas.WireHeader

/-! # C05: exactly when the header prefix is in the body of a packet -/

namespace Dxl.Props
open Spec

/-- **C05** (partial: the English claim is that this never happens) The header prefix `FF FF FD 00` is in the body of a sent
packet exactly if it is in the unstuffed body, with its `FF FF FD` among the first `m` ones, where `m` is the number of `FD`s in
the body that end a run of 3, 4, 6, 7, ... `FF`s. -/
theorem c05_header_iff_partial {b b' : Bus} {id instr : Byte} {n : Nat} {enc : Encoder} {params : List Byte} (hb : b.WInv)
    (he : ∀ s, s.length = n → enc.run s = (params, .ok ()))
    (h : Bus.writeInstruction id instr n enc b = (b', .ok ())) :
    ∃ wire, Sent b b' (frame id wire) ∧ (header <:+: wire ↔ ∃ pre post, instr :: params = pre ++ header ++ post ∧
      occurrences (pre ++ [0xFF#8, 0xFF#8, 0xFD#8]) ≤ misfits 0 (instr :: params)) := by
  obtain ⟨params', wire, ⟨old, hold, hrun⟩, hw, hs⟩ := c08_instruction_layout hb h
  rw [he old hold] at hrun
  simp only [Prod.mk.injEq, and_true] at hrun
  subst hrun
  refine ⟨wire, hs, ?_⟩
  rw [stuffedForm_iff.mp hw]
  exact header_codeStuff _

/-- Both sides of `c05_header_iff_partial`: of two headers the first is sent as it is and the second is stuffed; a third body has
a run of 3 `FF`s, but before it a header that is sent as it is in its place. -/
example : codeStuff [0xFF#8, 0xFF#8, 0xFF#8, 0xFD#8, 0x00#8, 0xFF#8, 0xFF#8, 0xFD#8, 0x00#8]
      = [0xFF#8, 0xFF#8, 0xFF#8, 0xFD#8, 0x00#8, 0xFF#8, 0xFF#8, 0xFD#8, 0xFD#8, 0x00#8] ∧
    misfits 0 [0xFF#8, 0xFF#8, 0xFF#8, 0xFD#8, 0x00#8, 0xFF#8, 0xFF#8, 0xFD#8, 0x00#8] = 1 ∧
    codeStuff [0xFF#8, 0xFF#8, 0xFD#8, 0x00#8, 0xFF#8, 0xFF#8, 0xFF#8, 0xFD#8, 0x00#8]
      = [0xFF#8, 0xFF#8, 0xFD#8, 0x00#8, 0xFF#8, 0xFF#8, 0xFF#8, 0xFD#8, 0xFD#8, 0x00#8] ∧
    misfits 0 [0xFF#8, 0xFF#8, 0xFD#8, 0x00#8, 0xFF#8, 0xFF#8, 0xFF#8, 0xFD#8, 0x00#8] = 1 := by
  decide

end Dxl.Props
