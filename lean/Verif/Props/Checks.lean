import Verif.Model.Error
import Verif.Lemmas.Basic

/-! # C49: the public checks of `src/error.rs`

Each check compares something received with something expected. Said without reference to the checks themselves: a
check `Decides` a condition if it succeeds exactly if the condition holds and otherwise fails with the error that
names what was received and what was expected. -/

namespace Dxl.Props
open Dxl

/-- The check returns for every input: nothing if the condition holds, otherwise the given report. -/
def Decides {ε : Type} (o : Outcome ε Unit) (condition : Prop) (report : ε) : Prop :=
  (condition → o = .ok ()) ∧ (¬ condition → o = .err report)

/-- The checks on numbers and IDs. -/
def NumberChecks : Prop :=
  (∀ required total, Decides (BufferTooSmall.check required total) (required ≤ total) ⟨required, total⟩) ∧
  (∀ raw : Byte, Decides (MotorError.check raw) (raw.toNat % 128 = 0) ⟨raw⟩) ∧
  (∀ raw : Byte, (MotorError.errorNumber ⟨raw⟩).toNat = raw.toNat % 128 ∧
    (MotorError.alert ⟨raw⟩ = true ↔ 128 ≤ raw.toNat)) ∧
  (∀ actual expected, Decides (checkPacketId actual expected) (actual = expected) (.packetId actual expected)) ∧
  (∀ actual expected, Decides (checkPacketIdIgnoreBroadcast actual expected) (actual = expected ∨ expected.toNat = 254)
    (.packetId actual expected)) ∧
  (∀ actual expected, Decides (checkInstruction actual expected) (actual = expected) (.instruction actual expected)) ∧
  (∀ actual expected, Decides (checkCount actual expected) (actual = expected)
    (.parameterCount actual (.exact expected))) ∧
  (∀ actual most, Decides (checkCountMax actual most) (actual ≤ most) (.parameterCount actual (.max most))) ∧
  (∀ actual least, Decides (checkCountMin actual least) (least ≤ actual) (.parameterCount actual (.min least)))

/-- The whole property, with the check of the header prefix (`expected` is an array of four bytes): it succeeds exactly
for the expected bytes and otherwise reports the first four bytes received. -/
def C49_statement : Prop :=
  NumberChecks ∧
  ∀ actual expected : List Byte, expected.length = 4 →
    Decides (checkHeaderPrefix actual expected) (actual = expected) ⟨actual.take 4, expected⟩

/-- False as stated: with less than four bytes the check of the header prefix panics. -/
theorem c49_refuted : ¬ C49_statement := by
  intro h
  have := (h.2 [0xFF#8, 0xFF#8] [0xFF#8, 0xFF#8, 0xFD#8, 0#8] rfl).2 (by decide)
  exact absurd this (by decide)

theorem decides_ite {ε : Type} (p q : Prop) [Decidable p] (h : p ↔ q) (e : ε) :
    Decides (if p then (.ok () : Outcome ε Unit) else .err e) q e := by
  constructor
  · intro hq
    rw [if_pos (h.mpr hq)]
  · intro hq
    rw [if_neg (fun hp => hq (h.mp hp))]

/-- The checks on numbers and IDs are as stated. -/
theorem c49_numbers_partial : NumberChecks := by
  refine ⟨fun _ _ => decides_ite _ _ Iff.rfl _, fun raw => decides_ite _ _ ?_ _, fun raw => ?_,
    fun _ _ => decides_ite _ _ Iff.rfl _, fun a e => ?_, fun _ _ => decides_ite _ _ Iff.rfl _,
    fun _ _ => decides_ite _ _ Iff.rfl _, fun _ _ => decides_ite _ _ Iff.rfl _, fun _ _ => decides_ite _ _ Iff.rfl _⟩
  · revert raw; decide +kernel
  · revert raw; decide +kernel
  · unfold checkPacketIdIgnoreBroadcast
    have hfe : e = 0xFE#8 ↔ e.toNat = 254 := ⟨fun h => by rw [h]; rfl, fun h => BitVec.eq_of_toNat_eq h⟩
    split
    · next h => exact ⟨fun _ => rfl, fun hn => absurd (Or.inr (hfe.mp h)) hn⟩
    · next h =>
      refine decides_ite _ _ ⟨Or.inl, fun hq => ?_⟩ _
      rcases hq with hq | hq
      · exact hq
      · exact absurd (hfe.mpr hq) h

theorem header_decides {actual expected : List Byte} (h : 4 ≤ actual.length) :
    Decides (checkHeaderPrefix actual expected) (actual = expected) ⟨actual.take 4, expected⟩ := by
  refine ⟨fun he => by rw [checkHeaderPrefix, if_pos he], fun he => ?_⟩
  rw [checkHeaderPrefix, if_neg he]
  match actual, h with
  | a :: b :: c :: d :: rest, _ => rfl

theorem header_panics {actual expected : List Byte} (h : actual.length < 4) (he : actual ≠ expected) :
    checkHeaderPrefix actual expected = .panic := by
  rw [checkHeaderPrefix, if_neg he]
  match actual, h with
  | [], _ => rfl
  | [_], _ => rfl
  | [_, _], _ => rfl
  | [_, _, _], _ => rfl

/-- The check of the header prefix is as stated for at least four bytes, and exactly for those: with less it panics. -/
theorem c49_header_partial (actual expected : List Byte) (hexp : expected.length = 4) :
    (Decides (checkHeaderPrefix actual expected) (actual = expected) ⟨actual.take 4, expected⟩ ↔ 4 ≤ actual.length) ∧
    (checkHeaderPrefix actual expected = .panic ↔ actual.length < 4) := by
  by_cases h : 4 ≤ actual.length
  · refine ⟨⟨fun _ => h, fun _ => header_decides h⟩, ⟨fun hp => ?_, fun hl => absurd hl (by omega)⟩⟩
    by_cases he : actual = expected
    · rw [(header_decides h).1 he] at hp; cases hp
    · rw [(header_decides h).2 he] at hp; cases hp
  · have he : actual ≠ expected := fun e => h (by rw [e]; omega)
    have hp := header_panics (by omega) he
    refine ⟨⟨fun hd => ?_, fun hl => absurd hl h⟩, ⟨fun _ => by omega, fun _ => hp⟩⟩
    rw [hd.2 he] at hp
    cases hp

example : checkHeaderPrefix [1#8, 2#8, 3#8, 4#8, 5#8] [0xFF#8, 0xFF#8, 0xFD#8, 0#8] =
    .err ⟨[1#8, 2#8, 3#8, 4#8], [0xFF#8, 0xFF#8, 0xFD#8, 0#8]⟩ := by decide
example : checkPacketIdIgnoreBroadcast 3#8 254#8 = .ok () := by decide
example : checkPacketIdIgnoreBroadcast 254#8 3#8 = .err (.packetId 254#8 3#8) := by decide
example : MotorError.check 0x87#8 = .err ⟨0x87#8⟩ ∧ MotorError.check 0x80#8 = .ok () := by decide

end Dxl.Props
