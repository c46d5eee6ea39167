import Verif.Props.Response
import Verif.Spec.Verdict

/-! # The cases of a verdict, computed -/

namespace Dxl.Props
open Spec

/-- The case that applies to a valid packet. -/
def packetVerdict (id instr : Byte) (params : List Byte) : Outcome ReadError (Byte × Byte × List Byte) :=
  if instr = 0x55#8 then
    match params with
    | [] => .panic
    | error :: ps => if error.toNat % 128 = 0 then .ok (id, error, ps) else .err (.motorError ⟨error⟩)
  else .err (.invalidMessage (.instruction instr 0x55#8))

/-- The case that applies, computed. -/
def verdictOf (cap : Nat) (s : List Byte) (e : IoErr) : Outcome ReadError (Byte × Byte × List Byte) :=
  if cap < 10 then .err (.bufferFull ⟨10, cap⟩)
  else match parse cap s with
    | .more => .err (.io e)
    | .tooBig req _ => .err (.bufferFull ⟨req, cap⟩)
    | .packet f _ => match Bus.frameOutcome f with
      | .err x => .err x
      | .panic => .panic
      | .hang => .hang
      | .ok pkt => match pkt.data with
        | _ :: _ :: _ :: _ :: id :: _ :: _ :: instr :: params => packetVerdict id instr params
        | _ => .panic

theorem verdictOf_carries {cap : Nat} {s f rest : List Byte} {e : IoErr} {pkt : Packet} {id instr : Byte} {params : List Byte}
    (hN : 10 ≤ cap) (hp : parse cap s = .packet f rest) (ho : Bus.frameOutcome f = .ok pkt) (hc : Carries pkt id instr params) :
    verdictOf cap s e = packetVerdict id instr params := by
  obtain ⟨x, y, hd⟩ := hc
  unfold verdictOf
  rw [if_neg (by omega), hp]
  dsimp only
  rw [ho]
  dsimp only
  rw [hd]
  rfl

theorem frameOutcome_corrupt {m : List Byte} {v : U16} (hv : v ≠ crc 0#16 m) :
    Bus.frameOutcome (m ++ le16 v) = .err (.invalidMessage (.checksum v (crc 0#16 m))) := by
  have : Bus.crcField (m ++ le16 v) = v ∧ (m ++ le16 v).take ((m ++ le16 v).length - 2) = m :=
    ⟨crcField_append _ _, take_append_le16 _ _⟩
  unfold Bus.frameOutcome
  rw [this.1, this.2, if_pos hv]

/-- The bytes that are left, computed. -/
def leftOf (cap : Nat) (s : List Byte) : List Byte :=
  if cap < 10 then s
  else match parse cap s with
    | .more => skip s
    | .tooBig _ rest => rest
    | .packet _ rest => rest

theorem left_eq {cap : Nat} {s left : List Byte} {e : IoErr} {v : Outcome ReadError (Byte × Byte × List Byte)}
    (h : Verdict cap s e v left) : left = leftOf cap s := by
  cases h with
  | small h => simp only [leftOf, if_pos h]
  | nothing hN hp | tooBig hN hp | corrupt hN hp | noInstruction hN hp | noError hN hp | instruction hN hp | motorError hN hp
  | status hN hp => simp only [leftOf, if_neg (Nat.not_lt.mpr hN), hp]

theorem verdict_eq {cap : Nat} {s : List Byte} {e : IoErr} {v : Outcome ReadError (Byte × Byte × List Byte)}
    {left : List Byte} (h : Verdict cap s e v left) : v = verdictOf cap s e := by
  cases h with
  | small h => simp only [verdictOf, if_pos h]
  | nothing hN hp => simp only [verdictOf, if_neg (Nat.not_lt.mpr hN), hp]
  | tooBig hN hp => simp only [verdictOf, if_neg (Nat.not_lt.mpr hN), hp]
  | corrupt hN hp hv =>
    simp only [verdictOf, if_neg (Nat.not_lt.mpr hN), hp, frameOutcome_corrupt hv]
  | noInstruction hN hp =>
    simp only [verdictOf, if_neg (Nat.not_lt.mpr hN), hp, frameOutcome_empty]
  | noError hN hp hu =>
    rename_i id wire
    obtain ⟨pkt, ho, hc⟩ := frameOutcome_carries (id := id) hu
    rw [verdictOf_carries hN hp ho hc]
    rfl
  | instruction hN hp hu h55 =>
    rename_i id instr wire params
    obtain ⟨pkt, ho, hc⟩ := frameOutcome_carries (id := id) hu
    rw [verdictOf_carries hN hp ho hc, packetVerdict.eq_def, if_neg h55]
  | motorError hN hp hu he =>
    rename_i id error wire ps
    obtain ⟨pkt, ho, hc⟩ := frameOutcome_carries (id := id) hu
    rw [verdictOf_carries hN hp ho hc, packetVerdict.eq_def, if_pos rfl]
    dsimp only
    rw [if_neg he]
  | status hN hp hu he =>
    rename_i id error wire ps
    obtain ⟨pkt, ho, hc⟩ := frameOutcome_carries (id := id) hu
    rw [verdictOf_carries hN hp ho hc, packetVerdict.eq_def, if_pos rfl]
    dsimp only
    rw [if_pos he]

end Dxl.Props
