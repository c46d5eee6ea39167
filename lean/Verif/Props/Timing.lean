import Verif.Props.Receive

/-! # C21: transfer time and response timeout -/

namespace Dxl.Props
open Spec

/-- `ns` nanoseconds suffice to transfer `size` bytes, each taking ten bits, at `baud` bits per second. -/
def LongEnough (size baud ns : Nat) : Prop := size * 10 * 1000000000 ≤ ns * baud

/-- The least whole number of nanoseconds that suffices. -/
def LeastTime (size baud ns : Nat) : Prop := LongEnough size baud ns ∧ ∀ m, LongEnough size baud m → ns ≤ m

/-- **C21** For all `u32` arguments with a non-zero baud rate the result is the least sufficient time, and no
intermediate result overflows. -/
theorem c21_transfer_time {ε : Type} {size baud : Nat} (hs : size < 2 ^ 32) (hb : baud < 2 ^ 32) (h0 : baud ≠ 0) :
    ∃ ns, messageTransferTime (ε := ε) size baud = .ok ns ∧ LeastTime size baud ns := by
  have hpos : 0 < baud := by omega
  have hmod : size * 10 % baud < baud := Nat.mod_lt _ hpos
  have hmod' : size * 10 % baud < 2 ^ 32 := Nat.lt_trans hmod hb
  have hnanos : (size * 10 % baud * 1000000000 + baud - 1) / baud ≤ 1000000000 := by
    apply Nat.le_of_lt_succ
    rw [Nat.div_lt_iff_lt_mul hpos]
    have : size * 10 % baud * 1000000000 ≤ (baud - 1) * 1000000000 := Nat.mul_le_mul_right _ (by omega)
    rw [Nat.sub_mul] at this
    have : Nat.succ 1000000000 * baud = baud * 1000000000 + baud := by rw [Nat.succ_mul, Nat.mul_comm]
    omega
  refine ⟨size * 10 / baud * 1000000000 + (size * 10 % baud * 1000000000 + baud - 1) / baud, ?_, ?_, ?_⟩
  · unfold messageTransferTime checkU64
    rw [if_pos (by omega), Outcome.ok_bind, if_neg h0]
    dsimp only
    rw [if_pos (by omega)]
    simp only [Outcome.ok_bind, Outcome.pure_eq, Outcome.ok.injEq]
    rw [Nat.mod_eq_of_lt (a := (size * 10 % baud * 1000000000 + baud - 1) / baud) (by omega)]
  · unfold LongEnough
    have h1 := Nat.div_add_mod (size * 10) baud
    have h2 := Nat.div_add_mod (size * 10 % baud * 1000000000 + baud - 1) baud
    have h3 := Nat.mod_lt (size * 10 % baud * 1000000000 + baud - 1) hpos
    generalize (size * 10 % baud * 1000000000 + baud - 1) / baud = q at *
    generalize size * 10 % baud = r at *
    generalize size * 10 / baud = d at *
    rw [← h1, Nat.add_mul, Nat.add_mul]
    have e1 : baud * d * 1000000000 = d * 1000000000 * baud := by ac_rfl
    have e2 : q * baud = baud * q := by ac_rfl
    omega
  · intro m hm
    unfold LongEnough at hm
    have h1 := Nat.div_add_mod (size * 10) baud
    have h2 := Nat.div_mul_le_self (size * 10 % baud * 1000000000 + baud - 1) baud
    generalize (size * 10 % baud * 1000000000 + baud - 1) / baud = q at *
    generalize size * 10 % baud = r at *
    generalize size * 10 / baud = d at *
    rw [← h1, Nat.add_mul] at hm
    have e1 : baud * d * 1000000000 = d * 1000000000 * baud := by ac_rfl
    rw [e1] at hm
    -- `(d * 10^9 + q) * baud < (m + 1) * baud`
    have : (d * 1000000000 + q) * baud < (m + 1) * baud := by
      rw [Nat.add_mul, Nat.add_mul]
      omega
    have := Nat.lt_of_mul_lt_mul_right this
    omega

/-- A baud rate of zero is a division by zero. -/
theorem c21_zero_baud_panics {ε : Type} {size : Nat} (hs : size < 2 ^ 32) :
    messageTransferTime (ε := ε) size 0 = .panic := by
  unfold messageTransferTime checkU64
  rw [if_pos (by omega)]
  rfl

/-- **C21** Waiting for a status response with `n` parameters gives every read of the serial port the deadline
`now + t + 34 ms`, with `t` the transfer time of `11 + n` bytes, and returns by then. -/
theorem c21_response_timeout {b : Bus} (hb : b.RInv) (h0 : b.baudRate ≠ 0) (hbaud : b.baudRate < 2 ^ 32) (n : U16) :
    ∃ ns calls, LeastTime (11 + n.toNat) b.baudRate ns ∧
      (Client.readStatusResponse n b).1.serialPort.now ≤ b.serialPort.now + (ns + 34000000) ∧
      (Client.readStatusResponse n b).1.serialPort.log = b.serialPort.log ++ calls ∧
      ∀ c ∈ calls, ∃ cap, 0 < cap ∧ c = .read cap (b.serialPort.now + (ns + 34000000)) := by
  have hn := n.isLt
  obtain ⟨ns, h1, h2⟩ := c21_transfer_time (ε := ReadError) (size := 11 + n.toNat) (by omega) hbaud h0
  have hlen : StatusPacket.messageLen n.toNat % 2 ^ 32 = 11 + n.toNat := by
    simp only [StatusPacket.messageLen, headerSize]; omega
  have e : Client.readStatusResponse n b = Client.readStatusResponseTimeout (ns + 34000000) b := by
    unfold Client.readStatusResponse
    rw [SO.get_bind]
    simp only [hlen, h1, SO.lift_ok_bind, Client.flatTimeout]
  rw [e]
  obtain ⟨h3, calls, h4, h5⟩ := c20_response_deadline (ns + 34000000) hb
  exact ⟨ns, calls, h2, h3, h4, h5⟩

/-- 14 bytes at 57600 baud: 2430555.56 ns, rounded up. -/
example : messageTransferTime (ε := Empty) 14 57600 = .ok 2430556 := by decide +kernel

/-- The largest message at one baud: 42949672950 s. -/
example : messageTransferTime (ε := Empty) (2 ^ 32 - 1) 1 = .ok 42949672950000000000 := by decide +kernel

example := c21_transfer_time (ε := Empty) (size := 14) (baud := 57600) (by decide) (by decide) (by decide)

example := c21_zero_baud_panics (ε := Empty) (size := 14) (by decide)

end Dxl.Props
