import Verif.Model.Cli
import Verif.Spec.Argument
import Verif.Props.Device

/-!
# C45, C48: the command line tool
-/

namespace Dxl.Props
open Dxl Spec

/-! ## C45: motor IDs -/

/-- The value of the digit. -/
def digit (c : Byte) : Nat := c.toNat - 48

def IsDigit (c : Byte) : Prop := 48 ≤ c.toNat ∧ c.toNat ≤ 57

def digitsValue (r : Nat) (ds : List Byte) : Nat := ds.foldl (fun r c => 10 * r + digit c) r

theorem digitsValue_ge (ds : List Byte) : ∀ r, r ≤ digitsValue r ds := by
  induction ds with
  | nil => intro r; exact Nat.le_refl _
  | cons c ds ih =>
    intro r
    have := ih (10 * r + digit c)
    show r ≤ digitsValue (10 * r + digit c) ds
    omega

theorem parseDigits_iff (ds : List Byte) : ∀ r v : Byte, Cli.parseDigits ds r = some v ↔
    (∀ c ∈ ds, IsDigit c) ∧ digitsValue r.toNat ds = v.toNat := by
  induction ds with
  | nil =>
    intro r v
    simp [Cli.parseDigits, digitsValue, BitVec.toNat_inj]
  | cons c ds ih =>
    intro r v
    have hd : (0x30#8 ≤ c ∧ c ≤ 0x39#8) ↔ IsDigit c := by simp [IsDigit, BitVec.le_def]
    have hv : digitsValue r.toNat (c :: ds) = digitsValue (10 * r.toNat + digit c) ds := rfl
    unfold Cli.parseDigits
    by_cases h : IsDigit c
    · rw [if_pos (hd.mpr h)]
      have hge := digitsValue_ge ds (10 * r.toNat + digit c)
      have hs : (c - 0x30#8).toNat = digit c := by
        rw [BitVec.toNat_sub]
        have := h.1
        have := c.isLt
        simp only [digit, BitVec.toNat_ofNat]
        omega
      by_cases h1 : r.toNat * 10 < 256
      · rw [if_pos h1]
        have hm : (r * 10#8).toNat = r.toNat * 10 := by
          rw [BitVec.toNat_mul]
          simp only [BitVec.toNat_ofNat]
          omega
        by_cases h2 : r.toNat * 10 + digit c < 256
        · rw [if_pos (by rw [hm, hs]; exact h2), ih]
          have : (r * 10#8 + (c - 0x30#8)).toNat = 10 * r.toNat + digit c := by
            rw [BitVec.toNat_add, hm, hs]
            omega
          rw [this, hv]
          simp [h]
        · rw [if_neg (by rw [hm, hs]; exact h2)]
          have := v.isLt
          simp only [reduceCtorEq, false_iff, not_and]
          intro _
          omega
      · rw [if_neg h1]
        have := v.isLt
        simp only [reduceCtorEq, false_iff, not_and]
        intro _
        omega
    · rw [if_neg (by rw [hd]; exact h)]
      simp [h]

theorem digits_iff (s : List Byte) (n : Nat) : Digits s n ↔ s ≠ [] ∧ (∀ c ∈ s, IsDigit c) ∧ digitsValue 0 s = n := by
  have hd : ∀ d, d < 10 → IsDigit (BitVec.ofNat 8 ('0'.toNat + d)) ∧ digit (BitVec.ofNat 8 ('0'.toNat + d)) = d := by
    intro d hd
    have : (BitVec.ofNat 8 ('0'.toNat + d)).toNat = 48 + d := by
      rw [BitVec.toNat_ofNat]
      show (48 + d) % 256 = _
      omega
    exact ⟨⟨by omega, by omega⟩, by unfold digit; omega⟩
  have hd' : ∀ c : Byte, IsDigit c → digit c < 10 ∧ c = BitVec.ofNat 8 ('0'.toNat + digit c) := by
    intro c hc
    have := hc.1
    have := hc.2
    refine ⟨by unfold digit; omega, BitVec.eq_of_toNat_eq ?_⟩
    rw [BitVec.toNat_ofNat]
    show c.toNat = (48 + digit c) % 256
    unfold digit
    omega
  constructor
  · intro h
    induction h with
    | one d h => exact ⟨by simp, by simpa using (hd d h).1, by simpa [digitsValue] using (hd d h).2⟩
    | more h d hd10 ih =>
      obtain ⟨h1, h2, h3⟩ := ih
      refine ⟨by simp, ?_, ?_⟩
      · intro c hc
        rcases List.mem_append.mp hc with hc | hc
        · exact h2 c hc
        · rw [List.mem_singleton.mp hc]; exact (hd d hd10).1
      · unfold digitsValue at h3 ⊢
        rw [List.foldl_append, h3]
        exact congrArg (10 * _ + ·) (hd d hd10).2
  · rintro ⟨h1, h2, h3⟩
    induction hl : s.length generalizing s n with
    | zero => exact absurd (List.eq_nil_of_length_eq_zero hl) h1
    | succ k ih =>
      rcases List.eq_nil_or_concat s with rfl | ⟨t, c, rfl⟩
      · exact absurd rfl h1
      · rw [List.concat_eq_append] at *
        obtain ⟨c1, c2⟩ := hd' c (h2 c (by simp))
        have hv : digitsValue 0 (t ++ [c]) = 10 * digitsValue 0 t + digit c := by simp [digitsValue]
        rw [hv] at h3
        rw [c2]
        cases t with
        | nil =>
          have : n = digit c := by rw [← h3]; simp [digitsValue]
          rw [this]
          exact .one _ c1
        | cons x t =>
          rw [← h3]
          exact .more (ih (x :: t) _ (by simp) (fun y hy => h2 y (by simp only [List.mem_append]; exact .inl hy)) rfl (by simpa using hl)) _ c1

theorem digits_not_plus {t : List Byte} {n : Nat} : ¬ Digits (0x2B#8 :: t) n := by
  rw [digits_iff]
  rintro ⟨-, h, -⟩
  have := (h 0x2B#8 (by simp)).1
  simp at this

/-- A string is parsed as a number in range exactly if it is a numeral of one. -/
theorem parseU8_iff (s : List Byte) (v : Byte) : Cli.parseU8 s = some v ↔ Numeral s v.toNat := by
  have hp : BitVec.ofNat 8 '+'.toNat = 0x2B#8 := rfl
  unfold Cli.parseU8 Numeral
  rw [hp]
  split
  · simp [digits_iff]
  · constructor
    · simp
    · rintro (h | ⟨t, h1, h2⟩)
      · exact absurd h digits_not_plus
      · simp at h1
        subst h1
        simp [digits_iff] at h2
  · rename_i ds hne
    rw [parseDigits_iff]
    constructor
    · rintro ⟨h1, h2⟩
      exact .inr ⟨ds, rfl, (digits_iff _ _).mpr ⟨fun h => hne (by rw [h]), h1, h2⟩⟩
    · rintro (h | ⟨t, h1, h2⟩)
      · exact absurd h digits_not_plus
      · simp at h1
        subst h1
        exact ((digits_iff _ _).mp h2).2
  · rename_i hne h1 h2
    rw [parseDigits_iff]
    constructor
    · rintro ⟨h1, h2⟩
      exact .inl ((digits_iff _ _).mpr ⟨hne, h1, h2⟩)
    · rintro (h | ⟨t, rfl, -⟩)
      · exact ((digits_iff _ _).mp h).2
      · exact absurd rfl (h2 t)

/-- Comparison without case is comparison letter by letter. -/
theorem eqIgnoreAsciiCase_iff (s : List Byte) : Cli.eqIgnoreAsciiCase s Cli.broadcastName = true ↔ IsBroadcastWord s := by
  have letter : ∀ l : Byte × Byte, l ∈ broadcastLetters → ∀ c : Byte, Cli.toAsciiLowercase c = l.1 ↔ c = l.1 ∨ c = l.2 := by
    decide +kernel
  have hname : Cli.broadcastName.map Cli.toAsciiLowercase = broadcastLetters.map (·.1) := by decide +kernel
  unfold Cli.eqIgnoreAsciiCase IsBroadcastWord
  rw [hname, beq_iff_eq]
  generalize broadcastLetters = ls at letter
  induction ls generalizing s with
  | nil => simp
  | cons l ls ih =>
    cases s with
    | nil => simp
    | cons c s =>
      have hc := letter l (by simp) c
      have ih := ih s (fun l hl => letter l (by simp [hl]))
      simp only [List.map_cons, List.cons.injEq, List.length_cons, Nat.add_right_cancel_iff]
      refine Iff.trans (and_congr hc ih) ?_
      constructor
      · rintro ⟨h1, h2, h3⟩
        refine ⟨h2, fun i c' l' hc' hl' => ?_⟩
        cases i with
        | zero => simp at hc' hl'; subst hc'; subst hl'; exact h1
        | succ i => exact h3 i c' l' (by simpa using hc') (by simpa using hl')
      · rintro ⟨h1, h2⟩
        exact ⟨h2 0 c l rfl rfl, h1, fun i c' l' hc' hl' => h2 (i + 1) c' l' (by simpa using hc') (by simpa using hl')⟩

theorem numeral_unique {s : List Byte} {m n : Nat} (hm : Numeral s m) (hn : Numeral s n) : m = n := by
  have hp : BitVec.ofNat 8 '+'.toNat = 0x2B#8 := rfl
  unfold Numeral at hm hn
  rw [hp] at hm hn
  have unique : ∀ t : List Byte, Digits t m → Digits t n → m = n := by
    intro t h1 h2
    rw [digits_iff] at h1 h2
    rw [← h1.2.2, ← h2.2.2]
  rcases hm with hm | ⟨t, rfl, hm⟩
  · rcases hn with hn | ⟨t, rfl, hn⟩
    · exact unique _ hm hn
    · exact absurd hm digits_not_plus
  · rcases hn with hn | ⟨t', h, hn⟩
    · exact absurd hn digits_not_plus
    · simp only [List.cons.injEq, true_and] at h
      subst h
      exact unique _ hm hn

theorem word_not_numeral {s : List Byte} {n : Nat} (hw : IsBroadcastWord s) (hn : Numeral s n) : False := by
  obtain ⟨h1, h2⟩ := hw
  have hp : BitVec.ofNat 8 '+'.toNat = 0x2B#8 := rfl
  cases s with
  | nil => simp [broadcastLetters] at h1
  | cons c s =>
    have hc : c = 0x62#8 ∨ c = 0x42#8 := h2 0 c _ rfl rfl
    rcases hn with hn | ⟨t, h, -⟩
    · have := (((digits_iff _ _).mp hn).2.1 c (by simp)).2
      rcases hc with rfl | rfl <;> simp at this
    · rw [hp] at h
      simp only [List.cons.injEq] at h
      rcases hc with rfl | rfl <;> simp at h

/-- **C45** An argument is taken for the broadcast ID exactly if it is the word "broadcast", in any case, or a numeral for
254; for the ID of a motor exactly if it is a numeral for another number up to 255; and is rejected exactly if it is neither. -/
theorem c45_parse (s : List Byte) :
    (Cli.MotorId.fromStr s = some .broadcast ↔ IsBroadcastWord s ∨ Numeral s 254) ∧
    (∀ n : Byte, Cli.MotorId.fromStr s = some (.id n) ↔ Numeral s n.toNat ∧ n.toNat ≠ 254) ∧
    (Cli.MotorId.fromStr s = none ↔ ¬ IsBroadcastWord s ∧ ∀ n, Numeral s n → 255 < n) := by
  unfold Cli.MotorId.fromStr
  by_cases hw : IsBroadcastWord s
  · rw [if_pos ((eqIgnoreAsciiCase_iff s).mpr hw)]
    refine ⟨by simp [hw], fun n => ?_, by simp [hw]⟩
    simp only [Option.some.injEq, reduceCtorEq, false_iff, not_and]
    exact fun hn => (word_not_numeral hw hn).elim
  · rw [if_neg (fun h => hw ((eqIgnoreAsciiCase_iff s).mp h))]
    cases hp : Cli.parseU8 s with
    | none =>
      have hno : ∀ n, Numeral s n → 255 < n := by
        intro n hn
        apply Classical.byContradiction
        intro hlt
        have : Cli.parseU8 s = some (BitVec.ofNat 8 n) := (parseU8_iff _ _).mpr (by
          rw [BitVec.toNat_ofNat, Nat.mod_eq_of_lt (by omega)]; exact hn)
        rw [hp] at this
        simp at this
      refine ⟨?_, fun n => ?_, ?_⟩
      · simp only [reduceCtorEq, hw, false_or, false_iff]
        exact fun h => absurd (hno _ h) (by omega)
      · simp only [reduceCtorEq, false_iff, not_and]
        exact fun h => absurd (hno _ h) (by have := n.isLt; omega)
      · simp [hw]; exact hno
    | some v =>
      have hv := (parseU8_iff s v).mp hp
      have hvl := v.isLt
      dsimp only
      by_cases hb : v = Dxl.broadcast
      · have h254 : v.toNat = 254 := by rw [hb]; rfl
        rw [if_pos hb]
        refine ⟨by simp [h254 ▸ hv], fun n => ?_, ?_⟩
        · simp only [Option.some.injEq, reduceCtorEq, false_iff, not_and]
          exact fun h => by rw [numeral_unique h hv, h254]; simp
        · simp only [reduceCtorEq, hw, not_false_eq_true, true_and, false_iff]
          exact fun h => absurd (h _ hv) (by omega)
      · have h254 : v.toNat ≠ 254 := fun h => hb (BitVec.eq_of_toNat_eq (h.trans rfl))
        rw [if_neg hb]
        refine ⟨?_, fun n => ?_, ?_⟩
        · simp only [Option.some.injEq, reduceCtorEq, hw, false_or, false_iff]
          exact fun h => h254 (numeral_unique hv h)
        · simp only [Option.some.injEq, Cli.MotorId.id.injEq]
          constructor
          · rintro rfl
            exact ⟨hv, h254⟩
          · rintro ⟨h, -⟩
            exact BitVec.eq_of_toNat_eq (numeral_unique hv h)
        · simp only [reduceCtorEq, hw, not_false_eq_true, true_and, false_iff]
          exact fun h => absurd (h _ hv) (by omega)

/-- Text of ASCII characters. -/
def ascii (s : String) : List Byte := s.toList.map fun c => BitVec.ofNat 8 c.toNat

example : Cli.MotorId.fromStr (ascii "bROADcast") = some .broadcast ∧ Cli.MotorId.fromStr (ascii "+0254") = some .broadcast ∧
    Cli.MotorId.fromStr (ascii "255") = some (.id 255#8) ∧ Cli.MotorId.fromStr (ascii "256") = none ∧
    Cli.MotorId.fromStr (ascii "-0") = none ∧ Cli.MotorId.fromStr (ascii "+") = none ∧ Cli.MotorId.fromStr [] = none ∧
    Cli.MotorId.fromStr (ascii "broadcasts") = none := by decide +kernel

/-! ## C48: commands -/

/-- The ID a packet for this argument must have. -/
def packetIdOf : Cli.MotorId → Byte
  | .id n => n
  | .broadcast => 0xFE#8

/-- What each command is to send, and to which ID. There is nothing for broadcast reads. -/
inductive Commands : Cli.Command → Byte → Request → Prop
  | ping (m) : Commands (.ping m) (packetIdOf m) .ping
  | reboot (m) : Commands (.reboot m) (packetIdOf m) .reboot
  | read8 (n address) : Commands (.read8 (.id n) address) n (.read address 1#16)
  | read16 (n address) : Commands (.read16 (.id n) address) n (.read address 2#16)
  | read32 (n address) : Commands (.read32 (.id n) address) n (.read address 4#16)
  | read (n address count) : Commands (.read (.id n) address count) n (.read address count)
  | write8 (m address v bytes) (h : LittleEndian 1 v.toNat bytes) :
      Commands (.write8 m address v) (packetIdOf m) (.write address bytes)
  | write16 (m address v bytes) (h : LittleEndian 2 v.toNat bytes) :
      Commands (.write16 m address v) (packetIdOf m) (.write address bytes)
  | write32 (m address v bytes) (h : LittleEndian 4 v.toNat bytes) :
      Commands (.write32 m address v) (packetIdOf m) (.write address bytes)
  | write (m address data) : Commands (.write m address data) (packetIdOf m) (.write address data)

/-- The commands that read a register. -/
inductive Reads : Cli.Command → Cli.MotorId → Prop
  | read8 (m address) : Reads (.read8 m address) m
  | read16 (m address) : Reads (.read16 m address) m
  | read32 (m address) : Reads (.read32 m address) m
  | read (m address count) : Reads (.read m address count) m

theorem Sends.mapErr {ε ε' α : Type} {m : SO Bus ε α} {id : Byte} {body : List Byte} (h : Sends m id body) (f : ε → ε') :
    Sends (m.mapErr f) id body := by
  intro b hb hbaud
  obtain ⟨h1, h2, h3⟩ := h b hb hbaud
  have e : (m.mapErr f b).1 = (m b).1 := by rw [SO.mapErr_apply]
  refine ⟨by rw [e]; exact h1, ?_, ?_⟩
  · rintro ⟨a, ha⟩
    rw [e]
    have := SO.mapErr_eq_ok.mp (Prod.ext (rfl : _ = (m.mapErr f b).1) ha)
    exact h2 ⟨a, by rw [this]⟩
  · intro c o hm
    have : (m b).1 = c := by rw [← e, hm]
    exact h3 c (m b).2 (by rw [← this])

theorem Sends.report {ε α : Type} {m : SO Bus ε α} {id : Byte} {body : List Byte} (h : Sends m id body)
    {failure : ε → Cli.Failure} {result : α → Cli.Report} :
    Sends (Cli.report failure result m) id body := (h.mapErr _).bind fun _ _ => rfl

/-- A packet is only read from the port. -/
theorem readPacketDeadline_calls (D : Nat) {b : Bus} (hb : b.RInv) :
    (Bus.readPacketDeadline D b).1.RInv ∧ (Bus.readPacketDeadline D b).1.baudRate = b.baudRate ∧
    ∃ calls, (Bus.readPacketDeadline D b).1.serialPort.log = b.serialPort.log ++ calls ∧
      ∀ call ∈ calls, ∃ cap D, call = .read cap D := by
  by_cases hN : 10 ≤ b.readBuffer.length
  · obtain ⟨c, o, h, h1, h2, h3, -⟩ := Bus.readPacketDeadline_stream D hb hN
    rw [h]
    obtain ⟨calls, h4, h5, -⟩ := h3.log
    exact ⟨h2, h1.baudRate, calls, h4, fun call hc => by obtain ⟨cap, -, h⟩ := h5 call hc; exact ⟨cap, D, h⟩⟩
  · rw [Bus.readPacketDeadline_small D (by omega)]
    exact ⟨hb, rfl, [], by simp, by simp⟩

theorem scanNext_calls {ε : Type} {b : Bus} (hb : b.RInv) (hbaud : b.baudRate < 2 ^ 32) :
    (Client.scanNext (ε := ε) b).1.RInv ∧ (Client.scanNext (ε := ε) b).1.baudRate = b.baudRate ∧
    ∃ calls, (Client.scanNext (ε := ε) b).1.serialPort.log = b.serialPort.log ++ calls ∧
      ∀ call ∈ calls, ∃ cap D, call = .read cap D := by
  by_cases h0 : b.baudRate = 0
  · have : Client.scanNext (ε := ε) b = (b, .panic) := by
      unfold Client.scanNext
      rw [SO.bind_panic (by unfold SO.attempt; rw [scanNextResponse_zero h0])]
    rw [this]
    exact ⟨hb, rfl, [], by simp, by simp⟩
  · rw [(scanNext_fst h0 hbaud).1]
    exact readPacketDeadline_calls _ hb

theorem scanDrop_calls {ε : Type} (fuel : Nat) : ∀ {b : Bus}, b.RInv → b.baudRate < 2 ^ 32 →
    (Client.scanDrop (ε := ε) fuel b).1.RInv ∧ (Client.scanDrop (ε := ε) fuel b).1.baudRate = b.baudRate ∧
    ∃ calls, (Client.scanDrop (ε := ε) fuel b).1.serialPort.log = b.serialPort.log ++ calls ∧
      ∀ call ∈ calls, ∃ cap D, call = .read cap D := by
  induction fuel with
  | zero => exact fun hb _ => ⟨hb, rfl, [], by simp [Client.scanDrop, SO.hang], by simp⟩
  | succ fuel ih =>
    intro b hb hbaud
    obtain ⟨h1, h2, calls, h3, h4⟩ := scanNext_calls (ε := ε) hb hbaud
    unfold Client.scanDrop
    rcases hs : Client.scanNext (ε := ε) b with ⟨c, o⟩
    rw [hs] at h1 h2 h3
    dsimp only at h1 h2 h3
    have stop : c.RInv ∧ c.baudRate = b.baudRate ∧ ∃ calls, c.serialPort.log = b.serialPort.log ++ calls ∧
      ∀ call ∈ calls, ∃ cap D, call = .read cap D := ⟨h1, h2, calls, h3, h4⟩
    cases o with
    | ok x =>
      rw [SO.bind_ok hs]
      cases x with
      | none => exact stop
      | some x =>
        obtain ⟨i1, i2, calls', i3, i4⟩ := ih h1 (h2 ▸ hbaud)
        refine ⟨i1, i2.trans h2, calls ++ calls', by rw [i3, h3, List.append_assoc], fun call hc => ?_⟩
        rcases List.mem_append.mp hc with hc | hc
        · exact h4 call hc
        · exact i4 call hc
    | err => rw [SO.bind_err hs]; exact stop
    | panic => rw [SO.bind_panic hs]; exact stop
    | hang => rw [SO.bind_hang hs]; exact stop

theorem scanLoop_calls {ε : Type} (fuel : Nat) : ∀ {b : Bus}, b.RInv → b.baudRate < 2 ^ 32 →
    (Cli.scanLoop (ε := ε) fuel b).1.RInv ∧ (Cli.scanLoop (ε := ε) fuel b).1.baudRate = b.baudRate ∧
    ∃ calls, (Cli.scanLoop (ε := ε) fuel b).1.serialPort.log = b.serialPort.log ++ calls ∧
      ∀ call ∈ calls, ∃ cap D, call = .read cap D := by
  induction fuel with
  | zero => exact fun hb _ => ⟨hb, rfl, [], by simp [Cli.scanLoop, SO.hang], by simp⟩
  | succ fuel ih =>
    intro b hb hbaud
    obtain ⟨h1, h2, calls, h3, h4⟩ := scanNext_calls (ε := ε) hb hbaud
    unfold Cli.scanLoop
    rcases hs : Client.scanNext (ε := ε) b with ⟨c, o⟩
    rw [hs] at h1 h2 h3
    dsimp only at h1 h2 h3
    have stop : c.RInv ∧ c.baudRate = b.baudRate ∧ ∃ calls, c.serialPort.log = b.serialPort.log ++ calls ∧
      ∀ call ∈ calls, ∃ cap D, call = .read cap D := ⟨h1, h2, calls, h3, h4⟩
    cases o with
    | ok x =>
      rw [SO.bind_ok hs]
      cases x with
      | none => exact stop
      | some x =>
        obtain ⟨i1, i2, calls', i3, i4⟩ := ih h1 (h2 ▸ hbaud)
        have e : (((do let items ← Cli.scanLoop fuel; pure (x :: items)) :
            SO Bus ε (List (Except ReadError (Response Client.Ping)))) c).1 = (Cli.scanLoop (ε := ε) fuel c).1 := by
          rw [SO.bind_def]
          rcases Cli.scanLoop (ε := ε) fuel c with ⟨d, o⟩
          cases o <;> rfl
        dsimp only
        rw [e]
        refine ⟨i1, i2.trans h2, calls ++ calls', by rw [i3, h3, List.append_assoc], fun call hc => ?_⟩
        rcases List.mem_append.mp hc with hc | hc
        · exact h4 call hc
        · exact i4 call hc
    | err => rw [SO.bind_err hs]; exact stop
    | panic => rw [SO.bind_panic hs]; exact stop
    | hang => rw [SO.bind_hang hs]; exact stop

theorem broadcastPing_sends (fuel : Nat) : Sends (Cli.doMain fuel (.ping .broadcast)) 0xFE#8 Request.ping.body := by
  have e : Cli.doMain fuel (.ping .broadcast) = (do
      (Client.writeInstruction 0xFE#8 InstructionId.ping 0 .nothing).mapErr (fun e => .command (.writeError e))
      (do let items ← Cli.scanLoop fuel; Client.scanDrop fuel; pure (.scan items) : SO Bus Cli.Failure Cli.Report)) := rfl
  rw [e]
  refine sends_then Client.nothing_fills fun b hb hbaud => ?_
  obtain ⟨h1, h2, calls, h3, h4⟩ := scanLoop_calls (ε := Cli.Failure) fuel hb hbaud
  rcases hs : Cli.scanLoop (ε := Cli.Failure) fuel b with ⟨c, o⟩
  rw [hs] at h1 h2 h3
  dsimp only at h1 h2 h3
  cases o with
  | ok x =>
    rw [SO.bind_ok hs]
    obtain ⟨i1, i2, calls', i3, i4⟩ := scanDrop_calls (ε := Cli.Failure) fuel h1 (h2 ▸ hbaud)
    have e : (((do Client.scanDrop fuel; pure (.scan x)) : SO Bus Cli.Failure Cli.Report) c).1 =
        (Client.scanDrop (ε := Cli.Failure) fuel c).1 := by
      rw [SO.bind_def]
      rcases Client.scanDrop (ε := Cli.Failure) fuel c with ⟨d, o⟩
      cases o <;> rfl
    rw [e]
    refine ⟨calls ++ calls', by rw [i3, h3, List.append_assoc], fun call hc => ?_⟩
    rcases List.mem_append.mp hc with hc | hc
    · exact h4 call hc
    · exact i4 call hc
  | err => rw [SO.bind_err hs]; exact ⟨calls, h3, h4⟩
  | panic => rw [SO.bind_panic hs]; exact ⟨calls, h3, h4⟩
  | hang => rw [SO.bind_hang hs]; exact ⟨calls, h3, h4⟩

/-- Any number, as its bytes. -/
theorem write_sends {n : Nat} (hn : n < 2 ^ 16) (id : Byte) (address : U16) (v : BitVec (8 * n)) {bytes : List Byte}
    (h : LittleEndian n v.toNat bytes) :
    Sends (Client.write (DataTy.unsigned n) id address v) id (Request.write address bytes).body := by
  have := c46_write_partial (.unsigned hn (fun v => toLeBytes n v.toNat) fun v => (littleEndian_iff).mpr rfl) id address
    (v := v) trivial
  rwa [← littleEndian_iff.mp h] at this

/-- **C48** Each command sends the request it stands for, to the motor in the argument, exactly once, before it reads
anything, and whatever the responses; it sends nothing else. -/
theorem c48_commands {cmd : Cli.Command} {id : Byte} {r : Request} (h : Commands cmd id r) (fuel : Nat) :
    Sends (Cli.doMain fuel cmd) id r.body := by
  cases h with
  | ping m =>
    cases m with
    | id n => exact (c46_ping_partial n).report
    | broadcast => exact broadcastPing_sends fuel
  | reboot m => cases m <;> exact (c46_reboot_partial _).1.report
  | read8 _ address => exact (c46_read_partial (DataTy.unsigned 1) _ _).report
  | read16 _ address => exact (c46_read_partial (DataTy.unsigned 2) _ _).report
  | read32 _ address => exact (c46_read_partial (DataTy.unsigned 4) _ _).report
  | read _ address count => exact (c46_read_bytes_partial _ _ _).report
  | write8 m address v bytes h => cases m <;> exact (write_sends (by decide) _ _ _ h).report
  | write16 m address v bytes h => cases m <;> exact (write_sends (by decide) _ _ _ h).report
  | write32 m address v bytes h => cases m <;> exact (write_sends (by decide) _ _ _ h).report
  | write m address data => cases m <;> exact (c46_write_bytes_partial _ _ _).report

/-- **C48** That is all there is: every command but a broadcast read stands for a request. -/
theorem c48_complete (cmd : Cli.Command) : (∃ id r, Commands cmd id r) ∨ Reads cmd .broadcast := by
  have bytes : ∀ n v : Nat, ∃ bytes, LittleEndian n v bytes := fun n v => ⟨_, (littleEndian_iff).mpr rfl⟩
  cases cmd with
  | ping m => exact .inl ⟨_, _, .ping m⟩
  | reboot m => exact .inl ⟨_, _, .reboot m⟩
  | read8 m a =>
    cases m
    · exact .inl ⟨_, _, .read8 _ _⟩
    · exact .inr (.read8 _ _)
  | read16 m a =>
    cases m
    · exact .inl ⟨_, _, .read16 _ _⟩
    · exact .inr (.read16 _ _)
  | read32 m a =>
    cases m
    · exact .inl ⟨_, _, .read32 _ _⟩
    · exact .inr (.read32 _ _)
  | read m a c =>
    cases m
    · exact .inl ⟨_, _, .read _ _ _⟩
    · exact .inr (.read _ _ _)
  | write8 m a v => exact (bytes 1 v.toNat).elim fun b h => .inl ⟨_, _, .write8 m a v b h⟩
  | write16 m a v => exact (bytes 2 v.toNat).elim fun b h => .inl ⟨_, _, .write16 m a v b h⟩
  | write32 m a v => exact (bytes 4 v.toNat).elim fun b h => .inl ⟨_, _, .write32 m a v b h⟩
  | write m a d => exact .inl ⟨_, _, .write m a d⟩

/-- **C45** A read with the broadcast ID fails without touching the bus. -/
theorem c45_broadcast_read_fails {cmd : Cli.Command} (h : Reads cmd .broadcast) (fuel : Nat) (b : Bus) :
    Cli.doMain fuel cmd b = (b, .err .broadcast) := by
  cases h <;> rfl

/-- **C45** Whatever the argument, a read command writes no packet with the broadcast ID. -/
theorem c45_reads_unicast {s : List Byte} {m : Cli.MotorId} {cmd : Cli.Command} (hs : Cli.MotorId.fromStr s = some m)
    (hc : Reads cmd m) (fuel : Nat) {b c : Bus} {o : Outcome Cli.Failure Cli.Report} (hb : b.WInv) (hbaud : b.baudRate < 2 ^ 32)
    (h : Cli.doMain fuel cmd b = (c, o)) {f : List Byte} (hf : Wrote b c f) :
    ∃ id wire, id ≠ 0xFE#8 ∧ m = .id id ∧ f = frame id wire := by
  cases m with
  | broadcast =>
    rw [c45_broadcast_read_fails hc] at h
    simp only [Prod.mk.injEq] at h
    obtain ⟨calls, h1, h2⟩ := hf
    rw [← h.1] at h1
    have : calls = [] := by simpa using h1
    simp [this] at h2
  | id n =>
    have hn := ((c45_parse s).2.1 n).mp hs
    have send : ∃ body, Sends (Cli.doMain fuel cmd) n body := by
      cases hc
      · exact ⟨_, c48_commands (.read8 _ _) fuel⟩
      · exact ⟨_, c48_commands (.read16 _ _) fuel⟩
      · exact ⟨_, c48_commands (.read32 _ _) fuel⟩
      · exact ⟨_, c48_commands (.read _ _ _) fuel⟩
    obtain ⟨body, send⟩ := send
    obtain ⟨wire, -, hw⟩ := send.only b c o f hb hbaud h hf
    exact ⟨n, wire, fun h => hn.2 (by rw [h]; rfl), rfl, hw⟩

example : ∃ c o calls, Cli.doMain 3 (.read16 (.id 7#8) 132#16) (quietBus true 40) = (c, o) ∧
    c.serialPort.log = calls ∧ .write [0xFF#8, 0xFF#8, 0xFD#8, 0#8, 7#8, 7#8, 0#8, 2#8, 132#8, 0#8, 2#8, 0#8, 0x09#8, 0x61#8] true ∈ calls := by
  refine ⟨_, _, _, rfl, rfl, ?_⟩
  decide +kernel

example : Commands (.write32 .broadcast 116#16 0x01020304#32) 0xFE#8 (.write 116#16 [4#8, 3#8, 2#8, 1#8]) :=
  .write32 .broadcast _ _ _ ⟨rfl, by decide +kernel⟩

/-! Each theorem with hypotheses on a concrete case. -/

example := c48_commands (.write32 .broadcast 116#16 0x01020304#32 [4#8, 3#8, 2#8, 1#8] ⟨rfl, by decide +kernel⟩) 9

example := c45_broadcast_read_fails (.read .broadcast 116#16 4#16) 9 (quietBus true 40)

end Dxl.Props
