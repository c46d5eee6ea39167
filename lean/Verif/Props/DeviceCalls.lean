import Verif.Props.Calls
import Verif.Props.Device

/-! # C64: what every call of a device does

The counterpart of C62 on the other side of the line: reading an instruction and sending a status packet, for every state of the bus
and every behaviour of the serial port. -/

namespace Dxl.Props
open Spec

/-! ## The description -/

/-- What the protocol says about the number of parameters of an instruction, for the instructions for which it is checked. -/
def lengthRule (instr : Byte) : Option ExpectedCount :=
  if instr = 0x02#8 then some (.exact 4)
  else if instr = 0x03#8 ∨ instr = 0x04#8 then some (.min 2)
  else if instr = 0x06#8 then some (.exact 1)
  else if instr = 0x10#8 then some (.min 1)
  else if instr = 0x82#8 ∨ instr = 0x83#8 then some (.min 4)
  else none

/-- A number of parameters is as it should be. -/
def Obeys (n : Nat) : Option ExpectedCount → Prop
  | none => True
  | some (.exact m) => n = m
  | some (.min m) => m ≤ n
  | some (.max m) => n ≤ m

/-- What the body of an instruction says: its number and its parameters, of which some instructions need only some. -/
def Says (instr : Byte) (params : List Byte) (i : Instructions) : Prop :=
  Canonical i ∧ numberOf i = instr ∧ parametersOf i <+: params ∧
    (instr ≠ 0x01#8 → instr ≠ 0x05#8 → instr ≠ 0x08#8 → instr ≠ 0x10#8 → parametersOf i = params)

/-! ## Proofs -/

theorem heard_unique_packet {f : List Byte} {id id' instr instr' : Byte} {wire wire' params params' : List Byte}
    (h : frame id wire = f) (h' : frame id' wire' = f) (hu : Unstuffs wire (instr :: params))
    (hu' : Unstuffs wire' (instr' :: params')) : id = id' ∧ instr = instr' ∧ params = params' := by
  obtain ⟨pkt, ho, hc⟩ := frameOutcome_carries (id := id) hu
  obtain ⟨pkt', ho', hc'⟩ := frameOutcome_carries (id := id') hu'
  rw [h] at ho
  rw [h', ho] at ho'
  cases ho'
  obtain ⟨x, y, hd⟩ := hc
  obtain ⟨x', y', hd'⟩ := hc'
  rw [hd] at hd'
  simp at hd'
  exact ⟨hd'.1, hd'.2.2.2.1, hd'.2.2.2.2⟩

/-- **C64** The cases exclude each other. -/
theorem c64_heard_unique {cap : Nat} {e : IoErr} {s left left' : List Byte} {v v' : Outcome ReadError (Byte × Byte × List Byte)}
    (h : Hears cap e s v left) (h' : Hears cap e s v' left') : v = v' ∧ left = left' := by
  have bad : ∀ {f : List Byte} {id : Byte} {instr : Byte} {wire params : List Byte}, frame id wire = f →
      Unstuffs wire (instr :: params) → ∃ pkt, Bus.frameOutcome f = .ok pkt := by
    intro f id instr wire params hf hu
    obtain ⟨pkt, ho, -⟩ := frameOutcome_carries (id := id) hu
    exact ⟨pkt, hf ▸ ho⟩
  induction h generalizing v' left' with
  | small h => cases h' <;> first | exact ⟨rfl, rfl⟩ | omega
  | nothing h hp =>
    cases h' with
    | small h => omega
    | nothing => exact ⟨rfl, rfl⟩
    | tooBig _ hp' | corrupt _ hp' | noInstruction _ hp' | status _ hp' | instruction _ hp' => rw [hp] at hp'; cases hp'
  | tooBig h hp =>
    cases h' with
    | small h => omega
    | tooBig _ hp' => rw [hp] at hp'; cases hp'; exact ⟨rfl, rfl⟩
    | nothing _ hp' | corrupt _ hp' | noInstruction _ hp' | status _ hp' | instruction _ hp' => rw [hp] at hp'; cases hp'
  | corrupt h hp hv =>
    have ho := frameOutcome_corrupt hv
    cases h' with
    | small h => omega
    | nothing _ hp' | tooBig _ hp' => rw [hp] at hp'; cases hp'
    | corrupt _ hp' hv' =>
      rw [hp] at hp'
      obtain ⟨h1, h2⟩ := Parsed.packet.inj hp'
      have ho' := frameOutcome_corrupt hv'
      rw [← h1, ho] at ho'
      exact ⟨by rw [Outcome.err.inj ho'], h2⟩
    | noInstruction _ hp' =>
      rw [hp] at hp'
      rw [(Parsed.packet.inj hp').1, frameOutcome_empty] at ho
      cases ho
    | status _ hp' hu | instruction _ hp' hu =>
      rw [hp] at hp'
      obtain ⟨pkt, ho'⟩ := bad (Parsed.packet.inj hp').1.symm hu
      rw [ho'] at ho
      cases ho
  | noInstruction h hp =>
    rename_i id
    have ho := frameOutcome_empty id
    cases h' with
    | small h => omega
    | nothing _ hp' | tooBig _ hp' => rw [hp] at hp'; cases hp'
    | corrupt _ hp' hv' =>
      rw [hp] at hp'
      rw [(Parsed.packet.inj hp').1, frameOutcome_corrupt hv'] at ho
      cases ho
    | noInstruction _ hp' => rw [hp] at hp'; exact ⟨rfl, (Parsed.packet.inj hp').2⟩
    | status _ hp' hu | instruction _ hp' hu =>
      rw [hp] at hp'
      obtain ⟨pkt, ho'⟩ := bad (Parsed.packet.inj hp').1.symm hu
      rw [ho'] at ho
      cases ho
  | status h hp hu _ ih =>
    obtain ⟨pkt, ho⟩ := bad rfl hu
    cases h' with
    | small h => omega
    | nothing _ hp' | tooBig _ hp' => rw [hp] at hp'; cases hp'
    | corrupt _ hp' hv' =>
      rw [hp] at hp'
      rw [(Parsed.packet.inj hp').1, frameOutcome_corrupt hv'] at ho
      cases ho
    | noInstruction _ hp' =>
      rw [hp] at hp'
      rw [(Parsed.packet.inj hp').1, frameOutcome_empty] at ho
      cases ho
    | status _ hp' hu' hh =>
      rw [hp] at hp'
      cases (Parsed.packet.inj hp').2
      exact ih hh
    | instruction _ hp' hu' hi =>
      rw [hp] at hp'
      exact absurd (heard_unique_packet rfl (Parsed.packet.inj hp').1.symm hu hu').2.1.symm hi
  | instruction h hp hu hi =>
    obtain ⟨pkt, ho⟩ := bad rfl hu
    cases h' with
    | small h => omega
    | nothing _ hp' | tooBig _ hp' => rw [hp] at hp'; cases hp'
    | corrupt _ hp' hv' =>
      rw [hp] at hp'
      rw [(Parsed.packet.inj hp').1, frameOutcome_corrupt hv'] at ho
      cases ho
    | noInstruction _ hp' =>
      rw [hp] at hp'
      rw [(Parsed.packet.inj hp').1, frameOutcome_empty] at ho
      cases ho
    | status _ hp' hu' =>
      rw [hp] at hp'
      exact absurd (heard_unique_packet rfl (Parsed.packet.inj hp').1.symm hu hu').2.1 hi
    | instruction _ hp' hu' =>
      rw [hp] at hp'
      obtain ⟨rfl, rfl, rfl⟩ := heard_unique_packet rfl (Parsed.packet.inj hp').1.symm hu hu'
      exact ⟨rfl, (Parsed.packet.inj hp').2⟩

theorem readRawLoop_heard (D : Nat) : ∀ (fuel : Nat) (b : Bus), b.RInv → b.work < fuel →
    ∃ c o v left, Device.readRawLoop D fuel b = (c, o) ∧ c.RInv ∧
      Hears b.readBuffer.length (readEnd D b.serialPort) (stream D b) v left ∧ Leaves D c v left ∧
      match v with
      | .err x => o = .err x
      | .panic => o = .panic
      | .hang => False
      | .ok (id, instr, params) => ∃ pkt, o = .ok ⟨pkt⟩ ∧ Carries pkt id instr params := by
  intro fuel
  induction fuel with
  | zero => intro b _ h; omega
  | succ fuel ih =>
    intro b hb hf
    by_cases hN : 10 ≤ b.readBuffer.length
    · obtain ⟨c, o, e, hlike, hc, -, hm⟩ := Bus.readPacketDeadline_stream D hb hN
      have hs := readRawLoop_succ (fuel := fuel) e
      change match parse b.readBuffer.length (stream D b) with
        | .packet f rest => _ | .tooBig req rest => _ | .more => _ at hm
      cases hp : parse b.readBuffer.length (stream D b) with
      | more =>
        rw [hp] at hm; dsimp only at hm
        exact ⟨c, _, _, _, hs.2.2.1 _ hm.1, hc, .nothing hN hp, hm.2.1, rfl⟩
      | tooBig req rest =>
        rw [hp] at hm; dsimp only at hm
        exact ⟨c, _, _, _, hs.2.2.1 _ hm.1, hc, .tooBig hN hp, hm.2.1, rfl⟩
      | packet f rest =>
        rw [hp] at hm; dsimp only at hm
        obtain ⟨-, k2, k3, -⟩ := parse_packet hp
        rcases frameOutcome_cases k2 k3 with ⟨m, v, rfl, hv, ho⟩ | ⟨id, rfl, ho⟩ |
          ⟨id, wire, instr, params, pkt, rfl, hl, hu, hcar, ho⟩
        · rw [ho] at hm
          exact ⟨c, _, _, _, hs.2.2.1 _ hm.1, hc, .corrupt hN hp hv, hm.2.1, rfl⟩
        · rw [ho] at hm
          exact ⟨c, _, _, _, hs.2.2.2 hm.1, hc, .noInstruction hN hp, hm.2.1, rfl⟩
        · rw [ho] at hm
          by_cases hi : instr = 0x55#8
          · subst hi
            have hw := read_ok_work hb (by rw [e, hm.1])
            obtain ⟨c', o', v, left, i1, i2, i3, i4, i5⟩ := ih c hc (by omega)
            refine ⟨c', o', v, left, by rw [hs.1 _ _ _ hm.1 hcar, i1], i2, .status hN hp hu ?_, i4, i5⟩
            rw [hlike.readSize, hm.2.2.1] at i3
            rw [← hm.2.1]
            exact i3
          · exact ⟨c, _, .ok (id, instr, params), rest, hs.2.1 _ _ _ _ hm.1 hcar hi, hc, .instruction hN hp hu hi, hm.2.1,
              pkt, rfl, hcar⟩
    · have e := c17_tiny_buffer D (b := b) (by omega)
      exact ⟨b, _, _, _, (readRawLoop_succ (fuel := fuel) e).2.2.1 _ rfl, hb, .small (by omega), rfl, rfl⟩

/-- **C64** Every outcome of `Device::read_raw_instruction_timeout`. -/
theorem c64_read_raw (timeout : Nat) {b : Bus} (hb : b.RInv) :
    ∃ c o v left, Device.readRawInstructionTimeout timeout b = (c, o) ∧
      c.RInv ∧ c.serialPort.now ≤ b.serialPort.now + timeout ∧
      Hears b.readBuffer.length (readEnd (b.serialPort.now + timeout) b.serialPort)
        (stream (b.serialPort.now + timeout) b) v left ∧
      Leaves (b.serialPort.now + timeout) c v left ∧
      match v with
      | .err x => o = .err x
      | .panic => o = .panic
      | .hang => False
      | .ok (id, instr, params) => ∃ pkt, o = .ok ⟨pkt⟩ ∧ Carries pkt id instr params := by
  have ht := (c26_terminates timeout hb).2
  obtain ⟨c, o, v, left, h1, h2, h3⟩ := readRawLoop_heard (b.serialPort.now + timeout) _ b hb (work_fuel hb)
  rw [readRaw_eq, h1] at ht
  exact ⟨c, o, v, left, by rw [readRaw_eq, h1], h2, ht, h3⟩

/-- **C64** Decoding, with the error in every case. -/
theorem c64_decode (instr : Byte) (params : List Byte) :
    (Obeys params.length (lengthRule instr) → ∃ i, Device.parseInstruction instr params = .ok i ∧ Says instr params i) ∧
    (¬ Obeys params.length (lengthRule instr) →
      ∃ m, lengthRule instr = some m ∧ Device.parseInstruction instr params = .err (.parameterCount params.length m)) := by
  have hiff : acceptedLength instr params.length ↔ Obeys params.length (lengthRule instr) := by
    unfold acceptedLength lengthRule
    constructor
    · rintro ⟨h1, h2, h3, h4, h5⟩
      repeat' split
      all_goals simp_all [Obeys]
    · intro h
      refine ⟨?_, ?_, ?_, ?_, ?_⟩
      · rintro rfl; exact h
      · rintro (rfl | rfl) <;> exact h
      · rintro rfl; exact h
      · rintro rfl; exact h
      · rintro (rfl | rfl) <;> exact h
  have h47 := c47_decode_total instr params
  refine ⟨fun h => ?_, fun h => ?_⟩
  · obtain ⟨i, h1, h2⟩ := h47.1 (hiff.mpr h)
    exact ⟨i, h1, h2⟩
  · unfold lengthRule at h ⊢
    unfold Device.parseInstruction
    simp only [InstructionId.ping, InstructionId.read, InstructionId.write, InstructionId.regWrite,
        InstructionId.action, InstructionId.factoryReset, InstructionId.reboot, InstructionId.clear, InstructionId.syncRead,
        InstructionId.syncWrite, InstructionId.bulkRead, InstructionId.bulkWrite]
    by_cases h2 : instr = 0x02#8
    · subst h2
      simp only [if_pos, Obeys] at h
      simp [checkCount, h, bind, Outcome.bind]
    by_cases h3 : instr = 0x03#8
    · subst h3
      simp [Obeys] at h
      simp [checkCountMin, show ¬ 2 ≤ params.length by omega, bind, Outcome.bind]
    by_cases h4 : instr = 0x04#8
    · subst h4
      simp [Obeys] at h
      simp [checkCountMin, show ¬ 2 ≤ params.length by omega, bind, Outcome.bind]
    by_cases h6 : instr = 0x06#8
    · subst h6
      simp [Obeys] at h
      simp [checkCount, h, bind, Outcome.bind]
    by_cases h10 : instr = 0x10#8
    · subst h10
      simp [Obeys] at h
      simp [checkCountMin, h, bind, Outcome.bind]
    by_cases h82 : instr = 0x82#8
    · subst h82
      simp [Obeys] at h
      simp [checkCountMin, show ¬ 4 ≤ params.length by omega, bind, Outcome.bind]
    by_cases h83 : instr = 0x83#8
    · subst h83
      simp [Obeys] at h
      simp [checkCountMin, show ¬ 4 ≤ params.length by omega, bind, Outcome.bind]
    simp [h2, h3, h4, h6, h10, h82, h83, Obeys] at h

/-- **C64** Every outcome of `Device::read`. -/
theorem c64_read (timeout : Nat) {b : Bus} (hb : b.RInv) :
    ∃ c o v left, Device.read timeout b = (c, o) ∧
      c.RInv ∧ c.serialPort.now ≤ b.serialPort.now + timeout ∧
      Hears b.readBuffer.length (readEnd (b.serialPort.now + timeout) b.serialPort)
        (stream (b.serialPort.now + timeout) b) v left ∧
      Leaves (b.serialPort.now + timeout) c v left ∧
      match v with
      | .err x => o = .err x
      | .panic => o = .panic
      | .hang => False
      | .ok (id, instr, params) =>
        (Obeys params.length (lengthRule instr) ∧ ∃ i, o = .ok ⟨id, i⟩ ∧ Says instr params i) ∨
        (¬ Obeys params.length (lengthRule instr) ∧
          ∃ m, lengthRule instr = some m ∧ o = .err (.invalidMessage (.parameterCount params.length m))) := by
  obtain ⟨c, o, v, left, h1, h2, h3, h4, h5, h6⟩ := c64_read_raw timeout hb
  unfold Device.read
  cases v with
  | err x => dsimp only at h6; subst h6; rw [SO.bind_err h1]; exact ⟨c, _, _, left, rfl, h2, h3, h4, h5, rfl⟩
  | panic => dsimp only at h6; subst h6; rw [SO.bind_panic h1]; exact ⟨c, _, _, left, rfl, h2, h3, h4, h5, rfl⟩
  | hang => exact h6.elim
  | ok x =>
    obtain ⟨id, instr, params⟩ := x
    obtain ⟨pkt, rfl, hc⟩ := h6
    rw [SO.bind_ok h1, SO.lift_apply, toInstruction_carries hc]
    refine ⟨c, _, _, left, rfl, h2, h3, h4, h5, ?_⟩
    by_cases hob : Obeys params.length (lengthRule instr)
    · obtain ⟨i, hi, hs⟩ := (c64_decode instr params).1 hob
      exact .inl ⟨hob, i, by rw [hi]; rfl, hs⟩
    · obtain ⟨m, hm, he⟩ := (c64_decode instr params).2 hob
      exact .inr ⟨hob, m, hm, by rw [he]; rfl⟩

/-- **C64** Every outcome of `Device::write_status`. -/
theorem c64_write_status {b : Bus} {id error : Byte} {n : Nat} {enc : Encoder} {params wire : List Byte} (hb : b.WInv)
    (hp : Fills enc.run n params) (hw : StuffedForm (0x55#8 :: error :: params) wire) :
    (Device.writeStatus id error n enc b).2 = sending b (n + 1) wire := by
  unfold Device.writeStatus
  rw [writeStatus_eq]
  exact c62_send hb (statusEncoder_fills hp) hw

/-! ## C18 for devices -/

theorem hears_panic_iff {cap : Nat} {e : IoErr} {s : List Byte} :
    (∃ left, Hears cap e s .panic left) ↔ 10 ≤ cap ∧ ∃ statuses g id rest, Statuses cap statuses ∧ ¬ header <:+: g ∧
      s = itemBytes statuses ++ (g ++ frame id [] ++ rest) := by
  constructor
  · rintro ⟨left, h⟩
    generalize hv : (Outcome.panic : Outcome ReadError (Byte × Byte × List Byte)) = v at h
    induction h with
    | small | nothing | tooBig | corrupt | instruction => cases hv
    | noInstruction hN hp =>
      rename_i s rest id
      obtain ⟨hsk, -⟩ := parse_packet hp
      obtain ⟨g, hg, hgh⟩ := skip_split s
      rw [hsk, ← List.append_assoc] at hg
      exact ⟨hN, [], g, id, rest, fun _ h => by simp at h, hgh, hg⟩
    | status hN hp hu hh ih =>
      rename_i s wire ps rest left id v
      obtain ⟨-, statuses, g, id', rest', h1, h2, h3⟩ := ih hv
      obtain ⟨hsk, k1, k2, k3, -⟩ := parse_packet hp
      obtain ⟨g', hg, hgh⟩ := skip_split s
      have hl : wire.length + 2 < 2 ^ 16 := by
        have h1 := ((frame id wire).getD 5 0#8).isLt
        have h2 := ((frame id wire).getD 6 0#8).isLt
        rw [Bus.frame_length, Spec.lengthField] at k2
        omega
      refine ⟨hN, ⟨g', id, wire, 0x55#8, ps⟩ :: statuses, g, id', rest', ?_, h2, ?_⟩
      · intro i hi
        rcases List.mem_cons.mp hi with rfl | hi
        · exact ⟨⟨hgh, hl, k3, hu⟩, rfl⟩
        · exact h1 i hi
      · rw [hg, hsk, h3]
        simp [itemBytes]
  · rintro ⟨hN, statuses, g, id, rest, h1, h2, rfl⟩
    refine ⟨rest, ?_⟩
    induction statuses with
    | nil =>
      refine .noInstruction (id := id) hN ?_
      have := parse_good_frame (cap := cap) (wire := []) (rest := rest) id h2 (by decide) (by rw [Bus.frame_length]; simp; omega)
      simpa [itemBytes] using this
    | cons i statuses ih =>
      obtain ⟨hok, hi⟩ := h1 i (by simp)
      refine .status (id := i.id) (wire := i.wire) (ps := i.params) hN ?_ (hi ▸ hok.body) (ih fun j hj => h1 j (by simp [hj]))
      have := parse_good_frame (cap := cap) (rest := itemBytes statuses ++ (g ++ frame id [] ++ rest)) i.id hok.garbage hok.length hok.fits
      rw [← this]
      simp [itemBytes]

/-- C18 in full, for `Device::read`. -/
def C18_device_statement : Prop := ∀ (b : Bus) (timeout : Nat), b.RInv → (Device.read timeout b).2 ≠ .panic

/-- **C18** is false as stated for a device, too: it also crashes on a packet without an instruction byte. -/
theorem c18_refuted_device : ¬ C18_device_statement := by
  intro h
  have := h (busWith (frame 2#8 [0x55#8, 0x00#8] ++ frame 3#8 [])) 5 (busWith_rInv _)
  revert this
  decide +kernel

/-- **C18** (partial: the English claim is that there is no such case) Waiting for an instruction panics exactly if, after any
number of status packets (also such without an error byte), there is a packet without body (length field 2) and with a valid CRC. -/
theorem c18_device_panics_iff_partial {timeout : Nat} {b : Bus} (hb : b.RInv) :
    (Device.read timeout b).2 = .panic ↔
      10 ≤ b.readBuffer.length ∧ ∃ statuses g id rest, Statuses b.readBuffer.length statuses ∧ ¬ header <:+: g ∧
        stream (b.serialPort.now + timeout) b = itemBytes statuses ++ (g ++ frame id [] ++ rest) := by
  rw [← hears_panic_iff (e := readEnd (b.serialPort.now + timeout) b.serialPort)]
  obtain ⟨c, o, v, left, h1, -, -, h4, -, h6⟩ := c64_read timeout hb
  rw [h1]
  dsimp only
  constructor
  · intro ho
    subst ho
    refine ⟨left, ?_⟩
    cases v with
    | panic => exact h4
    | err x => cases h6
    | hang => exact h6.elim
    | ok x =>
      obtain ⟨id, instr, params⟩ := x
      rcases h6 with ⟨-, i, h, -⟩ | ⟨-, m, -, h⟩ <;> cases h
  · rintro ⟨left', h⟩
    obtain ⟨rfl, -⟩ := c64_heard_unique h4 h
    exact h6

/-! ## Cases -/

/-- A ping for motor 1 is heard after the status packet of another motor, and even after one without an error byte. -/
example : (Device.read 5 (busWith (frame 2#8 [0x55#8, 0x00#8] ++ frame 3#8 [0x55#8] ++ frame 1#8 [0x01#8]))).2 =
    .ok ⟨1#8, .ping⟩ := by decide +kernel

/-- The same as described by the theorem. -/
example : Hears 100 .timedOut (frame 3#8 [0x55#8] ++ frame 1#8 [0x01#8]) (.ok (1#8, 0x01#8, [])) [] :=
  .status (id := 3#8) (wire := [0x55#8]) (ps := []) (rest := frame 1#8 [0x01#8]) (by decide) (by decide +kernel)
    (unstuffs_singleton.mpr rfl)
    (.instruction (wire := [0x01#8]) (by decide) (by decide +kernel) (unstuffs_singleton.mpr rfl) (by decide))

/-- A packet without an instruction crashes the device. -/
example : (Device.read 5 (busWith (frame 2#8 [0x55#8, 0x00#8] ++ frame 3#8 []))).2 = .panic := by decide +kernel

/-- A read instruction with three parameters, and a write without an address. -/
example : (Device.read 5 (busWith (frame 1#8 [0x02#8, 0x00#8, 0x00#8, 0x04#8]))).2 =
      .err (.invalidMessage (.parameterCount 3 (.exact 4))) ∧
    (Device.read 5 (busWith (frame 1#8 [0x03#8, 0x00#8]))).2 = .err (.invalidMessage (.parameterCount 1 (.min 2))) := by
  refine ⟨?_, ?_⟩ <;> decide +kernel

/-- A corrupted ping, and half a ping. -/
example : (Device.read 5 (busWith [0xFF#8, 0xFF#8, 0xFD#8, 0x00#8, 0x01#8, 0x03#8, 0x00#8, 0x01#8, 0x19#8, 0x4F#8])).2 =
      .err (.invalidMessage (.checksum 0x4F19#16 0x4E19#16)) ∧
    (Device.read 5 (busWith ((frame 1#8 [0x01#8]).take 9))).2 = .err (.io .timedOut) := by
  refine ⟨?_, ?_⟩ <;> decide +kernel

/-- A status packet that does not fit the write buffer of a device. -/
example : (Device.writeStatus 1#8 0#8 8 (bytesEncoder (List.replicate 8 0x2A#8)) (quietBus true 12)).2 =
    .err (.bufferTooSmall ⟨19, 16⟩) := by decide +kernel

/-! ## The theorems on concrete cases -/

/-- An instruction after a status packet without an error byte. -/
theorem pingHeard : Hears 100 .timedOut (frame 3#8 [0x55#8] ++ frame 1#8 [0x01#8]) (.ok (1#8, 0x01#8, [])) [] :=
  .status (id := 3#8) (wire := [0x55#8]) (ps := []) (rest := frame 1#8 [0x01#8]) (by decide) (by decide +kernel)
    (unstuffs_singleton.mpr rfl)
    (.instruction (wire := [0x01#8]) (by decide) (by decide +kernel) (unstuffs_singleton.mpr rfl) (by decide))

example := c64_heard_unique pingHeard pingHeard
example := c64_read_raw 100 (b := hearingBus) (busWithChunks_rInv _)
example := c64_read 100 (b := hearingBus) (busWithChunks_rInv _)
example := (c64_decode 0x02#8 [0x74#8, 0#8, 4#8, 0#8]).1 rfl
example := (c64_decode 0x03#8 [0x74#8]).2 (by rw [show lengthRule 0x03#8 = some (.min 2) by decide]; exact (by decide : ¬ 2 ≤ [0x74#8].length))
example := c64_write_status (id := 1#8) (error := 0#8) (quietBus_wInv true 40 (by decide)) (bytesEncoder_fills [7#8, 8#8])
  (wire := [0x55#8, 0#8, 7#8, 8#8]) ⟨[], _, rfl, by decide, by decide, by decide⟩

end Dxl.Props
