import Verif.Lemmas.Text

/-! # C60: what the texts of errors say -/

namespace Dxl.Props
open Spec

/-- The bytes of a header prefix, as a list: `[FF, FF, FD, 00]`. -/
inductive ByteList : List Char → List Byte → Prop
  | mk {s₀ s₁ s₂ s₃ : List Char} {a b c d : Byte} (h₀ : Written 16 2 s₀ a.toNat) (h₁ : Written 16 2 s₁ b.toNat)
      (h₂ : Written 16 2 s₂ c.toNat) (h₃ : Written 16 2 s₃ d.toNat) :
      ByteList ('[' :: s₀ ++ ", ".toList ++ s₁ ++ ", ".toList ++ s₂ ++ ", ".toList ++ s₃ ++ "]".toList) [a, b, c, d]

/-- What the number of expected parameters is called. -/
inductive CountText : List Char → ExpectedCount → Prop
  | exact {s n} (h : Written 10 1 s n) : CountText ("exactly ".toList ++ s) (.exact n)
  | max {s n} (h : Written 10 1 s n) : CountText ("at most ".toList ++ s) (.max n)
  | min {s n} (h : Written 10 1 s n) : CountText ("at least ".toList ++ s) (.min n)

/-- The text of each error, with its numbers in it. -/
inductive ErrorText (io : IoErr → List Char) : List Char → TransferError → Prop
  | writeBuffer {r t required total} (hr : Written 10 1 r required) (ht : Written 10 1 t total) :
      ErrorText io ("write buffer is too small: need ".toList ++ r ++ " bytes, but the size is ".toList ++ t)
        (.writeError (.bufferTooSmall ⟨required, total⟩))
  | discard (e) : ErrorText io ("failed to discard input buffer: ".toList ++ io e) (.writeError (.discardBuffer e))
  | write (e) : ErrorText io ("failed to write to serial port: ".toList ++ io e) (.writeError (.write e))
  | readBuffer {r t required total} (hr : Written 10 1 r required) (ht : Written 10 1 t total) :
      ErrorText io ("read buffer is too small: need ".toList ++ r ++ " bytes, but the size is ".toList ++ t)
        (.readError (.bufferFull ⟨required, total⟩))
  | read (e) : ErrorText io ("failed to read from serial port: ".toList ++ io e) (.readError (.io e))
  | motor {s} {e : MotorError} (h : Written 16 1 s e.raw.toNat) :
      ErrorText io ("motor reported error status: ".toList ++ ("0x".toList ++ s)) (.readError (.motorError e))
  | prefix {a x actual expected} (ha : ByteList a actual) (hx : ByteList x expected) :
      ErrorText io ("invalid header prefix, expected ".toList ++ x ++ ", got ".toList ++ a)
        (.readError (.invalidMessage (.headerPrefix ⟨actual, expected⟩)))
  | checksum {m c} {message computed : U16} (hm : Written 16 1 m message.toNat) (hc : Written 16 1 c computed.toNat) :
      ErrorText io ("invalid checksum, message claims ".toList ++ ("0x".toList ++ m) ++ ", computed ".toList ++ ("0x".toList ++ c))
        (.readError (.invalidMessage (.checksum message computed)))
  | packetId {a x} {actual expected : Byte} (ha : Written 16 1 a actual.toNat) (hx : Written 16 1 x expected.toNat) :
      ErrorText io ("invalid packet ID, expected ".toList ++ ("0x".toList ++ x) ++ ", got ".toList ++ ("0x".toList ++ a))
        (.readError (.invalidMessage (.packetId actual expected)))
  | unexpectedPacketId {a} {actual : Byte} (ha : Written 16 1 a actual.toNat) :
      ErrorText io ("invalid packet ID: ".toList ++ ("0x".toList ++ a)) (.readError (.invalidMessage (.unexpectedPacketId actual)))
  | instruction {a x} {actual expected : Byte} (ha : Written 10 1 a actual.toNat) (hx : Written 10 1 x expected.toNat) :
      ErrorText io ("invalid instruction ID, expected ".toList ++ x ++ ", got ".toList ++ a)
        (.readError (.invalidMessage (.instruction actual expected)))
  | count {a x actual expected} (ha : Written 10 1 a actual) (hx : CountText x expected) :
      ErrorText io ("invalid parameter count, expected ".toList ++ x ++ ", got ".toList ++ a)
        (.readError (.invalidMessage (.parameterCount actual expected)))

/-- The prefixes in an error have four bytes, as their type in the code says. -/
def FourBytes : TransferError → Prop
  | .readError (.invalidMessage (.headerPrefix e)) => e.actual.length = 4 ∧ e.expected.length = 4
  | _ => True

theorem byteList_of {bytes : List Byte} (h : bytes.length = 4) :
    ByteList (Fmt.debugList (bytes.map fun b => Fmt.upperHex 2 b.toNat)) bytes := by
  match bytes, h with
  | [a, b, c, d], _ =>
    have := ByteList.mk (upperHex_written 2 a.toNat) (upperHex_written 2 b.toNat) (upperHex_written 2 c.toNat)
      (upperHex_written 2 d.toNat)
    simpa [Fmt.debugList, Fmt.debugItems] using this

theorem countText_of (e : ExpectedCount) : CountText e.display e := by
  cases e
  · exact .exact (decimal_written _)
  · exact .max (decimal_written _)
  · exact .min (decimal_written _)

/-- **C60** Every error has the text that says what happened, with its numbers. -/
theorem c60_text (io : IoErr → List Char) (e : TransferError) (h : FourBytes e) : ErrorText io (e.display io) e := by
  cases e with
  | writeError e =>
    cases e with
    | bufferTooSmall e => exact .writeBuffer (decimal_written _) (decimal_written _)
    | discardBuffer e => exact .discard e
    | write e => exact .write e
  | readError e =>
    cases e with
    | bufferFull e => exact .readBuffer (decimal_written _) (decimal_written _)
    | io e => exact .read e
    | motorError e =>
      obtain ⟨s, h1, h2⟩ := upperHexPrefixed_written e.raw.toNat
      unfold TransferError.display ReadError.display MotorError.display
      dsimp only
      rw [h2]
      exact .motor h1
    | invalidMessage e =>
      cases e with
      | headerPrefix e => exact .prefix (byteList_of h.1) (byteList_of h.2)
      | checksum m c =>
        obtain ⟨s, h1, h2⟩ := upperHexPrefixed_written m.toNat
        obtain ⟨t, h3, h4⟩ := upperHexPrefixed_written c.toNat
        unfold TransferError.display ReadError.display InvalidMessage.display
        dsimp only
        rw [h2, h4]
        exact .checksum h1 h3
      | packetId a x =>
        obtain ⟨s, h1, h2⟩ := upperHexPrefixed_written a.toNat
        obtain ⟨t, h3, h4⟩ := upperHexPrefixed_written x.toNat
        unfold TransferError.display ReadError.display InvalidMessage.display
        dsimp only
        rw [h2, h4]
        exact .packetId h1 h3
      | unexpectedPacketId a =>
        obtain ⟨s, h1, h2⟩ := upperHexPrefixed_written a.toNat
        unfold TransferError.display ReadError.display InvalidMessage.display
        dsimp only
        rw [h2]
        exact .unexpectedPacketId h1
      | instruction a x => exact .instruction (decimal_written _) (decimal_written _)
      | parameterCount a x => exact .count (decimal_written _) (countText_of x)

/-! ## The text identifies the error -/

/-- How the texts start, and which error starts which way. -/
def openings : List (List Char) :=
  ["write buffer is too small: ".toList, "failed to discard input ".toList, "failed to write to serial ".toList,
    "read buffer is too small: ".toList, "failed to read from serial ".toList, "motor reported error ".toList,
    "invalid header prefix".toList, "invalid checksum, ".toList, "invalid packet ID, ".toList, "invalid packet ID: ".toList,
    "invalid instruction ID".toList, "invalid parameter count".toList].map (List.take 18)

def kind : TransferError → Fin 12
  | .writeError (.bufferTooSmall _) => 0
  | .writeError (.discardBuffer _) => 1
  | .writeError (.write _) => 2
  | .readError (.bufferFull _) => 3
  | .readError (.io _) => 4
  | .readError (.motorError _) => 5
  | .readError (.invalidMessage (.headerPrefix _)) => 6
  | .readError (.invalidMessage (.checksum ..)) => 7
  | .readError (.invalidMessage (.packetId ..)) => 8
  | .readError (.invalidMessage (.unexpectedPacketId _)) => 9
  | .readError (.invalidMessage (.instruction ..)) => 10
  | .readError (.invalidMessage (.parameterCount ..)) => 11

theorem opening {lit rest op : List Char} {k : Nat} (h : openings[k]? = some op) (h1 : 18 ≤ lit.length) (h2 : lit.take 18 = op) :
    openings[k]? = some ((lit ++ rest).take 18) := by
  rw [List.take_append_of_le_length h1, h2, h]

theorem text_kind {io : IoErr → List Char} {t : List Char} {e : TransferError} (h : ErrorText io t e) :
    openings[(kind e).val]? = some (t.take 18) := by
  cases h <;> (repeat rw [List.append_assoc]) <;> exact opening rfl (by decide) (by decide)

theorem kind_eq {io : IoErr → List Char} {t : List Char} {e e' : TransferError} (h : ErrorText io t e) (h' : ErrorText io t e') :
    kind e = kind e' := by
  have key : ∀ x y : Fin 12, openings[x.val]? = openings[y.val]? → x = y := by decide
  exact key _ _ ((text_kind h).trans (text_kind h').symm)

theorem stops_comma {r : List Char} : Stops (", got ".toList ++ r) := stops_cons (c := ',') (by decide)

theorem byteList_cancel {a a' : List Char} {x x' : List Byte} {r r' : List Char} (h : ByteList a x) (h' : ByteList a' x')
    (e : a ++ r = a' ++ r') : x = x' ∧ r = r' := by
  cases h with
  | mk h₀ h₁ h₂ h₃ =>
    cases h' with
    | mk k₀ k₁ k₂ k₃ =>
      have sep : ∀ r : List Char, Stops (", ".toList ++ r) := fun r => stops_cons (c := ',') (by decide)
      have close : ∀ r : List Char, Stops ("]".toList ++ r) := fun r => stops_cons (c := ']') (by decide)
      simp only [List.append_assoc, List.cons_append] at e
      rw [List.cons.injEq] at e
      obtain ⟨e0, e⟩ := written_cancel (by decide) h₀ k₀ (sep _) (sep _) e.2
      obtain ⟨e1, e⟩ := written_cancel (by decide) h₁ k₁ (sep _) (sep _) (List.append_cancel_left e)
      obtain ⟨e2, e⟩ := written_cancel (by decide) h₂ k₂ (sep _) (sep _) (List.append_cancel_left e)
      obtain ⟨e3, e⟩ := written_cancel (by decide) h₃ k₃ (close _) (close _) (List.append_cancel_left e)
      rw [BitVec.eq_of_toNat_eq e0, BitVec.eq_of_toNat_eq e1, BitVec.eq_of_toNat_eq e2, BitVec.eq_of_toNat_eq e3]
      exact ⟨rfl, List.append_cancel_left e⟩

theorem countText_cancel {s s' r r' : List Char} {x x' : ExpectedCount} (hr : Stops r) (hr' : Stops r') (h : CountText s x)
    (h' : CountText s' x') (e : s ++ r = s' ++ r') : x = x' ∧ r = r' := by
  have low : ∀ {k : Nat} {l l' u v : List Char}, l ++ u = l' ++ v → k ≤ l.length → k ≤ l'.length → l.take k = l'.take k := by
    intro k l l' u v h h1 h2
    have := congrArg (List.take k) h
    rwa [List.take_append_of_le_length h1, List.take_append_of_le_length h2] at this
  cases h with
  | exact h =>
    cases h' with
    | exact h' =>
      rw [List.append_assoc, List.append_assoc] at e
      obtain ⟨rfl, e⟩ := written_cancel (by decide) h h' hr hr' (List.append_cancel_left e)
      exact ⟨rfl, e⟩
    | max h' =>
      rw [List.append_assoc, List.append_assoc] at e
      exact absurd (low (k := 4) e (by decide) (by decide)) (by decide)
    | min h' =>
      rw [List.append_assoc, List.append_assoc] at e
      exact absurd (low (k := 4) e (by decide) (by decide)) (by decide)
  | max h =>
    cases h' with
    | max h' =>
      rw [List.append_assoc, List.append_assoc] at e
      obtain ⟨rfl, e⟩ := written_cancel (by decide) h h' hr hr' (List.append_cancel_left e)
      exact ⟨rfl, e⟩
    | exact h' =>
      rw [List.append_assoc, List.append_assoc] at e
      exact absurd (low (k := 4) e (by decide) (by decide)) (by decide)
    | min h' =>
      rw [List.append_assoc, List.append_assoc] at e
      exact absurd (low (k := 4) e (by decide) (by decide)) (by decide)
  | min h =>
    cases h' with
    | min h' =>
      rw [List.append_assoc, List.append_assoc] at e
      obtain ⟨rfl, e⟩ := written_cancel (by decide) h h' hr hr' (List.append_cancel_left e)
      exact ⟨rfl, e⟩
    | exact h' =>
      rw [List.append_assoc, List.append_assoc] at e
      exact absurd (low (k := 4) e (by decide) (by decide)) (by decide)
    | max h' =>
      rw [List.append_assoc, List.append_assoc] at e
      exact absurd (low (k := 4) e (by decide) (by decide)) (by decide)

/-- Two numbers with text around them. -/
theorem two_numbers {base w n m n' m' : Nat} {l mid : List Char} {s t s' t' : List Char} (hb : base ≤ 16)
    (hs : Written base w s n) (ht : Written base w t m) (hs' : Written base w s' n') (ht' : Written base w t' m')
    (hmid : ∀ r, Stops (mid ++ r)) (e : l ++ s ++ mid ++ t = l ++ s' ++ mid ++ t') : n = n' ∧ m = m' := by
  simp only [List.append_assoc] at e
  obtain ⟨h1, e⟩ := written_cancel hb hs hs' (hmid _) (hmid _) (List.append_cancel_left e)
  have e2 := List.append_cancel_left e
  have e3 : t ++ [] = t' ++ [] := by rw [List.append_nil, List.append_nil, e2]
  exact ⟨h1, (written_cancel hb ht ht' stops_nil stops_nil e3).1⟩

theorem one_number {base w n n' : Nat} {l : List Char} {s s' : List Char} (hb : base ≤ 16)
    (hs : Written base w s n) (hs' : Written base w s' n') (e : l ++ s = l ++ s') : n = n' := by
  have e3 : s ++ [] = s' ++ [] := by rw [List.append_nil, List.append_nil, List.append_cancel_left e]
  exact (written_cancel hb hs hs' stops_nil stops_nil e3).1

/-- Two numbers with `0x` in front. -/
theorem two_hex {n m n' m' : Nat} {l mid : List Char} {s t s' t' : List Char}
    (hs : Written 16 1 s n) (ht : Written 16 1 t m) (hs' : Written 16 1 s' n') (ht' : Written 16 1 t' m')
    (hmid : ∀ r, Stops (mid ++ r)) (e : l ++ ("0x".toList ++ s) ++ mid ++ ("0x".toList ++ t) =
      l ++ ("0x".toList ++ s') ++ mid ++ ("0x".toList ++ t')) : n = n' ∧ m = m' := by
  refine two_numbers (l := l ++ "0x".toList) (mid := mid ++ "0x".toList) (by decide) hs ht hs' ht' (fun r => ?_) ?_
  · rw [List.append_assoc]; exact hmid _
  · simpa only [List.append_assoc] using e

/-- **C60** The text of an error identifies it, if the texts of the errors of the serial port do. -/
theorem c60_identifies {io : IoErr → List Char} (hio : ∀ a b, io a = io b → a = b) {t : List Char} {e e' : TransferError}
    (h : ErrorText io t e) (h' : ErrorText io t e') : e = e' := by
  have hk := kind_eq h h'
  have bytes : ∀ r : List Char, Stops (" bytes, but the size is ".toList ++ r) := fun r => stops_cons (c := ' ') (by decide)
  have got : ∀ r : List Char, Stops (", got ".toList ++ r) := fun r => stops_comma
  have computed : ∀ r : List Char, Stops (", computed ".toList ++ r) := fun r => stops_cons (c := ',') (by decide)
  generalize ht : t = t' at h'
  cases h <;> cases h' <;> first | (exact absurd (congrArg Fin.val hk) (by dsimp only [kind]; decide)) | skip
  case writeBuffer.writeBuffer h1 h2 _ _ _ _ h3 h4 =>
    obtain ⟨rfl, rfl⟩ := two_numbers (by decide) h1 h2 h3 h4 bytes ht
    rfl
  case discard.discard e e' => rw [hio _ _ (List.append_cancel_left ht)]
  case write.write e e' => rw [hio _ _ (List.append_cancel_left ht)]
  case readBuffer.readBuffer h1 h2 _ _ _ _ h3 h4 =>
    obtain ⟨rfl, rfl⟩ := two_numbers (by decide) h1 h2 h3 h4 bytes ht
    rfl
  case read.read e e' => rw [hio _ _ (List.append_cancel_left ht)]
  case motor.motor e h1 _ e' h2 =>
    obtain ⟨x⟩ := e
    obtain ⟨y⟩ := e'
    have := one_number (by decide) h1 h2 (List.append_cancel_left ht)
    have : x = y := BitVec.eq_of_toNat_eq this
    rw [this]
  case prefix.prefix h1 h2 _ _ _ _ h3 h4 =>
    simp only [List.append_assoc] at ht
    obtain ⟨rfl, e⟩ := byteList_cancel h2 h4 (List.append_cancel_left ht)
    have e2 := List.append_cancel_left e
    obtain ⟨rfl, -⟩ := byteList_cancel (r := []) (r' := []) h1 h3 (by rw [List.append_nil, List.append_nil, e2])
    rfl
  case checksum.checksum h1 h2 _ _ _ _ h3 h4 =>
    obtain ⟨e1, e2⟩ := two_hex h1 h2 h3 h4 computed ht
    rw [BitVec.eq_of_toNat_eq e1, BitVec.eq_of_toNat_eq e2]
  case packetId.packetId h1 h2 _ _ _ _ h3 h4 =>
    obtain ⟨e1, e2⟩ := two_hex h2 h1 h4 h3 got ht
    rw [BitVec.eq_of_toNat_eq e1, BitVec.eq_of_toNat_eq e2]
  case unexpectedPacketId.unexpectedPacketId h1 _ _ h2 =>
    have := one_number (by decide) h1 h2 (List.append_cancel_left ht)
    rw [BitVec.eq_of_toNat_eq this]
  case instruction.instruction h1 h2 _ _ _ _ h3 h4 =>
    obtain ⟨e1, e2⟩ := two_numbers (by decide) h2 h1 h4 h3 got ht
    rw [BitVec.eq_of_toNat_eq e1, BitVec.eq_of_toNat_eq e2]
  case count.count h1 h2 _ _ _ _ h3 h4 =>
    simp only [List.append_assoc] at ht
    obtain ⟨rfl, e⟩ := countText_cancel (got _) (got _) h2 h4 (List.append_cancel_left ht)
    have := one_number (l := ", got ".toList) (by decide) h1 h3 e
    rw [this]

/-- **C60** So two errors with the same text are the same. -/
theorem c60_injective {io : IoErr → List Char} (hio : ∀ a b, io a = io b → a = b) {e e' : TransferError} (h : FourBytes e)
    (h' : FourBytes e') (ht : e.display io = e'.display io) : e = e' := by
  have := c60_text io e' h'
  rw [← ht] at this
  exact c60_identifies hio (c60_text io e h) this

/-- **C60** The debug text of a motor error says its error number and its alert bit, so it identifies the error too. -/
theorem c60_motor_error_debug (e : MotorError) : ∃ s, Written 10 1 s (e.raw.toNat % 128) ∧
    e.debug = "MotorError { error_number: ".toList ++ s ++ ", alert: ".toList ++
      (if 128 ≤ e.raw.toNat then "true".toList else "false".toList) ++ " }".toList := by
  have key : ∀ b : Byte, (b &&& ~~~0x80#8).toNat = b.toNat % 128 ∧ (b &&& 0x80#8 != 0#8) = decide (128 ≤ b.toNat) := by decide
  obtain ⟨h1, h2⟩ := key e.raw
  refine ⟨_, decimal_written _, ?_⟩
  unfold MotorError.debug MotorError.alert MotorError.errorNumber
  rw [h1, h2]
  by_cases h : 128 ≤ e.raw.toNat
  · rw [if_pos h, if_pos (by simpa using h)]
  · rw [if_neg h, if_neg (by simpa using h)]

/-- **C60** The error of a buffer by itself says both sizes, and these identify it. -/
theorem c60_buffer_too_small (e e' : BufferTooSmall) :
    (∃ r t, Written 10 1 r e.requiredSize ∧ Written 10 1 t e.totalSize ∧
      e.display = "buffer is too small: need ".toList ++ r ++ " bytes, but the size is ".toList ++ t) ∧
    (e.display = e'.display → e = e') := by
  refine ⟨⟨_, _, decimal_written _, decimal_written _, rfl⟩, fun h => ?_⟩
  obtain ⟨r, t⟩ := e
  obtain ⟨r', t'⟩ := e'
  have bytes : ∀ r : List Char, Stops (" bytes, but the size is ".toList ++ r) := fun r => stops_cons (c := ' ') (by decide)
  obtain ⟨rfl, rfl⟩ := two_numbers (by decide) (decimal_written _) (decimal_written _) (decimal_written _) (decimal_written _) bytes h
  rfl

/-- What the texts look like. A byte below 16 has one digit: the `2` in the format string includes `0x`. -/
example : TransferError.display (fun _ => []) (.readError (.motorError ⟨0x05#8⟩)) = "motor reported error status: 0x5".toList ∧
    TransferError.display (fun _ => []) (.readError (.motorError ⟨0x85#8⟩)) = "motor reported error status: 0x85".toList ∧
    TransferError.display (fun _ => []) (.readError (.invalidMessage (.headerPrefix
      ⟨[0xFF#8, 0x0A#8, 0xFD#8, 0#8], [0xFF#8, 0xFF#8, 0xFD#8, 0#8]⟩))) =
      "invalid header prefix, expected [FF, FF, FD, 00], got [FF, 0A, FD, 00]".toList ∧
    TransferError.display (fun _ => []) (.readError (.invalidMessage (.checksum 0xABC#16 0#16))) =
      "invalid checksum, message claims 0xABC, computed 0x0".toList ∧
    TransferError.display (fun _ => []) (.readError (.invalidMessage (.parameterCount 1205 (.max 8)))) =
      "invalid parameter count, expected at most 8, got 1205".toList ∧
    MotorError.debug ⟨0x85#8⟩ = "MotorError { error_number: 5, alert: true }".toList := by
  decide +kernel

example : FourBytes (.readError (.invalidMessage (.headerPrefix ⟨[0xFF#8, 0x0A#8, 0xFD#8, 0#8], [0xFF#8, 0xFF#8, 0xFD#8, 0#8]⟩))) ∧
    FourBytes (.writeError (.write .timedOut)) := ⟨⟨rfl, rfl⟩, trivial⟩

/-! ## The theorems on concrete cases -/

/-- Texts for the errors of the system. -/
def ioNames : IoErr → List Char
  | .timedOut => "timed out".toList
  | .other n => 'e' :: Fmt.decimal n

theorem ioNames_inj (a b : IoErr) (h : ioNames a = ioNames b) : a = b := by
  have stops : Stops [] := fun _ h => nomatch h
  match a, b with
  | .timedOut, .timedOut => rfl
  | .timedOut, .other _ => cases h
  | .other _, .timedOut => cases h
  | .other n, .other m =>
    have h : Fmt.decimal n ++ [] = Fmt.decimal m ++ [] := by rw [(List.cons.inj h).2]
    rw [(written_cancel (by decide) (decimal_written n) (decimal_written m) stops stops h).1]

example := c60_text ioNames (.readError (.motorError ⟨0x85#8⟩)) trivial
example := c60_identifies ioNames_inj (c60_text ioNames (.writeError (.write (.other 5))) trivial)
  (c60_text ioNames (.writeError (.write (.other 5))) trivial)
example := c60_injective ioNames_inj (e := .writeError (.write (.other 5))) (e' := .writeError (.write (.other 5))) trivial trivial rfl

end Dxl.Props
