import Verif.Model.Convert

/-! # C79: converting an error loses nothing -/

namespace Dxl.Props

/-- What went wrong, whichever type says it. -/
inductive Fact where
  | tooSmall (required total : Nat)
  | header (actual expected : List Byte)
  | checksum (message computed : U16)
  | packetId (actual : Byte) (expected : Option Byte)
  | instruction (actual expected : Byte)
  | count (actual : Nat) (expected : ExpectedCount)
  | motor (status : Byte)
  | discard (e : IoErr)
  | write (e : IoErr)
  | read (e : IoErr)
  deriving DecidableEq

/-- What goes wrong with a message. -/
inductive MessageSays : InvalidMessage → Fact → Prop
  | header (actual expected) : MessageSays (.headerPrefix ⟨actual, expected⟩) (.header actual expected)
  | checksum (message computed) : MessageSays (.checksum message computed) (.checksum message computed)
  | packetId (actual expected) : MessageSays (.packetId actual expected) (.packetId actual (some expected))
  | anyPacketId (actual) : MessageSays (.unexpectedPacketId actual) (.packetId actual none)
  | instruction (actual expected) : MessageSays (.instruction actual expected) (.instruction actual expected)
  | count (actual expected) : MessageSays (.parameterCount actual expected) (.count actual expected)

/-- What goes wrong on writing. -/
inductive WriteSays : WriteError → Fact → Prop
  | tooSmall (required total) : WriteSays (.bufferTooSmall ⟨required, total⟩) (.tooSmall required total)
  | discard (e) : WriteSays (.discardBuffer e) (.discard e)
  | write (e) : WriteSays (.write e) (.write e)

/-- What goes wrong on reading. -/
inductive ReadSays : ReadError → Fact → Prop
  | tooSmall (required total) : ReadSays (.bufferFull ⟨required, total⟩) (.tooSmall required total)
  | io (e) : ReadSays (.io e) (.read e)
  | message {e fact} (h : MessageSays e fact) : ReadSays (.invalidMessage e) fact
  | motor (status) : ReadSays (.motorError ⟨status⟩) (.motor status)

/-- What an error says. -/
inductive States : AnyError → Fact → Prop
  | tooSmall (required total) : States (.tooSmall ⟨required, total⟩) (.tooSmall required total)
  | header (actual expected) : States (.header ⟨actual, expected⟩) (.header actual expected)
  | checksum (message computed) : States (.checksum ⟨message, computed⟩) (.checksum message computed)
  | packetId (actual expected) : States (.packetId ⟨actual, expected⟩) (.packetId actual expected)
  | instruction (actual expected) : States (.instruction ⟨actual, expected⟩) (.instruction actual expected)
  | count (actual expected) : States (.count ⟨actual, expected⟩) (.count actual expected)
  | motor (status) : States (.motor ⟨status⟩) (.motor status)
  | message {e fact} (h : MessageSays e fact) : States (.message e) fact
  | write {e fact} (h : WriteSays e fact) : States (.write e) fact
  | read {e fact} (h : ReadSays e fact) : States (.read e) fact
  | sent {e fact} (h : WriteSays e fact) : States (.transfer (.writeError e)) fact
  | received {e fact} (h : ReadSays e fact) : States (.transfer (.readError e)) fact

/-- The direction of an error: `false` for sending, `true` for receiving. Nothing is said by an error about a buffer. -/
def direction : AnyError → Option Bool
  | .tooSmall _ => none
  | .write _ | .transfer (.writeError _) => some false
  | _ => some true

/-- The types of errors. -/
inductive ErrorType where
  | tooSmall | header | checksum | packetId | instruction | count | motor | message | write | read | transfer
  deriving DecidableEq

/-- The type of an error. -/
def errorType : AnyError → ErrorType
  | .tooSmall _ => .tooSmall
  | .header _ => .header
  | .checksum _ => .checksum
  | .packetId _ => .packetId
  | .instruction _ => .instruction
  | .count _ => .count
  | .motor _ => .motor
  | .message _ => .message
  | .write _ => .write
  | .read _ => .read
  | .transfer _ => .transfer

/-- One error becomes another by converting any number of times. -/
inductive Becomes : AnyError → AnyError → Prop
  | same (a) : Becomes a a
  | more {a b c} (h : Becomes a b) (next : Converts b c) : Becomes a c

theorem says_converts {a b : AnyError} {fact : Fact} (h : Converts a b) (hs : States a fact) : States b fact := by
  cases h with
  | messageOfPacketId e =>
    obtain ⟨actual, expected⟩ := e
    cases hs
    cases expected
    · exact .message (.anyPacketId _)
    · exact .message (.packetId _ _)
  | readOfPacketId e =>
    obtain ⟨actual, expected⟩ := e
    cases hs
    cases expected
    · exact .read (.message (.anyPacketId _))
    · exact .read (.message (.packetId _ _))
  | transferOfPacketId e =>
    obtain ⟨actual, expected⟩ := e
    cases hs
    cases expected
    · exact .received (.message (.anyPacketId _))
    · exact .received (.message (.packetId _ _))
  | messageOfHeader e => cases hs; exact .message (.header _ _)
  | messageOfChecksum e => cases hs; exact .message (.checksum _ _)
  | messageOfInstruction e => cases hs; exact .message (.instruction _ _)
  | messageOfCount e => cases hs; exact .message (.count _ _)
  | writeOfTooSmall e => cases hs; exact .write (.tooSmall _ _)
  | readOfTooSmall e => cases hs; exact .read (.tooSmall _ _)
  | readOfMessage e => cases hs with | message h => exact .read (.message h)
  | readOfMotor e => cases hs; exact .read (.motor _)
  | readOfHeader e => cases hs; exact .read (.message (.header _ _))
  | readOfChecksum e => cases hs; exact .read (.message (.checksum _ _))
  | readOfInstruction e => cases hs; exact .read (.message (.instruction _ _))
  | readOfCount e => cases hs; exact .read (.message (.count _ _))
  | transferOfWrite e => cases hs with | write h => exact .sent h
  | transferOfRead e => cases hs with | read h => exact .received h
  | transferOfMessage e => cases hs with | message h => exact .received (.message h)
  | transferOfMotor e => cases hs; exact .received (.motor _)
  | transferOfHeader e => cases hs; exact .received (.message (.header _ _))
  | transferOfChecksum e => cases hs; exact .received (.message (.checksum _ _))
  | transferOfInstruction e => cases hs; exact .received (.message (.instruction _ _))
  | transferOfCount e => cases hs; exact .received (.message (.count _ _))

theorem messageSays_exists (e : InvalidMessage) : ∃ fact, MessageSays e fact := by
  cases e with
  | headerPrefix e => exact ⟨_, .header e.actual e.expected⟩
  | checksum => exact ⟨_, .checksum _ _⟩
  | packetId => exact ⟨_, .packetId _ _⟩
  | unexpectedPacketId => exact ⟨_, .anyPacketId _⟩
  | instruction => exact ⟨_, .instruction _ _⟩
  | parameterCount => exact ⟨_, .count _ _⟩

theorem writeSays_exists (e : WriteError) : ∃ fact, WriteSays e fact := by
  cases e with
  | bufferTooSmall e => exact ⟨_, .tooSmall e.requiredSize e.totalSize⟩
  | discardBuffer => exact ⟨_, .discard _⟩
  | write => exact ⟨_, .write _⟩

theorem readSays_exists (e : ReadError) : ∃ fact, ReadSays e fact := by
  cases e with
  | bufferFull e => exact ⟨_, .tooSmall e.requiredSize e.totalSize⟩
  | io => exact ⟨_, .io _⟩
  | invalidMessage e => obtain ⟨fact, h⟩ := messageSays_exists e; exact ⟨fact, .message h⟩
  | motorError e => exact ⟨_, .motor e.raw⟩

/-- Every error says something. -/
theorem says_exists (e : AnyError) : ∃ fact, States e fact := by
  cases e with
  | tooSmall e => exact ⟨_, .tooSmall e.requiredSize e.totalSize⟩
  | header e => exact ⟨_, .header e.actual e.expected⟩
  | checksum e => exact ⟨_, .checksum e.message e.computed⟩
  | packetId e => exact ⟨_, .packetId e.actual e.expected⟩
  | instruction e => exact ⟨_, .instruction e.actual e.expected⟩
  | count e => exact ⟨_, .count e.actual e.expected⟩
  | motor e => exact ⟨_, .motor e.raw⟩
  | message e => obtain ⟨fact, h⟩ := messageSays_exists e; exact ⟨fact, .message h⟩
  | write e => obtain ⟨fact, h⟩ := writeSays_exists e; exact ⟨fact, .write h⟩
  | read e => obtain ⟨fact, h⟩ := readSays_exists e; exact ⟨fact, .read h⟩
  | transfer e =>
    cases e with
    | writeError e => obtain ⟨fact, h⟩ := writeSays_exists e; exact ⟨fact, .sent h⟩
    | readError e => obtain ⟨fact, h⟩ := readSays_exists e; exact ⟨fact, .received h⟩

theorem messageSays_inj {a b : InvalidMessage} {fact : Fact} (ha : MessageSays a fact) (hb : MessageSays b fact) : a = b := by
  cases ha <;> cases hb <;> rfl

theorem writeSays_inj {a b : WriteError} {fact : Fact} (ha : WriteSays a fact) (hb : WriteSays b fact) : a = b := by
  cases ha <;> cases hb <;> rfl

theorem readSays_inj {a b : ReadError} {fact : Fact} (ha : ReadSays a fact) (hb : ReadSays b fact) : a = b := by
  cases ha with
  | tooSmall => cases hb with | tooSmall => rfl | message h => cases h
  | io => cases hb with | io => rfl | message h => cases h
  | motor => cases hb with | motor => rfl | message h => cases h
  | message h =>
    cases hb with
    | message h' => rw [messageSays_inj h h']
    | _ => cases h

/-- **C79** An error of a given type and direction is known from what it says. -/
theorem c79_known {a b : AnyError} {fact : Fact} (ha : States a fact) (hb : States b fact) (ht : errorType a = errorType b)
    (hd : direction a = direction b) : a = b := by
  cases ha <;> cases hb <;> cases ht <;> first
    | rfl
    | (exfalso; revert hd; simp [direction]; done)
    | (rename_i h _ h'; rw [messageSays_inj h h'])
    | (rename_i h _ h'; rw [writeSays_inj h h'])
    | (rename_i h _ h'; rw [readSays_inj h h'])

/-- **C79** Converting changes nothing in what an error says. -/
theorem c79_says {a b : AnyError} {fact : Fact} (h : Becomes a b) : States a fact ↔ States b fact := by
  have forth : ∀ {a b : AnyError} {fact : Fact}, Becomes a b → States a fact → States b fact := by
    intro a b fact h hs
    induction h with
    | same => exact hs
    | more _ next ih => exact says_converts next ih
  refine ⟨forth h, fun hs => ?_⟩
  obtain ⟨other, ho⟩ := says_exists a
  have hb := forth h ho
  have : other = fact := by
    clear forth h ho
    cases hs <;> cases hb <;> first
      | rfl
      | (rename_i h h'; cases h <;> cases h' <;> first | rfl | (rename_i h h'; cases h <;> cases h' <;> rfl))
  rw [← this]
  exact ho

theorem direction_converts {a b : AnyError} {d : Bool} (h : Converts a b) (hd : direction a = some d) :
    direction b = some d := by
  cases h <;> first | exact hd | cases hd

/-- **C79** An error about sending stays one, and so does an error about receiving. -/
theorem c79_direction {a b : AnyError} {d : Bool} (h : Becomes a b) (hd : direction a = some d) : direction b = some d := by
  induction h with
  | same => exact hd
  | more _ next ih => exact direction_converts next ih

theorem direction_exists {a : AnyError} (h : errorType a ≠ .tooSmall) : ∃ d, direction a = some d := by
  cases a with
  | tooSmall => exact absurd rfl h
  | transfer e => cases e <;> exact ⟨_, rfl⟩
  | _ => exact ⟨_, rfl⟩

/-- **C79** Whatever conversions are used to get from an error to a type, the result is the same. The one exception is an
error about a buffer, which can be about either direction. -/
theorem c79_same_result {a b c : AnyError} (hb : Becomes a b) (hc : Becomes a c) (ht : errorType b = errorType c)
    (ha : errorType a ≠ .tooSmall ∨ direction b = direction c) : b = c := by
  obtain ⟨fact, hs⟩ := says_exists a
  refine c79_known ((c79_says hb).1 hs) ((c79_says hc).1 hs) ht ?_
  rcases ha with ha | ha
  · obtain ⟨d, hd⟩ := direction_exists ha
    rw [c79_direction hb hd, c79_direction hc hd]
  · exact ha

/-- **C79** Different errors of one type stay different. -/
theorem c79_distinct {a b c : AnyError} (ha : Becomes a c) (hb : Becomes b c) (ht : errorType a = errorType b) : a = b := by
  obtain ⟨fact, hs⟩ := says_exists c
  refine c79_known ((c79_says ha).2 hs) ((c79_says hb).2 hs) ht ?_
  by_cases h : errorType a = .tooSmall
  · cases a <;> cases h
    cases b <;> cases ht
    rfl
  · obtain ⟨d, hd⟩ := direction_exists h
    obtain ⟨d', hd'⟩ := direction_exists (a := b) (ht ▸ h)
    have h1 := c79_direction ha hd
    have h2 := c79_direction hb hd'
    rw [hd, hd', ← h1, ← h2]

/-- **C79** One conversion does what several do, except for an error about a buffer. -/
theorem c79_direct {a b : AnyError} (h : Becomes a b) : b = a ∨ Converts a b ∨ errorType a = .tooSmall := by
  induction h with
  | same => exact .inl rfl
  | more _ next ih =>
    rcases ih with rfl | ih | ih
    · exact .inr (.inl next)
    · cases ih <;> first
        | exact .inr (.inr rfl)
        | (refine .inr (.inl ?_); cases next <;> constructor)
        | cases next
    · exact .inr (.inr ih)

theorem text_converts (io : IoErr → List Char) {a b : AnyError} (h : Converts a b) (ha : errorType a ≠ .tooSmall) :
    b.display io = a.display io := by
  cases h with
  | messageOfPacketId e => obtain ⟨_, _ | _⟩ := e <;> rfl
  | readOfPacketId e => obtain ⟨_, _ | _⟩ := e <;> rfl
  | transferOfPacketId e => obtain ⟨_, _ | _⟩ := e <;> rfl
  | writeOfTooSmall => exact absurd rfl ha
  | readOfTooSmall => exact absurd rfl ha
  | _ => rfl

theorem type_converts {a b : AnyError} (h : Converts a b) : errorType b ≠ .tooSmall := by
  cases h <;> intro h <;> cases h

theorem writeText (io : IoErr → List Char) (e : BufferTooSmall) :
    (AnyError.write (Convert.writeOfTooSmall e)).display io = "write ".toList ++ (AnyError.tooSmall e).display io := by
  have split : "write buffer is too small: need ".toList = "write ".toList ++ "buffer is too small: need ".toList := by
    decide +kernel
  unfold AnyError.display Convert.writeOfTooSmall WriteError.display BufferTooSmall.display
  dsimp only
  rw [split]
  simp only [List.append_assoc]

theorem readText (io : IoErr → List Char) (e : BufferTooSmall) :
    (AnyError.read (Convert.readOfTooSmall e)).display io = "read ".toList ++ (AnyError.tooSmall e).display io := by
  have split : "read buffer is too small: need ".toList = "read ".toList ++ "buffer is too small: need ".toList := by
    decide +kernel
  unfold AnyError.display Convert.readOfTooSmall ReadError.display BufferTooSmall.display
  dsimp only
  rw [split]
  simp only [List.append_assoc]

/-- **C79** Converting changes the text of an error only for one about a buffer, which then says of which direction. -/
theorem c79_text (io : IoErr → List Char) {a b : AnyError} (h : Becomes a b) :
    b.display io = a.display io ∨
      errorType a = .tooSmall ∧
        (direction b = some false ∧ b.display io = "write ".toList ++ a.display io ∨
          direction b = some true ∧ b.display io = "read ".toList ++ a.display io) := by
  induction h with
  | same => exact .inl rfl
  | @more b c h next ih =>
    by_cases hb : errorType b = .tooSmall
    · cases h with
      | same =>
        refine .inr ⟨hb, ?_⟩
        cases next with
        | writeOfTooSmall e => exact .inl ⟨rfl, writeText io e⟩
        | readOfTooSmall e => exact .inr ⟨rfl, readText io e⟩
        | _ => simp [errorType] at hb
      | more _ before => exact absurd hb (type_converts before)
    · rw [text_converts io next hb]
      rcases ih with ih | ⟨h1, ⟨h2, h3⟩ | ⟨h2, h3⟩⟩
      · exact .inl ih
      · exact .inr ⟨h1, .inl ⟨direction_converts next h2, h3⟩⟩
      · exact .inr ⟨h1, .inr ⟨direction_converts next h2, h3⟩⟩

/-- **C79** Every error becomes a `TransferError`, and one about a buffer does so for either direction. -/
theorem c79_all_become (a : AnyError) (d : Bool) (hd : errorType a = .tooSmall ∨ direction a = some d) :
    ∃ b, Becomes a b ∧ errorType b = .transfer ∧ direction b = some d := by
  cases a with
  | tooSmall e =>
    cases d
    · exact ⟨_, .more (.more (.same _) (.writeOfTooSmall e)) (.transferOfWrite _), rfl, rfl⟩
    · exact ⟨_, .more (.more (.same _) (.readOfTooSmall e)) (.transferOfRead _), rfl, rfl⟩
  | header e => rcases hd with hd | hd <;> cases hd; exact ⟨_, .more (.same _) (.transferOfHeader e), rfl, rfl⟩
  | checksum e => rcases hd with hd | hd <;> cases hd; exact ⟨_, .more (.same _) (.transferOfChecksum e), rfl, rfl⟩
  | packetId e => rcases hd with hd | hd <;> cases hd; exact ⟨_, .more (.same _) (.transferOfPacketId e), rfl, rfl⟩
  | instruction e => rcases hd with hd | hd <;> cases hd; exact ⟨_, .more (.same _) (.transferOfInstruction e), rfl, rfl⟩
  | count e => rcases hd with hd | hd <;> cases hd; exact ⟨_, .more (.same _) (.transferOfCount e), rfl, rfl⟩
  | motor e => rcases hd with hd | hd <;> cases hd; exact ⟨_, .more (.same _) (.transferOfMotor e), rfl, rfl⟩
  | message e => rcases hd with hd | hd <;> cases hd; exact ⟨_, .more (.same _) (.transferOfMessage e), rfl, rfl⟩
  | write e => rcases hd with hd | hd <;> cases hd; exact ⟨_, .more (.same _) (.transferOfWrite e), rfl, rfl⟩
  | read e => rcases hd with hd | hd <;> cases hd; exact ⟨_, .more (.same _) (.transferOfRead e), rfl, rfl⟩
  | transfer e =>
    rcases hd with hd | hd
    · cases hd
    · exact ⟨_, .same _, rfl, hd⟩

/-- A packet of an unexpected motor, first as an error about a message and then as one about reading, is the same
`TransferError` as directly. -/
example : Becomes (.packetId ⟨7, some 3⟩) (.transfer (.readError (.invalidMessage (.packetId 7 3)))) :=
  .more (.more (.more (.same _) (.messageOfPacketId _)) (.readOfMessage _)) (.transferOfRead _)

example : Convert.transferOfPacketId ⟨7, some 3⟩ = .readError (.invalidMessage (.packetId 7 3)) := rfl

/-- A buffer that is too small can become either of two errors. -/
example : Becomes (.tooSmall ⟨14, 10⟩) (.transfer (.writeError (.bufferTooSmall ⟨14, 10⟩))) ∧
    Becomes (.tooSmall ⟨14, 10⟩) (.transfer (.readError (.bufferFull ⟨14, 10⟩))) :=
  ⟨.more (.more (.same _) (.writeOfTooSmall _)) (.transferOfWrite _),
    .more (.more (.same _) (.readOfTooSmall _)) (.transferOfRead _)⟩

/-- The text of the first of them. -/
example : (AnyError.transfer (.writeError (.bufferTooSmall ⟨14, 10⟩))).display (fun _ => []) =
    "write buffer is too small: need 14 bytes, but the size is 10".toList := by decide +kernel

/-! ## The theorems on these cases -/

/-- A wrong packet ID, reported by a call. -/
theorem wrongId_becomes : Becomes (.packetId ⟨7, some 3⟩) (.transfer (.readError (.invalidMessage (.packetId 7 3)))) :=
  .more (.more (.more (.same _) (.messageOfPacketId _)) (.readOfMessage _)) (.transferOfRead _)

/-- A buffer that is too small for a packet, reported by a call. -/
theorem tooSmall_becomes : Becomes (.tooSmall ⟨14, 10⟩) (.transfer (.writeError (.bufferTooSmall ⟨14, 10⟩))) :=
  .more (.more (.same _) (.writeOfTooSmall _)) (.transferOfWrite _)

example := c79_known (States.packetId 7 (some 3)) (States.packetId 7 (some 3)) rfl rfl
example := (c79_says (fact := .packetId 7 (some 3)) wrongId_becomes).1 (.packetId 7 (some 3))
example := c79_direction (d := true) wrongId_becomes rfl
example := c79_same_result wrongId_becomes wrongId_becomes rfl (.inl nofun)
example := c79_same_result tooSmall_becomes tooSmall_becomes rfl (.inr rfl)
example := c79_distinct wrongId_becomes wrongId_becomes rfl
example := c79_direct wrongId_becomes
example := c79_text (fun _ => []) tooSmall_becomes

end Dxl.Props
