import Verif.Lemmas.DebugText
import Verif.Spec.Template
import Verif.Props.Send

/-! # C92: what `{:?}` and `{:#?}` say about a value -/

namespace Dxl.Props
open Spec

/-! ## Templates -/

/-- A template with the gaps filledForm in. -/
def filledForm : List FormPart → List Char
  | [] => []
  | .lit l :: ps => l.toList ++ filledForm ps
  | .nat n :: ps => Fmt.decimal n ++ filledForm ps
  | .nats ns :: ps => ('[' :: List.intercalate [',', ' '] (ns.map Fmt.decimal)) ++ ']' :: filledForm ps
  | .flag b :: ps => (if b then "true".toList else "false".toList) ++ filledForm ps

theorem filledForm_fills (ps : List FormPart) : FillsForm ps (filledForm ps) := by
  induction ps with
  | nil => exact .nil
  | cons p ps ih =>
    cases p with
    | lit l => exact .lit ih
    | nat n => exact .nat (decimal_written n) ih
    | nats ns =>
      refine .nats ?_ ih
      induction ns with
      | nil => exact .nil
      | cons n ns ih => exact .cons (decimal_written n) ih
    | flag b => cases b with
      | true => exact .yes ih
      | false => exact .no ih

theorem number_nat (n : Nat) : Dbg.number (n : Int) = Fmt.decimal n := by
  unfold Dbg.number
  rw [if_neg (by omega)]
  rfl

theorem text_byte (b : Byte) : (Dbg.byte b).text = Fmt.decimal b.toNat := by simp [Dbg.byte, Dbg.text, number_nat]

theorem text_word (w : U16) : (Dbg.word w).text = Fmt.decimal w.toNat := by simp [Dbg.word, Dbg.text, number_nat]

theorem text_flag (b : Bool) : (Dbg.flag b).text = if b then "true".toList else "false".toList := by
  cases b <;> simp [Dbg.flag, Dbg.text]

theorem text_bytes (bs : List Byte) :
    (Dbg.bytes bs).text = '[' :: (List.intercalate [',', ' '] ((bs.map (·.toNat)).map Fmt.decimal) ++ [']']) := by
  have after : ∀ (bs : List Byte) (s : List Char), s ++ Dbg.entriesAfter (bs.map Dbg.byte) =
      List.intercalate [',', ' '] (s :: (bs.map (·.toNat)).map Fmt.decimal) := by
    intro bs
    induction bs with
    | nil => intro s; simp [Dbg.entriesAfter]
    | cons b bs ih =>
      intro s
      have := ih (Fmt.decimal b.toNat)
      simp only [List.map_cons, Dbg.entriesAfter, text_byte, List.intercalate_cons_cons]
      rw [this]
      simp
  cases bs with
  | nil => simp [Dbg.bytes, Dbg.text, Dbg.entries]
  | cons b bs =>
    simp only [Dbg.bytes, List.map_cons, Dbg.text, Dbg.entries, text_byte]
    rw [after bs (Fmt.decimal b.toNat)]

/-- C92: the text of an invalid message. -/
def messageForm : InvalidMessage → List FormPart
  | .headerPrefix e => [.lit "InvalidHeaderPrefix(InvalidHeaderPrefix { actual: ", .nats (e.actual.map (·.toNat)), .lit ", expected: ",
      .nats (e.expected.map (·.toNat)), .lit " })"]
  | .checksum message computed => [.lit "InvalidChecksum(InvalidChecksum { message: ", .nat message.toNat, .lit ", computed: ",
      .nat computed.toNat, .lit " })"]
  | .packetId actual expected => [.lit "InvalidPacketId(InvalidPacketId { actual: ", .nat actual.toNat, .lit ", expected: Some(",
      .nat expected.toNat, .lit ") })"]
  | .unexpectedPacketId actual => [.lit "InvalidPacketId(InvalidPacketId { actual: ", .nat actual.toNat, .lit ", expected: None })"]
  | .instruction actual expected => [.lit "InvalidInstruction(InvalidInstruction { actual: ", .nat actual.toNat, .lit ", expected: ",
      .nat expected.toNat, .lit " })"]
  | .parameterCount actual (.exact n) => [.lit "InvalidParameterCount(InvalidParameterCount { actual: ", .nat actual,
      .lit ", expected: Exact(", .nat n, .lit ") })"]
  | .parameterCount actual (.max n) => [.lit "InvalidParameterCount(InvalidParameterCount { actual: ", .nat actual,
      .lit ", expected: Max(", .nat n, .lit ") })"]
  | .parameterCount actual (.min n) => [.lit "InvalidParameterCount(InvalidParameterCount { actual: ", .nat actual,
      .lit ", expected: Min(", .nat n, .lit ") })"]

theorem message_filled (e : InvalidMessage) : e.tree.text = filledForm (messageForm e) := by
  cases e with
  | headerPrefix e =>
    simp [InvalidMessage.tree, InvalidHeaderPrefix.tree, messageForm, filledForm, Dbg.text, Dbg.fields, Dbg.entriesAfter, text_bytes]
  | checksum => simp [InvalidMessage.tree, InvalidChecksum.tree, messageForm, filledForm, Dbg.text, Dbg.fields, Dbg.entriesAfter, text_word]
  | packetId =>
    simp [InvalidMessage.tree, InvalidPacketId.tree, messageForm, filledForm, Dbg.text, Dbg.fields, Dbg.entriesAfter, text_byte, Dbg.option]
  | unexpectedPacketId =>
    simp [InvalidMessage.tree, InvalidPacketId.tree, messageForm, filledForm, Dbg.text, Dbg.fields, Dbg.entriesAfter, text_byte, Dbg.option]
  | instruction =>
    simp [InvalidMessage.tree, InvalidInstruction.tree, messageForm, filledForm, Dbg.text, Dbg.fields, Dbg.entriesAfter, text_byte]
  | parameterCount actual expected =>
    cases expected <;> simp [InvalidMessage.tree, InvalidParameterCount.tree, ExpectedCount.tree, messageForm, filledForm, Dbg.text,
      Dbg.fields, Dbg.entriesAfter, number_nat]

/-- C92: the text of an error of a transfer, with `io` the texts of the errors of the serial port. -/
def errorForm (io : IoErr → String) : TransferError → List FormPart
  | .writeError (.bufferTooSmall e) => [.lit "WriteError(BufferTooSmall(BufferTooSmallError { required_size: ", .nat e.requiredSize,
      .lit ", total_size: ", .nat e.totalSize, .lit " }))"]
  | .writeError (.discardBuffer e) => [.lit "WriteError(DiscardBuffer(", .lit (io e), .lit "))"]
  | .writeError (.write e) => [.lit "WriteError(Write(", .lit (io e), .lit "))"]
  | .readError (.bufferFull e) => [.lit "ReadError(BufferFull(BufferTooSmallError { required_size: ", .nat e.requiredSize,
      .lit ", total_size: ", .nat e.totalSize, .lit " }))"]
  | .readError (.io e) => [.lit "ReadError(Io(", .lit (io e), .lit "))"]
  | .readError (.invalidMessage e) => .lit "ReadError(InvalidMessage(" :: (messageForm e ++ [.lit "))"])
  | .readError (.motorError e) => [.lit "ReadError(MotorError(MotorError { error_number: ", .nat (e.raw.toNat % 128), .lit ", alert: ",
      .flag (decide (128 ≤ e.raw.toNat)), .lit " }))"]

theorem filled_append (ps qs : List FormPart) : filledForm (ps ++ qs) = filledForm ps ++ filledForm qs := by
  induction ps with
  | nil => rfl
  | cons p ps ih => cases p <;> simp [filledForm, ih]

theorem motor_error_number (e : MotorError) : e.errorNumber.toNat = e.raw.toNat % 128 := by
  unfold MotorError.errorNumber
  generalize e.raw = x
  revert x
  decide +kernel

theorem motor_error_alert (e : MotorError) : e.alert = decide (128 ≤ e.raw.toNat) := by
  unfold MotorError.alert
  generalize e.raw = x
  revert x
  decide +kernel

/-- C92: the text of an error for `{:?}` is the Rust expression for it, with all names and values. -/
theorem c92_error_text (io : IoErr → String) (pretty : IoErr → List Char) (e : TransferError) :
    FillsForm (errorForm io e) (e.tree fun i => ((io i).toList, pretty i)).text := by
  have h : (e.tree fun i => ((io i).toList, pretty i)).text = filledForm (errorForm io e) := by
    cases e with
    | writeError e =>
      cases e <;> simp [TransferError.tree, WriteError.tree, BufferTooSmall.tree, errorForm, filledForm, Dbg.text, Dbg.fields,
        Dbg.entriesAfter, number_nat, Dbg.outside]
    | readError e =>
      cases e with
      | bufferFull => simp [TransferError.tree, ReadError.tree, BufferTooSmall.tree, errorForm, filledForm, Dbg.text, Dbg.fields,
          Dbg.entriesAfter, number_nat]
      | io => simp [TransferError.tree, ReadError.tree, errorForm, filledForm, Dbg.text, Dbg.entriesAfter, Dbg.outside]
      | invalidMessage e =>
        simp [TransferError.tree, ReadError.tree, errorForm, filledForm, Dbg.text, Dbg.entriesAfter, message_filled, filled_append]
      | motorError e =>
        simp [TransferError.tree, ReadError.tree, MotorError.tree, errorForm, filledForm, Dbg.text, Dbg.fields, Dbg.entriesAfter,
          text_byte, text_flag, motor_error_number, motor_error_alert]
  rw [h]
  exact filledForm_fills _

/-- C92: the text of a response to a ping. -/
theorem c92_ping_text (r : Response Client.Ping) :
    FillsForm [.lit "Response { motor_id: ", .nat r.motorId.toNat, .lit ", alert: ", .flag r.alert, .lit ", data: Ping { model: ",
      .nat r.data.model.toNat, .lit ", firmware: ", .nat r.data.firmware.toNat, .lit " } }"] (r.tree Client.Ping.tree).text := by
  have h : (r.tree Client.Ping.tree).text = filledForm [.lit "Response { motor_id: ", .nat r.motorId.toNat, .lit ", alert: ",
      .flag r.alert, .lit ", data: Ping { model: ", .nat r.data.model.toNat, .lit ", firmware: ", .nat r.data.firmware.toNat,
      .lit " } }"] := by
    simp [Response.tree, Client.Ping.tree, filledForm, Dbg.text, Dbg.fields, text_byte, text_word, text_flag]
  rw [h]
  exact filledForm_fills _

/-- C92: the text of a response with bytes. -/
theorem c92_bytes_text (r : Response (List Byte)) :
    FillsForm [.lit "Response { motor_id: ", .nat r.motorId.toNat, .lit ", alert: ", .flag r.alert, .lit ", data: ",
      .nats (r.data.map (·.toNat)), .lit " }"] (r.tree Dbg.bytes).text := by
  have h : (r.tree Dbg.bytes).text = filledForm [.lit "Response { motor_id: ", .nat r.motorId.toNat, .lit ", alert: ", .flag r.alert,
      .lit ", data: ", .nats (r.data.map (·.toNat)), .lit " }"] := by
    simp [Response.tree, filledForm, Dbg.text, Dbg.fields, text_byte, text_bytes, text_flag]
  rw [h]
  exact filledForm_fills _

/-- C92: the text of an instruction received by a device. -/
def instructionForm : Instructions → List FormPart
  | .ping => [.lit "Ping"]
  | .read address length => [.lit "Read { address: ", .nat address.toNat, .lit ", length: ", .nat length.toNat, .lit " }"]
  | .write address parameters => [.lit "Write { address: ", .nat address.toNat, .lit ", parameters: ",
      .nats (parameters.map (·.toNat)), .lit " }"]
  | .regWrite address parameters => [.lit "RegWrite { address: ", .nat address.toNat, .lit ", parameters: ",
      .nats (parameters.map (·.toNat)), .lit " }"]
  | .action => [.lit "Action"]
  | .factoryReset .all => [.lit "FactoryReset(All)"]
  | .factoryReset .exceptId => [.lit "FactoryReset(ExceptId)"]
  | .factoryReset .exceptIdBaudRate => [.lit "FactoryReset(ExceptIdBaudRate)"]
  | .factoryReset (.unknown p) => [.lit "FactoryReset(Unknown(", .nat p.toNat, .lit "))"]
  | .reboot => [.lit "Reboot"]
  | .clear .multiTurns => [.lit "Clear(MultiTurns)"]
  | .clear .errors => [.lit "Clear(Errors)"]
  | .clear (.reserved p) => [.lit "Clear(Reserved(", .nat p.toNat, .lit "))"]
  | .syncRead address length ids => [.lit "SyncRead { address: ", .nat address.toNat, .lit ", length: ", .nat length.toNat,
      .lit ", ids: ", .nats (ids.map (·.toNat)), .lit " }"]
  | .syncWrite address length parameters => [.lit "SyncWrite { address: ", .nat address.toNat, .lit ", length: ", .nat length.toNat,
      .lit ", parameters: ", .nats (parameters.map (·.toNat)), .lit " }"]
  | .bulkRead parameters => [.lit "BulkRead { parameters: ", .nats (parameters.map (·.toNat)), .lit " }"]
  | .bulkWrite parameters => [.lit "BulkWrite { parameters: ", .nats (parameters.map (·.toNat)), .lit " }"]
  | .unknown instruction parameters => [.lit "Unknown { instruction: ", .nat instruction.toNat, .lit ", parameters: ",
      .nats (parameters.map (·.toNat)), .lit " }"]

/-- C92: the text of an instruction received by a device. -/
theorem c92_instruction_text (i : Instruction) :
    FillsForm (.lit "Instruction { id: " :: .nat i.id.toNat :: .lit ", instruction: " :: (instructionForm i.instruction ++ [.lit " }"]))
      i.tree.text := by
  have h : i.instruction.tree.text = filledForm (instructionForm i.instruction) := by
    cases i.instruction with
    | factoryReset kind =>
      cases kind <;> simp [Instructions.tree, FactoryReset.tree, instructionForm, filledForm, Dbg.text, Dbg.entriesAfter, text_byte]
    | clear kind =>
      cases kind <;> simp [Instructions.tree, Clear.tree, instructionForm, filledForm, Dbg.text, Dbg.entriesAfter, text_byte]
    | _ => simp [Instructions.tree, instructionForm, filledForm, Dbg.text, Dbg.fields, text_byte, text_word, text_bytes]
  have h' : i.tree.text = filledForm (.lit "Instruction { id: " :: .nat i.id.toNat :: .lit ", instruction: " ::
      (instructionForm i.instruction ++ [.lit " }"])) := by
    simp [Instruction.tree, filledForm, filled_append, Dbg.text, Dbg.fields, text_byte, h]
  rw [h']
  exact filledForm_fills _

/-- C92: the texts of the data for group instructions, of the packets and of the kinds of factory reset. -/
theorem c92_data_text (motorId : Byte) (address count : U16) (data : List Byte) :
    FillsForm [.lit "BulkReadData { motor_id: ", .nat motorId.toNat, .lit ", address: ", .nat address.toNat, .lit ", count: ",
      .nat count.toNat, .lit " }"] (BulkReadData.mk motorId address count).tree.text ∧
    FillsForm [.lit "BulkWriteData { motor_id: ", .nat motorId.toNat, .lit ", address: ", .nat address.toNat, .lit ", data: ",
      .nats (data.map (·.toNat)), .lit " }"] (BulkWriteData.mk motorId address data).tree.text ∧
    FillsForm [.lit "SyncWriteData { motor_id: ", .nat motorId.toNat, .lit ", data: ", .nats (data.map (·.toNat)), .lit " }"]
      ((SyncWriteData.mk motorId data).tree Dbg.bytes).text ∧
    FillsForm [.lit "Packet { data: ", .nats (data.map (·.toNat)), .lit " }"] (Packet.mk data).tree.text ∧
    FillsForm [.lit "StatusPacket { packet: Packet { data: ", .nats (data.map (·.toNat)), .lit " } }"]
      (StatusPacket.mk ⟨data⟩).tree.text ∧
    FillsForm [.lit "InstructionPacket { packet: Packet { data: ", .nats (data.map (·.toNat)), .lit " } }"]
      (InstructionPacket.mk ⟨data⟩).tree.text ∧
    FillsForm [.lit "ResetAll"] (Client.FactoryResetKind.tree .resetAll).text ∧
    FillsForm [.lit "KeepId"] (Client.FactoryResetKind.tree .keepId).text ∧
    FillsForm [.lit "KeepIdAndBaudRate"] (Client.FactoryResetKind.tree .keepIdAndBaudRate).text := by
  have of : ∀ {t : Dbg} {f : List FormPart}, t.text = filledForm f → FillsForm f t.text := fun h => h ▸ filledForm_fills _
  refine ⟨of ?_, of ?_, of ?_, of ?_, of ?_, of ?_, of ?_, of ?_, of ?_⟩ <;>
    simp [BulkReadData.tree, BulkWriteData.tree, SyncWriteData.tree, Packet.tree, StatusPacket.tree, InstructionPacket.tree,
      Client.FactoryResetKind.tree, filledForm, Dbg.text, Dbg.fields, text_byte, text_word, text_bytes]

/-- C92: the texts of a client, a device, a scan and the iterators, where `shown` is the text of the serial port. -/
theorem c92_handle_text (port : Port → List Char × List Char) (type shown : String) (b : Bus)
    (h : (port b.serialPort).1 = shown.toList) (ids : List Byte) (count : U16) (index : Nat) :
    FillsForm [.lit "Client { serial_port: ", .lit shown, .lit ", baud_rate: ", .nat b.baudRate, .lit ", .. }"]
      (Client.tree port b).text ∧
    FillsForm [.lit "Device { serial_port: ", .lit shown, .lit ", baud_rate: ", .nat b.baudRate, .lit ", .. }"]
      (Device.tree port b).text ∧
    FillsForm [.lit "Scan { serial_port: ", .lit shown, .lit " }"] (Scan.tree port b).text ∧
    FillsForm [.lit "SyncRead { serial_port: ", .lit shown, .lit ", motor_ids: ", .nats (ids.map (·.toNat)), .lit ", count: ",
      .nat count.toNat, .lit ", index: ", .nat index, .lit ", data: ", .lit type, .lit " }"]
      (SyncReadBytes.tree port type.toList ⟨b, count, ids, index⟩).text := by
  have of : ∀ {t : Dbg} {f : List FormPart}, t.text = filledForm f → FillsForm f t.text := fun h => h ▸ filledForm_fills _
  refine ⟨of ?_, of ?_, of ?_, of ?_⟩ <;>
    simp [Client.tree, Device.tree, Scan.tree, SyncReadBytes.tree, filledForm, Dbg.text, Dbg.fields, Dbg.outside, h, number_nat,
      text_word, text_bytes]

/-! ## Nothing is lost -/

/-- Values that print the same are the same, for `{:?}` and for `{:#?}`. -/
structure Tells {α : Type} (tree : α → Dbg) : Prop where
  plain : ∀ a b, (tree a).text = (tree b).text → a = b
  pretty : ∀ a b, (tree a).pretty = (tree b).pretty → a = b

theorem tells_of {α : Type} {tree : α → Dbg} (hw : ∀ a, (tree a).Wf) (hi : ∀ a b, tree a = tree b → a = b) : Tells tree :=
  ⟨fun a b h => hi a b (Dbg.text_inj (hw a) (hw b) h), fun a b h => hi a b (Dbg.pretty_inj (hw a) (hw b) h)⟩

theorem wf_byte (b : Byte) : (Dbg.byte b).Wf := trivial

theorem wf_word (w : U16) : (Dbg.word w).Wf := trivial

theorem wf_flag (b : Bool) : (Dbg.flag b).Wf := by
  cases b <;> simp only [Dbg.flag, Dbg.Wf, Dbg.WfAll] <;> exact ⟨by decide +kernel, trivial⟩

theorem wf_bytes (bs : List Byte) : (Dbg.bytes bs).Wf := by
  simp only [Dbg.bytes, Dbg.Wf]
  rw [Dbg.wfAll_iff]
  intro x hx
  obtain ⟨b, _, rfl⟩ := List.mem_map.mp hx
  exact wf_byte b

theorem byte_inj {a b : Byte} : Dbg.byte a = Dbg.byte b ↔ a = b := by
  constructor
  · intro h
    simp only [Dbg.byte, Dbg.num.injEq] at h
    exact BitVec.eq_of_toNat_eq (by omega)
  · rintro rfl; rfl

theorem word_inj {a b : U16} : Dbg.word a = Dbg.word b ↔ a = b := by
  constructor
  · intro h
    simp only [Dbg.word, Dbg.num.injEq] at h
    exact BitVec.eq_of_toNat_eq (by omega)
  · rintro rfl; rfl

theorem flag_inj {a b : Bool} : Dbg.flag a = Dbg.flag b ↔ a = b := by
  cases a <;> cases b <;> simp [Dbg.flag]

theorem bytes_inj {a b : List Byte} : Dbg.bytes a = Dbg.bytes b ↔ a = b := by
  constructor
  · intro h
    simp only [Dbg.bytes, Dbg.list.injEq] at h
    exact (List.map_inj_right fun _ _ => byte_inj.mp).mp h
  · rintro rfl; rfl

theorem num_inj {a b : Nat} : Dbg.num (a : Int) = Dbg.num (b : Int) ↔ a = b := by
  simp only [Dbg.num.injEq]
  omega

/-- A struct whose fields are fine is fine. -/
theorem wf_record {n : String} {ls : List String} {vs : List Dbg} {more : Bool} (hn : Dbg.Named n) (hl : ls.length = vs.length)
    (hs : ∀ l ∈ ls, Dbg.Named l) (hv : ∀ v ∈ vs, v.Wf) (hm : vs = [] → more = true) : (Dbg.record n ls vs more).Wf := by
  simp only [Dbg.Wf]
  exact ⟨hn, hl, hs, Dbg.wfAll_iff.mpr hv, hm⟩

theorem wf_tuple {n : String} {vs : List Dbg} (hn : Dbg.Named n) (hv : ∀ v ∈ vs, v.Wf) : (Dbg.tuple n vs).Wf := by
  simp only [Dbg.Wf]
  exact ⟨hn, Dbg.wfAll_iff.mpr hv⟩

theorem wf_too_small (e : BufferTooSmall) : e.tree.Wf :=
  wf_record (by decide +kernel) rfl (by decide +kernel) (by simp [Dbg.Wf]) (by simp)

theorem wf_motor_error (e : MotorError) : e.tree.Wf :=
  wf_record (by decide +kernel) rfl (by decide +kernel) (by simp [wf_byte, wf_flag]) (by simp)

theorem wf_option (o : Option Byte) : (Dbg.option o).Wf := by
  cases o
  · exact wf_tuple (by decide +kernel) (by simp)
  · exact wf_tuple (by decide +kernel) (by simp [wf_byte])

theorem wf_expected (e : ExpectedCount) : e.tree.Wf := by
  cases e <;> exact wf_tuple (by decide +kernel) (by simp [Dbg.Wf])

theorem wf_message (e : InvalidMessage) : e.tree.Wf := by
  cases e <;> refine wf_tuple (by decide +kernel) ?_ <;>
    simp only [List.mem_singleton, forall_eq, InvalidHeaderPrefix.tree, InvalidChecksum.tree, InvalidPacketId.tree,
      InvalidInstruction.tree, InvalidParameterCount.tree] <;>
    exact wf_record (by decide +kernel) rfl (by decide +kernel)
      (by simp [wf_byte, wf_word, wf_bytes, wf_option, wf_expected, Dbg.Wf]) (by simp)

theorem motor_tree_inj {e e' : MotorError} : e.tree = e'.tree → e = e' := by
  intro h
  simp only [MotorError.tree, Dbg.record.injEq, List.cons.injEq, true_and, and_true, byte_inj, flag_inj] at h
  obtain ⟨h1, h2⟩ := h
  have h1 := congrArg BitVec.toNat h1
  rw [motor_error_number, motor_error_number] at h1
  rw [motor_error_alert, motor_error_alert] at h2
  have := e.raw.isLt
  have := e'.raw.isLt
  cases e
  cases e'
  simp only [decide_eq_decide] at h1 h2
  simp only [MotorError.mk.injEq]
  exact BitVec.eq_of_toNat_eq (by simp only at *; omega)

theorem option_inj {a b : Option Byte} : Dbg.option a = Dbg.option b ↔ a = b := by
  cases a <;> cases b <;> simp [Dbg.option, byte_inj]

theorem expected_inj {a b : ExpectedCount} : a.tree = b.tree ↔ a = b := by
  cases a <;> cases b <;> simp [ExpectedCount.tree] <;> omega

theorem too_small_inj {a b : BufferTooSmall} : a.tree = b.tree ↔ a = b := by
  cases a; cases b
  simp [BufferTooSmall.tree]
  omega

theorem message_tree_inj {e e' : InvalidMessage} (h : e.tree = e'.tree) : e = e' := by
  cases e <;> cases e' <;>
    simp only [InvalidMessage.tree, InvalidHeaderPrefix.tree, InvalidChecksum.tree, InvalidPacketId.tree,
      InvalidInstruction.tree, InvalidParameterCount.tree, Dbg.tuple.injEq, Dbg.record.injEq, List.cons.injEq, true_and, and_true,
      byte_inj, word_inj, bytes_inj, option_inj, expected_inj, num_inj, Option.some.injEq, reduceCtorEq, and_false, false_and,
      String.reduceEq] at h
  · rename_i a b
    cases a; cases b
    simp only at h
    rw [h.1, h.2]
  all_goals first | (rw [h.1, h.2]) | (rw [h])

/-- C92: an error can be told from every other one, as long as the errors of the serial port can. -/
theorem c92_errors (io : IoErr → List Char × List Char) (h1 : ∀ a b, (io a).1 = (io b).1 → a = b)
    (h2 : ∀ a b, (io a).2 = (io b).2 → a = b) :
    Tells (TransferError.tree io) ∧ Tells (WriteError.tree io) ∧ Tells (ReadError.tree io) ∧ Tells InvalidMessage.tree ∧
      Tells MotorError.tree ∧ Tells BufferTooSmall.tree := by
  have hm : Tells InvalidMessage.tree := tells_of wf_message fun _ _ => message_tree_inj
  have hmo : Tells MotorError.tree := tells_of wf_motor_error fun _ _ => motor_tree_inj
  have hb : Tells BufferTooSmall.tree := tells_of wf_too_small fun _ _ => too_small_inj.mp
  have hw : Tells (WriteError.tree io) := by
    constructor
    · intro a b h
      cases a <;> cases b <;> simp only [WriteError.tree] at h <;>
        obtain ⟨hn, hx⟩ := Dbg.text_peel (by decide +kernel) (by decide +kernel) h <;>
        first
        | exact absurd hn (by decide +kernel)
        | rw [hb.plain _ _ hx]
        | (simp only [Dbg.outside, Dbg.text] at hx; rw [h1 _ _ hx])
    · intro a b h
      cases a <;> cases b <;> simp only [WriteError.tree] at h <;>
        obtain ⟨hn, hx⟩ := Dbg.pretty_peel (by decide +kernel) (by decide +kernel) h <;>
        first
        | exact absurd hn (by decide +kernel)
        | rw [hb.pretty _ _ hx]
        | (simp only [Dbg.outside, Dbg.pretty] at hx; rw [h2 _ _ hx])
  have hr : Tells (ReadError.tree io) := by
    constructor
    · intro a b h
      cases a <;> cases b <;> simp only [ReadError.tree] at h <;>
        obtain ⟨hn, hx⟩ := Dbg.text_peel (by decide +kernel) (by decide +kernel) h <;>
        first
        | exact absurd hn (by decide +kernel)
        | rw [hb.plain _ _ hx]
        | rw [hm.plain _ _ hx]
        | rw [hmo.plain _ _ hx]
        | (simp only [Dbg.outside, Dbg.text] at hx; rw [h1 _ _ hx])
    · intro a b h
      cases a <;> cases b <;> simp only [ReadError.tree] at h <;>
        obtain ⟨hn, hx⟩ := Dbg.pretty_peel (by decide +kernel) (by decide +kernel) h <;>
        first
        | exact absurd hn (by decide +kernel)
        | rw [hb.pretty _ _ hx]
        | rw [hm.pretty _ _ hx]
        | rw [hmo.pretty _ _ hx]
        | (simp only [Dbg.outside, Dbg.pretty] at hx; rw [h2 _ _ hx])
  refine ⟨⟨?_, ?_⟩, hw, hr, hm, hmo, hb⟩
  · intro a b h
    cases a <;> cases b <;> simp only [TransferError.tree] at h <;>
      obtain ⟨hn, hx⟩ := Dbg.text_peel (by decide +kernel) (by decide +kernel) h <;>
      first
      | exact absurd hn (by decide +kernel)
      | rw [hw.plain _ _ hx]
      | rw [hr.plain _ _ hx]
  · intro a b h
    cases a <;> cases b <;> simp only [TransferError.tree] at h <;>
      obtain ⟨hn, hx⟩ := Dbg.pretty_peel (by decide +kernel) (by decide +kernel) h <;>
      first
      | exact absurd hn (by decide +kernel)
      | rw [hw.pretty _ _ hx]
      | rw [hr.pretty _ _ hx]

/-- C92: so can a response, and the data for one motor of a synchronous write, as long as the data can. The hypotheses hold for
numbers, bytes, `()` and arrays of such. -/
theorem c92_response {α : Type} {value : α → Dbg} (hw : ∀ a, (value a).Wf) (hi : ∀ a b, value a = value b → a = b) :
    Tells (Response.tree value) ∧ Tells (SyncWriteData.tree value) := by
  refine ⟨tells_of (fun a => wf_record (by decide +kernel) rfl (by decide +kernel) (by simp [wf_byte, wf_flag, hw]) (by simp)) ?_,
    tells_of (fun a => wf_record (by decide +kernel) rfl (by decide +kernel) (by simp [wf_byte, hw]) (by simp)) ?_⟩
  · intro a b h
    simp only [Response.tree, Dbg.record.injEq, List.cons.injEq, true_and, and_true, byte_inj, flag_inj] at h
    cases a; cases b
    simp only at h
    rw [h.1, h.2.1, hi _ _ h.2.2]
  · intro a b h
    simp only [SyncWriteData.tree, Dbg.record.injEq, List.cons.injEq, true_and, and_true, byte_inj] at h
    cases a; cases b
    simp only at h
    rw [h.1, hi _ _ h.2]

/-- C92: so can packets, instructions, and the other data types of the interface. -/
theorem c92_values : Tells Packet.tree ∧ Tells StatusPacket.tree ∧ Tells InstructionPacket.tree ∧ Tells Instruction.tree ∧
    Tells Client.Ping.tree ∧ Tells BulkReadData.tree ∧ Tells BulkWriteData.tree ∧ Tells Client.FactoryResetKind.tree := by
  have wp : ∀ p : Packet, p.tree.Wf := fun p =>
    wf_record (by decide +kernel) rfl (by decide +kernel) (by simp [wf_bytes]) (by simp)
  have ip : ∀ p q : Packet, p.tree = q.tree → p = q := by
    intro p q h
    simp only [Packet.tree, Dbg.record.injEq, List.cons.injEq, true_and, and_true, bytes_inj] at h
    cases p; cases q
    simp only at h
    rw [h]
  have wf : ∀ k : FactoryReset, k.tree.Wf := by
    intro k
    cases k <;> exact wf_tuple (by decide +kernel) (by simp [wf_byte])
  have wc : ∀ k : Clear, k.tree.Wf := by
    intro k
    cases k <;> exact wf_tuple (by decide +kernel) (by simp [wf_byte])
  have wi : ∀ i : Instructions, i.tree.Wf := by
    intro i
    cases i <;> first
      | exact wf_tuple (by decide +kernel) (by simp [wf, wc])
      | exact wf_record (by decide +kernel) rfl (by decide +kernel) (by simp [wf_byte, wf_word, wf_bytes]) (by simp)
  have jf : ∀ k l : FactoryReset, k.tree = l.tree ↔ k = l := by
    intro k l
    cases k <;> cases l <;> simp [FactoryReset.tree, byte_inj]
  have jc : ∀ k l : Clear, k.tree = l.tree ↔ k = l := by
    intro k l
    cases k <;> cases l <;> simp [Clear.tree, byte_inj]
  have ji : ∀ i j : Instructions, i.tree = j.tree → i = j := by
    intro i j h
    cases i <;> cases j <;> simp [Instructions.tree, byte_inj, word_inj, bytes_inj, jf, jc] at h ⊢ <;> exact h
  refine ⟨tells_of wp ip, tells_of (fun p => wf_record (by decide +kernel) rfl (by decide +kernel) (by simp [wp]) (by simp)) ?_,
    tells_of (fun p => wf_record (by decide +kernel) rfl (by decide +kernel) (by simp [wp]) (by simp)) ?_,
    tells_of (fun p => wf_record (by decide +kernel) rfl (by decide +kernel) (by simp [wf_byte, wi]) (by simp)) ?_,
    tells_of (fun p => wf_record (by decide +kernel) rfl (by decide +kernel) (by simp [wf_byte, wf_word]) (by simp)) ?_,
    tells_of (fun p => wf_record (by decide +kernel) rfl (by decide +kernel) (by simp [wf_byte, wf_word]) (by simp)) ?_,
    tells_of (fun p => wf_record (by decide +kernel) rfl (by decide +kernel) (by simp [wf_byte, wf_word, wf_bytes]) (by simp)) ?_,
    tells_of (fun k => by cases k <;> exact wf_tuple (by decide +kernel) (by simp)) ?_⟩
  · intro a b h
    simp only [StatusPacket.tree, Dbg.record.injEq, List.cons.injEq, true_and, and_true] at h
    cases a; cases b
    exact congrArg _ (ip _ _ h)
  · intro a b h
    simp only [InstructionPacket.tree, Dbg.record.injEq, List.cons.injEq, true_and, and_true] at h
    cases a; cases b
    exact congrArg _ (ip _ _ h)
  · intro a b h
    simp only [Instruction.tree, Dbg.record.injEq, List.cons.injEq, true_and, and_true, byte_inj] at h
    cases a; cases b
    simp only at h
    rw [h.1, ji _ _ h.2]
  · intro a b h
    simp only [Client.Ping.tree, Dbg.record.injEq, List.cons.injEq, true_and, and_true, byte_inj, word_inj] at h
    cases a; cases b
    simp only at h
    rw [h.1, h.2]
  · intro a b h
    simp only [BulkReadData.tree, Dbg.record.injEq, List.cons.injEq, true_and, and_true, byte_inj, word_inj] at h
    cases a; cases b
    simp only at h
    rw [h.1, h.2.1, h.2.2]
  · intro a b h
    simp only [BulkWriteData.tree, Dbg.record.injEq, List.cons.injEq, true_and, and_true, byte_inj, word_inj, bytes_inj] at h
    cases a; cases b
    simp only at h
    rw [h.1, h.2.1, h.2.2]
  · intro a b h
    cases a <;> cases b <;> simp [Client.FactoryResetKind.tree] at h ⊢

/-- C92: the hypotheses of `c92_response` for the data types of the crate: integers of any kind, `()`, bytes, and arrays. -/
theorem c92_data : ((∀ n, (Dbg.num n).Wf) ∧ ∀ n m, Dbg.num n = Dbg.num m → n = m) ∧
    ((∀ u : Unit, ((fun _ => Dbg.unit) u).Wf) ∧ ∀ u v : Unit, (fun _ => Dbg.unit) u = (fun _ => Dbg.unit) v → u = v) ∧
    ((∀ bs, (Dbg.bytes bs).Wf) ∧ ∀ a b, Dbg.bytes a = Dbg.bytes b → a = b) ∧
    ∀ {α : Type} {value : α → Dbg}, (∀ a, (value a).Wf) → (∀ a b, value a = value b → a = b) →
      (∀ xs : List α, (Dbg.list (xs.map value)).Wf) ∧ ∀ xs ys : List α, Dbg.list (xs.map value) = Dbg.list (ys.map value) → xs = ys := by
  refine ⟨⟨fun _ => trivial, fun n m h => by simpa using h⟩, ⟨fun _ => trivial, fun _ _ _ => rfl⟩,
    ⟨wf_bytes, fun _ _ => bytes_inj.mp⟩, fun hw hi => ⟨fun xs => ?_, fun xs ys h => ?_⟩⟩
  · simp only [Dbg.Wf]
    rw [Dbg.wfAll_iff]
    intro x hx
    obtain ⟨b, _, rfl⟩ := List.mem_map.mp hx
    exact hw b
  · simp only [Dbg.list.injEq] at h
    exact (List.map_inj_right fun _ _ => hi _ _).mp h

theorem wf_instructions (i : Instructions) : i.tree.Wf := by
  have wf : ∀ k : FactoryReset, k.tree.Wf := by
    intro k
    cases k <;> exact wf_tuple (by decide +kernel) (by simp [wf_byte])
  have wc : ∀ k : Clear, k.tree.Wf := by
    intro k
    cases k <;> exact wf_tuple (by decide +kernel) (by simp [wf_byte])
  cases i <;> first
    | exact wf_tuple (by decide +kernel) (by simp [wf, wc])
    | exact wf_record (by decide +kernel) rfl (by decide +kernel) (by simp [wf_byte, wf_word, wf_bytes]) (by simp)

/-- C92: `{:#?}` says the same as `{:?}`: without spaces, line breaks and commas before closing brackets, the texts are equal. -/
theorem c92_layout {α : Type} {value : α → Dbg} (hw : ∀ a, (value a).Wf) (r : Response α) (d : SyncWriteData α) (e : InvalidMessage)
    (m : MotorError) (i : Instruction) (p : Packet) (w : BulkWriteData) :
    untrailed (squeezed (r.tree value).pretty) = squeezed (r.tree value).text ∧
    untrailed (squeezed (d.tree value).pretty) = squeezed (d.tree value).text ∧
    untrailed (squeezed e.tree.pretty) = squeezed e.tree.text ∧ untrailed (squeezed m.tree.pretty) = squeezed m.tree.text ∧
    untrailed (squeezed i.tree.pretty) = squeezed i.tree.text ∧ untrailed (squeezed p.tree.pretty) = squeezed p.tree.text ∧
    untrailed (squeezed w.tree.pretty) = squeezed w.tree.text :=
  ⟨Dbg.layout_eq (wf_record (by decide +kernel) rfl (by decide +kernel) (by simp [wf_byte, wf_flag, hw]) (by simp)),
    Dbg.layout_eq (wf_record (by decide +kernel) rfl (by decide +kernel) (by simp [wf_byte, hw]) (by simp)),
    Dbg.layout_eq (wf_message e), Dbg.layout_eq (wf_motor_error m),
    Dbg.layout_eq (wf_record (by decide +kernel) rfl (by decide +kernel) (by simp [wf_byte, wf_instructions]) (by simp)),
    Dbg.layout_eq (wf_record (by decide +kernel) rfl (by decide +kernel) (by simp [wf_bytes]) (by simp)),
    Dbg.layout_eq (wf_record (by decide +kernel) rfl (by decide +kernel) (by simp [wf_byte, wf_word, wf_bytes]) (by simp))⟩

/-! ## Clients, devices and iterators -/

/-- A number at the end of a text, after a space. -/
theorem number_at_end {a a' : List Char} {n n' : Nat} (h : a ++ ' ' :: Fmt.decimal n = a' ++ ' ' :: Fmt.decimal n') : a = a' ∧ n = n' := by
  have h := congrArg List.reverse h
  simp only [List.reverse_append, List.reverse_cons, List.append_assoc, List.cons_append, List.nil_append] at h
  have hp : ∀ m : Nat, ∀ c ∈ (Fmt.decimal m).reverse, Dbg.Plain c := fun m c hc =>
    Dbg.plain_of_numeric ((Dbg.decimal_digits m).1 c (List.mem_reverse.mp hc)).1 ((Dbg.decimal_digits m).1 c (List.mem_reverse.mp hc)).2
  obtain ⟨e1, e2⟩ := Dbg.span_cancel (hp n) (hp n') (Dbg.cut_open (by decide)) (Dbg.cut_open (by decide)) h
  simp only [List.cons.injEq, true_and, List.reverse_inj] at e1 e2
  exact ⟨e2, Dbg.decimal_eq e1⟩

/-- The common part of `impl Debug` for the client and the device. -/
theorem handle_text (name : String) (p p' : List Char × List Char) (n n' : Nat) :
    ((Dbg.record name ["serial_port", "baud_rate"] [.outside p, .num n] true).text =
      (Dbg.record name ["serial_port", "baud_rate"] [.outside p', .num n'] true).text ↔ p.1 = p'.1 ∧ n = n') ∧
    ((Dbg.record name ["serial_port", "baud_rate"] [.outside p, .num n] true).pretty =
      (Dbg.record name ["serial_port", "baud_rate"] [.outside p', .num n'] true).pretty ↔ p.2 = p'.2 ∧ n = n') := by
  constructor
  · constructor
    · intro h
      simp only [Dbg.text, Dbg.fields, Dbg.outside, number_nat, List.append_cancel_left_eq, if_true, Bool.false_eq_true, if_false,
        List.cons.injEq, true_and] at h
      have key : ∀ (q : List Char) (m : Nat), q ++ ([',', ' '] ++ ("baud_rate".toList ++ ':' :: ' ' ::
          (Fmt.decimal m ++ ([',', ' '] ++ ['.', '.', ' ', '}'])))) =
          ((q ++ ", baud_rate:".toList) ++ ' ' :: Fmt.decimal m) ++ ", .. }".toList := by
        intro q m
        simp
      rw [key, key] at h
      obtain ⟨e1, e2⟩ := number_at_end (List.append_cancel_right h)
      exact ⟨List.append_cancel_right e1, e2⟩
    · rintro ⟨h, rfl⟩
      simp only [Dbg.text, Dbg.fields, Dbg.outside, h]
  · constructor
    · intro h
      rw [Dbg.pretty_record _ _ _ _ _ _ rfl, Dbg.pretty_record _ _ _ _ _ _ rfl] at h
      have h := List.append_cancel_left h
      simp only [List.cons.injEq, true_and] at h
      have h := Dbg.pad_inj (List.append_cancel_right h)
      simp only [Dbg.fieldLines, Dbg.pretty, Dbg.outside, number_nat, List.append_cancel_left_eq, List.cons.injEq, true_and] at h
      have key : ∀ (q : List Char) (m : Nat), q ++ ',' :: '\n' :: ("baud_rate".toList ++ ':' :: ' ' ::
          (Fmt.decimal m ++ ',' :: '\n' :: ['.', '.', '\n'])) =
          ((q ++ ",\nbaud_rate:".toList) ++ ' ' :: Fmt.decimal m) ++ ",\n..\n".toList := by
        intro q m
        simp
      rw [key, key] at h
      obtain ⟨e1, e2⟩ := number_at_end (List.append_cancel_right h)
      exact ⟨List.append_cancel_right e1, e2⟩
    · rintro ⟨h, rfl⟩
      rw [Dbg.pretty_record _ _ _ _ _ _ rfl, Dbg.pretty_record _ _ _ _ _ _ rfl]
      simp only [Dbg.fieldLines, Dbg.pretty, Dbg.outside, h]

/-- C92: clients, and devices, print the same exactly when their serial ports print the same and they have the same baud rate. -/
theorem c92_handles (port : Port → List Char × List Char) (b b' : Bus) :
    ((Client.tree port b).text = (Client.tree port b').text ↔
      (port b.serialPort).1 = (port b'.serialPort).1 ∧ b.baudRate = b'.baudRate) ∧
    ((Client.tree port b).pretty = (Client.tree port b').pretty ↔
      (port b.serialPort).2 = (port b'.serialPort).2 ∧ b.baudRate = b'.baudRate) ∧
    ((Device.tree port b).text = (Device.tree port b').text ↔
      (port b.serialPort).1 = (port b'.serialPort).1 ∧ b.baudRate = b'.baudRate) ∧
    ((Device.tree port b).pretty = (Device.tree port b').pretty ↔
      (port b.serialPort).2 = (port b'.serialPort).2 ∧ b.baudRate = b'.baudRate) :=
  ⟨(handle_text "Client" _ _ _ _).1, (handle_text "Client" _ _ _ _).2, (handle_text "Device" _ _ _ _).1,
    (handle_text "Device" _ _ _ _).2⟩

/-- A text up to its last opening bracket. -/
theorem last_bracket {a a' s s' : List Char} (hs : '[' ∉ s) (hs' : '[' ∉ s') (h : a ++ '[' :: s = a' ++ '[' :: s') : a = a' ∧ s = s' := by
  induction a generalizing a' with
  | nil =>
    cases a' with
    | nil => exact ⟨rfl, by simpa using h⟩
    | cons c a' =>
      simp only [List.nil_append, List.cons_append, List.cons.injEq] at h
      exact absurd (h.2 ▸ by simp) hs
  | cons c a ih =>
    cases a' with
    | nil =>
      simp only [List.nil_append, List.cons_append, List.cons.injEq] at h
      exact absurd (h.2 ▸ by simp) hs'
    | cons c' a' =>
      simp only [List.cons_append, List.cons.injEq] at h
      obtain ⟨e1, e2⟩ := ih h.2
      exact ⟨by rw [h.1, e1], e2⟩

theorem decimal_no_bracket (n : Nat) : '[' ∉ Fmt.decimal n := fun h => absurd ((Dbg.decimal_digits n).1 _ h).1 (by decide)

theorem entries_no_bracket {xs : List Dbg} (h : ∀ x ∈ xs, '[' ∉ x.text) : '[' ∉ Dbg.entries xs := by
  have after : ∀ xs : List Dbg, (∀ x ∈ xs, '[' ∉ x.text) → '[' ∉ Dbg.entriesAfter xs := by
    intro xs
    induction xs with
    | nil => intro _; simp [Dbg.entriesAfter]
    | cons x xs ih =>
      intro h
      have h1 := h x (by simp)
      have h2 := ih fun y hy => h y (by simp [hy])
      simp [Dbg.entriesAfter, h1, h2]
  cases xs with
  | nil => simp [Dbg.entries]
  | cons x xs =>
    have h1 := h x (by simp)
    have h2 := after xs fun y hy => h y (by simp [hy])
    simp [Dbg.entries, h1, h2]

theorem bulk_data_no_bracket (d : BulkReadData) : '[' ∉ d.tree.text := by
  have h : d.tree.text = "BulkReadData { motor_id: ".toList ++ (Fmt.decimal d.motorId.toNat ++ (", address: ".toList ++
      (Fmt.decimal d.address.toNat ++ (", count: ".toList ++ (Fmt.decimal d.count.toNat ++ " }".toList))))) := by
    simp [BulkReadData.tree, Dbg.text, Dbg.fields, text_byte, text_word]
  rw [h]
  simp [decimal_no_bracket]

/-- C92: the text for `{:?}` of an iterator over the responses of a synchronous read tells what the serial port prints, the motors, the
number of bytes and the position. -/
theorem c92_sync_iterators (port : Port → List Char × List Char) (type : List Char) (it it' : SyncIter)
    (h : (SyncReadBytes.tree port type it).text = (SyncReadBytes.tree port type it').text) :
    (port it.client.serialPort).1 = (port it'.client.serialPort).1 ∧ it.motorIds = it'.motorIds ∧ it.count = it'.count ∧
      it.index = it'.index := by
  have key : ∀ it : SyncIter, (SyncReadBytes.tree port type it).text = "SyncRead { serial_port: ".toList ++
      ((((port it.client.serialPort).1 ++ ", motor_ids: ".toList) ++ '[' :: (Dbg.entries (it.motorIds.map Dbg.byte) ++
        (']' :: (", count: ".toList ++ (Fmt.decimal it.count.toNat ++ (", index: ".toList ++ Fmt.decimal it.index)))))) ++
        (", data: ".toList ++ (type ++ " }".toList))) := by
    intro it
    simp [SyncReadBytes.tree, Dbg.text, Dbg.fields, Dbg.outside, Dbg.bytes, text_word, number_nat]
  rw [key, key] at h
  have h := List.append_cancel_right (List.append_cancel_left h)
  have nb : ∀ it : SyncIter, '[' ∉ Dbg.entries (it.motorIds.map Dbg.byte) ++
        (']' :: (", count: ".toList ++ (Fmt.decimal it.count.toNat ++ (", index: ".toList ++ Fmt.decimal it.index)))) := by
    intro it
    have : '[' ∉ Dbg.entries (it.motorIds.map Dbg.byte) := by
      refine entries_no_bracket fun x hx => ?_
      obtain ⟨b, _, rfl⟩ := List.mem_map.mp hx
      rw [text_byte]
      exact decimal_no_bracket _
    simp [this, decimal_no_bracket]
  obtain ⟨h1, h2⟩ := last_bracket (nb it) (nb it') h
  have w := fun bs => wf_bytes bs
  simp only [Dbg.bytes, Dbg.Wf] at w
  obtain ⟨h3, h4⟩ := Dbg.entries_cancel _ _ (w _) (w _) h2
  have h4 := List.append_cancel_left h4
  have split : ∀ n m : Nat, Fmt.decimal n ++ (", index: ".toList ++ Fmt.decimal m) =
      (Fmt.decimal n ++ ", index:".toList) ++ ' ' :: Fmt.decimal m := by
    intro n m
    simp
  rw [split, split] at h4
  obtain ⟨h5, h6⟩ := number_at_end h4
  exact ⟨List.append_cancel_right h1, (List.map_inj_right fun _ _ => byte_inj.mp).mp h3,
    BitVec.eq_of_toNat_eq (Dbg.decimal_eq (List.append_cancel_right h5)), h6⟩

/-- C92: the same for the iterator over the responses of a bulk read. -/
theorem c92_bulk_iterators (port : Port → List Char × List Char) (type : List Char) (it it' : BulkIter)
    (h : (BulkReadBytes.tree port type it).text = (BulkReadBytes.tree port type it').text) :
    (port it.client.serialPort).1 = (port it'.client.serialPort).1 ∧ it.reads = it'.reads ∧ it.index = it'.index := by
  have key : ∀ it : BulkIter, (BulkReadBytes.tree port type it).text = "BulkRead { serial_port: ".toList ++
      ((((port it.client.serialPort).1 ++ ", bulk_read_data: ".toList) ++ '[' :: (Dbg.entries (it.reads.map BulkReadData.tree) ++
        (']' :: (", index: ".toList ++ Fmt.decimal it.index)))) ++
        (", data: ".toList ++ (type ++ " }".toList))) := by
    intro it
    simp [BulkReadBytes.tree, Dbg.text, Dbg.fields, Dbg.outside, number_nat]
  rw [key, key] at h
  have h := List.append_cancel_right (List.append_cancel_left h)
  have nb : ∀ it : BulkIter, '[' ∉ Dbg.entries (it.reads.map BulkReadData.tree) ++
        (']' :: (", index: ".toList ++ Fmt.decimal it.index)) := by
    intro it
    have : '[' ∉ Dbg.entries (it.reads.map BulkReadData.tree) := by
      refine entries_no_bracket fun x hx => ?_
      obtain ⟨b, _, rfl⟩ := List.mem_map.mp hx
      exact bulk_data_no_bracket b
    simp [this, decimal_no_bracket]
  obtain ⟨h1, h2⟩ := last_bracket (nb it) (nb it') h
  have w : ∀ ds : List BulkReadData, Dbg.WfAll (ds.map BulkReadData.tree) := by
    intro ds
    rw [Dbg.wfAll_iff]
    intro x hx
    obtain ⟨d, _, rfl⟩ := List.mem_map.mp hx
    exact wf_record (by decide +kernel) rfl (by decide +kernel) (by simp [wf_byte, wf_word]) (by simp)
  obtain ⟨h3, h4⟩ := Dbg.entries_cancel _ _ (w _) (w _) h2
  refine ⟨List.append_cancel_right h1, (List.map_inj_right fun a b h => ?_).mp h3, Dbg.decimal_eq (List.append_cancel_left h4)⟩
  simp only [BulkReadData.tree, Dbg.record.injEq, List.cons.injEq, true_and, and_true, byte_inj, word_inj] at h
  cases a; cases b
  simp only at h
  rw [h.1, h.2.1, h.2.2]

/-- C92, what is lost: the buffers of a client are not shown, and the iterators of `sync_read` and of `sync_read_bytes` print the same. -/
theorem c92_hidden (port : Port → List Char × List Char) (type : List Char) (b : Bus) (readBuffer writeBuffer : List Byte)
    (readLen usedBytes : Nat) (it : SyncIter) :
    (Client.tree port { b with readBuffer, writeBuffer, readLen, usedBytes }).text = (Client.tree port b).text ∧
    (SyncReadBytes.tree port type it).text = (SyncRead.tree port type it.count it).text := ⟨rfl, rfl⟩

/-! ## The theorems on concrete cases -/

/-- Texts of the errors of a serial port. -/
def ioDebug (e : IoErr) : String := match e with
  | .timedOut => "TimedOut"
  | .other n => String.ofList ('O' :: List.replicate n '!')

theorem ioDebug_inj (a b : IoErr) (h : (ioDebug a).toList = (ioDebug b).toList) : a = b := by
  cases a <;> cases b <;> simp [ioDebug] at h ⊢
  exact h

example := c92_errors (fun i => ((ioDebug i).toList, (ioDebug i).toList)) ioDebug_inj ioDebug_inj

example := c92_error_text ioDebug (fun _ => []) (.readError (.invalidMessage (.parameterCount 3 (.max 2))))

example := c92_ping_text ⟨1#8, true, ⟨1060#16, 45#8⟩⟩

example := c92_response (value := Dbg.num) c92_data.1.1 c92_data.1.2

example := c92_response (value := fun xs : List Int => .list (xs.map .num)) (c92_data.2.2.2 c92_data.1.1 c92_data.1.2).1
  (c92_data.2.2.2 c92_data.1.1 c92_data.1.2).2

example : ((TransferError.readError (.motorError ⟨0x83#8⟩)).tree fun i => ((ioDebug i).toList, [])).text =
    "ReadError(MotorError(MotorError { error_number: 3, alert: true }))".toList := by decide +kernel

example : (TransferError.readError (.invalidMessage (.packetId 2#8 1#8))).tree (fun i => ((ioDebug i).toList, [])) |>.text |> (· =
    "ReadError(InvalidMessage(InvalidPacketId(InvalidPacketId { actual: 2, expected: Some(1) })))".toList) := by decide +kernel

example : ((Response.mk 1#8 false (Client.Ping.mk 1060#16 45#8)).tree Client.Ping.tree).pretty =
    "Response {\n    motor_id: 1,\n    alert: false,\n    data: Ping {\n        model: 1060,\n        firmware: 45,\n    },\n}".toList := by
  decide +kernel

example : (Instruction.mk 7#8 (.write 116#16 [1#8, 2#8])).tree.pretty =
    ("Instruction {\n    id: 7,\n    instruction: Write {\n        address: 116,\n        parameters: [\n            1,\n" ++
      "            2,\n        ],\n    },\n}").toList := by
  decide +kernel

example : (Instruction.mk 7#8 (.bulkRead [])).tree.pretty =
    "Instruction {\n    id: 7,\n    instruction: BulkRead {\n        parameters: [],\n    },\n}".toList := by
  decide +kernel

example : (SyncWriteData.tree Dbg.num ⟨3#8, -5⟩).text = "SyncWriteData { motor_id: 3, data: -5 }".toList := by decide +kernel

example : (BulkWriteData.mk 3#8 64#16 [1#8]).tree.text = "BulkWriteData { motor_id: 3, address: 64, data: [1] }".toList ∧
    (BulkReadData.mk 3#8 64#16 2#16).tree.text = "BulkReadData { motor_id: 3, address: 64, count: 2 }".toList ∧
    (StatusPacket.mk ⟨[255#8, 0#8]⟩).tree.text = "StatusPacket { packet: Packet { data: [255, 0] } }".toList ∧
    (Client.FactoryResetKind.tree .keepId).text = "KeepId".toList := by decide +kernel

/-- The text of a serial port. -/
def shownPort (_ : Port) : List Char × List Char := ("COM1 [x]".toList, "COM1 [x]".toList)

example : (Client.tree shownPort (quietBus true 3)).text = "Client { serial_port: COM1 [x], baud_rate: 57600, .. }".toList ∧
    (Client.tree shownPort (quietBus true 3)).pretty =
      "Client {\n    serial_port: COM1 [x],\n    baud_rate: 57600,\n    ..\n}".toList ∧
    (Device.tree shownPort (quietBus true 3)).text = "Device { serial_port: COM1 [x], baud_rate: 57600, .. }".toList ∧
    (Scan.tree shownPort (quietBus true 3)).text = "Scan { serial_port: COM1 [x] }".toList ∧
    (SyncReadBytes.tree shownPort "u8".toList ⟨quietBus true 3, 2#16, [1#8, 2#8], 1⟩).text =
      "SyncRead { serial_port: COM1 [x], motor_ids: [1, 2], count: 2, index: 1, data: u8 }".toList ∧
    (BulkReadBytes.tree shownPort "u8".toList ⟨quietBus true 3, [⟨1#8, 2#16, 3#16⟩], 1⟩).text =
      ("BulkRead { serial_port: COM1 [x], bulk_read_data: [BulkReadData { motor_id: 1, address: 2, count: 3 }], index: 1, " ++
        "data: u8 }").toList := by decide +kernel

example := c92_handles shownPort (quietBus true 3) (quietBus true 4)

example := c92_sync_iterators shownPort "u8".toList ⟨quietBus true 3, 2#16, [1#8, 2#8], 1⟩ ⟨quietBus true 4, 2#16, [1#8, 2#8], 1⟩
  (by decide +kernel)

example := c92_bulk_iterators shownPort "u8".toList ⟨quietBus true 3, [⟨1#8, 2#16, 3#16⟩], 1⟩ ⟨quietBus true 4, [⟨1#8, 2#16, 3#16⟩], 1⟩
  (by decide +kernel)

example := c92_handle_text shownPort "u8" "COM1 [x]" (quietBus true 3) rfl [1#8, 2#8] 2#16 1

example := c92_data_text 1#8 2#16 3#16 [4#8, 5#8]

example := c92_layout (value := Dbg.bytes) wf_bytes ⟨1#8, false, [1#8, 2#8]⟩ ⟨1#8, [1#8]⟩ (.parameterCount 3 (.max 2)) ⟨0x83#8⟩
  ⟨7#8, .write 116#16 [1#8, 2#8]⟩ ⟨[1#8]⟩ ⟨1#8, 2#16, []⟩

end Dxl.Props
