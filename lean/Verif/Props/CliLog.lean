import Verif.Model.CliLog
import Verif.Props.Log
import Verif.Props.CliRun

/-! # C69: what the command line tool shows -/

namespace Dxl.Props
open Dxl Spec

/-! ## The calls of the library, with logging -/

namespace Erases
variable {ε ε' α : Type}

theorem mapErr {m' : SO Logged ε α} {m : SO Bus ε α} (f : ε → ε') (h : Erases m' m) : Erases (m'.mapErr f) (m.mapErr f) := by
  intro l
  have h1 := h l
  rw [SO.mapErr_apply, SO.mapErr_apply, ← h1]

theorem readStatusResponse (n : U16) : Erases (Logged.readStatusResponse n) (Client.readStatusResponse n) :=
  .get fun _ => .bind (.lift _) fun _ => c68_same_status _

theorem transferSingle (id instr : Byte) (n : Nat) (count : U16) (enc : Encoder) :
    Erases (Logged.transferSingle id instr n count enc) (Client.transferSingle id instr n count enc) :=
  .bind (.mapErr _ (c68_same_write _ _ _ _)) fun _ => .bind (.mapErr _ (readStatusResponse _)) fun _ => .bind (.lift _) fun _ =>
    .bind (.lift _) fun _ => .pure _

theorem instruct (id instr : Byte) (n : Nat) (enc : Encoder) :
    Erases (Logged.instruct id instr n enc) (Client.instruct id instr n enc) := by
  refine .bind (.mapErr _ (c68_same_write _ _ _ _)) fun _ => .mapErr _ ?_
  unfold Logged.readResponseIfNotBroadcast Client.readResponseIfNotBroadcast
  split
  · exact .pure _
  · exact .bind (readStatusResponse _) fun _ => .lift _

theorem readRaw (id : Byte) (address count : U16) : Erases (Logged.readRaw id address count) (Client.readRaw id address count) :=
  .bind (transferSingle _ _ _ _ _) fun _ => .bind (.lift _) fun _ => .bind (.lift _) fun _ => .pure _

theorem readBytes (id : Byte) (address count : U16) :
    Erases (Logged.readBytes id address count) (Client.readBytes id address count) :=
  .bind (readRaw _ _ _) fun _ => .lift _

theorem read (d : DataTy α) (id : Byte) (address : U16) : Erases (Logged.read d id address) (Client.read d id address) :=
  .bind (readRaw _ _ _) fun _ => .lift _

theorem ping (id : Byte) : Erases (Logged.ping id) (Client.ping id) := .bind (transferSingle _ _ _ _ _) fun _ => .lift _

theorem scanDrop (fuel : Nat) : Erases (ε := ε) (Logged.scanDrop fuel) (Client.scanDrop fuel) := by
  induction fuel with
  | zero => exact .hang
  | succ fuel ih =>
    refine .bind c68_same_scan fun r => ?_
    cases r with
    | some _ => exact ih
    | none => exact .pure _

end Erases

namespace SentAsLogged
variable {ε ε' α : Type}

theorem mapErr {m : SO Logged ε α} (f : ε → ε') (h : SentAsLogged m) : SentAsLogged (m.mapErr f) := h

theorem readStatusResponse (n : U16) : SentAsLogged (Logged.readStatusResponse n) :=
  .get fun _ => .bind (.lift _) fun _ => c68_sent_status _

theorem transferSingle (id instr : Byte) (n : Nat) (count : U16) (enc : Encoder) :
    SentAsLogged (Logged.transferSingle id instr n count enc) :=
  .bind (.mapErr _ (c68_sent_write _ _ _ _)) fun _ => .bind (.mapErr _ (readStatusResponse _)) fun _ => .bind (.lift _) fun _ =>
    .bind (.lift _) fun _ => .pure _

theorem instruct (id instr : Byte) (n : Nat) (enc : Encoder) : SentAsLogged (Logged.instruct id instr n enc) := by
  refine .bind (.mapErr _ (c68_sent_write _ _ _ _)) fun _ => .mapErr _ ?_
  unfold Logged.readResponseIfNotBroadcast
  split
  · exact .pure _
  · exact .bind (readStatusResponse _) fun _ => .lift _

theorem readRaw (id : Byte) (address count : U16) : SentAsLogged (Logged.readRaw id address count) :=
  .bind (transferSingle _ _ _ _ _) fun _ => .bind (.lift _) fun _ => .bind (.lift _) fun _ => .pure _

theorem scanDrop (fuel : Nat) : SentAsLogged (ε := ε) (Logged.scanDrop fuel) := by
  induction fuel with
  | zero => exact .hang
  | succ fuel ih =>
    refine .bind c68_sent_scan fun r => ?_
    cases r with
    | some _ => exact ih
    | none => exact .pure _

end SentAsLogged

/-! ## Levels -/

/-- The lines of the tool and of the library that are shown for a number of `-v` options. -/
theorem c69_levels (v : Byte) (target : List Char) (level : Cli.LogLevel) : Cli.enabled v target level = true ↔
    match level with
    | .error => True
    | .warn => True
    | .info => "dynamixel2".toList <+: target
    | .debug => "dynamixel2".toList <+: target ∧ 1 ≤ v.toNat
    | .trace => "dynamixel2".toList <+: target ∧ 2 ≤ v.toNat := by
  have hf : Cli.levelFilter v = if v.toNat = 0 then .info else if v.toNat = 1 then .debug else .trace := by
    revert v
    decide +kernel
  unfold Cli.enabled
  rw [hf]
  generalize "dynamixel2".toList = d
  by_cases hp : d <+: target
  · rw [if_pos (List.isPrefixOf_iff_prefix.2 hp)]
    by_cases h0 : v.toNat = 0
    · rw [if_pos h0]
      cases level <;> simp [Cli.LogLevel.number, hp, h0]
    · rw [if_neg h0]
      by_cases h1 : v.toNat = 1
      · rw [if_pos h1]
        cases level <;> simp [Cli.LogLevel.number, hp, h1]
      · rw [if_neg h1]
        cases level <;> simp [Cli.LogLevel.number, hp] <;> omega
  · rw [if_neg (fun h => hp (List.isPrefixOf_iff_prefix.1 h))]
    cases level <;> simp [Cli.LogLevel.number, hp]

/-- More `-v` options only add lines. -/
theorem c69_more (v w : Byte) (h : v.toNat ≤ w.toNat) (records : List Cli.Record) :
    List.Sublist (Cli.shown v records) (Cli.shown w records) := by
  refine List.Sublist.map _ ?_
  induction records with
  | nil => exact .slnil
  | cons r rs ih =>
    have himp : Cli.enabled v r.target r.level = true → Cli.enabled w r.target r.level = true := by
      rw [c69_levels, c69_levels]
      generalize "dynamixel2".toList = d
      cases r.level with
      | error => exact id
      | warn => exact id
      | info => exact id
      | debug => exact fun h1 => ⟨h1.1, by have := h1.2; omega⟩
      | trace => exact fun h1 => ⟨h1.1, by have := h1.2; omega⟩
    simp only [List.filter]
    cases hv : Cli.enabled v r.target r.level with
    | true =>
      rw [himp hv]
      exact ih.cons_cons _
    | false =>
      cases Cli.enabled w r.target r.level with
      | true => exact ih.cons _
      | false => exact ih

/-- What a line looks like at each level. -/
theorem c69_line (r : Cli.Record) : r.line = match r.level with
    | .error => "Error:  ".toList ++ r.text
    | .warn => "Warning:  ".toList ++ r.text
    | .info => " ".toList ++ r.text
    | .debug => " ".toList ++ r.text
    | .trace => "Trace:  ".toList ++ r.text := by
  obtain ⟨t, l, x⟩ := r
  cases l <;> rfl

/-- A line tells its text and its level, except that information and debug messages look the same. -/
theorem c69_line_unique {r r' : Cli.Record} (h : r.line = r'.line) : r.text = r'.text ∧
    (r.level = r'.level ∨ r.level = .info ∧ r'.level = .debug ∨ r.level = .debug ∧ r'.level = .info) := by
  rw [c69_line, c69_line] at h
  obtain ⟨t, l, x⟩ := r
  obtain ⟨t', l', x'⟩ := r'
  cases l <;> cases l' <;> simp at h ⊢ <;> exact h

/-! ## The program -/

/-- How a line of information, a warning or an error is shown. -/
def lineText : Cli.Line → List Char
  | (.info, text) => " ".toList ++ text
  | (.warn, text) => "Warning:  ".toList ++ text
  | (.error, text) => "Error:  ".toList ++ text

theorem shown_append (v : Byte) (a b : List Cli.Record) : Cli.shown v (a ++ b) = Cli.shown v a ++ Cli.shown v b := by
  unfold Cli.shown
  rw [List.filter_append, List.map_append]

theorem shown_own (v : Byte) (lines : List Cli.Line) : Cli.shown v (lines.map Cli.ownRecord) = lines.map lineText := by
  induction lines with
  | nil => rfl
  | cons l ls ih =>
    rw [List.map_cons, List.map_cons, ← List.singleton_append (l := List.map Cli.ownRecord ls), shown_append, ih]
    have he : Cli.enabled v (Cli.ownRecord l).target (Cli.ownRecord l).level = true := by
      rw [c69_levels]
      obtain ⟨lv, t⟩ := l
      cases lv with
      | info => exact List.prefix_refl _
      | warn => exact True.intro
      | error => exact True.intro
    unfold Cli.shown
    simp only [List.filter, he]
    obtain ⟨lv, t⟩ := l
    cases lv <;> rfl

theorem shown_library (lines : List LogLine) : Cli.shown 0#8 (lines.map Cli.libraryRecord) = [] := by
  induction lines with
  | nil => rfl
  | cons l ls ih =>
    rw [List.map_cons, ← List.singleton_append (l := List.map Cli.libraryRecord ls), shown_append, ih]
    cases l <;> rfl

theorem shown_debug (text : List Char) : Cli.shown 0#8 [⟨"dynamixel2".toList, .debug, text⟩] = [] := rfl

/-- The same outcome with another type of errors, which there are none of. -/
def Outcome.other {α : Type} (ε : Type) : Outcome Unit α → Outcome ε α
  | .ok a => .ok a
  | .err _ => .panic
  | .panic => .panic
  | .hang => .hang

theorem phantom_scanNext (ε : Type) (b : Bus) :
    Client.scanNext (ε := ε) b = ((Client.scanNext (ε := Unit) b).1, Outcome.other ε (Client.scanNext (ε := Unit) b).2) ∧
    ∀ e, (Client.scanNext (ε := Unit) b).2 ≠ .err e := by
  unfold Client.scanNext
  rw [SO.bind_def, SO.bind_def]
  simp only [SO.attempt]
  rcases Client.scanNextResponse b with ⟨b, o⟩
  cases o with
  | ok a => exact ⟨rfl, by intro e h; injection h⟩
  | panic => exact ⟨rfl, by intro e h; injection h⟩
  | hang => exact ⟨rfl, by intro e h; injection h⟩
  | err e =>
    cases e with
    | io e =>
      simp only
      split
      · exact ⟨rfl, by intro e h; injection h⟩
      · exact ⟨rfl, by intro e h; injection h⟩
    | bufferFull e => exact ⟨rfl, by intro e h; injection h⟩
    | invalidMessage e => exact ⟨rfl, by intro e h; injection h⟩
    | motorError e => exact ⟨rfl, by intro e h; injection h⟩

theorem phantom_scanDrop (ε : Type) (fuel : Nat) (b : Bus) :
    Client.scanDrop (ε := ε) fuel b = ((Client.scanDrop (ε := Unit) fuel b).1, Outcome.other ε (Client.scanDrop (ε := Unit) fuel b).2) ∧
    ∀ e, (Client.scanDrop (ε := Unit) fuel b).2 ≠ .err e := by
  induction fuel generalizing b with
  | zero => exact ⟨rfl, by intro e h; injection h⟩
  | succ fuel ih =>
    have h1 := phantom_scanNext ε b
    rcases hs : Client.scanNext (ε := Unit) b with ⟨c, o⟩
    rw [hs] at h1
    obtain ⟨h1, h2⟩ := h1
    unfold Client.scanDrop
    cases o with
    | err e => exact absurd rfl (h2 e)
    | panic =>
      rw [SO.bind_panic hs, SO.bind_panic h1]
      exact ⟨rfl, by intro e h; injection h⟩
    | hang =>
      rw [SO.bind_hang hs, SO.bind_hang h1]
      exact ⟨rfl, by intro e h; injection h⟩
    | ok x =>
      rw [SO.bind_ok hs, SO.bind_ok h1]
      cases x with
      | none => exact ⟨rfl, by intro e h; injection h⟩
      | some i => exact ih c

/-- The program with messages does what it does without, and without `-v` shows the lines of the report or the failure. -/
def SameRun (io : IoErr → List Char) (m' : SO Cli.Program Unit Unit) (m : SO Bus Cli.Failure Cli.Report) : Prop :=
  ∀ p, (m' p).1.bus = (m p.bus).1 ∧
    match (m p.bus).2 with
    | .ok r => (m' p).2 = .ok () ∧ Cli.shown 0#8 (m' p).1.records = Cli.shown 0#8 p.records ++ (r.lines io).map lineText
    | .err e => (m' p).2 = .err () ∧ ∀ path,
      Cli.shown 0#8 (m' p).1.records = Cli.shown 0#8 p.records ++ [lineText (.error, e.text io path)]
    | .panic => (m' p).2 = .panic
    | .hang => (m' p).2 = .hang

theorem library_eq {ε α : Type} {m : SO Logged ε α} {p : Cli.Program} {l : Logged} {o : Outcome ε α} (h : m ⟨p.bus, []⟩ = (l, o)) :
    Cli.library m p = (⟨l.bus, p.records ++ l.log.map Cli.libraryRecord⟩, o) := by
  show (Cli.Program.mk (m ⟨p.bus, []⟩).1.bus (p.records ++ (m ⟨p.bus, []⟩).1.log.map Cli.libraryRecord), (m ⟨p.bus, []⟩).2) = _
  rw [h]

theorem orFail_eq {ε α : Type} {text : ε → List Char} {m : SO Cli.Program ε α} {p p' : Cli.Program} {o : Outcome ε α}
    (h : m p = (p', o)) : Cli.orFail text m p = match (generalizing := false) o with
      | .ok a => (p', .ok a)
      | .err e => ({ p' with records := p'.records ++ [Cli.ownRecord (.error, text e)] }, .err ())
      | .panic => (p', .panic)
      | .hang => (p', .hang) := by
  unfold Cli.orFail
  rw [h]
  cases o <;> rfl

theorem sameRun_call {α : Type} (io : IoErr → List Char) (failure : TransferError → Cli.Failure) (result : α → Cli.Report)
    (hf : ∀ e path, (failure e).text io path = (failure e).text io []) {m' : SO Logged TransferError α}
    {m : SO Bus TransferError α} (h : Erases m' m) : SameRun io (Cli.call io failure result m') (Cli.report failure result m) := by
  intro p
  have h1 := h ⟨p.bus, []⟩
  rcases hm : m' ⟨p.bus, []⟩ with ⟨l, o⟩
  rw [hm] at h1
  have h2 := orFail_eq (text := fun e => (failure e).text io []) (library_eq hm)
  have h3 : m.mapErr failure p.bus = (l.bus, o.mapErr failure) := by rw [SO.mapErr_apply, ← h1]
  unfold Cli.call Cli.report
  cases o with
  | ok a =>
    rw [SO.bind_ok h2, SO.bind_ok h3]
    refine ⟨rfl, rfl, ?_⟩
    show Cli.shown 0#8 (p.records ++ l.log.map Cli.libraryRecord ++ ((result a).lines io).map Cli.ownRecord) = _
    rw [shown_append, shown_append, shown_library, shown_own, List.append_nil]
  | err e =>
    rw [SO.bind_err h2, SO.bind_err h3]
    refine ⟨rfl, rfl, fun path => ?_⟩
    show Cli.shown 0#8 (p.records ++ l.log.map Cli.libraryRecord ++ [(Cli.Level.error, (failure e).text io [])].map Cli.ownRecord) = _
    rw [shown_append, shown_append, shown_library, shown_own, List.append_nil, ← hf e path]
    rfl
  | panic =>
    rw [SO.bind_panic h2, SO.bind_panic h3]
    exact ⟨rfl, rfl⟩
  | hang =>
    rw [SO.bind_hang h2, SO.bind_hang h3]
    exact ⟨rfl, rfl⟩

theorem sameRun_unicast (io : IoErr → List Char) (motorId : Cli.MotorId) {f' : Byte → SO Cli.Program Unit Unit}
    {f : Byte → SO Bus Cli.Failure Cli.Report} (h : ∀ id, SameRun io (f' id) (f id)) :
    SameRun io (Cli.unicast io motorId >>= f') (SO.lift (motorId.assumeUnicast .broadcast) >>= f) := by
  cases motorId with
  | id raw => exact h raw
  | broadcast =>
    intro p
    refine ⟨rfl, rfl, fun path => ?_⟩
    show Cli.shown 0#8 (p.records ++ [(Cli.Level.error, Cli.Failure.broadcast.text io [])].map Cli.ownRecord) = _
    rw [shown_append, shown_own]
    rfl

/-- The loop of a scan: the lines of the items. -/
theorem scanLines_same (io : IoErr → List Char) (fuel : Nat) (p : Cli.Program) :
    (Cli.scanLines io fuel p).1.bus = (Cli.scanLoop (ε := Cli.Failure) fuel p.bus).1 ∧
      match (Cli.scanLoop (ε := Cli.Failure) fuel p.bus).2 with
      | .ok items => (Cli.scanLines io fuel p).2 = .ok () ∧ Cli.shown 0#8 (Cli.scanLines io fuel p).1.records =
          Cli.shown 0#8 p.records ++ ((Cli.Report.scan items).lines io).map lineText
      | .err _ => False
      | .panic => (Cli.scanLines io fuel p).2 = .panic
      | .hang => (Cli.scanLines io fuel p).2 = .hang := by
  induction fuel generalizing p with
  | zero => exact ⟨rfl, rfl⟩
  | succ fuel ih =>
    have h2 := c68_same_scan (ε := Unit) ⟨p.bus, []⟩
    have h1 := phantom_scanNext Cli.Failure p.bus
    rcases hm : Logged.scanNext (ε := Unit) ⟨p.bus, []⟩ with ⟨l, o⟩
    rw [hm] at h2
    rw [← h2] at h1
    obtain ⟨h1, h1'⟩ := h1
    have h3 := library_eq hm
    unfold Cli.scanLines Cli.scanLoop
    cases o with
    | err e => exact absurd rfl (h1' e)
    | panic =>
      rw [SO.bind_panic h1, SO.bind_panic h3]
      exact ⟨rfl, rfl⟩
    | hang =>
      rw [SO.bind_hang h1, SO.bind_hang h3]
      exact ⟨rfl, rfl⟩
    | ok r =>
      rw [SO.bind_ok h1, SO.bind_ok h3]
      cases r with
      | none =>
        refine ⟨rfl, rfl, ?_⟩
        show Cli.shown 0#8 (p.records ++ l.log.map Cli.libraryRecord) = _
        rw [shown_append, shown_library]
        rfl
      | some item =>
        simp only
        have h4 : Cli.say (ε := Unit) (((Cli.Report.scan [item]).lines io).map Cli.ownRecord)
            ⟨l.bus, p.records ++ l.log.map Cli.libraryRecord⟩ =
            (⟨l.bus, p.records ++ l.log.map Cli.libraryRecord ++ ((Cli.Report.scan [item]).lines io).map Cli.ownRecord⟩, .ok ()) := rfl
        rw [SO.bind_ok h4, SO.bind_def]
        obtain ⟨k1, k2⟩ := ih ⟨l.bus, p.records ++ l.log.map Cli.libraryRecord ++ ((Cli.Report.scan [item]).lines io).map Cli.ownRecord⟩
        simp only at k1 k2
        rw [k1]
        rcases hs : Cli.scanLoop (ε := Cli.Failure) fuel l.bus with ⟨b, o⟩
        rw [hs] at k2
        cases o with
        | ok items =>
          refine ⟨rfl, k2.1, ?_⟩
          rw [k2.2, shown_append, shown_append, shown_library, shown_own, List.append_nil, List.append_assoc, ← List.map_append]
          simp [Cli.Report.lines]
        | err e => exact k2.elim
        | panic => exact ⟨rfl, k2⟩
        | hang => exact ⟨rfl, k2⟩

/-- Every command. -/
theorem sameRun_perform (io : IoErr → List Char) (fuel : Nat) (command : Cli.Command) :
    SameRun io (Cli.perform io fuel command) (Cli.doMain fuel command) := by
  cases command with
  | ping motorId =>
    cases motorId with
    | id raw => exact sameRun_call io _ _ (fun _ _ => rfl) (.ping raw)
    | broadcast =>
      intro p
      have h1 := c68_same_write broadcast InstructionId.ping 0 .nothing ⟨p.bus, []⟩
      rcases hm : Logged.scan ⟨p.bus, []⟩ with ⟨l, o⟩
      have hm' : Logged.writePacket broadcast InstructionId.ping 0 .nothing ⟨p.bus, []⟩ = (l, o) := hm
      rw [hm'] at h1
      have h2 := orFail_eq (text := fun e => (Cli.Failure.command (.writeError e)).text io []) (library_eq hm)
      have h3 : Client.scan.mapErr (fun e => Cli.Failure.command (.writeError e)) p.bus =
          (l.bus, o.mapErr fun e => Cli.Failure.command (.writeError e)) := by
        rw [SO.mapErr_apply]
        show ((Bus.writePacket broadcast InstructionId.ping 0 .nothing p.bus).1,
          (Bus.writePacket broadcast InstructionId.ping 0 .nothing p.bus).2.mapErr _) = _
        rw [← h1]
      unfold Cli.perform Cli.doMain
      dsimp only
      cases o with
      | err e =>
        rw [SO.bind_err h2, SO.bind_err h3]
        refine ⟨rfl, rfl, fun path => ?_⟩
        show Cli.shown 0#8 (p.records ++ l.log.map Cli.libraryRecord ++
          [(Cli.Level.error, (Cli.Failure.command (.writeError e)).text io [])].map Cli.ownRecord) = _
        rw [shown_append, shown_append, shown_library, shown_own, List.append_nil]
        rfl
      | panic =>
        rw [SO.bind_panic h2, SO.bind_panic h3]
        exact ⟨rfl, rfl⟩
      | hang =>
        rw [SO.bind_hang h2, SO.bind_hang h3]
        exact ⟨rfl, rfl⟩
      | ok u =>
        rw [SO.bind_ok h2, SO.bind_ok h3]
        obtain ⟨k1, k2⟩ := scanLines_same io fuel ⟨l.bus, p.records ++ l.log.map Cli.libraryRecord⟩
        simp only at k1 k2
        rcases hs : Cli.scanLoop (ε := Cli.Failure) fuel l.bus with ⟨b, o⟩
        rcases hs' : Cli.scanLines io fuel ⟨l.bus, p.records ++ l.log.map Cli.libraryRecord⟩ with ⟨p2, o2⟩
        rw [hs, hs'] at k1 k2
        simp only at k1 k2
        subst k1
        cases o with
        | err e => exact k2.elim
        | panic =>
          subst k2
          rw [SO.bind_panic hs, SO.bind_panic hs']
          exact ⟨rfl, rfl⟩
        | hang =>
          subst k2
          rw [SO.bind_hang hs, SO.bind_hang hs']
          exact ⟨rfl, rfl⟩
        | ok items =>
          obtain ⟨k2, k3⟩ := k2
          subst k2
          rw [SO.bind_ok hs, SO.bind_ok hs']
          rw [shown_append, shown_library, List.append_nil] at k3
          have h5 := Erases.scanDrop (ε := Unit) fuel ⟨p2.bus, []⟩
          rcases hd : Logged.scanDrop (ε := Unit) fuel ⟨p2.bus, []⟩ with ⟨l3, o3⟩
          rw [hd] at h5
          rw [library_eq hd]
          have h6 := phantom_scanDrop Cli.Failure fuel p2.bus
          rw [← h5] at h6
          obtain ⟨h6, h7⟩ := h6
          cases o3 with
          | err e => exact absurd rfl (h7 e)
          | panic =>
            rw [SO.bind_panic h6]
            exact ⟨rfl, rfl⟩
          | hang =>
            rw [SO.bind_hang h6]
            exact ⟨rfl, rfl⟩
          | ok u =>
            rw [SO.bind_ok h6]
            refine ⟨rfl, rfl, ?_⟩
            show Cli.shown 0#8 (p2.records ++ l3.log.map Cli.libraryRecord) = _
            rw [shown_append, shown_library, List.append_nil, k3]
  | reboot motorId => exact sameRun_call io _ _ (fun _ _ => rfl) (.instruct _ _ _ _)
  | read8 motorId address => exact sameRun_unicast io _ fun _ => sameRun_call io _ _ (fun _ _ => rfl) (.read _ _ _)
  | read16 motorId address => exact sameRun_unicast io _ fun _ => sameRun_call io _ _ (fun _ _ => rfl) (.read _ _ _)
  | read32 motorId address => exact sameRun_unicast io _ fun _ => sameRun_call io _ _ (fun _ _ => rfl) (.read _ _ _)
  | read motorId address count => exact sameRun_unicast io _ fun _ => sameRun_call io _ _ (fun _ _ => rfl) (.readBytes _ _ _)
  | write8 motorId address value => exact sameRun_call io _ _ (fun _ _ => rfl) (.instruct _ _ _ _)
  | write16 motorId address value => exact sameRun_call io _ _ (fun _ _ => rfl) (.instruct _ _ _ _)
  | write32 motorId address value => exact sameRun_call io _ _ (fun _ _ => rfl) (.instruct _ _ _ _)
  | write motorId address data => exact sameRun_call io _ _ (fun _ _ => rfl) (.instruct _ _ _ _)

/-- The debug messages at the start. -/
theorem announced_eq (io : IoErr → List Char) (path : List Char) (baudRate fuel : Nat) (command : Cli.Command) (client : Bus) :
    ∃ records, records = (Cli.openedText path baudRate :: (Cli.announcement command).toList).map (⟨"dynamixel2".toList, .debug, ·⟩) ∧
      Cli.announced io path baudRate fuel command ⟨client, []⟩ = Cli.perform io fuel command ⟨client, records⟩ := by
  refine ⟨_, rfl, ?_⟩
  unfold Cli.announced
  cases Cli.announcement command <;> rfl

/-- The program with all messages ends as without them, with the same client and exit code. If it ends, then without `-v` it shows
the lines of `Model/Cli.lean`. -/
theorem c69_same (debug : Bool) (io : IoErr → List Char) (path : List Char) (opened : Outcome IoErr Port) (baudRate fuel : Nat)
    (command : Cli.Command) :
    (Cli.program debug io path opened baudRate fuel command).1 = (Cli.main debug io path opened baudRate fuel command).1 ∧
    match (Cli.main debug io path opened baudRate fuel command).2 with
    | .ok (lines, code) => (Cli.program debug io path opened baudRate fuel command).2.2 = .ok code ∧
        Cli.shown 0#8 (Cli.program debug io path opened baudRate fuel command).2.1 = lines.map lineText
    | .err e => e.elim
    | .panic => (Cli.program debug io path opened baudRate fuel command).2.2 = .panic
    | .hang => (Cli.program debug io path opened baudRate fuel command).2.2 = .hang := by
  unfold Cli.program Cli.main
  rcases Client.open debug opened baudRate with client | e | _ | _
  · simp only
    obtain ⟨records, h1, h2⟩ := announced_eq io path baudRate fuel command client
    have h3 := sameRun_perform io fuel command ⟨client, records⟩
    have h4 : Cli.shown 0#8 records = [] := by
      rw [h1]
      cases Cli.announcement command <;> rfl
    rw [← h2, h4] at h3
    simp only at h3
    obtain ⟨h3, h5⟩ := h3
    rcases ha : Cli.announced io path baudRate fuel command ⟨client, []⟩ with ⟨p, o⟩
    rcases hd : Cli.doMain fuel command client with ⟨b, o'⟩
    rw [ha, hd] at h3 h5
    subst h3
    cases o' with
    | ok r =>
      obtain ⟨h5, h6⟩ := h5
      simp only at h5
      subst h5
      exact ⟨rfl, rfl, h6⟩
    | err e =>
      obtain ⟨h5, h6⟩ := h5
      simp only at h5
      subst h5
      exact ⟨rfl, rfl, h6 path⟩
    | panic =>
      simp only at h5
      subst h5
      exact ⟨rfl, rfl⟩
    | hang =>
      simp only at h5
      subst h5
      exact ⟨rfl, rfl⟩
  · exact ⟨rfl, rfl, rfl⟩
  · exact ⟨rfl, rfl⟩
  · exact ⟨rfl, rfl⟩

/-- With any number of `-v` options, all lines that are shown without are shown, in the same order. -/
theorem c69_shown {debug : Bool} {io : IoErr → List Char} {path : List Char} {opened : Outcome IoErr Port} {baudRate fuel code : Nat}
    {command : Cli.Command} {lines : List Cli.Line} (h : (Cli.main debug io path opened baudRate fuel command).2 = .ok (lines, code))
    (v : Byte) :
    List.Sublist (lines.map lineText) (Cli.shown v (Cli.program debug io path opened baudRate fuel command).2.1) := by
  have h1 := (c69_same debug io path opened baudRate fuel command).2
  rw [h] at h1
  rw [← h1.2]
  exact c69_more _ _ (Nat.zero_le _) _

/-! ## Announcements -/

/-- What is said before a command: its name, the motor, and the address, and for most writes the value in decimal and hexadecimal. -/
inductive Announces : Cli.Command → List Char → Prop
  | ping {motor : Byte} {m : List Char} (hm : Written 10 1 m motor.toNat) :
    Announces (.ping (.id motor)) ("Sending ping command to motor ".toList ++ m)
  | reboot {motor : Cli.MotorId} {m : List Char} (hm : Written 10 1 m motor.raw.toNat) :
    Announces (.reboot motor) ("Sending reboot command with motor ID ".toList ++ m)
  | read8 {motor : Cli.MotorId} {address : U16} {m a : List Char} (hm : Written 10 1 m motor.raw.toNat) (ha : Written 10 1 a address.toNat) :
    Announces (.read8 motor address) ("Reading an 8-bit value from motor ".toList ++ m ++ " at address ".toList ++ a)
  | read16 {motor : Cli.MotorId} {address : U16} {m a : List Char} (hm : Written 10 1 m motor.raw.toNat) (ha : Written 10 1 a address.toNat) :
    Announces (.read16 motor address) ("Reading a 16-bit value from motor ".toList ++ m ++ " at address ".toList ++ a)
  | read32 {motor : Cli.MotorId} {address : U16} {m a : List Char} (hm : Written 10 1 m motor.raw.toNat) (ha : Written 10 1 a address.toNat) :
    Announces (.read32 motor address) ("Reading a 32-bit value from motor ".toList ++ m ++ " at address ".toList ++ a)
  | read {motor : Cli.MotorId} {address count : U16} {m a c : List Char} (hm : Written 10 1 m motor.raw.toNat)
    (ha : Written 10 1 a address.toNat) (hc : Written 10 1 c count.toNat) :
    Announces (.read motor address count) ("Reading a ".toList ++ c ++ " bytes from motor ".toList ++ m ++ " at address ".toList ++ a)
  | write8 {motor : Cli.MotorId} {address : U16} {value : BitVec (8 * 1)} {m a d x : List Char} (hm : Written 10 1 m motor.raw.toNat)
    (ha : Written 10 1 a address.toNat) (hd : Written 10 1 d value.toNat) (hx : Written 16 2 x value.toNat) :
    Announces (.write8 motor address value) ("Writing 8-bit value ".toList ++ d ++ " (0x".toList ++ x ++ ") to motor ".toList ++ m ++
      " at address ".toList ++ a)
  | write16 {motor : Cli.MotorId} {address : U16} {value : BitVec (8 * 2)} {m a d x : List Char} (hm : Written 10 1 m motor.raw.toNat)
    (ha : Written 10 1 a address.toNat) (hd : Written 10 1 d value.toNat) (hx : Written 16 4 x value.toNat) :
    Announces (.write16 motor address value) ("Writing 16-bit value ".toList ++ d ++ " (0x".toList ++ x ++ ") to motor ".toList ++ m ++
      " at address ".toList ++ a)
  | write32 {motor : Cli.MotorId} {address : U16} {value : BitVec (8 * 4)} {m a d x y : List Char} (hm : Written 10 1 m motor.raw.toNat)
    (ha : Written 10 1 a address.toNat) (hd : Written 10 1 d value.toNat) (hx : Written 16 4 x (value.toNat / 65536))
    (hy : Written 16 4 y (value.toNat % 65536)) :
    Announces (.write32 motor address value) ("Writing 32-bit value ".toList ++ d ++ " (0x".toList ++ x ++ " ".toList ++ y ++
      ") to motor ".toList ++ m ++ " at address ".toList ++ a)
  | write {motor : Cli.MotorId} {address : U16} {data : List Byte} {m a n : List Char} (hm : Written 10 1 m motor.raw.toNat)
    (ha : Written 10 1 a address.toNat) (hn : Written 10 1 n data.length) :
    Announces (.write motor address data) ("Writing ".toList ++ n ++ " bytes to motor ".toList ++ m ++ " at address ".toList ++ a)

/-- Every command but the scan is announced like that. -/
theorem c69_announcement (command : Cli.Command) : match Cli.announcement command with
    | some text => Announces command text
    | none => command = .ping .broadcast := by
  cases command with
  | ping motor =>
    cases motor with
    | id motor => exact .ping (decimal_written _)
    | broadcast => rfl
  | reboot motor => exact .reboot (decimal_written _)
  | read8 => exact .read8 (decimal_written _) (decimal_written _)
  | read16 => exact .read16 (decimal_written _) (decimal_written _)
  | read32 => exact .read32 (decimal_written _) (decimal_written _)
  | read => exact .read (decimal_written _) (decimal_written _) (decimal_written _)
  | write8 => exact .write8 (decimal_written _) (decimal_written _) (decimal_written _) (upperHex_written _ _)
  | write16 => exact .write16 (decimal_written _) (decimal_written _) (decimal_written _) (upperHex_written _ _)
  | write32 motor address value =>
    have h1 : (value >>> 16).toNat = value.toNat / 65536 := by
      rw [BitVec.toNat_ushiftRight, Nat.shiftRight_eq_div_pow]
    have h2 : (value &&& 0xFFFF#(8 * 4)).toNat = value.toNat % 65536 := by
      rw [BitVec.toNat_and]
      exact Nat.and_two_pow_sub_one_eq_mod value.toNat 16
    exact .write32 (decimal_written _) (decimal_written _) (decimal_written _) (h1 ▸ upperHex_written _ _) (h2 ▸ upperHex_written _ _)
  | write => exact .write (decimal_written _) (decimal_written _) (decimal_written _)

/-! ## What is sent -/

/-- The lines that say that a packet is sent. -/
def sentLines (shown : List (List Char)) : List (List Char) := shown.filter fun l => "Trace:  sending packet: ".toList.isPrefixOf l

/-- These lines show these packets. -/
inductive ShowSent : List (List Char) → List (List Byte) → Prop
  | nil : ShowSent [] []
  | cons {t : List Char} {packet : List Byte} {lines : List (List Char)} {packets : List (List Byte)} (h : HexText t packet)
    (ht : ShowSent lines packets) : ShowSent (("Trace:  sending packet: ".toList ++ t) :: lines) (packet :: packets)

/-- Only new messages, and those of these that say that a packet is sent show the packets written meanwhile. -/
def SentShown {ε α : Type} (m : SO Cli.Program ε α) : Prop :=
  ∀ p, ∃ calls records, (m p).1.bus.serialPort.log = p.bus.serialPort.log ++ calls ∧ (m p).1.records = p.records ++ records ∧
    ∀ v : Byte, 2 ≤ v.toNat → ShowSent (sentLines (Cli.shown v records)) (packetsWritten calls)

theorem ShowSent.append {l l' : List (List Char)} {p p' : List (List Byte)} (h : ShowSent l p) (h' : ShowSent l' p') :
    ShowSent (l ++ l') (p ++ p') := by
  induction h with
  | nil => exact h'
  | cons h _ ih => exact .cons h ih

theorem sentLines_append (a b : List (List Char)) : sentLines (a ++ b) = sentLines a ++ sentLines b := List.filter_append ..

theorem packetsWritten_append (a b : List Call) : packetsWritten (a ++ b) = packetsWritten a ++ packetsWritten b := by
  rw [packetsWritten, List.filterMap_append]
  rfl

theorem not_prefix_of_take (n : Nat) {p q : List Char} (t : List Char) (hp : n ≤ p.length) (hq : n ≤ q.length) (h : p.take n ≠ q.take n) :
    ¬p.isPrefixOf (q ++ t) = true := by
  intro h1
  obtain ⟨r, h1⟩ := List.isPrefixOf_iff_prefix.1 h1
  have h2 := congrArg (List.take n) h1
  rw [List.take_append_of_le_length hp, List.take_append_of_le_length hq] at h2
  exact h h2

theorem sentLines_none {l : List Char} (n : Nat) (q t : List Char) (hl : l = q ++ t) (hp : n ≤ "Trace:  sending packet: ".toList.length)
    (hq : n ≤ q.length) (h : "Trace:  sending packet: ".toList.take n ≠ q.take n) : sentLines [l] = [] := by
  unfold sentLines
  rw [hl, List.filter_cons_of_neg (not_prefix_of_take n t hp hq h)]
  rfl

theorem sentLines_own (v : Byte) (lines : List Cli.Line) : sentLines (Cli.shown v (lines.map Cli.ownRecord)) = [] := by
  rw [shown_own]
  refine List.filter_eq_nil_iff.2 fun l hl => ?_
  obtain ⟨⟨lv, t⟩, _, rfl⟩ := List.mem_map.1 hl
  cases lv with
  | info => exact not_prefix_of_take (q := " ".toList) 1 t (by decide +kernel) (by decide +kernel) (by decide +kernel)
  | warn => exact not_prefix_of_take (q := "Warning:  ".toList) 1 t (by decide +kernel) (by decide +kernel) (by decide +kernel)
  | error => exact not_prefix_of_take (q := "Error:  ".toList) 1 t (by decide +kernel) (by decide +kernel) (by decide +kernel)

theorem sentLines_debug (v : Byte) (texts : List (List Char)) :
    sentLines (Cli.shown v (texts.map (⟨"dynamixel2".toList, .debug, ·⟩))) = [] := by
  refine List.filter_eq_nil_iff.2 fun l hl => ?_
  unfold Cli.shown at hl
  obtain ⟨r, hr, rfl⟩ := List.mem_map.1 hl
  obtain ⟨t, _, rfl⟩ := List.mem_map.1 (List.mem_filter.1 hr).1
  exact not_prefix_of_take (q := " ".toList) 1 t (by decide +kernel) (by decide +kernel) (by decide +kernel)

theorem sentLines_library (v : Byte) (hv : 2 ≤ v.toNat) (lines : List LogLine) :
    ShowSent (sentLines (Cli.shown v (lines.map Cli.libraryRecord))) (claimedSent lines) := by
  induction lines with
  | nil => exact .nil
  | cons l ls ih =>
    have hs : Cli.shown v [Cli.libraryRecord l] = [(Cli.libraryRecord l).line] := by
      have he : Cli.enabled v (Cli.libraryRecord l).target (Cli.libraryRecord l).level = true := by
        rw [c69_levels]
        have hpre : "dynamixel2".toList <+: "dynamixel2::bus".toList := ⟨"::bus".toList, by decide +kernel⟩
        cases l with
        | sending p => exact ⟨hpre, hv⟩
        | read p => exact ⟨hpre, hv⟩
        | skipping n => exact ⟨hpre, by omega⟩
        | skipped g => exact ⟨hpre, hv⟩
        | pingTimedOut => exact ⟨⟨"::instructions::ping".toList, by decide +kernel⟩, hv⟩
      unfold Cli.shown
      simp only [List.filter, he, List.map]
    have hc : claimedSent (l :: ls) = claimedSent [l] ++ claimedSent ls := List.filterMap_append (l := [l])
    rw [List.map_cons, ← List.singleton_append (l := List.map Cli.libraryRecord ls), shown_append, sentLines_append, hc]
    refine .append ?_ ih
    rw [hs]
    cases l with
    | sending p =>
      have h1 : (Cli.libraryRecord (.sending p)).line = "Trace:  sending packet: ".toList ++ Fmt.hexList p := rfl
      have h2 : sentLines ["Trace:  sending packet: ".toList ++ Fmt.hexList p] = ["Trace:  sending packet: ".toList ++ Fmt.hexList p] := by
        unfold sentLines
        rw [List.filter_cons_of_pos (List.isPrefixOf_iff_prefix.2 (List.prefix_append _ _))]
        rfl
      rw [h1, h2]
      exact .cons (hexText_of p) .nil
    | read p =>
      have h1 : sentLines [(Cli.libraryRecord (.read p)).line] = [] :=
        sentLines_none 10 "Trace:  read packet: ".toList (Fmt.hexList p) rfl (by decide +kernel) (by decide +kernel) (by decide +kernel)
      rw [h1]
      exact .nil
    | skipping n =>
      have h1 : sentLines [(Cli.libraryRecord (.skipping n)).line] = [] :=
        sentLines_none 1 " skipping ".toList (Fmt.decimal n ++ " bytes of leading garbage.".toList) rfl (by decide +kernel)
          (by decide +kernel) (by decide +kernel)
      rw [h1]
      exact .nil
    | skipped g =>
      have h1 : sentLines [(Cli.libraryRecord (.skipped g)).line] = [] :=
        sentLines_none 10 "Trace:  skipped garbage: ".toList (Fmt.hexList g) rfl (by decide +kernel) (by decide +kernel) (by decide +kernel)
      rw [h1]
      exact .nil
    | pingTimedOut =>
      have h1 : sentLines [(Cli.libraryRecord .pingTimedOut).line] = [] := by decide +kernel
      rw [h1]
      exact .nil

namespace SentShown
variable {ε ε' α β : Type}

theorem say (lines : List Cli.Line) : SentShown (ε := ε) (Cli.say (lines.map Cli.ownRecord)) :=
  fun _ => ⟨[], _, (List.append_nil _).symm, rfl, fun v _ => by rw [sentLines_own]; exact .nil⟩

theorem pure (a : α) : SentShown (Pure.pure a : SO Cli.Program ε α) :=
  fun _ => ⟨[], [], (List.append_nil _).symm, (List.append_nil _).symm, fun _ _ => .nil⟩

theorem lift (o : Outcome ε α) : SentShown (SO.lift o : SO Cli.Program ε α) :=
  fun _ => ⟨[], [], (List.append_nil _).symm, (List.append_nil _).symm, fun _ _ => .nil⟩

theorem bind {m : SO Cli.Program ε α} {f : α → SO Cli.Program ε β} (h : SentShown m) (hf : ∀ a, SentShown (f a)) :
    SentShown (m >>= f) := by
  intro p
  obtain ⟨c1, r1, h1, h2, h3⟩ := h p
  rcases hm : m p with ⟨p', o⟩
  rw [hm] at h1 h2
  cases o with
  | ok a =>
    rw [SO.bind_ok hm]
    obtain ⟨c2, r2, k1, k2, k3⟩ := hf a p'
    refine ⟨c1 ++ c2, r1 ++ r2, ?_, ?_, fun v hv => ?_⟩
    · rw [k1, h1, List.append_assoc]
    · rw [k2, h2, List.append_assoc]
    · rw [shown_append, sentLines_append, packetsWritten_append]
      exact (h3 v hv).append (k3 v hv)
  | err e =>
    rw [SO.bind_err hm]
    exact ⟨c1, r1, h1, h2, h3⟩
  | panic =>
    rw [SO.bind_panic hm]
    exact ⟨c1, r1, h1, h2, h3⟩
  | hang =>
    rw [SO.bind_hang hm]
    exact ⟨c1, r1, h1, h2, h3⟩

theorem library {m : SO Logged ε α} (h : SentAsLogged m) : SentShown (Cli.library m) := by
  intro p
  obtain ⟨calls, lines, h1, h2, h3⟩ := h ⟨p.bus, []⟩
  rcases hm : m ⟨p.bus, []⟩ with ⟨l, o⟩
  rw [hm] at h1 h2
  rw [library_eq hm]
  refine ⟨calls, _, h1, rfl, fun v hv => ?_⟩
  simp only [List.nil_append] at h2
  rw [← h3, ← h2]
  exact sentLines_library v hv _

theorem orFail {text : ε → List Char} {m : SO Cli.Program ε α} (h : SentShown m) : SentShown (Cli.orFail text m) := by
  intro p
  obtain ⟨calls, records, h1, h2, h3⟩ := h p
  rcases hm : m p with ⟨p', o⟩
  rw [hm] at h1 h2
  rw [orFail_eq hm]
  cases o with
  | ok a => exact ⟨calls, records, h1, h2, h3⟩
  | panic => exact ⟨calls, records, h1, h2, h3⟩
  | hang => exact ⟨calls, records, h1, h2, h3⟩
  | err e =>
    refine ⟨calls, records ++ [(Cli.Level.error, text e)].map Cli.ownRecord, h1, ?_, fun v hv => ?_⟩
    · show p'.records ++ _ = _
      rw [h2, List.append_assoc]
      rfl
    · rw [shown_append, sentLines_append, sentLines_own, List.append_nil]
      exact h3 v hv

theorem call {io : IoErr → List Char} {failure : TransferError → Cli.Failure} {result : α → Cli.Report}
    {m : SO Logged TransferError α} (h : SentAsLogged m) : SentShown (Cli.call io failure result m) :=
  .bind (.orFail (.library h)) fun _ => .say _

theorem unicast (io : IoErr → List Char) (motorId : Cli.MotorId) : SentShown (Cli.unicast io motorId) := .orFail (.lift _)

theorem scanLines (io : IoErr → List Char) (fuel : Nat) : SentShown (Cli.scanLines io fuel) := by
  induction fuel with
  | zero => exact fun _ => ⟨[], [], (List.append_nil _).symm, (List.append_nil _).symm, fun _ _ => .nil⟩
  | succ fuel ih =>
    refine .bind (.library c68_sent_scan) fun r => ?_
    cases r with
    | some item => exact .bind (.say _) fun _ => ih
    | none => exact .pure _

theorem perform (io : IoErr → List Char) (fuel : Nat) (command : Cli.Command) : SentShown (Cli.perform io fuel command) := by
  cases command with
  | ping motorId =>
    cases motorId with
    | id raw => exact .call (.bind (.transferSingle _ _ _ _ _) fun _ => .lift _)
    | broadcast =>
      exact .bind (.orFail (.library (c68_sent_write _ _ _ _))) fun _ => .bind (.scanLines _ _) fun _ => .library (.scanDrop _)
  | reboot motorId => exact .call (.instruct _ _ _ _)
  | read8 motorId address => exact .bind (.unicast _ _) fun _ => .call (.bind (.readRaw _ _ _) fun _ => .lift _)
  | read16 motorId address => exact .bind (.unicast _ _) fun _ => .call (.bind (.readRaw _ _ _) fun _ => .lift _)
  | read32 motorId address => exact .bind (.unicast _ _) fun _ => .call (.bind (.readRaw _ _ _) fun _ => .lift _)
  | read motorId address count => exact .bind (.unicast _ _) fun _ => .call (.bind (.readRaw _ _ _) fun _ => .lift _)
  | write8 motorId address value => exact .call (.instruct _ _ _ _)
  | write16 motorId address value => exact .call (.instruct _ _ _ _)
  | write32 motorId address value => exact .call (.instruct _ _ _ _)
  | write motorId address data => exact .call (.instruct _ _ _ _)

end SentShown

/-- With two or more `-v` options the tool shows every packet that it writes to the serial port, and no others, whatever the port
does and however the program ends. The first messages are about the port and about the command, before everything else. -/
theorem c69_sent (debug : Bool) (io : IoErr → List Char) (path : List Char) {opened : Outcome IoErr Port} {baudRate : Nat} (fuel : Nat)
    (command : Cli.Command) {client : Bus} (ho : Client.open debug opened baudRate = .ok client) :
    ∃ bus calls records, (Cli.program debug io path opened baudRate fuel command).1 = some bus ∧
      bus.serialPort.log = client.serialPort.log ++ calls ∧
      (Cli.program debug io path opened baudRate fuel command).2.1 =
        (Cli.openedText path baudRate :: (Cli.announcement command).toList).map (⟨"dynamixel2".toList, .debug, ·⟩) ++ records ∧
      ∀ v : Byte, 2 ≤ v.toNat →
        ShowSent (sentLines (Cli.shown v (Cli.program debug io path opened baudRate fuel command).2.1)) (packetsWritten calls) := by
  obtain ⟨start, h1, h2⟩ := announced_eq io path baudRate fuel command client
  obtain ⟨calls, records, h3, h4, h5⟩ := SentShown.perform io fuel command ⟨client, start⟩
  rw [← h2] at h3 h4
  have h6 : (Cli.program debug io path opened baudRate fuel command).1 =
      some (Cli.announced io path baudRate fuel command ⟨client, []⟩).1.bus ∧
      (Cli.program debug io path opened baudRate fuel command).2.1 =
        (Cli.announced io path baudRate fuel command ⟨client, []⟩).1.records := by
    unfold Cli.program
    rw [ho]
    simp only
    rcases Cli.announced io path baudRate fuel command ⟨client, []⟩ with ⟨p, o⟩
    cases o <;> exact ⟨rfl, rfl⟩
  obtain ⟨h6, h7⟩ := h6
  rw [h6, h7]
  refine ⟨_, calls, records, rfl, h3, ?_, fun v hv => ?_⟩
  · rw [h4, h1]
  · rw [h4, shown_append, sentLines_append, h1, sentLines_debug, List.nil_append]
    exact h5 v hv

/-- With `-v` the first line names the serial port and the baud rate; after it, there is the announcement of the command. -/
theorem c69_opened (debug : Bool) (io : IoErr → List Char) (path : List Char) {opened : Outcome IoErr Port} {baudRate : Nat} (fuel : Nat)
    (command : Cli.Command) {client : Bus} (ho : Client.open debug opened baudRate = .ok client) (v : Byte) (hv : 1 ≤ v.toNat) :
    ∃ digits rest, Written 10 1 digits baudRate ∧
      Cli.shown v (Cli.program debug io path opened baudRate fuel command).2.1 =
        (" Using serial port ".toList ++ path ++ " with baud rate ".toList ++ digits) ::
          (Cli.announcement command).toList.map (" ".toList ++ ·) ++ rest := by
  obtain ⟨-, -, records, -, -, h, -⟩ := c69_sent debug io path fuel command ho
  refine ⟨Fmt.decimal baudRate, Cli.shown v records, decimal_written _, ?_⟩
  rw [h, shown_append]
  refine congrArg (· ++ Cli.shown v records) ?_
  have hshow : ∀ texts : List (List Char), Cli.shown v (texts.map (⟨"dynamixel2".toList, .debug, ·⟩)) = texts.map (" ".toList ++ ·) := by
    intro texts
    unfold Cli.shown
    rw [List.filter_eq_self.mpr, List.map_map]
    · refine List.map_congr_left fun t _ => ?_
      exact c69_line _
    · intro r hr
      obtain ⟨t, -, rfl⟩ := List.mem_map.mp hr
      exact (c69_levels v _ .debug).mpr ⟨List.prefix_refl _, hv⟩
  rw [hshow, List.map_cons]
  rfl

/-! ## Examples -/

/-- A broadcast write with `-vv`: what is shown. -/
example : (Cli.shown 2#8 (Cli.program true (fun _ => []) "/dev/ttyUSB0".toList (.ok (portWithChunks [])) 57600 3
      (.write8 .broadcast 64#16 1#8)).2.1).map String.ofList =
    [" Using serial port /dev/ttyUSB0 with baud rate 57600",
     " Writing 8-bit value 1 (0x01) to motor 254 at address 64",
     "Trace:  sending packet: [FF, FF, FD, 00, FE, 06, 00, 03, 40, 00, 01, 2B, 96]",
     " Ok"] := by decide +kernel

/-- The same with fewer options, and for a read, which is announced also if it can not be done. -/
example : (Cli.shown 0#8 (Cli.program true (fun _ => []) "/dev/ttyUSB0".toList (.ok (portWithChunks [])) 57600 3
      (.write8 .broadcast 64#16 1#8)).2.1).map String.ofList = [" Ok"] ∧
    (Cli.shown 1#8 (Cli.program true (fun _ => []) "/dev/ttyUSB0".toList (.ok (portWithChunks [])) 57600 3
      (.read8 .broadcast 64#16)).2.1).map String.ofList =
    [" Using serial port /dev/ttyUSB0 with baud rate 57600",
     " Reading an 8-bit value from motor 254 at address 64",
     "Error:  Invalid motor ID: this command can not be broadcasted."] := by
  refine ⟨?_, ?_⟩ <;> decide +kernel

/-- A library that is not part of this project: only warnings and errors. -/
example : (Cli.enabled 2#8 "serial2".toList .info, Cli.enabled 2#8 "serial2".toList .warn) = (false, true) := by decide +kernel

/-! ## The theorems on these cases -/

example := c69_more 0#8 2#8 (by decide) (Cli.program true (fun _ => []) "/dev/ttyUSB0".toList (.ok (portWithChunks [])) 57600 3
  (.write8 .broadcast 64#16 1#8)).2.1

example := c69_line_unique (r := ⟨"dynamixel2".toList, .info, "Ok".toList⟩) (r' := ⟨"dynamixel2".toList, .debug, "Ok".toList⟩)
  (by decide +kernel)

example := c69_shown (debug := true) (io := fun _ => []) (path := "/dev/ttyUSB0".toList) (opened := .ok (portWithChunks [])) (baudRate := 57600)
  (fuel := 3) (command := .write8 .broadcast 64#16 1#8) (lines := [(.info, "Ok".toList)]) (code := 0) (by decide +kernel) 2#8

set_option maxRecDepth 10000 in
example := c69_sent true (fun _ => []) "/dev/ttyUSB0".toList (opened := .ok (portWithChunks [])) (baudRate := 57600) 3
  (.write8 .broadcast 64#16 1#8) (client := _) rfl

end Dxl.Props
