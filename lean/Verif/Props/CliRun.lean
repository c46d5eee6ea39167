import Verif.Props.Cli
import Verif.Props.Construct
import Verif.Props.Display
import Verif.Props.GroupReads

/-! # C61: what a run of the command line tool says, and its exit code -/

namespace Dxl.Props
open Dxl Spec

/-! ## What is to be printed -/

/-- A value of so many bytes: decimal, and its hexadecimal digits, in groups of at most four. -/
inductive ValueText : Nat → List Char → Nat → Prop
  | one {d h v} (hv : v < 256) (hd : Written 10 1 d v) (hh : Written 16 2 h v) : ValueText 1 (d ++ " (0x".toList ++ h ++ ")".toList) v
  | two {d h v} (hv : v < 65536) (hd : Written 10 1 d v) (hh : Written 16 4 h v) : ValueText 2 (d ++ " (0x".toList ++ h ++ ")".toList) v
  | four {d hi lo v} (hv : v < 4294967296) (hd : Written 10 1 d v) (hhi : Written 16 4 hi (v / 65536)) (hlo : Written 16 4 lo (v % 65536)) :
      ValueText 4 (d ++ " (0x".toList ++ hi ++ " ".toList ++ lo ++ ")".toList) v

/-- Bytes with a comma in front of each. -/
inductive MoreBytes : List Char → List Byte → Prop
  | nil : MoreBytes [] []
  | cons {s t b bs} (h : Written 10 1 s b.toNat) (ht : MoreBytes t bs) : MoreBytes (", ".toList ++ s ++ t) (b :: bs)

/-- A list of bytes, decimal. -/
inductive BytesText : List Char → List Byte → Prop
  | nil : BytesText "[]".toList []
  | cons {s t b bs} (h : Written 10 1 s b.toNat) (ht : MoreBytes t bs) : BytesText ("[".toList ++ s ++ t ++ "]".toList) (b :: bs)

/-- The commands that ask a motor for something: the motor, the request, and the number of parameters of a good answer. -/
inductive CliAsks : Cli.Command → Byte → Request → Nat → Prop
  | ping (id) : CliAsks (.ping (.id id)) id .ping 3
  | read8 (id address) : CliAsks (.read8 (.id id) address) id (.read address 1#16) 1
  | read16 (id address) : CliAsks (.read16 (.id id) address) id (.read address 2#16) 2
  | read32 (id address) : CliAsks (.read32 (.id id) address) id (.read address 4#16) 4
  | read (id address count) : CliAsks (.read (.id id) address count) id (.read address count) count.toNat

/-- The text that stands for the parameters of the answer. -/
inductive Prints : Cli.Command → List Byte → List Char → Prop
  | ping {id model ps firmware m f} (hp : LittleEndian 2 model ps) (hv : model < 65536) (hm : Written 10 1 m model) (hf : Written 10 1 f firmware.toNat) :
      Prints (.ping (.id id)) (ps ++ [firmware]) ("Ping { model: ".toList ++ m ++ ", firmware: ".toList ++ f ++ " }".toList)
  | read8 {id address ps v t} (hp : LittleEndian 1 v ps) (ht : ValueText 1 t v) : Prints (.read8 (.id id) address) ps t
  | read16 {id address ps v t} (hp : LittleEndian 2 v ps) (ht : ValueText 2 t v) : Prints (.read16 (.id id) address) ps t
  | read32 {id address ps v t} (hp : LittleEndian 4 v ps) (ht : ValueText 4 t v) : Prints (.read32 (.id id) address) ps t
  | read {id address count ps t} (hl : ps.length = count.toNat) (ht : BytesText t ps) : Prints (.read (.id id) address count) ps t

/-- The lines for a good answer: a warning if the alert bit is set, and the text. -/
def answerLines (e : Byte) (text : List Char) : List Cli.Line :=
  (if 128 ≤ e.toNat then [(.warn, "Alert bit set in response from motor!".toList)] else []) ++ [(.info, text)]

/-! ## The start of a run -/

/-- The client right after it was opened. -/
def Opened (debug : Bool) (p : Port) (rate : Nat) (b : Bus) : Prop :=
  Fresh debug p (List.replicate 128 0#8) (List.replicate 128 0#8) rate b

theorem main_opened (debug : Bool) (io : IoErr → List Char) (path : List Char) (p : Port) (rate fuel : Nat) (cmd : Cli.Command) :
    ∃ b, Opened debug p rate b ∧ Cli.main debug io path (.ok p) rate fuel cmd =
      match Cli.doMain fuel cmd b with
      | (c, .ok r) => (some c, .ok (r.lines io, 0))
      | (c, .err e) => (some c, .ok ([(.error, e.text io path)], 1))
      | (c, .panic) => (some c, .panic)
      | (c, .hang) => (some c, .hang) := by
  obtain ⟨b, h1, h2⟩ := (c50_constructors debug (.ok p) p rate [] []).1.1 p rate rfl (by simp)
  refine ⟨b, h2, ?_⟩
  unfold Cli.main
  rw [h1]
  rfl

/-- The end of a run with success. -/
theorem main_success {debug : Bool} {io : IoErr → List Char} {path : List Char} {p : Port} {rate fuel : Nat} {cmd : Cli.Command}
    {c : Option Bus} {lines : List Cli.Line} (h : Cli.main debug io path (.ok p) rate fuel cmd = (c, .ok (lines, 0))) :
    ∃ b c' r, Opened debug p rate b ∧ c = some c' ∧ Cli.doMain fuel cmd b = (c', .ok r) ∧ lines = r.lines io := by
  obtain ⟨b, h1, h2⟩ := main_opened debug io path p rate fuel cmd
  rw [h2] at h
  rcases hd : Cli.doMain fuel cmd b with ⟨c', o⟩
  rw [hd] at h
  cases o with
  | ok r =>
    simp only [Prod.mk.injEq, Outcome.ok.injEq, and_true] at h
    exact ⟨b, c', r, h1, h.1.symm, hd, h.2.symm⟩
  | err e => simp at h
  | panic => simp at h
  | hang => simp at h

theorem report_ok {ε α : Type} {failure : ε → Cli.Failure} {result : α → Cli.Report} {m : SO Bus ε α} {b c : Bus} {r : Cli.Report}
    (h : Cli.report failure result m b = (c, .ok r)) : ∃ a, m b = (c, .ok a) ∧ r = result a := by
  unfold Cli.report at h
  obtain ⟨c', a, h1, h2⟩ := SO.bind_eq_ok.mp h
  cases h2
  exact ⟨a, SO.mapErr_eq_ok.mp h1, rfl⟩

theorem report_snd {ε α : Type} (failure : ε → Cli.Failure) (result : α → Cli.Report) (m : SO Bus ε α) (b : Bus) :
    (Cli.report failure result m b).2 = match (m b).2 with
      | .ok a => .ok (result a)
      | .err e => .err (failure e)
      | .panic => .panic
      | .hang => .hang := by
  unfold Cli.report
  rw [SO.bind_def, SO.mapErr_apply]
  rcases m b with ⟨c, o⟩
  cases o <;> rfl

/-- The lines and exit code depend on the outcome only. -/
theorem main_snd {debug : Bool} {io : IoErr → List Char} {path : List Char} {p : Port} {rate fuel : Nat} {cmd : Cli.Command}
    {o : Outcome Cli.Failure Cli.Report} (h : ∀ b, Opened debug p rate b → (Cli.doMain fuel cmd b).2 = o) :
    (Cli.main debug io path (.ok p) rate fuel cmd).2 = match o with
      | .ok r => .ok (r.lines io, 0)
      | .err e => .ok ([(.error, e.text io path)], 1)
      | .panic => .panic
      | .hang => .hang := by
  obtain ⟨b, h1, h2⟩ := main_opened debug io path p rate fuel cmd
  rw [h2]
  have := h b h1
  rcases hd : Cli.doMain fuel cmd b with ⟨c', o'⟩
  rw [hd] at this
  dsimp only at this
  subst this
  cases o' <;> rfl

/-! ## The texts of the model are those texts -/

theorem alertLines_eq {e : Byte} {text : List Char} :
    Cli.alertLines (decide (128 ≤ e.toNat)) ++ [(.info, text)] = answerLines e text := by
  unfold Cli.alertLines answerLines
  by_cases h : 128 ≤ e.toNat <;> simp only [h, decide_true, decide_false, if_true, if_false, Bool.false_eq_true]

theorem valueText_four (v : BitVec (8 * 4)) : ValueText 4 (Fmt.decimal v.toNat ++ " (0x".toList ++
      Fmt.upperHex 4 ((v >>> 16) &&& 0xFFFF#(8 * 4)).toNat ++ " ".toList ++
      Fmt.upperHex 4 (v &&& 0xFFFF#(8 * 4)).toNat ++ ")".toList) v.toNat := by
  have hv : v.toNat < 2 ^ 32 := v.isLt
  have h1 : ((v >>> 16) &&& 0xFFFF#(8 * 4)).toNat = v.toNat / 65536 := by
    rw [BitVec.toNat_and, BitVec.toNat_ushiftRight, show (0xFFFF#(8 * 4)).toNat = 2 ^ 16 - 1 by decide, Nat.and_two_pow_sub_one_eq_mod,
      Nat.shiftRight_eq_div_pow]
    omega
  have h2 : (v &&& 0xFFFF#(8 * 4)).toNat = v.toNat % 65536 := by
    rw [BitVec.toNat_and, show (0xFFFF#(8 * 4)).toNat = 2 ^ 16 - 1 by decide, Nat.and_two_pow_sub_one_eq_mod]
  rw [h1, h2]
  exact .four (BitVec.isLt _) (decimal_written _) (upperHex_written _ _) (upperHex_written _ _)

theorem moreBytes_of (bs : List Byte) : MoreBytes (Fmt.debugItems (bs.map fun b => Fmt.decimal b.toNat)) bs := by
  induction bs with
  | nil => exact .nil
  | cons b bs ih => exact .cons (decimal_written _) ih

theorem bytesText_of (bs : List Byte) : BytesText (Fmt.debugList (bs.map fun b => Fmt.decimal b.toNat)) bs := by
  cases bs with
  | nil => exact .nil
  | cons b bs => exact .cons (decimal_written _) (moreBytes_of bs)

theorem le16_littleEndian (v : U16) : LittleEndian 2 v.toNat (le16 v) := by
  have := v.isLt
  refine ⟨rfl, fun i hi => ?_⟩
  match i, hi with
  | 0, _ => simp [le16]
  | 1, _ => simp [le16, Nat.shiftRight_eq_div_pow]

theorem unsigned_impl {n : Nat} (hn : n < 2 ^ 16) : ImplData (DataTy.unsigned n) (fun _ => True) (fun v => toLeBytes n v.toNat) :=
  .unsigned hn _ fun _ => littleEndian_iff.mpr rfl

/-! ## Commands that ask for something -/

/-- **C61** If such a command exits with 0, it sent its request, and the first packet after that was a status packet of the
addressed motor, without error; what it printed is the parameters of that packet, and a warning exactly if its alert bit is
set. -/
theorem c61_asked {cmd : Cli.Command} {id : Byte} {req : Request} {n : Nat} (ha : CliAsks cmd id req n) {debug : Bool}
    {io : IoErr → List Char} {path : List Char} {p : Port} {rate fuel : Nat} {c : Option Bus} {lines : List Cli.Line}
    (hrate : rate < 2 ^ 32) (h : Cli.main debug io path (.ok p) rate fuel cmd = (c, .ok (lines, 0))) :
    ∃ b c' e ps text, Opened debug p rate b ∧ c = some c' ∧ Exchange b c' id req.body n id e ps ∧ e.toNat % 128 = 0 ∧
      Prints cmd ps text ∧ lines = answerLines e text := by
  obtain ⟨b, c', r, ho, rfl, hd, rfl⟩ := main_success h
  have hbaud : b.baudRate < 2 ^ 32 := by rw [ho.rate]; exact hrate
  cases ha with
  | ping =>
    obtain ⟨a, h1, rfl⟩ := report_ok hd
    obtain ⟨e, h2, h3, -, h5⟩ := c30_ping ho.winv hbaud h1
    refine ⟨b, c', e, _, _, ho, rfl, h2, h3, .ping (le16_littleEndian _) (BitVec.isLt _) (decimal_written _) (decimal_written _), ?_⟩
    rw [← alertLines_eq, ← h5]
    rfl
  | read8 =>
    obtain ⟨a, h1, rfl⟩ := report_ok hd
    obtain ⟨e, h2, -, h3, -, h5⟩ := c30_read_value (unsigned_impl (by decide)) ho.winv hbaud h1
    refine ⟨b, c', e, _, _, ho, rfl, h2, h3, .read8 (littleEndian_iff.mpr rfl) (.one (BitVec.isLt _) (decimal_written _) (upperHex_written _ _)), ?_⟩
    rw [← alertLines_eq, ← h5]
    rfl
  | read16 =>
    obtain ⟨a, h1, rfl⟩ := report_ok hd
    obtain ⟨e, h2, -, h3, -, h5⟩ := c30_read_value (unsigned_impl (by decide)) ho.winv hbaud h1
    refine ⟨b, c', e, _, _, ho, rfl, h2, h3, .read16 (littleEndian_iff.mpr rfl) (.two (BitVec.isLt _) (decimal_written _) (upperHex_written _ _)), ?_⟩
    rw [← alertLines_eq, ← h5]
    rfl
  | read32 =>
    obtain ⟨a, h1, rfl⟩ := report_ok hd
    obtain ⟨e, h2, -, h3, -, h5⟩ := c30_read_value (unsigned_impl (by decide)) ho.winv hbaud h1
    refine ⟨b, c', e, _, _, ho, rfl, h2, h3, .read32 (littleEndian_iff.mpr rfl) (valueText_four _), ?_⟩
    rw [← alertLines_eq, ← h5]
    rfl
  | read =>
    obtain ⟨a, h1, rfl⟩ := report_ok hd
    obtain ⟨e, h2, h3, hl, -, h5⟩ := c30_read_bytes ho.winv hbaud h1
    refine ⟨b, c', e, _, _, ho, rfl, h2, h3, .read hl (bytesText_of _), ?_⟩
    rw [← alertLines_eq, ← h5]
    rfl

/-- The serial port `p` accepts an instruction; what arrives after that within the time for a response with `exp` parameters
is `input`. -/
structure PortGets (p : Port) (rate exp : Nat) (input : List Byte) : Prop where
  rate_lt : rate < 2 ^ 32
  rate_ne : rate ≠ 0
  sendOk : p.SendOk
  input : ∃ ns, LeastTime (11 + exp) rate ns ∧ input = arriving (p.now + p.writeTime + (ns + 34000000)) (newInput p)

/-- What arrives is this status packet first. -/
def PortAnswers (p : Port) (rate exp : Nat) (rid e : Byte) (ps : List Byte) : Prop :=
  ∃ input rest, PortGets p rate exp input ∧ StatusFirst 128 input rid e ps rest

theorem Opened.room {debug : Bool} {p : Port} {rate n : Nat} {b : Bus} (hb : Opened debug p rate b) (hn : n ≤ 86) : Room b n := by
  have := hb.writeSize
  rw [List.length_replicate] at this
  exact ⟨by omega, by omega⟩

theorem PortAnswers.answered {p : Port} {rate exp n : Nat} {rid e : Byte} {ps : List Byte} (h : PortAnswers p rate exp rid e ps)
    {debug : Bool} {b : Bus} (hb : Opened debug p rate b) (hn : n ≤ 86) : Answered b n exp rid e ps := by
  obtain ⟨input, rest, h1, h2⟩ := h
  refine ⟨hb.winv, by rw [hb.rate]; exact h1.rate_lt, by rw [hb.rate]; exact h1.rate_ne, by rw [hb.port]; exact h1.sendOk,
    hb.room hn, ?_⟩
  obtain ⟨ns, h3, rfl⟩ := h1.input
  have := hb.readSize
  rw [List.length_replicate] at this
  exact ⟨ns, rest, by rw [hb.rate]; exact h3, by rw [hb.port, this]; exact h2⟩

/-- The start of the line with the error. -/
def lead : Cli.Command → List Char
  | .write8 .. => "Write failed: ".toList
  | _ => "Command failed: ".toList

/-- One line with the text of the error, and exit code 1. -/
def FailsWith (io : IoErr → List Char) (cmd : Cli.Command) (e : TransferError) (o : Outcome Empty (List Cli.Line × Nat)) : Prop :=
  ∃ text, ErrorText io text e ∧ o = .ok ([(.error, lead cmd ++ text)], 1)

/-- One line with the text, perhaps a warning before it, and exit code 0. -/
def SucceedsWith (e : Byte) (text : List Char) (o : Outcome Empty (List Cli.Line × Nat)) : Prop :=
  o = .ok (answerLines e text, 0)

theorem fails {debug : Bool} {io : IoErr → List Char} {path : List Char} {p : Port} {rate fuel : Nat} {cmd : Cli.Command}
    {e : TransferError} (he : FourBytes e) (f : Cli.Failure) (hf : f.text io path = lead cmd ++ e.display io)
    (h : ∀ b, Opened debug p rate b → (Cli.doMain fuel cmd b).2 = .err f) :
    FailsWith io cmd e (Cli.main debug io path (.ok p) rate fuel cmd).2 := by
  refine ⟨_, c60_text io e he, ?_⟩
  rw [main_snd h]
  dsimp only
  rw [hf]

theorem succeeds {debug : Bool} {io : IoErr → List Char} {path : List Char} {p : Port} {rate fuel : Nat} {cmd : Cli.Command}
    {e : Byte} {text : List Char} (r : Cli.Report) (hr : r.lines io = answerLines e text)
    (h : ∀ b, Opened debug p rate b → (Cli.doMain fuel cmd b).2 = .ok r) :
    SucceedsWith e text (Cli.main debug io path (.ok p) rate fuel cmd).2 := by
  unfold SucceedsWith
  rw [main_snd h]
  dsimp only
  rw [hr]

/-- What becomes of an answer to a question. -/
def Reports (io : IoErr → List Char) (cmd : Cli.Command) (id : Byte) (n : Nat) (rid e : Byte) (ps : List Byte)
    (o : Outcome Empty (List Cli.Line × Nat)) : Prop :=
  if e.toNat % 128 ≠ 0 then FailsWith io cmd (.readError (.motorError ⟨e⟩)) o
  else if rid ≠ id then FailsWith io cmd (.readError (.invalidMessage (.packetId rid id))) o
  else if ps.length ≠ n then FailsWith io cmd (.readError (.invalidMessage (.parameterCount ps.length (.exact n)))) o
  else ∃ text, Prints cmd ps text ∧ SucceedsWith e text o

theorem reports_of_answer {α : Type} {debug : Bool} {io : IoErr → List Char} {path : List Char} {p : Port} {rate fuel : Nat} {cmd : Cli.Command}
    {id rid e : Byte} {n : Nat} {ps : List Byte} {result : Response α → Cli.Report} {m : SO Bus TransferError (Response α)} {v : α}
    (hcmd : Cli.doMain fuel cmd = Cli.report .command result m) (hlead : lead cmd = "Command failed: ".toList)
    (h : ∀ b, Opened debug p rate b → (m b).2 = answer id n rid e ps v)
    (hgood : ps.length = n → ∃ text, Prints cmd ps text ∧ (result ⟨rid, decide (128 ≤ e.toNat), v⟩).lines io = answerLines e text) :
    Reports io cmd id n rid e ps (Cli.main debug io path (.ok p) rate fuel cmd).2 := by
  have key : ∀ b, Opened debug p rate b → (Cli.doMain fuel cmd b).2 = match answer id n rid e ps v with
      | .ok a => .ok (result a)
      | .err e => .err (.command e)
      | .panic => .panic
      | .hang => .hang := by
    intro b hb
    rw [hcmd, report_snd, h b hb]
    cases answer id n rid e ps v <;> rfl
  have text : ∀ e, (Cli.Failure.command e).text io path = lead cmd ++ e.display io := by
    intro e
    rw [hlead]
    rfl
  unfold Reports
  unfold answer at key
  by_cases he : e.toNat % 128 ≠ 0
  · rw [if_pos he] at key ⊢
    exact fails (by trivial) (.command _) (text _) key
  · rw [if_neg he] at key ⊢
    by_cases hid : rid ≠ id
    · rw [if_pos hid] at key ⊢
      exact fails (by trivial) (.command _) (text _) key
    · rw [if_neg hid] at key ⊢
      by_cases hl : ps.length ≠ n
      · rw [if_pos hl] at key ⊢
        exact fails (by trivial) (.command _) (text _) key
      · rw [if_neg hl] at key ⊢
        obtain ⟨t, h1, h2⟩ := hgood (by simpa using hl)
        exact ⟨t, h1, succeeds _ h2 key⟩

theorem read_reports {n : Nat} (hn : n < 2 ^ 16) {debug : Bool} {io : IoErr → List Char} {path : List Char} {p : Port} {rate fuel : Nat} {cmd : Cli.Command}
    {id rid e : Byte} {address : U16} {ps : List Byte} {result : Response (BitVec (8 * n)) → Cli.Report}
    (ha : PortAnswers p rate n rid e ps)
    (hcmd : Cli.doMain fuel cmd = Cli.report .command result (Client.read (DataTy.unsigned n) id address))
    (hlead : lead cmd = "Command failed: ".toList)
    (hgood : ∀ v : BitVec (8 * n), LittleEndian n v.toNat ps →
      ∃ text, Prints cmd ps text ∧ (result ⟨rid, decide (128 ≤ e.toNat), v⟩).lines io = answerLines e text) :
    Reports io cmd id n rid e ps (Cli.main debug io path (.ok p) rate fuel cmd).2 := by
  have hsize : (DataTy.unsigned n).size.toNat = n := by
    simp only [DataTy.unsigned, BitVec.toNat_ofNat]
    omega
  by_cases hl : ps.length = n
  · obtain ⟨v, -, h1, -⟩ := c28_decode_onto_partial _ _ _ (unsigned_impl hn) ps (by rw [hsize]; exact hl)
    refine reports_of_answer (v := v) hcmd hlead (fun b hb => ?_) fun _ => hgood v (littleEndian_iff.mpr h1.symm)
    have := c30_read_complete (id := id) (rid := rid) (e := e) (address := address) (b := b) (unsigned_impl hn) (v := v) trivial
    rw [h1, hsize] at this
    exact this (ha.answered hb (by decide))
  · refine reports_of_answer (v := 0) hcmd hlead (fun b hb => ?_) fun h => absurd h hl
    have := c30_read_rejects (d := DataTy.unsigned n) (id := id) (rid := rid) (e := e) (address := address) (b := b) (ps := ps)
    rw [hsize] at this
    exact this (ha.answered hb (by decide)) hl 0

/-- **C61** Conversely, the first packet, if a status packet, decides: an error of the motor, another ID or another number of
parameters give one line with that error and exit code 1; otherwise the parameters are printed, and the exit code is 0. -/
theorem c61_answered {cmd : Cli.Command} {id : Byte} {req : Request} {n : Nat} (ha : CliAsks cmd id req n) (debug : Bool)
    (io : IoErr → List Char) (path : List Char) {p : Port} {rate : Nat} (fuel : Nat) {rid e : Byte} {ps : List Byte}
    (h : PortAnswers p rate n rid e ps) :
    Reports io cmd id n rid e ps (Cli.main debug io path (.ok p) rate fuel cmd).2 := by
  cases ha with
  | ping =>
    by_cases hl : ps.length = 3
    · obtain ⟨a, b', f, rfl⟩ : ∃ a b f, ps = [a, b, f] := by
        match ps, hl with
        | [a, b, f], _ => exact ⟨a, b, f, rfl⟩
      have hps : [a, b', f] = le16 (mk16 a b') ++ [f] := by rw [le16_mk16]; rfl
      rw [hps] at h ⊢
      refine reports_of_answer rfl rfl (fun b hb => c30_ping_complete (h.answered hb (by decide))) fun _ =>
        ⟨_, .ping (le16_littleEndian _) (BitVec.isLt _) (decimal_written _) (decimal_written _), ?_⟩
      rw [← alertLines_eq]
      rfl
    · exact reports_of_answer rfl rfl (fun b hb => c30_ping_rejects (h.answered hb (by decide)) hl ⟨0, 0⟩) fun h => absurd h hl
  | read8 =>
    refine read_reports (by decide) h rfl rfl fun v hv =>
      ⟨_, .read8 hv (.one (BitVec.isLt _) (decimal_written _) (upperHex_written _ _)), ?_⟩
    rw [← alertLines_eq]
    rfl
  | read16 =>
    refine read_reports (by decide) h rfl rfl fun v hv =>
      ⟨_, .read16 hv (.two (BitVec.isLt _) (decimal_written _) (upperHex_written _ _)), ?_⟩
    rw [← alertLines_eq]
    rfl
  | read32 =>
    refine read_reports (by decide) h rfl rfl fun v hv => ⟨_, .read32 hv (valueText_four _), ?_⟩
    rw [← alertLines_eq]
    rfl
  | read =>
    refine reports_of_answer rfl rfl (fun b hb => c30_read_bytes_complete (h.answered hb (by decide))) fun hl =>
      ⟨_, .read hl (bytesText_of _), ?_⟩
    rw [← alertLines_eq]
    rfl

/-! ## No answer -/

theorem calm_sent {p : Port} (h : Port.Calm p) (f : List Byte) (t : Nat) : Port.Calm (p.discarded.wrote f t true) := by
  refine ⟨h.1, fun e he => h.2 e ?_⟩
  change e ∈ p.dropArrived at he
  unfold Port.dropArrived at he
  split at he
  · exact he
  · exact (List.mem_filter.mp he).1

/-- The serial port accepts an instruction of `n` parameters, but no packet header arrives in time for a response with `exp`
parameters, and the port has no errors. -/
structure Unanswered (b : Bus) (n exp : Nat) : Prop where
  winv : b.WInv
  baud : b.baudRate < 2 ^ 32
  baud0 : b.baudRate ≠ 0
  sendOk : b.serialPort.SendOk
  room : Room b n
  readSize : 10 ≤ b.readBuffer.length
  silent : ∃ ns, LeastTime (11 + exp) b.baudRate ns ∧
    ¬ header <:+: arriving (b.serialPort.now + b.serialPort.writeTime + (ns + 34000000)) (newInput b.serialPort)
  calm : Port.Calm b.serialPort

theorem readStatusResponse_unanswered {b b₁ : Bus} {id instr : Byte} {n : Nat} {exp : U16} {enc : Encoder}
    (h : Unanswered b n exp.toNat) (hw : Bus.writeInstruction id instr n enc b = (b₁, .ok ())) :
    (Client.readStatusResponse exp b₁).2 = .err (.io .timedOut) := by
  obtain ⟨ns, hns, hno⟩ := h.silent
  obtain ⟨params, wire, h1, hl, h2, h3⟩ := afterSend h.winv hw
  obtain ⟨params', -, -, -, -, hb₁⟩ := Bus.writeInstruction_ok h.winv hw
  obtain ⟨ns', hns', heq⟩ := readStatusResponse_eq (by rw [h3.baudRate]; exact h.baud0) (h3.baudRate ▸ h.baud) exp
  rw [h3.baudRate] at hns'
  obtain rfl := leastTime_unique hns hns'
  rw [heq, status_io_iff h3.rinv (by rw [h3.readBuffer]; exact h.readSize)]
  refine ⟨?_, ?_⟩
  · rw [h3.stream _ (by omega), h3.now]
    exact parse_garbage hno _
  · refine (Port.calm_readEnd ?_ _).symm
    rw [hb₁]
    exact calm_sent h.calm _ _

theorem transferSingle_unanswered {b : Bus} {id instr : Byte} {n : Nat} {exp : U16} {enc : Encoder} {params : List Byte}
    (hp : Fills enc.run n params) (h : Unanswered b n exp.toNat) :
    (Client.transferSingle id instr n exp enc b).2 = .err (.readError (.io .timedOut)) := by
  obtain ⟨b₁, hw⟩ := write_room (id := id) (instr := instr) h.winv hp h.sendOk h.room
  have hr := readStatusResponse_unanswered h hw
  have hw' : (Client.writeInstruction id instr n enc).mapErr TransferError.writeError b = (b₁, .ok ()) :=
    SO.mapErr_eq_ok.mpr hw
  unfold Client.transferSingle
  rw [SO.bind_ok hw']
  have hr' : (Client.readStatusResponse exp).mapErr TransferError.readError b₁ =
      ((Client.readStatusResponse exp b₁).1, .err (.readError (.io .timedOut))) := by
    rw [SO.mapErr_apply, hr]; rfl
  rw [SO.bind_err hr']

theorem instruct_unanswered {b : Bus} {id instr : Byte} {n : Nat} {enc : Encoder} {params : List Byte} (hid : id ≠ 0xFE#8)
    (hp : Fills enc.run n params) (h : Unanswered b n 0) :
    (Client.instruct id instr n enc b).2 = .err (.readError (.io .timedOut)) := by
  obtain ⟨b₁, hw⟩ := write_room (id := id) (instr := instr) h.winv hp h.sendOk h.room
  have hr := readStatusResponse_unanswered (exp := 0#16) h hw
  have hw' : (Client.writeInstruction id instr n enc).mapErr TransferError.writeError b = (b₁, .ok ()) :=
    SO.mapErr_eq_ok.mpr hw
  unfold Client.instruct
  rw [SO.bind_ok hw', SO.mapErr_apply]
  unfold Client.readResponseIfNotBroadcast
  rw [if_neg (by exact hid)]
  have hr' : Client.readStatusResponse 0#16 b₁ = ((Client.readStatusResponse 0#16 b₁).1, .err (.io .timedOut)) := Prod.ext rfl hr
  rw [SO.bind_err hr']
  rfl

theorem readRaw_unanswered {b : Bus} {id : Byte} {address count : U16} (h : Unanswered b 4 count.toNat) :
    ∃ c, Client.readRaw id address count b = (c, .err (.readError (.io .timedOut))) := by
  have := transferSingle_unanswered (id := id) (instr := InstructionId.read) (Client.readEncoder_fills address count) h
  refine ⟨(Client.transferSingle id InstructionId.read 4 count (Client.readEncoder address count) b).1, ?_⟩
  unfold Client.readRaw
  rw [SO.bind_err (s' := (Client.transferSingle id InstructionId.read 4 count (Client.readEncoder address count) b).1) (Prod.ext rfl this)]

/-- **C20** If no packet comes in time, every call that waits for a response ends with a time-out error. -/
theorem c20_unanswered {b : Bus} (id : Byte) (address : U16) :
    (∀ count : U16, Unanswered b 4 count.toNat → (Client.readBytes id address count b).2 = .err (.readError (.io .timedOut))) ∧
    (∀ {α : Type} (d : DataTy α), Unanswered b 4 d.size.toNat → (Client.read d id address b).2 = .err (.readError (.io .timedOut))) ∧
    (Unanswered b 0 3 → (Client.ping id b).2 = .err (.readError (.io .timedOut))) ∧
    (id ≠ 0xFE#8 → Unanswered b 0 0 → (Client.reboot id b).2 = .err (.readError (.io .timedOut)) ∧
      (Client.action id b).2 = .err (.readError (.io .timedOut))) ∧
    (∀ data : List Byte, id ≠ 0xFE#8 → Unanswered b (2 + data.length) 0 →
      (Client.writeBytes id address data b).2 = .err (.readError (.io .timedOut)) ∧
      (Client.regWriteBytes id address data b).2 = .err (.readError (.io .timedOut))) ∧
    (∀ {α : Type} {d : DataTy α} {valid : α → Prop} {f : α → List Byte} (_ : ImplData d valid f) {v : α} (_ : valid v), id ≠ 0xFE#8 →
      Unanswered b (2 + d.size.toNat) 0 → (Client.write d id address v b).2 = .err (.readError (.io .timedOut))) := by
  refine ⟨fun count h => ?_, fun d h => ?_, fun h => ?_, fun hid h => ⟨?_, ?_⟩, fun data hid h => ⟨?_, ?_⟩,
    @fun _ _ _ _ hd _ hv hid h => ?_⟩
  · obtain ⟨c, h1⟩ := readRaw_unanswered (id := id) (address := address) h
    unfold Client.readBytes
    rw [SO.bind_err h1]
  · obtain ⟨c, h1⟩ := readRaw_unanswered (id := id) (address := address) h
    unfold Client.read
    rw [SO.bind_err h1]
  · have := transferSingle_unanswered (id := id) (instr := InstructionId.ping) (exp := 3#16) Client.nothing_fills h
    unfold Client.ping
    rw [SO.bind_err (s' := (Client.transferSingle id InstructionId.ping 0 3#16 .nothing b).1) (Prod.ext rfl this)]
  · exact instruct_unanswered hid Client.nothing_fills h
  · exact instruct_unanswered hid Client.nothing_fills h
  · exact instruct_unanswered hid (Client.writeBytesEncoder_fills address data) h
  · exact instruct_unanswered hid (Client.writeBytesEncoder_fills address data) h
  · exact instruct_unanswered hid (Client.writeEncoder_fills (c28_round_trip_partial _ _ _ hd) address hv) h

/-! ## Commands that tell a motor something -/

/-- The commands that expect at most a confirmation, and the number of parameters they send. -/
inductive CliOrders : Cli.Command → Byte → Nat → Prop
  | reboot (m) : CliOrders (.reboot m) (packetIdOf m) 0
  | write8 (m address v) : CliOrders (.write8 m address v) (packetIdOf m) 3
  | write16 (m address v) : CliOrders (.write16 m address v) (packetIdOf m) 4
  | write32 (m address v) : CliOrders (.write32 m address v) (packetIdOf m) 6
  | write (m address data) : CliOrders (.write m address data) (packetIdOf m) (2 + data.length)

/-- What these commands call. -/
theorem CliOrders.call {cmd : Cli.Command} {id : Byte} {n : Nat} (h : CliOrders cmd id n) (fuel : Nat) :
    ∃ w failure, ∃ instr enc params, Fills enc.run n params ∧ w.run = (fun id => Client.instruct id instr n enc) ∧
      Cli.doMain fuel cmd = Cli.report failure .done (WriteCall.run w id) ∧
      ∀ io path e, (failure e : Cli.Failure).text io path = lead cmd ++ e.display io := by
  have hid : ∀ m : Cli.MotorId, m.raw = packetIdOf m := by rintro (_ | _) <;> rfl
  cases h with
  | reboot m => exact ⟨.reboot, .command, _, _, _, Client.nothing_fills, rfl, by rw [← hid]; rfl, fun _ _ _ => rfl⟩
  | write8 m address v =>
    exact ⟨.write (DataTy.unsigned 1) address v, .write, _, _, _,
      Client.writeEncoder_fills (c28_round_trip_partial _ _ _ (unsigned_impl (by decide))) address trivial, rfl, by rw [← hid]; rfl, fun _ _ _ => rfl⟩
  | write16 m address v =>
    exact ⟨.write (DataTy.unsigned 2) address v, .command, _, _, _,
      Client.writeEncoder_fills (c28_round_trip_partial _ _ _ (unsigned_impl (by decide))) address trivial, rfl, by rw [← hid]; rfl, fun _ _ _ => rfl⟩
  | write32 m address v =>
    exact ⟨.write (DataTy.unsigned 4) address v, .command, _, _, _,
      Client.writeEncoder_fills (c28_round_trip_partial _ _ _ (unsigned_impl (by decide))) address trivial, rfl, by rw [← hid]; rfl, fun _ _ _ => rfl⟩
  | write m address data =>
    exact ⟨.writeBytes address data, .command, _, _, _, Client.writeBytesEncoder_fills address data, rfl, by rw [← hid]; rfl, fun _ _ _ => rfl⟩

theorem frame_wire_inj {id : Byte} {wire wire' : List Byte} (h : frame id wire = frame id wire') : wire = wire' := by
  have hl := congrArg List.length h
  rw [Bus.frame_length, Bus.frame_length] at hl
  unfold frame frameHead at h
  have := (List.append_inj h (by simp [le16_length]; omega)).1
  exact (List.append_inj this (by simp [le16_length])).2

/-- Two descriptions of the same exchange. -/
theorem exchange_body {b c : Bus} {id : Byte} {body body' : List Byte} {n : Nat} {rid e : Byte} {ps : List Byte}
    (h : SentBody b c id body) (hx : Exchange b c id body' n rid e ps) : Exchange b c id body n rid e ps := by
  obtain ⟨wire, calls, h1, h2, -⟩ := h
  obtain ⟨wire', calls', ns, rest, h3, h4, h5, h6⟩ := hx
  have hw : frame id wire = frame id wire' := by
    have := h2.symm.trans h5
    rw [List.append_assoc, List.append_assoc] at this
    have := List.append_cancel_left this
    simp only [List.cons_append, List.nil_append, List.cons.injEq, Call.write.injEq, and_true, true_and] at this
    exact this.1
  obtain rfl := frame_wire_inj hw
  exact ⟨_, calls', ns, rest, h1, h4, h5, h6⟩

/-- **C61** If such a command exits with 0, it sent its request; if that was for all motors, it then ended at once; otherwise the
first packet after it was a status packet without error and parameters, of some motor (see C31). It printed "Ok", and a warning
exactly if the alert bit was set in that packet. -/
theorem c61_ordered {cmd : Cli.Command} {id : Byte} {n : Nat} {req : Request} (ho : CliOrders cmd id n) (hc : Commands cmd id req)
    {debug : Bool} {io : IoErr → List Char} {path : List Char} {p : Port} {rate fuel : Nat} {c : Option Bus} {lines : List Cli.Line}
    (hrate : rate < 2 ^ 32) (h : Cli.main debug io path (.ok p) rate fuel cmd = (c, .ok (lines, 0))) :
    ∃ b c', Opened debug p rate b ∧ c = some c' ∧
      ((id = 0xFE#8 ∧ (∃ wire, StuffedForm req.body wire ∧ Sent b c' (frame id wire)) ∧ lines = answerLines 0#8 "Ok".toList) ∨
      (id ≠ 0xFE#8 ∧ ∃ rid e, Exchange b c' id req.body 0 rid e [] ∧ e.toNat % 128 = 0 ∧ lines = answerLines e "Ok".toList)) := by
  obtain ⟨b, c', r, hop, rfl, hd, rfl⟩ := main_success h
  have hbaud : b.baudRate < 2 ^ 32 := by rw [hop.rate]; exact hrate
  have hsent := (c48_commands hc fuel b hop.winv hbaud).2.1 ⟨r, by rw [hd]⟩
  rw [hd] at hsent
  refine ⟨b, c', hop, rfl, ?_⟩
  obtain ⟨w, failure, instr, enc, params, hp, hw, hcmd, -⟩ := ho.call fuel
  rw [hcmd] at hd
  obtain ⟨a, h1, rfl⟩ := report_ok hd
  by_cases hid : id = 0xFE#8
  · subst hid
    obtain ⟨-, h2, -⟩ := c32_broadcast_does_not_wait w hop.winv h1
    obtain ⟨rfl, wire, h3⟩ := h2 _ rfl
    refine .inl ⟨rfl, ⟨wire, ?_, h3⟩, ?_⟩
    · obtain ⟨wire', calls, k1, k2, -⟩ := hsent
      have := h3.symm.trans k2
      rw [List.append_assoc] at this
      have := List.append_cancel_left this
      simp only [List.cons_append, List.nil_append, List.cons.injEq, Call.write.injEq, and_true, true_and] at this
      rw [frame_wire_inj this.1]
      exact k1
    · rw [← alertLines_eq]
      rfl
  · obtain ⟨body, e, h2, h3, h4⟩ := c31_confirmed_by_some_motor_partial hop.winv hbaud hid h1
    refine .inr ⟨hid, _, e, exchange_body hsent h2, h3, ?_⟩
    rw [← alertLines_eq, ← h4]
    rfl

/-- What becomes of an answer to an order. -/
def Confirms (io : IoErr → List Char) (cmd : Cli.Command) (e : Byte) (ps : List Byte) (o : Outcome Empty (List Cli.Line × Nat)) : Prop :=
  if e.toNat % 128 ≠ 0 then FailsWith io cmd (.readError (.motorError ⟨e⟩)) o
  else if ps.length ≠ 0 then FailsWith io cmd (.readError (.invalidMessage (.parameterCount ps.length (.exact 0)))) o
  else SucceedsWith e "Ok".toList o

/-- **C61** Conversely, a status packet of any motor confirms such a command, if it has no error and no parameters; otherwise there
is one line with the error, and exit code 1. -/
theorem c61_confirmed {cmd : Cli.Command} {id : Byte} {n : Nat} (ho : CliOrders cmd id n) (hid : id ≠ 0xFE#8) (hn : n ≤ 86) (debug : Bool)
    (io : IoErr → List Char) (path : List Char) {p : Port} {rate : Nat} (fuel : Nat) {rid e : Byte} {ps : List Byte}
    (h : PortAnswers p rate 0 rid e ps) :
    Confirms io cmd e ps (Cli.main debug io path (.ok p) rate fuel cmd).2 := by
  obtain ⟨w, failure, instr, enc, params, hp, hw, hcmd, hlead⟩ := ho.call fuel
  have key : ∀ b, Opened debug p rate b → (Cli.doMain fuel cmd b).2 = match emptyAnswer rid e ps with
      | .ok a => .ok (.done a)
      | .err e => .err (failure e)
      | .panic => .panic
      | .hang => .hang := by
    intro b hb
    rw [hcmd, report_snd, hw]
    dsimp only
    rw [instruct_complete hid hp (h.answered hb hn)]
    cases emptyAnswer rid e ps <;> rfl
  unfold Confirms
  unfold emptyAnswer at key
  by_cases he : e.toNat % 128 ≠ 0
  · rw [if_pos he] at key ⊢
    exact fails (by trivial) (failure _) (hlead _ _ _) key
  · rw [if_neg he] at key ⊢
    by_cases hl : ps.length ≠ 0
    · rw [if_pos hl] at key ⊢
      exact fails (by trivial) (failure _) (hlead _ _ _) key
    · rw [if_neg hl] at key ⊢
      exact succeeds (.done ⟨rid, decide (128 ≤ e.toNat), ()⟩) alertLines_eq key

/-- **C61** An order to all motors is done when it is sent. -/
theorem c61_broadcast {cmd : Cli.Command} {n : Nat} (ho : CliOrders cmd 0xFE#8 n) (hn : n ≤ 86) (debug : Bool)
    (io : IoErr → List Char) (path : List Char) {p : Port} (rate fuel : Nat) (hp : p.SendOk) :
    (Cli.main debug io path (.ok p) rate fuel cmd).2 = .ok ([(.info, "Ok".toList)], 0) := by
  obtain ⟨w, failure, instr, enc, params, hf, hw, hcmd, hlead⟩ := ho.call fuel
  have key : ∀ b, Opened debug p rate b → (Cli.doMain fuel cmd b).2 = .ok (.done ⟨0xFE#8, false, ()⟩) := by
    intro b hb
    rw [hcmd, report_snd, hw]
    dsimp only
    obtain ⟨b₁, hw⟩ := write_room (id := 0xFE#8) (instr := instr) hb.winv hf (by rw [hb.port]; exact hp) (hb.room hn)
    have hw' : (Client.writeInstruction 0xFE#8 instr n enc).mapErr TransferError.writeError b = (b₁, .ok ()) :=
      SO.mapErr_eq_ok.mpr hw
    unfold Client.instruct
    rw [SO.bind_ok hw']
    rfl
  rw [main_snd key]
  rfl

/-- **C61** A command that gets no packet in time fails with the time-out of the port. -/
theorem c61_unanswered (debug : Bool) (io : IoErr → List Char) (path : List Char) {p : Port} {rate exp : Nat} (fuel : Nat)
    {input : List Byte} (h : PortGets p rate exp input) (hno : ¬ header <:+: input) (hcalm : Port.Calm p) {cmd : Cli.Command}
    (hcmd : (∃ id req, CliAsks cmd id req exp) ∨ (exp = 0 ∧ ∃ id n, CliOrders cmd id n ∧ id ≠ 0xFE#8 ∧ n ≤ 86)) :
    FailsWith io cmd (.readError (.io .timedOut)) (Cli.main debug io path (.ok p) rate fuel cmd).2 := by
  have key : ∀ n, n ≤ 86 → ∀ b, Opened debug p rate b → Unanswered b n exp := by
    intro n hn b hb
    have hN := hb.readSize
    rw [List.length_replicate] at hN
    obtain ⟨ns, h1, rfl⟩ := h.input
    exact ⟨hb.winv, by rw [hb.rate]; exact h.rate_lt, by rw [hb.rate]; exact h.rate_ne, by rw [hb.port]; exact h.sendOk,
      hb.room hn, by omega, ⟨ns, by rw [hb.rate]; exact h1, by rw [hb.port]; exact hno⟩, by rw [hb.port]; exact hcalm⟩
  rcases hcmd with ⟨id, req, ha⟩ | ⟨rfl, id, n, ho, hid, hn⟩
  · have c20 : ∀ (b : Bus) (a : U16), _ := fun b a => c20_unanswered (b := b) id a
    cases ha with
    | ping =>
      refine fails (by trivial) (.command _) rfl fun b hb => ?_
      change (Cli.report _ _ _ b).2 = _
      rw [report_snd, (c20 b 0).2.2.1 (key 0 (by decide) b hb)]
    | read8 _ address =>
      refine fails (by trivial) (.command _) rfl fun b hb => ?_
      change (Cli.report _ _ _ b).2 = _
      rw [report_snd, (c20 b address).2.1 (DataTy.unsigned 1) (key 4 (by decide) b hb)]
    | read16 _ address =>
      refine fails (by trivial) (.command _) rfl fun b hb => ?_
      change (Cli.report _ _ _ b).2 = _
      rw [report_snd, (c20 b address).2.1 (DataTy.unsigned 2) (key 4 (by decide) b hb)]
    | read32 _ address =>
      refine fails (by trivial) (.command _) rfl fun b hb => ?_
      change (Cli.report _ _ _ b).2 = _
      rw [report_snd, (c20 b address).2.1 (DataTy.unsigned 4) (key 4 (by decide) b hb)]
    | read _ address count =>
      refine fails (by trivial) (.command _) rfl fun b hb => ?_
      change (Cli.report _ _ _ b).2 = _
      rw [report_snd, (c20 b address).1 _ (key 4 (by decide) b hb)]
  · obtain ⟨w, failure, instr, enc, params, hp, hw, hcmd, hlead⟩ := ho.call fuel
    refine fails (by trivial) (failure _) (hlead _ _ _) fun b hb => ?_
    rw [hcmd, report_snd, hw]
    dsimp only
    rw [instruct_unanswered hid hp (key n hn b hb)]

/-! ## The broadcast ping -/

/-- The type of errors of `scan_next`, which has none, does not matter. -/
theorem scanNext_phantom {ε₁ ε₂ : Type} {b c : Bus} {x : Option (Except ReadError (Response Client.Ping))}
    (h : (Client.scanNext : SO Bus ε₁ _) b = (c, .ok x)) : (Client.scanNext : SO Bus ε₂ _) b = (c, .ok x) := by
  unfold Client.scanNext at h ⊢
  rcases hs : Client.scanNextResponse b with ⟨u, o⟩
  have hok : ∀ (ε : Type) (x : Except ReadError (Response Client.Ping)), o = ofExcept x →
      (Client.scanNextResponse.attempt : SO Bus ε _) b = (u, .ok x) := by
    intro ε x hx
    unfold SO.attempt
    rw [hs, hx]
    cases x <;> rfl
  cases o with
  | ok a =>
    rw [SO.bind_ok (hok _ (.ok a) rfl)] at h ⊢
    cases h
    rfl
  | err e =>
    rw [SO.bind_ok (hok _ (.error e) rfl)] at h ⊢
    cases e with
    | io e =>
      dsimp only at h ⊢
      by_cases he : e.isTimeout = true
      · rw [if_pos he] at h ⊢
        cases h
        rfl
      · rw [if_neg he] at h ⊢
        cases h
        rfl
    | bufferFull e => cases h; rfl
    | invalidMessage e => cases h; rfl
    | motorError e => cases h; rfl
  | panic =>
    have : (Client.scanNextResponse.attempt : SO Bus ε₁ _) b = (u, .panic) := by
      unfold SO.attempt
      rw [hs]
    rw [SO.bind_def, this] at h
    cases h
  | hang =>
    have : (Client.scanNextResponse.attempt : SO Bus ε₁ _) b = (u, .hang) := by
      unfold SO.attempt
      rw [hs]
    rw [SO.bind_def, this] at h
    cases h

/-- Going through the items until the end comes. -/
theorem scanLoop_of_calls {ε ε' : Type} : ∀ (items : List (Except ReadError (Response Client.Ping))) (b c : Bus) (k fuel : Nat)
    (_ : items.length < fuel)
    (_ : callTimes (Client.scanNext (ε := ε)) (items.length + (k + 1)) b = (c, .ok (items.map some ++ List.replicate (k + 1) none))),
    ∃ d, Cli.scanLoop (ε := ε') fuel b = (d, .ok items) ∧
      callTimes (Client.scanNext (ε := ε)) k d = (c, .ok (List.replicate k none)) := by
  intro items
  induction items with
  | nil =>
    intro b c k fuel hf h
    obtain ⟨fuel, rfl⟩ : ∃ f, fuel = f + 1 := ⟨fuel - 1, by simp at hf; omega⟩
    rw [show ([] : List (Except ReadError (Response Client.Ping))).length + (k + 1) = k + 1 by simp] at h
    unfold callTimes at h
    obtain ⟨d, x, h1, h2⟩ := SO.bind_eq_ok.mp h
    obtain ⟨d', xs, h3, h4⟩ := SO.bind_eq_ok.mp h2
    simp only [SO.pure_apply, Prod.mk.injEq, Outcome.ok.injEq, List.map_nil, List.nil_append, List.replicate_succ, List.cons.injEq] at h4
    obtain ⟨rfl, rfl, rfl⟩ := h4
    refine ⟨d, ?_, h3⟩
    unfold Cli.scanLoop
    rw [SO.bind_ok (scanNext_phantom h1)]
    rfl
  | cons item items ih =>
    intro b c k fuel hf h
    obtain ⟨fuel, rfl⟩ : ∃ f, fuel = f + 1 := ⟨fuel - 1, by simp at hf; omega⟩
    rw [show (item :: items).length + (k + 1) = (items.length + (k + 1)) + 1 by simp; omega] at h
    unfold callTimes at h
    obtain ⟨d, x, h1, h2⟩ := SO.bind_eq_ok.mp h
    obtain ⟨d', xs, h3, h4⟩ := SO.bind_eq_ok.mp h2
    simp only [SO.pure_apply, Prod.mk.injEq, Outcome.ok.injEq, List.map_cons, List.cons_append, List.cons.injEq] at h4
    obtain ⟨rfl, rfl, rfl⟩ := h4
    obtain ⟨e, h5, h6⟩ := ih d d' k fuel (by simp at hf; omega) h3
    refine ⟨e, ?_, h6⟩
    unfold Cli.scanLoop
    rw [SO.bind_ok (scanNext_phantom h1)]
    dsimp only
    rw [SO.bind_ok h5]
    rfl

/-- The block of lines for a motor. -/
inductive PingBlock : Byte → Byte → Client.Ping → List Cli.Line → Prop
  | mk {id e : Byte} {model : U16} {firmware : Byte} {i m f : List Char} (hi : Written 10 1 i id.toNat) (hm : Written 10 1 m model.toNat)
      (hf : Written 10 1 f firmware.toNat) : PingBlock id e ⟨model, firmware⟩
        ([(.info, "Motor ID: ".toList ++ i), (.info, " ├─ Response time: ".toList)] ++
          (if 128 ≤ e.toNat then [(.info, " ├─ Alert: true".toList)] else []) ++
          [(.info, " ├─ Model: ".toList ++ m), (.info, " └─ Firmware: ".toList ++ f)])

/-- A block for each answer without error, and a line for each with one. -/
inductive PingBlocks (io : IoErr → List Char) : List (DeviceAnswer Client.Ping) → List Cli.Line → Prop
  | nil : PingBlocks io [] []
  | cons {a answers block lines} (he : a.error.toNat % 128 = 0) (h : PingBlock a.id a.error a.value block) (ht : PingBlocks io answers lines) :
      PingBlocks io (a :: answers) (block ++ lines)
  | error {a answers text lines} (he : a.error.toNat % 128 ≠ 0) (h : ErrorText io text (.readError (.motorError ⟨a.error⟩)))
      (ht : PingBlocks io answers lines) : PingBlocks io (a :: answers) ((.error, "Error pinging motor: ".toList ++ text) :: lines)

theorem pingBlock_of (id e : Byte) (v : Client.Ping) : PingBlock id e v (Cli.logPingResponse ⟨id, decide (128 ≤ e.toNat), v⟩) := by
  have := @PingBlock.mk id e v.model v.firmware _ _ _ (decimal_written _) (decimal_written _) (decimal_written _)
  unfold Cli.logPingResponse
  simpa only [decide_eq_true_eq] using this

theorem pingBlocks_of (io : IoErr → List Char) : ∀ answers : List (DeviceAnswer Client.Ping),
    PingBlocks io answers ((Cli.Report.scan (answers.map (·.item))).lines io)
  | [] => .nil
  | a :: answers => by
    have ih := pingBlocks_of io answers
    unfold Cli.Report.lines at ih ⊢
    dsimp only at ih ⊢
    rw [List.map_cons, List.flatMap_cons]
    by_cases he : a.error.toNat % 128 = 0
    · have h1 : a.item = .ok ⟨a.id, decide (128 ≤ a.error.toNat), a.value⟩ := by
        unfold DeviceAnswer.item
        rw [if_neg (by simpa using he)]
      rw [h1]
      exact .cons he (pingBlock_of a.id a.error a.value) ih
    · have h1 : a.item = .error (.motorError ⟨a.error⟩) := by
        unfold DeviceAnswer.item
        rw [if_pos he]
      rw [h1]
      exact .error he (c60_text io (.readError (.motorError ⟨a.error⟩)) trivial) ih

/-- **C61** A ping of all motors prints a block for each motor that answers, or a line with the error that it reports, in the
order of the answers, and ends with exit code 0 when no more answers come. The devices answer with `write_status`, in time, and
there is nothing else on the line. -/
theorem c61_scan {answers : List (DeviceAnswer Client.Ping)} (debug : Bool) (io : IoErr → List Char) (path : List Char) {p : Port} {rate fuel : Nat}
    (hfuel : answers.length < fuel) (hrate : rate < 2 ^ 32) (h0 : rate ≠ 0) (hp : p.SendOk) (hcalm : Port.Calm p)
    (hs : ∀ a ∈ answers, a.IsSent 128)
    (hv : ∀ a ∈ answers, a.error.toNat % 128 = 0 → a.params = le16 a.value.model ++ [a.value.firmware])
    (hall : allBytes (newInput p) = answers.flatMap fun a => a.garbage ++ a.packet)
    (hon : ∀ b b', Opened debug p rate b → Client.scan b = (b', .ok ()) →
      OnTime b' [] (answers.map fun a => (scanWait rate, a.garbage ++ a.packet))) :
    ∃ lines, (Cli.main debug io path (.ok p) rate fuel (.ping .broadcast)).2 = .ok (lines, 0) ∧ PingBlocks io answers lines := by
  have key : ∀ b, Opened debug p rate b → (Cli.doMain fuel (.ping .broadcast) b).2 = .ok (.scan (answers.map (·.item))) := by
    intro b hb
    have hN := hb.readSize
    rw [List.length_replicate] at hN
    obtain ⟨b', hw⟩ := write_room (id := 0xFE#8) (instr := InstructionId.ping) hb.winv Client.nothing_fills
      (by rw [hb.port]; exact hp) (hb.room (n := 0) (by decide))
    have hw : Client.scan b = (b', .ok ()) := hw
    obtain ⟨params, -, -, -, -, hb'⟩ := Bus.writeInstruction_ok hb.winv hw
    obtain ⟨c, hc⟩ := c59_scan (k := 2) ⟨hb.rinv, hb.winv⟩ (by rw [hb.rate]; exact hrate) (by rw [hb.rate]; exact h0) (by omega) hw
      (by rw [hN]; exact hs) hv (by rw [hb.rate]; exact hon b b' hb hw)
      (by rw [hb']; exact calm_sent (by rw [hb.port]; exact hcalm) _ _) (by rw [hb.port]; exact hall)
    have hc' : callTimes (Client.scanNext (ε := ReadError)) ((answers.map (·.item)).length + (1 + 1)) b' =
        (c, .ok ((answers.map (·.item)).map some ++ List.replicate (1 + 1) none)) := by
      rw [List.length_map, List.map_map]
      exact hc
    obtain ⟨d, h1, h2⟩ := scanLoop_of_calls (ε' := Cli.Failure) _ b' c 1 fuel (by simpa using hfuel) hc'
    unfold callTimes at h2
    obtain ⟨d', x, h3, h4⟩ := SO.bind_eq_ok.mp h2
    obtain ⟨d'', xs, h5, h6⟩ := SO.bind_eq_ok.mp h4
    simp only [SO.pure_apply, Prod.mk.injEq, Outcome.ok.injEq, List.replicate_succ, List.cons.injEq] at h6
    obtain ⟨-, rfl, -⟩ := h6
    have h7 : (Client.scanDrop (ε := Cli.Failure) fuel) d = (d', .ok ()) := by
      obtain ⟨fuel, rfl⟩ : ∃ f, fuel = f + 1 := ⟨fuel - 1, by omega⟩
      unfold Client.scanDrop
      rw [SO.bind_ok (scanNext_phantom h3)]
      rfl
    have h8 : (Client.scan.mapErr fun e => Cli.Failure.command (.writeError e)) b = (b', .ok ()) := SO.mapErr_eq_ok.mpr hw
    change (((Client.scan.mapErr fun e => Cli.Failure.command (.writeError e)) >>= fun _ => Cli.scanLoop fuel >>= fun items =>
      Client.scanDrop fuel >>= fun _ => pure (Cli.Report.scan items)) b).2 = _
    rw [SO.bind_ok h8, SO.bind_ok h1, SO.bind_ok h7]
    rfl
  exact ⟨_, main_snd key, pingBlocks_of io answers⟩

/-! ## Exit codes -/

/-- **C61** If the serial port can not be opened, there is one line with its error, exit code 1, and no client. -/
theorem c61_open_fails (debug : Bool) (io : IoErr → List Char) (path : List Char) (e : IoErr) (rate fuel : Nat) (cmd : Cli.Command) :
    Cli.main debug io path (.err e) rate fuel cmd =
      (none, .ok ([(.error, "Failed to open serial port: ".toList ++ path ++ ": ".toList ++ io e)], 1)) := by
  rfl

/-- **C61** A read from all motors is refused with one line and exit code 1, without touching the serial port. -/
theorem c61_broadcast_read {cmd : Cli.Command} (h : Reads cmd .broadcast) (debug : Bool) (io : IoErr → List Char) (path : List Char)
    (p : Port) (rate fuel : Nat) : ∃ b, Opened debug p rate b ∧ Cli.main debug io path (.ok p) rate fuel cmd =
      (some b, .ok ([(.error, "Invalid motor ID: this command can not be broadcasted.".toList)], 1)) := by
  obtain ⟨b, h1, h2⟩ := main_opened debug io path p rate fuel cmd
  refine ⟨b, h1, ?_⟩
  rw [h2, c45_broadcast_read_fails h]
  rfl

/-- **C61** The exit code is 0 or 1. It is 1 exactly if there is an error in the output, which then is its only line, except
that a ping of all motors lists errors of motors and yet exits with 0. -/
theorem c61_exit {debug : Bool} {io : IoErr → List Char} {path : List Char} {opened : Outcome IoErr Port} {rate fuel code : Nat} {cmd : Cli.Command}
    {c : Option Bus} {lines : List Cli.Line} (h : Cli.main debug io path opened rate fuel cmd = (c, .ok (lines, code))) :
    (code = 1 ∧ ∃ text, lines = [(.error, text)]) ∨ (code = 0 ∧ (cmd ≠ .ping .broadcast → ∀ l ∈ lines, l.1 ≠ .error)) := by
  unfold Cli.main at h
  split at h
  · rename_i client _
    rcases hd : Cli.doMain fuel cmd client with ⟨c', o⟩
    rw [hd] at h
    cases o with
    | ok r =>
      simp only [Prod.mk.injEq, Outcome.ok.injEq] at h
      obtain ⟨-, rfl, rfl⟩ := h
      refine .inr ⟨rfl, fun hne l hl => ?_⟩
      have halert : ∀ a, ∀ l ∈ Cli.alertLines a, l.1 ≠ .error := by
        intro a l hl
        unfold Cli.alertLines at hl
        split at hl
        · rw [List.mem_singleton.mp hl]
          exact fun h => nomatch h
        · cases hl
      have hr : ∃ a text, r.lines io = Cli.alertLines a ++ [(.info, text)] := by
        cases cmd with
        | ping m =>
          cases m with
          | broadcast => exact absurd rfl hne
          | id m => obtain ⟨a, -, rfl⟩ := report_ok hd; exact ⟨_, _, rfl⟩
        | reboot m => obtain ⟨a, -, rfl⟩ := report_ok hd; exact ⟨_, _, rfl⟩
        | read8 m =>
          obtain ⟨_, id, -, hd⟩ := SO.bind_eq_ok.mp hd
          obtain ⟨a, -, rfl⟩ := report_ok hd; exact ⟨_, _, rfl⟩
        | read16 m =>
          obtain ⟨_, id, -, hd⟩ := SO.bind_eq_ok.mp hd
          obtain ⟨a, -, rfl⟩ := report_ok hd; exact ⟨_, _, rfl⟩
        | read32 m =>
          obtain ⟨_, id, -, hd⟩ := SO.bind_eq_ok.mp hd
          obtain ⟨a, -, rfl⟩ := report_ok hd; exact ⟨_, _, rfl⟩
        | read m =>
          obtain ⟨_, id, -, hd⟩ := SO.bind_eq_ok.mp hd
          obtain ⟨a, -, rfl⟩ := report_ok hd; exact ⟨_, _, rfl⟩
        | write8 m => obtain ⟨a, -, rfl⟩ := report_ok hd; exact ⟨_, _, rfl⟩
        | write16 m => obtain ⟨a, -, rfl⟩ := report_ok hd; exact ⟨_, _, rfl⟩
        | write32 m => obtain ⟨a, -, rfl⟩ := report_ok hd; exact ⟨_, _, rfl⟩
        | write m => obtain ⟨a, -, rfl⟩ := report_ok hd; exact ⟨_, _, rfl⟩
      obtain ⟨a, text, hr⟩ := hr
      rw [hr] at hl
      rcases List.mem_append.mp hl with hl | hl
      · exact halert a l hl
      · rw [List.mem_singleton.mp hl]
        exact fun h => nomatch h
    | err e =>
      simp only [Prod.mk.injEq, Outcome.ok.injEq] at h
      obtain ⟨-, rfl, rfl⟩ := h
      exact .inl ⟨rfl, _, rfl⟩
    | panic => simp at h
    | hang => simp at h
  · simp only [Prod.mk.injEq, Outcome.ok.injEq] at h
    obtain ⟨-, rfl, rfl⟩ := h
    exact .inl ⟨rfl, _, rfl⟩
  · simp at h
  · simp at h

/-! ## Examples -/

/-- A port on which these chunks arrive. -/
def portWithChunks (chunks : List (Nat × List Byte)) : Port := (busWithChunks chunks).serialPort

def ioText (_ : IoErr) : List Char := "time-out".toList

theorem sampleAnswer_port : PortAnswers (portWithChunks [(5, sampleGarbage ++ sampleFrame)]) 1000000 4 1#8 0#8 [0xA6#8, 0#8, 0#8, 0#8] := by
  refine ⟨sampleGarbage ++ sampleFrame, [], ⟨by decide, by decide, ⟨fun _ h => (nomatch h), fun _ _ h => (nomatch h)⟩, 150000, ⟨?_, ?_⟩, by decide +kernel⟩,
    sampleGarbage, [0x55#8, 0#8, 0xA6#8, 0#8, 0#8, 0#8], by decide +kernel, by decide +kernel, by decide, by decide +kernel, ?_⟩
  · unfold LongEnough
    decide
  · unfold LongEnough
    omega
  · rw [unstuffs_iff]
    decide +kernel

/-- Reading 4 bytes from motor 1, as a number and as bytes; the same answer when motor 3 was asked. -/
example : (Cli.main true ioText "/dev/tty".toList (.ok (portWithChunks [(5, sampleGarbage ++ sampleFrame)])) 1000000 9
    (.read32 (.id 1#8) 132#16)).2 = .ok ([(.info, "166 (0x0000 00A6)".toList)], 0) := by decide +kernel

example : (Cli.main true ioText "/dev/tty".toList (.ok (portWithChunks [(5, sampleGarbage ++ sampleFrame)])) 1000000 9
    (.read (.id 1#8) 132#16 4#16)).2 = .ok ([(.info, "[166, 0, 0, 0]".toList)], 0) := by decide +kernel

example : (Cli.main true ioText "/dev/tty".toList (.ok (portWithChunks [(5, sampleFrame)])) 1000000 9
    (.read (.id 3#8) 132#16 4#16)).2 =
      .ok ([(.error, "Command failed: invalid packet ID, expected 0x3, got 0x1".toList)], 1) := by decide +kernel

/-- No answer at all. -/
example : (Cli.main true ioText "/dev/tty".toList (.ok (portWithChunks [])) 1000000 9 (.write8 (.id 3#8) 64#16 1#8)).2 =
      .ok ([(.error, "Write failed: failed to read from serial port: time-out".toList)], 1) := by decide +kernel

/-- An answer with alert. -/
example : (Cli.main true ioText "/dev/tty".toList (.ok (portWithChunks [(5, frame 3#8 [0x55#8, 0x80#8])])) 1000000 9
    (.write8 (.id 3#8) 64#16 1#8)).2 =
      .ok ([(.warn, "Alert bit set in response from motor!".toList), (.info, "Ok".toList)], 0) := by decide +kernel

/-- A ping of all motors, with one answer and one error: the error is listed, but the exit code is 0. -/
example : (Cli.main true ioText "/dev/tty".toList
    (.ok (portWithChunks [(5, frame 3#8 [0x55#8, 0x80#8, 0x06#8, 0x04#8, 0x26#8]), (9, frame 4#8 [0x55#8, 0x01#8, 0#8, 0#8, 0#8])])) 1000000 9
    (.ping .broadcast)).2 =
      .ok ([(.info, "Motor ID: 3".toList), (.info, " ├─ Response time: ".toList), (.info, " ├─ Alert: true".toList),
        (.info, " ├─ Model: 1030".toList), (.info, " └─ Firmware: 38".toList),
        (.error, "Error pinging motor: motor reported error status: 0x1".toList)], 0) := by decide +kernel

/-- A baud rate of 0 makes the program panic. -/
example : (Cli.main true ioText "/dev/tty".toList (.ok (portWithChunks [])) 0 9 (.ping (.id 1#8))).2 = .panic := by decide +kernel

/-! ## Each theorem with hypotheses on a concrete case -/

def answeringPort : Port := portWithChunks [(5, sampleGarbage ++ sampleFrame)]

example := c61_asked (.read32 1#8 132#16) (debug := true) (io := ioText) (path := "/dev/tty".toList) (p := answeringPort) (rate := 1000000)
  (fuel := 9) (lines := [(.info, "166 (0x0000 00A6)".toList)]) (by decide) (pair_eq (by decide +kernel))

/-- Another motor answers than the one asked. -/
example := c61_answered (.read 3#8 132#16 4#16) true ioText "/dev/tty".toList 9 sampleAnswer_port

/-- Garbage is not an answer. -/
theorem garbage_unanswered (n exp : Nat) (hn : Room (quietBus true 40) n) : Unanswered (busWithChunks [(5, sampleGarbage)]) n exp where
  winv := ⟨by decide, by decide⟩
  baud := by show (57600 : Nat) < 2 ^ 32; decide
  baud0 := by show (57600 : Nat) ≠ 0; decide
  sendOk := ⟨by simp [busWithChunks, quietPort], by simp [busWithChunks, quietPort]⟩
  room := hn
  readSize := by decide
  silent := by
    refine ⟨_, leastTime_57600 _, ?_⟩
    show ¬ header <:+: arriving (0 + 0 + _) [RxEvent.data 5 sampleGarbage]
    simp only [arriving]
    rw [if_pos (by omega)]
    decide
  calm := ⟨rfl, fun e he => by simp [busWithChunks] at he; exact ⟨_, _, he⟩⟩

example := (c20_unanswered (b := busWithChunks [(5, sampleGarbage)]) 1#8 132#16).1 4#16 (garbage_unanswered _ _ ⟨by decide, by decide⟩)

example := (c20_unanswered (b := busWithChunks [(5, sampleGarbage)]) 1#8 132#16).2.2.2.2.2 (implUnsigned (n := 2) (by decide)) (v := 7#16) trivial
  (by decide) (garbage_unanswered _ _ ⟨by decide, by decide⟩)

def confirmingPort : Port := portWithChunks [(5, frame 3#8 [0x55#8, 0x80#8])]

example := c61_ordered (.write8 (.id 3#8) 64#16 1#8) (.write8 (.id 3#8) 64#16 1#8 [1#8] (littleEndian_iff.mpr (by decide))) (debug := true)
  (io := ioText) (path := "/dev/tty".toList) (p := confirmingPort) (rate := 1000000) (fuel := 9)
  (lines := [(.warn, "Alert bit set in response from motor!".toList), (.info, "Ok".toList)]) (by decide) (pair_eq (by decide +kernel))

theorem confirmingPort_answers : PortAnswers confirmingPort 1000000 0 3#8 0x80#8 [] := by
  refine ⟨frame 3#8 [0x55#8, 0x80#8], [], ⟨by decide, by decide, ⟨fun _ h => (nomatch h), fun _ _ h => (nomatch h)⟩, 110000, ⟨?_, ?_⟩,
    by decide +kernel⟩, [], [0x55#8, 0x80#8], by decide +kernel, by decide +kernel, by decide, by decide +kernel, ?_⟩
  · unfold LongEnough
    decide
  · unfold LongEnough
    omega
  · rw [unstuffs_iff]
    decide +kernel

example := c61_confirmed (.reboot (.id 7#8)) (by decide) (by decide) true ioText "/dev/tty".toList 9 confirmingPort_answers

example := c61_broadcast (.write .broadcast 64#16 [1#8, 2#8, 3#8]) (by decide) true ioText "/dev/tty".toList (p := confirmingPort) 0 9
  ⟨fun _ h => (nomatch h), fun _ _ h => (nomatch h)⟩

example := c61_unanswered true ioText "/dev/tty".toList (p := portWithChunks [(5, sampleGarbage)]) (rate := 57600) (exp := 4) 9
  (input := sampleGarbage)
  ⟨by decide, by decide, ⟨fun _ h => (nomatch h), fun _ _ h => (nomatch h)⟩, _, leastTime_57600 _, by decide +kernel⟩ (by decide)
  ⟨rfl, fun e he => by simp [portWithChunks, busWithChunks] at he; exact ⟨_, _, he⟩⟩ (.inl ⟨_, _, .read32 1#8 132#16⟩)

/-- What a device sends in answer to a broadcast ping. -/
def pingAnswer (id e : Byte) (p : Client.Ping) (garbage packet : List Byte) : DeviceAnswer Client.Ping :=
  ⟨id, e, p, le16 p.model ++ [p.firmware], quietBus true 40,
    (Device.writeStatus id e 3 (bytesEncoder (le16 p.model ++ [p.firmware])) (quietBus true 40)).1, garbage, packet⟩

def pingAnswers : List (DeviceAnswer Client.Ping) :=
  [pingAnswer 3#8 0x80#8 ⟨0x0406#16, 0x26#8⟩ sampleGarbage (frame 3#8 [0x55#8, 0x80#8, 0x06#8, 0x04#8, 0x26#8]),
    pingAnswer 4#8 0x01#8 ⟨0#16, 0#8⟩ [] (frame 4#8 [0x55#8, 0x01#8, 0#8, 0#8, 0#8])]

def pingPort : Port := portWithChunks ((pingAnswers.zip [5, 9]).map fun a => (a.2, a.1.garbage ++ a.1.packet))

theorem pingAnswers_sent : ∀ a ∈ pingAnswers, a.IsSent 128 := by
  intro a ha
  simp only [pingAnswers, List.mem_cons, List.not_mem_nil, or_false] at ha
  rcases ha with rfl | rfl
  · exact ⟨quietBus_wInv _ _ (by decide), ⟨3, bytesEncoder _, fills_copyFromSlice [0x06#8, 0x04#8, 0x26#8], pair_eq (by decide +kernel)⟩,
      by unfold Sent; decide +kernel, by decide, by decide +kernel, by decide +kernel,
      survives_of_runsOk (runsOk_of_no_infix (by decide +kernel))⟩
  · exact ⟨quietBus_wInv _ _ (by decide), ⟨3, bytesEncoder _, fills_copyFromSlice [0#8, 0#8, 0#8], pair_eq (by decide +kernel)⟩,
      by unfold Sent; decide +kernel, by decide, by decide +kernel, by decide +kernel,
      survives_of_runsOk (runsOk_of_no_infix (by decide +kernel))⟩

example := c61_scan (answers := pingAnswers) true ioText "/dev/tty".toList (p := pingPort) (rate := 57600) (fuel := 9) (by decide) (by decide)
  (by decide) ⟨fun _ h => (nomatch h), fun _ _ h => (nomatch h)⟩
  ⟨rfl, fun e he => by
    simp [pingPort, portWithChunks, busWithChunks, pingAnswers] at he
    rcases he with rfl | rfl <;> exact ⟨_, _, rfl⟩⟩ pingAnswers_sent
  (by
    intro a ha _
    simp only [pingAnswers, List.mem_cons, List.not_mem_nil, or_false] at ha
    rcases ha with rfl | rfl <;> rfl)
  (by decide +kernel)
  (by
    intro b b' hb hs
    obtain ⟨_, _, _, _, _, h⟩ := afterSend hb.winv hs
    have hw : 9 ≤ scanWait 57600 := by decide +kernel
    have hall : ∀ T, b'.serialPort.now ≤ T → stream (T + scanWait 57600) b' =
        (pingAnswers.flatMap fun a => a.garbage ++ a.packet) := by
      intro T hT
      rw [h.stream _ (by omega), hb.port]
      show arriving _ [RxEvent.data 5 _, RxEvent.data 9 _] = _
      simp only [arriving]
      rw [if_pos (by omega), if_pos (by omega)]
      simp [pingAnswers]
    refine ⟨fun T hT _ => ?_, fun T hT _ => ?_, trivial⟩
    · rw [hall T hT]; exact List.prefix_append _ _
    · rw [hall T hT]; simp [pingAnswers])

example := c61_broadcast_read (.read16 .broadcast 64#16) true ioText "/dev/tty".toList confirmingPort 57600 9

example := c61_open_fails true ioText "/dev/tty".toList (.other 2) 57600 9 (.ping (.id 1#8))

end Dxl.Props
