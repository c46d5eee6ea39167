import Verif.Model.Port

/-! # Script ports are no restriction

`Port` describes a serial port by a script. Here: whatever answers an implementation of `SerialPort` gives to the calls made to
it, some script port gives the same answers to the same calls, as long as no `read` returns more bytes than asked for. Code
that uses a port only through the calls of the trait therefore can not tell the two apart, and a property proved for every
script port, of a run of the code, holds with every implementation. (Properties that mention the clock are another matter: they
are about ports that wait like the one in `src/serial_port/serial2.rs`.) -/

namespace Dxl

/-- A call of a method of `SerialPort` (`src/serial_port/mod.rs:19-31`) and the answer to it; `none` is `Ok(())`. -/
inductive Exchange where
  | read (cap deadline : Nat) (answer : Except IoErr (List Byte))
  | write (bytes : List Byte) (answer : Option IoErr)
  | discard (answer : Option IoErr)
  | setBaud (rate : Nat) (answer : Option IoErr)
  deriving Repr

namespace Exchange

/-- A `read` returns no more bytes than fit in the slice it was given. -/
def Allowed : Exchange → Prop
  | read cap _ (.ok bytes) => bytes.length ≤ cap
  | _ => True

/-- The outcome of a call with this answer. -/
def unitOutcome : Option IoErr → Outcome IoErr Unit
  | none => .ok ()
  | some e => .err e

/-- The outcome of a `read` with this answer. -/
def readOutcome : Except IoErr (List Byte) → Outcome IoErr (List Byte)
  | .ok bytes => .ok bytes
  | .error e => .err e

end Exchange

/-- The port answers these calls, made in this order, like this. -/
def Port.Answers : Port → List Exchange → Prop
  | _, [] => True
  | p, .read cap deadline a :: es =>
    (Port.read cap deadline p).2 = Exchange.readOutcome a ∧ (Port.read cap deadline p).1.Answers es
  | p, .write bytes a :: es =>
    (Port.writeAll bytes p).2 = Exchange.unitOutcome a ∧ (Port.writeAll bytes p).1.Answers es
  | p, .discard a :: es =>
    (Port.discardInputBuffer p).2 = Exchange.unitOutcome a ∧ (Port.discardInputBuffer p).1.Answers es
  | p, .setBaud rate a :: es =>
    (Port.setBaudRate rate p).2 = Exchange.unitOutcome a ∧ (Port.setBaudRate rate p).1.Answers es

namespace Script

/-- The events of a script with these answers. -/
def rx : List Exchange → List RxEvent
  | [] => []
  | .read _ _ (.ok bytes) :: es => .data 0 bytes :: rx es
  | .read _ _ (.error e) :: es => .fail 0 e :: rx es
  | _ :: es => rx es

/-- The answers to writes. -/
def writeRes : List Exchange → List (Nat × Option IoErr)
  | [] => []
  | .write _ a :: es => (0, a) :: writeRes es
  | _ :: es => writeRes es

/-- The answers to requests to discard the input. -/
def discardRes : List Exchange → List (Option IoErr)
  | [] => []
  | .discard a :: es => a :: discardRes es
  | _ :: es => discardRes es

/-- The answers to changes of the baud rate. -/
def baudRes : List Exchange → List (Option IoErr)
  | [] => []
  | .setBaud _ a :: es => a :: baudRes es
  | _ :: es => baudRes es

theorem answers (es : List Exchange) (h : ∀ e ∈ es, e.Allowed) :
    ∀ p : Port, p.now = 0 → p.discardIsNoop = true → p.rx = rx es → p.writeRes = writeRes es →
      p.discardRes = discardRes es → p.baudRes = baudRes es → p.Answers es := by
  induction es with
  | nil => intros; trivial
  | cons e es ih =>
    intro p hn hd hr hw hdr hb
    have ih := ih fun e he => h e (List.mem_cons_of_mem _ he)
    have ha := h e (List.mem_cons_self ..)
    cases e with
    | read cap deadline a =>
      cases a with
      | ok bytes =>
        have hc : bytes.length ≤ cap := ha
        have hrd : Port.read cap deadline p =
            ({ p with log := p.log ++ [.read cap deadline], now := 0, rx := rx es }, .ok bytes) := by
          simp [Port.read, hr, rx, hn, hc]
        refine ⟨by rw [hrd]; rfl, ?_⟩
        rw [hrd]
        exact ih _ rfl hd rfl hw hdr hb
      | error e =>
        have hrd : Port.read cap deadline p =
            ({ p with log := p.log ++ [.read cap deadline], now := 0, rx := rx es }, .err e) := by
          simp [Port.read, hr, rx, hn]
        refine ⟨by rw [hrd]; rfl, ?_⟩
        rw [hrd]
        exact ih _ rfl hd rfl hw hdr hb
    | write bytes a =>
      cases a with
      | none =>
        refine ⟨by simp [Port.writeAll, hw, writeRes, Exchange.unitOutcome], ?_⟩
        refine ih _ ?_ ?_ ?_ ?_ ?_ ?_ <;> simp_all [Port.writeAll, writeRes, rx, discardRes, baudRes]
      | some e =>
        refine ⟨by simp [Port.writeAll, hw, writeRes, Exchange.unitOutcome], ?_⟩
        refine ih _ ?_ ?_ ?_ ?_ ?_ ?_ <;> simp_all [Port.writeAll, writeRes, rx, discardRes, baudRes]
    | discard a =>
      cases a with
      | none =>
        refine ⟨by simp [Port.discardInputBuffer, hdr, discardRes, Exchange.unitOutcome], ?_⟩
        refine ih _ ?_ ?_ ?_ ?_ ?_ ?_ <;>
          simp_all [Port.discardInputBuffer, Port.dropArrived, writeRes, rx, discardRes, baudRes]
      | some e =>
        refine ⟨by simp [Port.discardInputBuffer, hdr, discardRes, Exchange.unitOutcome], ?_⟩
        refine ih _ ?_ ?_ ?_ ?_ ?_ ?_ <;>
          simp_all [Port.discardInputBuffer, writeRes, rx, discardRes, baudRes]
    | setBaud rate a =>
      cases a with
      | none =>
        refine ⟨by simp [Port.setBaudRate, hb, baudRes, Exchange.unitOutcome], ?_⟩
        refine ih _ ?_ ?_ ?_ ?_ ?_ ?_ <;> simp_all [Port.setBaudRate, writeRes, rx, discardRes, baudRes]
      | some e =>
        refine ⟨by simp [Port.setBaudRate, hb, baudRes, Exchange.unitOutcome], ?_⟩
        refine ih _ ?_ ?_ ?_ ?_ ?_ ?_ <;> simp_all [Port.setBaudRate, writeRes, rx, discardRes, baudRes]

end Script

/-- **Script ports are no restriction**: for all calls and answers, some script port gives these answers to these calls, if no
`read` returns more than asked for. The baud rate and the tail of the script can be chosen freely. -/
theorem script_complete (rate : Nat) (rateErr : Option IoErr) (tail : Tail) (es : List Exchange) (h : ∀ e ∈ es, e.Allowed) :
    ∃ p : Port, p.rate = rate ∧ p.rateErr = rateErr ∧ p.tail = tail ∧ p.log = [] ∧ p.Answers es :=
  ⟨{ now := 0, rx := Script.rx es, tail, discardRes := Script.discardRes es, discardIsNoop := true,
     writeRes := Script.writeRes es, baudRes := Script.baudRes es, rate, rateErr, log := [] },
    rfl, rfl, rfl, rfl, Script.answers es h _ rfl rfl rfl rfl rfl rfl⟩

/-- Conversely a script port never returns more than asked for. -/
theorem read_allowed (p : Port) (cap deadline : Nat) (bytes : List Byte) (h : (Port.read cap deadline p).2 = .ok bytes) :
    bytes.length ≤ cap := by
  revert h
  simp only [Port.read]
  split
  · simp
  · split
    · split <;> simp
    · split
      · split
        · rename_i hc
          intro h; cases h; exact hc
        · intro h
          cases h
          simp only [List.length_take]
          omega
      · simp
    · split <;> simp

/-- A read that fails, a write that fails, then bytes although the deadline of the read is long past. -/
example : ∃ p : Port, p.Answers [.discard none, .read 5 3 (.error (.other 7)), .write [1#8] (some .timedOut),
    .read 5 0 (.ok [1#8, 2#8]), .read 1 0 (.ok [])] :=
  let ⟨p, _, _, _, _, h⟩ := script_complete 57600 none .silent _ (by simp [Exchange.Allowed])
  ⟨p, h⟩

end Dxl
