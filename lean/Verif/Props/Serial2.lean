import Verif.Model.Serial2

/-! # C55: the `serial2` port -/

namespace Dxl.Props

/-- `t` looks like `p` to code that reads. -/
def LooksLike (t : Tty) (p : Port) : Prop := t.now = p.now ∧ t.rx = p.rx ∧ t.tail = p.tail

/-- **C55**: `read` of the `serial2` port behaves as `Port.read` does, whenever the read timeout can be set: the same result, and
afterwards again the same input to come at the same time. So the theorems about ports are about this one. -/
theorem c55_read_refines (t : Tty) (p : Port) (cap deadline : Nat) (hs : LooksLike t p)
    (ht : t.timeoutRes.head? = none ∨ t.timeoutRes.head? = some none) :
    (Serial2.read cap deadline t).2 = (Port.read cap deadline p).2 ∧
      LooksLike (Serial2.read cap deadline t).1 (Port.read cap deadline p).1 := by
  obtain ⟨h1, h2, h3⟩ := hs
  by_cases hd : p.now ≤ deadline
  · have hdl : ¬ deadline < p.now := by omega
    obtain ⟨rest, hset⟩ : ∃ rest, Tty.setReadTimeout (deadline - p.now) t =
        ({ t with timeoutRes := rest, readTimeout := deadline - p.now }, .ok ()) := by
      cases hr : t.timeoutRes with
      | nil => exact ⟨[], by simp [Tty.setReadTimeout, hr]⟩
      | cons x xs =>
        cases x with
        | none => exact ⟨xs, by simp [Tty.setReadTimeout, hr]⟩
        | some e => simp [hr] at ht
    have hsum : p.now + (deadline - p.now) = deadline := by omega
    simp only [Serial2.read, bind, SO.bind, SO.get, SO.lift, h1, if_pos hd, hset, Tty.read, Port.read, hdl, if_false, h2, h3,
      hsum]
    cases hrx : p.rx with
    | nil => cases htl : p.tail <;> exact ⟨rfl, rfl, rfl, rfl⟩
    | cons e es =>
      cases e with
      | data at_ bs =>
        dsimp only
        by_cases ha : at_ ≤ deadline
        · rw [if_pos ha, if_pos ha]
          by_cases hb : bs.length ≤ cap
          · rw [if_pos hb, if_pos hb]
            exact ⟨rfl, rfl, rfl, rfl⟩
          · rw [if_neg hb, if_neg hb]
            exact ⟨rfl, rfl, rfl, rfl⟩
        · rw [if_neg ha, if_neg ha]
          exact ⟨rfl, rfl, rfl, rfl⟩
      | fail at_ e =>
        dsimp only
        by_cases ha : at_ ≤ deadline
        · rw [if_pos ha, if_pos ha]
          exact ⟨rfl, rfl, rfl, rfl⟩
        · rw [if_neg ha, if_neg ha]
          exact ⟨rfl, rfl, rfl, rfl⟩
  · have hdl : deadline < p.now := by omega
    simp only [Serial2.read, bind, SO.bind, SO.get, SO.lift, h1, if_neg hd, Port.read, hdl, if_true]
    exact ⟨trivial, h1, h2, h3⟩

/-- **C55**: `read` never returns after its deadline (if it was called before), nor blocks at all if it was called too late; then
it reads nothing either, so that no received byte is lost. -/
theorem c55_read_deadline (t : Tty) (cap deadline : Nat) :
    (t.now ≤ deadline → (Serial2.read cap deadline t).1.now ≤ deadline ∧ t.now ≤ (Serial2.read cap deadline t).1.now) ∧
      (deadline < t.now → Serial2.read cap deadline t = (t, .err .timedOut)) := by
  constructor
  · intro hd
    have hset : ∃ t' o, Tty.setReadTimeout (deadline - t.now) t = (t', o) ∧ t'.now = t.now ∧
        (o = .ok () → t'.readTimeout = deadline - t.now) ∧ (∀ a, o ≠ .ok a → ∃ e, o = .err e) := by
      simp only [Tty.setReadTimeout]
      split
      · exact ⟨_, _, rfl, rfl, by simp, by simp⟩
      · exact ⟨_, _, rfl, rfl, by simp, by simp⟩
      · exact ⟨_, _, rfl, rfl, by simp, by simp⟩
    obtain ⟨t', o, h1, h2, h3, h4⟩ := hset
    simp only [Serial2.read, bind, SO.bind, SO.get, SO.lift, if_pos hd, h1]
    cases o with
    | ok a =>
      have h3 := h3 rfl
      simp only [Tty.read]
      split
      · split <;> (simp only; omega)
      · split
        · split <;> (simp only; omega)
        · simp only; omega
      · split <;> (simp only; omega)
    | err e => simp only; omega
    | panic => have := h4 () (by simp); simp at this
    | hang => have := h4 () (by simp); simp at this
  · intro hd
    have hn : ¬ t.now ≤ deadline := by omega
    simp only [Serial2.read, bind, SO.bind, SO.get, SO.lift, if_neg hn]

/-- **C55**: `read` reads from the device once; not at all if it is too late, or if the operating system does not accept the
timeout, which is then the error, and nothing that was received is lost. -/
theorem c55_read_once (t : Tty) (cap deadline : Nat) :
    (t.now ≤ deadline → (∀ e, t.timeoutRes.head? ≠ some (some e)) → (Serial2.read cap deadline t).1.reads = t.reads + 1) ∧
      (∀ e, t.now ≤ deadline → t.timeoutRes.head? = some (some e) →
        (Serial2.read cap deadline t).2 = .err e ∧ (Serial2.read cap deadline t).1.reads = t.reads ∧
        (Serial2.read cap deadline t).1.rx = t.rx ∧ (Serial2.read cap deadline t).1.now = t.now) ∧
      (deadline < t.now → (Serial2.read cap deadline t).1.reads = t.reads) := by
  refine ⟨fun hd hs => ?_, fun e hd hs => ?_, fun hd => by rw [(c55_read_deadline t cap deadline).2 hd]⟩
  · have hset : ∃ t', Tty.setReadTimeout (deadline - t.now) t = (t', .ok ()) ∧ t'.reads = t.reads := by
      simp only [Tty.setReadTimeout]
      split
      · rename_i h; simp [h] at hs
      · exact ⟨_, rfl, rfl⟩
      · exact ⟨_, rfl, rfl⟩
    obtain ⟨t', h1, h2⟩ := hset
    simp only [Serial2.read, bind, SO.bind, SO.get, SO.lift, if_pos hd, h1, Tty.read, h2]
    split
    · split <;> rfl
    · split
      · split <;> rfl
      · rfl
    · split <;> rfl
  · have hset : Tty.setReadTimeout (deadline - t.now) t = ({ t with timeoutRes := t.timeoutRes.tail }, .err e) := by
      simp only [Tty.setReadTimeout]
      split
      · rename_i h
        simp only [h, List.head?_cons, Option.some.injEq] at hs
        simp [h, hs]
      · rename_i h; simp [h] at hs
      · rename_i h; simp [h] at hs
    simp only [Serial2.read, bind, SO.bind, SO.get, SO.lift, if_pos hd, hset]
    simp

/-- **C55**: a successful `set_baud_rate` sets the baud rate of the device and leaves every other setting as it was; one that
fails leaves all of them as they were. It never panics, and does not touch what is received. -/
theorem c55_set_baud_rate (t : Tty) (rate : Nat) :
    ((Serial2.setBaudRate rate t).2 = .ok () ∧
        (Serial2.setBaudRate rate t).1.settings = { t.settings with baudRate := rate } ∨
      (∃ e, (Serial2.setBaudRate rate t).2 = .err e) ∧ (Serial2.setBaudRate rate t).1.settings = t.settings) ∧
      (Serial2.setBaudRate rate t).1.rx = t.rx ∧ (Serial2.setBaudRate rate t).1.now = t.now := by
  have hget : ∃ g, Tty.getConfiguration t = ({ t with getRes := g }, .ok t.settings) ∨
      ∃ e, Tty.getConfiguration t = ({ t with getRes := g }, .err e) := by
    simp only [Tty.getConfiguration]
    split
    · exact ⟨_, .inr ⟨_, rfl⟩⟩
    · exact ⟨_, .inl rfl⟩
    · exact ⟨t.getRes, .inl rfl⟩
  obtain ⟨g, hg | ⟨e, hg⟩⟩ := hget
  · simp only [Serial2.setBaudRate, bind, SO.bind, SO.get, SO.lift, hg]
    cases hr : t.rateErr rate with
    | some e => simp
    | none =>
      simp only [Tty.setConfiguration, pure]
      cases hs : t.setRes with
      | nil => simp
      | cons x xs => cases x <;> simp
  · simp [Serial2.setBaudRate, bind, SO.bind, hg]

/-- **C55**: after a successful `set_baud_rate`, a `baud_rate()` that succeeds reports that rate. -/
theorem c55_baud_rate (t : Tty) (rate : Nat) (h : (Serial2.setBaudRate rate t).2 = .ok ()) (r : Nat)
    (hr : (Serial2.baudRate (Serial2.setBaudRate rate t).1).2 = .ok r) : r = rate := by
  have hs := (c55_set_baud_rate t rate).1
  rw [h] at hs
  obtain ⟨-, hs⟩ | ⟨⟨e, he⟩, -⟩ := hs
  · revert hr
    generalize (Serial2.setBaudRate rate t).1 = t' at *
    simp only [Serial2.baudRate, bind, SO.bind, SO.get, SO.lift, Tty.getConfiguration]
    cases t'.getRes with
    | nil =>
      cases hu : t'.rateUnknown with
      | none => simp only [hu, hs]; intro h; cases h; rfl
      | some e => simp [hu]
    | cons x xs =>
      cases x with
      | none =>
        cases t'.rateUnknown with
        | none => simp only [hs]; intro h; cases h; rfl
        | some e => simp
      | some e => simp
  · exact absurd he (by simp)

/-- **C55**: `make_deadline` is the present time plus the timeout; it panics exactly if the clock of the platform can not
represent that. -/
theorem c55_make_deadline (limit timeout : Nat) (t : Tty) :
    (t.now + timeout ≤ limit → Serial2.makeDeadline limit timeout t = .ok (t.now + timeout)) ∧
      (limit < t.now + timeout → Serial2.makeDeadline limit timeout t = .panic) := by
  refine ⟨fun h => if_pos h, fun h => if_neg (by omega)⟩

/-- Two bytes, then two more, then a broken line. -/
def sampleTty : Tty :=
  { now := 100, rx := [.data 90 [1#8, 2#8], .data 150 [3#8], .fail 170 (.other 5)], tail := .silent,
    settings := ⟨57600, 8, 1, 0, 0⟩, readTimeout := 7, getRes := [], setRes := [], timeoutRes := [none],
    rateErr := fun r => if r = 3 then some (.other 22) else none, rateUnknown := none, reads := 0 }

example : (Serial2.read 1 120 sampleTty).2 = .ok [1#8] := by decide
example : (Serial2.read 5 160 (Serial2.read 5 120 sampleTty).1).2 = .ok [3#8] := by decide
example : (Serial2.read 5 99 sampleTty).2 = .err .timedOut := by decide
example : (Serial2.setBaudRate 1000000 sampleTty).1.settings = ⟨1000000, 8, 1, 0, 0⟩ := by decide
example : (Serial2.setBaudRate 3 sampleTty).2 = .err (.other 22) := by decide
example : (Serial2.setBaudRate 3 sampleTty).1.settings = ⟨57600, 8, 1, 0, 0⟩ := by decide
example : LooksLike sampleTty
    { now := 100, rx := sampleTty.rx, tail := .silent, discardRes := [], discardIsNoop := false, writeRes := [], baudRes := [],
      rate := 57600, rateErr := none, log := [] } := ⟨rfl, rfl, rfl⟩

/-! Each theorem with hypotheses on a concrete case. -/

example := c55_read_refines sampleTty
  { now := 100, rx := sampleTty.rx, tail := .silent, discardRes := [], discardIsNoop := false, writeRes := [], baudRes := [],
    rate := 57600, rateErr := none, log := [] } 5 160 ⟨rfl, rfl, rfl⟩ (.inr rfl)

example := (c55_read_deadline sampleTty 5 160).1 (by decide)

example := (c55_read_deadline sampleTty 5 99).2 (by decide)

example : (Serial2.read 5 160 sampleTty).1.reads = 1 := (c55_read_once sampleTty 5 160).1 (by decide) (by simp [sampleTty])

/-- A system that does not accept the timeout. -/
example : (Serial2.read 5 160 { sampleTty with timeoutRes := [some (.other 22)] }).2 = .err (.other 22) :=
  ((c55_read_once { sampleTty with timeoutRes := [some (.other 22)] } 5 160).2.1 (.other 22) (by decide) rfl).1

example := c55_baud_rate sampleTty 1000000 (by decide) 1000000 (by decide)

end Dxl.Props
