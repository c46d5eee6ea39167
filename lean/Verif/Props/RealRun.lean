import Verif.Model.RealRun
import Verif.Spec.Environment
import Verif.Props.Cli

/-!
# C77: the integration tests on real motors
-/

namespace Dxl.Props
open Dxl Spec

/-! ## Settings -/

theorem parseDigits32_iff (ds : List Byte) : ∀ r v : BitVec 32, Real.parseDigits ds r = some v ↔
    (∀ c ∈ ds, IsDigit c) ∧ digitsValue r.toNat ds = v.toNat := by
  induction ds with
  | nil =>
    intro r v
    simp [Real.parseDigits, digitsValue, BitVec.toNat_inj]
  | cons c ds ih =>
    intro r v
    have hd : (0x30#8 ≤ c ∧ c ≤ 0x39#8) ↔ IsDigit c := by simp [IsDigit, BitVec.le_def]
    have hv : digitsValue r.toNat (c :: ds) = digitsValue (10 * r.toNat + digit c) ds := rfl
    unfold Real.parseDigits
    by_cases h : IsDigit c
    · rw [if_pos (hd.mpr h)]
      have hge := digitsValue_ge ds (10 * r.toNat + digit c)
      have hs : (c - 0x30#8).toNat = digit c := by
        rw [BitVec.toNat_sub]
        have := h.1
        have := c.isLt
        simp only [digit, BitVec.toNat_ofNat]
        omega
      have hsw : ((c - 0x30#8).setWidth 32).toNat = digit c := by
        rw [BitVec.toNat_setWidth, hs]
        have := h.2
        unfold digit
        omega
      by_cases h1 : r.toNat * 10 < 4294967296
      · rw [if_pos h1]
        have hm : (r * 10#32).toNat = r.toNat * 10 := by
          rw [BitVec.toNat_mul]
          simp only [BitVec.toNat_ofNat]
          omega
        by_cases h2 : r.toNat * 10 + digit c < 4294967296
        · rw [if_pos (by rw [hm, hs]; exact h2), ih]
          have : (r * 10#32 + (c - 0x30#8).setWidth 32).toNat = 10 * r.toNat + digit c := by
            rw [BitVec.toNat_add, hm, hsw]
            omega
          rw [this, hv]
          simp [h]
        · rw [if_neg (by rw [hm, hs]; exact h2)]
          have := v.isLt
          simp only [reduceCtorEq, false_iff, not_and]
          intro _
          omega
      · rw [if_neg h1]
        have := v.isLt
        simp only [reduceCtorEq, false_iff, not_and]
        intro _
        omega
    · rw [if_neg (by rw [hd]; exact h)]
      simp [h]

/-- A string is parsed as a number in range exactly if it is a numeral of one. -/
theorem parseU32_iff (s : List Byte) (v : BitVec 32) : Real.parseU32 s = some v ↔ Numeral s v.toNat := by
  have hp : BitVec.ofNat 8 '+'.toNat = 0x2B#8 := rfl
  unfold Real.parseU32 Numeral
  rw [hp]
  split
  · simp [digits_iff]
  · constructor
    · simp
    · rintro (h | ⟨t, h1, h2⟩)
      · exact absurd h digits_not_plus
      · simp at h1
        subst h1
        simp [digits_iff] at h2
  · rename_i ds hne
    rw [parseDigits32_iff]
    constructor
    · rintro ⟨h1, h2⟩
      exact .inr ⟨ds, rfl, (digits_iff _ _).mpr ⟨fun h => hne (by rw [h]), h1, h2⟩⟩
    · rintro (h | ⟨t, h1, h2⟩)
      · exact absurd h digits_not_plus
      · simp at h1
        subst h1
        exact ((digits_iff _ _).mp h2).2
  · rename_i hne h1 h2
    rw [parseDigits32_iff]
    constructor
    · rintro ⟨h1, h2⟩
      exact .inl ((digits_iff _ _).mpr ⟨hne, h1, h2⟩)
    · rintro (h | ⟨t, rfl, -⟩)
      · exact ((digits_iff _ _).mp h).2
      · exact absurd rfl (h2 t)

theorem numeral_no_comma {s : List Byte} {n : Nat} (h : Numeral s n) : 0x2C#8 ∉ s := by
  have hp : BitVec.ofNat 8 '+'.toNat = 0x2B#8 := rfl
  have hd : ∀ t : List Byte, Digits t n → 0x2C#8 ∉ t := by
    intro t ht hc
    have := (((digits_iff _ _).mp ht).2.1 _ hc).1
    simp at this
  rcases h with h | ⟨t, rfl, h⟩
  · exact hd s h
  · rw [hp]
    intro hc
    rcases List.mem_cons.mp hc with hc | hc
    · simp at hc
    · exact hd t h hc

theorem splitComma_none {s : List Byte} (h : 0x2C#8 ∉ s) : Real.splitComma s = [s] := by
  induction s with
  | nil => rfl
  | cons c s ih =>
    simp only [List.mem_cons, not_or] at h
    unfold Real.splitComma
    rw [if_neg (fun hc => h.1 hc.symm), ih h.2]

theorem splitComma_append {p : List Byte} (s : List Byte) (h : 0x2C#8 ∉ p) :
    Real.splitComma (p ++ 0x2C#8 :: s) = p :: Real.splitComma s := by
  induction p with
  | nil => simp [Real.splitComma]
  | cons c p ih =>
    simp only [List.mem_cons, not_or] at h
    show Real.splitComma (c :: (p ++ 0x2C#8 :: s)) = _
    rw [Real.splitComma, if_neg (fun hc => h.1 hc.symm), ih h.2]

theorem comma_cases (s : List Byte) : 0x2C#8 ∉ s ∨ ∃ p t, s = p ++ 0x2C#8 :: t ∧ 0x2C#8 ∉ p := by
  induction s with
  | nil => exact .inl (by simp)
  | cons c s ih =>
    by_cases hc : c = 0x2C#8
    · exact .inr ⟨[], s, by simp [hc], by simp⟩
    · rcases ih with h | ⟨p, t, rfl, h⟩
      · exact .inl (by simp only [List.mem_cons, not_or]; exact ⟨fun h => hc h.symm, h⟩)
      · exact .inr ⟨c :: p, t, rfl, by simp only [List.mem_cons, not_or]; exact ⟨fun h => hc h.symm, h⟩⟩

/-- A string is parsed as a list of IDs exactly if it lists numbers in range with commas between them. -/
theorem parseIds_iff (s : List Byte) (ids : List Byte) :
    Real.parseIds (Real.splitComma s) = some ids ↔ NumberList s (ids.map BitVec.toNat) := by
  have hcomma : BitVec.ofNat 8 ','.toNat = 0x2C#8 := rfl
  constructor
  · intro h
    induction hl : s.length using Nat.strongRecOn generalizing s ids with
    | ind k ih =>
      rcases comma_cases s with hn | ⟨p, t, rfl, hn⟩
      · rw [splitComma_none hn] at h
        unfold Real.parseIds at h
        cases hp : Cli.parseU8 s with
        | none => rw [hp] at h; simp at h
        | some v =>
          rw [hp] at h
          simp only [Real.parseIds, Option.some.injEq] at h
          subst h
          exact .one ((parseU8_iff _ _).mp hp)
      · rw [splitComma_append t hn] at h
        unfold Real.parseIds at h
        cases hp : Cli.parseU8 p with
        | none => rw [hp] at h; simp at h
        | some v =>
          rw [hp] at h
          dsimp only at h
          cases ht : Real.parseIds (Real.splitComma t) with
          | none => rw [ht] at h; simp at h
          | some vs =>
            rw [ht] at h
            simp only [Option.some.injEq] at h
            subst h
            exact .more ((parseU8_iff _ _).mp hp) (ih t.length (by rw [← hl]; simp; omega) t vs ht rfl)
  · intro h
    generalize hns : ids.map BitVec.toNat = ns at h
    induction h generalizing ids with
    | one h =>
      rw [splitComma_none (numeral_no_comma h)]
      cases ids with
      | nil => simp at hns
      | cons v vs =>
        simp only [List.map_cons, List.cons.injEq, List.map_eq_nil_iff] at hns
        obtain ⟨h1, rfl⟩ := hns
        unfold Real.parseIds
        rw [(parseU8_iff _ v).mpr (h1 ▸ h)]
        rfl
    | more h h' ih =>
      rw [hcomma, splitComma_append _ (numeral_no_comma h)]
      cases ids with
      | nil => simp at hns
      | cons v vs =>
        simp only [List.map_cons, List.cons.injEq] at hns
        obtain ⟨h1, h2⟩ := hns
        unfold Real.parseIds
        rw [(parseU8_iff _ v).mpr (h1 ▸ h)]
        dsimp only
        rw [ih vs h2]

/-- The variable is not set to a string. -/
def Unset (v : Real.Var) : Prop := v = .absent ∨ v = .notUnicode

/-- What `SERIAL_BAUD` asks for. -/
def AsksRate (v : Real.Var) (rate : Nat) : Prop :=
  (Unset v ∧ rate = 56700) ∨ ∃ s, v = .present s ∧ Numeral s rate ∧ rate < 2 ^ 32

/-- What `DEVICE_IDS` asks for. -/
def AsksMotors (v : Real.Var) (ids : List Nat) : Prop :=
  (Unset v ∧ ids = [1, 2]) ∨ ∃ s, v = .present s ∧ NumberList s ids ∧ ∀ id ∈ ids, id < 256

/-- What `SERIAL_PATH` asks for. -/
def AsksPath (v : Real.Var) (path : List Byte) : Prop :=
  (Unset v ∧ path = ascii "/dev/ttyUSB0") ∨ v = .present path

theorem path_iff (env : Real.Env) (path : List Byte) : Real.path env = path ↔ AsksPath env.serialPath path := by
  have hd : ascii "/dev/ttyUSB0" = Real.defaultSerialPath := by decide +kernel
  unfold Real.path AsksPath Unset
  rw [hd]
  cases env.serialPath <;> simp [Real.Var.read, eq_comm]

theorem baud_ok_iff {ε : Type} (env : Real.Env) (rate : BitVec 32) :
    (Real.baud env : Outcome ε _) = .ok rate ↔ AsksRate env.serialBaud rate.toNat := by
  have hd : ∀ r : BitVec 32, Real.defaultBaud = r ↔ r.toNat = 56700 := by
    intro r
    constructor
    · rintro rfl; rfl
    · intro h; exact BitVec.eq_of_toNat_eq h.symm
  have hlt := rate.isLt
  unfold Real.baud AsksRate Unset
  cases hv : env.serialBaud with
  | absent => simp [Real.Var.read, hd]
  | notUnicode => simp [Real.Var.read, hd]
  | present s =>
    simp only [Real.Var.read, reduceCtorEq, or_self, false_and, false_or, Real.Var.present.injEq]
    cases hp : Real.parseU32 s with
    | none =>
      simp only [reduceCtorEq, false_iff]
      rintro ⟨t, rfl, h, -⟩
      rw [(parseU32_iff _ _).mpr h] at hp
      simp at hp
    | some v =>
      simp only [Outcome.ok.injEq]
      have := (parseU32_iff _ _).mp hp
      constructor
      · rintro rfl
        exact ⟨s, rfl, this, hlt⟩
      · rintro ⟨t, rfl, h, -⟩
        exact BitVec.eq_of_toNat_eq (numeral_unique this h)

theorem baud_cases {ε : Type} (env : Real.Env) :
    (∃ rate, (Real.baud env : Outcome ε _) = .ok rate) ∨ (Real.baud env : Outcome ε _) = .panic := by
  unfold Real.baud
  split
  · split
    · exact .inl ⟨_, rfl⟩
    · exact .inr rfl
  · exact .inl ⟨_, rfl⟩

theorem toNat_map {ns : List Nat} (h : ∀ n ∈ ns, n < 256) : ∃ ids : List Byte, ids.map BitVec.toNat = ns := by
  refine ⟨ns.map (BitVec.ofNat 8), ?_⟩
  rw [List.map_map]
  refine (List.map_congr_left (g := id) (fun n hn => ?_)).trans (List.map_id _)
  have := h n hn
  simp only [Function.comp_apply, BitVec.toNat_ofNat, id]
  omega

theorem toNat_map_inj {a b : List Byte} (h : a.map BitVec.toNat = b.map BitVec.toNat) : a = b :=
  (List.map_inj_right (fun _ _ => BitVec.eq_of_toNat_eq)).mp h

theorem ids_ok_iff {ε : Type} (env : Real.Env) (motors : List Byte) :
    (Real.ids env : Outcome ε _) = .ok motors ↔ AsksMotors env.deviceIds (motors.map BitVec.toNat) := by
  have hd : ∀ r : List Byte, Real.defaultIds = r ↔ r.map BitVec.toNat = [1, 2] := by
    intro r
    constructor
    · rintro rfl; rfl
    · intro h; exact toNat_map_inj h.symm
  have hlt : ∀ id ∈ motors.map BitVec.toNat, id < 256 := by
    intro id h
    obtain ⟨b, -, rfl⟩ := List.mem_map.mp h
    exact b.isLt
  unfold Real.ids AsksMotors Unset
  cases hv : env.deviceIds with
  | absent => simp [Real.Var.read, hd]
  | notUnicode => simp [Real.Var.read, hd]
  | present s =>
    simp only [Real.Var.read, reduceCtorEq, or_self, false_and, false_or, Real.Var.present.injEq]
    have : ∀ t, (s = t ∧ NumberList t (motors.map BitVec.toNat) ∧ ∀ id ∈ motors.map BitVec.toNat, id < 256) ↔
        s = t ∧ Real.parseIds (Real.splitComma s) = some motors := by
      intro t
      constructor
      · rintro ⟨rfl, h, -⟩
        exact ⟨rfl, (parseIds_iff _ _).mpr h⟩
      · rintro ⟨rfl, h⟩
        exact ⟨rfl, (parseIds_iff _ _).mp h, hlt⟩
    simp only [this, exists_eq_left']
    cases Real.parseIds (Real.splitComma s) <;> simp

theorem ids_cases {ε : Type} (env : Real.Env) :
    (∃ motors, (Real.ids env : Outcome ε _) = .ok motors) ∨ (Real.ids env : Outcome ε _) = .panic := by
  unfold Real.ids
  split
  · split
    · exact .inl ⟨_, rfl⟩
    · exact .inr rfl
  · exact .inl ⟨_, rfl⟩

theorem client_open (debug : Bool) (port : Port) (rate : Nat) :
    ∃ client, Client.open debug (.ok port) rate = .ok client ∧ client.serialPort = port ∧ client.baudRate = rate ∧
      client.readBuffer.length = 128 ∧ client.writeBuffer.length = 128 := by
  have hl : defaultBuffer.length = 128 := List.length_replicate
  unfold Client.open
  generalize defaultBuffer = d at hl
  refine ⟨{ serialPort := port, baudRate := rate, readBuffer := d, readLen := 0, usedBytes := 0,
            writeBuffer := headerPrefix ++ d.drop 4, debug := debug }, ?_, rfl, rfl, hl, ?_⟩
  · show Bus.withBuffersAndBaudRate debug port d d rate = _
    unfold Bus.withBuffersAndBaudRate
    rw [if_pos (by rw [hl]; decide)]
  · simp only [List.length_append, List.length_drop, hl]
    rfl

/-- **C77** If `SERIAL_BAUD` is set to something that is not a number up to 4294967295, or `DEVICE_IDS` to something that is not
a list of numbers up to 255 with commas between them, the test fails and no port is opened. -/
theorem c77_rejected (debug : Bool) (env : Real.Env) (port : List Byte → BitVec 32 → Outcome IoErr Port)
    (test : List Byte → SO Bus Empty Unit)
    (h : (∀ rate, ¬ AsksRate env.serialBaud rate) ∨ ∀ ids, ¬ AsksMotors env.deviceIds ids) :
    Real.run debug env port test = [.lock, .unlock true] := by
  unfold Real.run
  rcases baud_cases (ε := IoErr) env with ⟨rate, hb⟩ | hb
  · rw [hb]
    rcases h with h | h
    · exact absurd ((baud_ok_iff env rate).mp hb) (h _)
    · rcases ids_cases (ε := IoErr) env with ⟨motors, hi⟩ | hi
      · exact absurd ((ids_ok_iff env motors).mp hi) (h _)
      · rw [hi]
  · rw [hb]

/-- **C77** Otherwise exactly one port is opened, the one at the path and with the baud rate asked for; if that fails (or panics), so does
the test. -/
theorem c77_open_fails (debug : Bool) (env : Real.Env) (port : List Byte → BitVec 32 → Outcome IoErr Port)
    (test : List Byte → SO Bus Empty Unit) {path : List Byte} {rate : BitVec 32} {motors : List Nat}
    (hp : AsksPath env.serialPath path) (hr : AsksRate env.serialBaud rate.toNat) (hm : AsksMotors env.deviceIds motors)
    (he : (∃ e, port path rate = .err e) ∨ port path rate = .panic) :
    Real.run debug env port test = [.lock, .openFailed path rate, .unlock true] := by
  have hb := (baud_ok_iff (ε := IoErr) env rate).mpr hr
  obtain ⟨ids, rfl⟩ : ∃ ids : List Byte, ids.map BitVec.toNat = motors := by
    rcases hm with ⟨-, rfl⟩ | ⟨s, -, -, h⟩
    · exact ⟨[1#8, 2#8], rfl⟩
    · exact toNat_map h
  have hi := (ids_ok_iff (ε := IoErr) env ids).mpr hm
  have hpath := (path_iff env path).mpr hp
  unfold Real.run
  rw [hb, hi]
  dsimp only
  rw [hpath]
  rcases he with ⟨e, he⟩ | he
  · rw [show Client.open debug (port path rate) rate.toNat = .err e by rw [he]; rfl]
  · rw [show Client.open debug (port path rate) rate.toNat = .panic by rw [he]; rfl]

/-- **C77** If it does not fail, the test runs on that port, with the motors asked for and with buffers of 128 bytes. Whether it
returns or panics, the port is closed at the end, and after that the mutex is free; and it fails exactly if its body panics. -/
theorem c77_runs (debug : Bool) (env : Real.Env) (port : List Byte → BitVec 32 → Outcome IoErr Port)
    (test : List Byte → SO Bus Empty Unit) {path : List Byte} {rate : BitVec 32} {motors : List Byte} {q : Port}
    (hp : AsksPath env.serialPath path) (hr : AsksRate env.serialBaud rate.toNat)
    (hm : AsksMotors env.deviceIds (motors.map BitVec.toNat)) (hq : port path rate = .ok q) :
    ∃ client : Bus, client.serialPort = q ∧ client.baudRate = rate.toNat ∧
      client.readBuffer.length = 128 ∧ client.writeBuffer.length = 128 ∧
      ∀ uses after result, test motors client = (after, result) → after.serialPort.log = q.log ++ uses →
        Real.run debug env port test = .lock :: .opened path rate :: (uses.map .use ++
          (if result = .hang then [] else [.close, .unlock (decide (result = .panic))])) := by
  have hb := (baud_ok_iff (ε := IoErr) env rate).mpr hr
  have hi := (ids_ok_iff (ε := IoErr) env motors).mpr hm
  have hpath := (path_iff env path).mpr hp
  obtain ⟨client, ho, h1, h2, h3, h4⟩ := client_open debug q rate.toNat
  refine ⟨client, h1, h2, h3, h4, ?_⟩
  intro uses after result ht hl
  unfold Real.run
  rw [hb, hi]
  dsimp only
  rw [hpath, hq, ho]
  simp only [List.cons.injEq, true_and]
  unfold Real.body
  rw [ht]
  dsimp only
  rw [hl, h1, List.drop_left]
  cases result with
  | ok u => simp
  | err e => nomatch e
  | panic => simp
  | hang => simp

/-! ## Threads -/

/-- Openings and closings in an execution. -/
def portEvents (as : List (Nat × Real.Act)) : List (Nat × Bool) :=
  as.filterMap fun
    | (i, .opened _ _) => some (i, true)
    | (i, .close) => some (i, false)
    | _ => none

/-- What a thread may still do: with the mutex free for it (0), locked by it (1), and with the port open (2). The last argument
tells if it may stop in the middle. -/
def OkFrom (stop : Bool) : Nat → List Real.Act → Prop
  | 0, [] => True
  | _ + 1, [] => stop = true
  | 0, .lock :: l => OkFrom stop 1 l
  | 1, .unlock _ :: l => OkFrom stop 0 l
  | 1, .openFailed _ _ :: l => OkFrom stop 1 l
  | 1, .opened _ _ :: l => OkFrom stop 2 l
  | 2, .use _ :: l => OkFrom stop 2 l
  | 2, .close :: l => OkFrom stop 1 l
  | _, _ => False

theorem okFrom_uses (stop : Bool) (uses : List Call) {l : List Real.Act} (h : OkFrom stop 2 l) :
    OkFrom stop 2 (uses.map .use ++ l) := by
  induction uses with
  | nil => exact h
  | cons u uses ih => exact ih

theorem okFrom_run (debug : Bool) (env : Real.Env) (port : List Byte → BitVec 32 → Outcome IoErr Port)
    (test : List Byte → SO Bus Empty Unit) : OkFrom true 0 (Real.run debug env port test) := by
  unfold Real.run
  show OkFrom true 1 _
  split
  · split
    · split
      · show OkFrom true 2 _
        unfold Real.body
        dsimp only
        apply okFrom_uses
        split
        · trivial
        · rename_i e _; nomatch e
        · trivial
        · rfl
      · trivial
      · trivial
      · rfl
    · trivial
  · trivial

theorem hasOpen_snoc (i j : Nat) (b : Bool) (es : List (Nat × Bool)) :
    HasOpen i (es ++ [(j, b)]) ↔ (j = i ∧ b = true) ∨ (j ≠ i ∧ HasOpen i es) := by
  constructor
  · rintro ⟨before, after, h, hn⟩
    rcases List.eq_nil_or_concat after with rfl | ⟨t, x, rfl⟩
    · have := List.append_inj' h rfl
      simp only [List.cons.injEq, Prod.mk.injEq, and_true] at this
      exact .inl ⟨this.2.1, this.2.2⟩
    · rw [List.concat_eq_append] at h hn
      rw [show before ++ (i, true) :: (t ++ [x]) = (before ++ (i, true) :: t) ++ [x] by simp] at h
      have := List.append_inj' h rfl
      obtain ⟨h1, h2⟩ := this
      simp only [List.cons.injEq, and_true] at h2
      subst h2
      by_cases hj : j = i
      · subst hj
        cases b with
        | true => exact .inl ⟨rfl, rfl⟩
        | false => simp at hn
      · refine .inr ⟨hj, before, t, h1, fun hm => hn (by simp [hm])⟩
  · rintro (⟨rfl, rfl⟩ | ⟨hj, before, after, rfl, hn⟩)
    · exact ⟨es, [], rfl, by simp⟩
    · refine ⟨before, after ++ [(j, b)], by simp, ?_⟩
      intro hm
      rcases List.mem_append.mp hm with hm | hm
      · exact hn hm
      · simp only [List.mem_singleton, Prod.mk.injEq] at hm
        exact hj hm.1.symm

/-- Which of the three states thread `j` is in, and that it fits with the mutex and the history. -/
def Coherent (stop : Bool) (p : Real.Process) (h : List (Nat × Real.Act)) : Prop :=
  ∀ j, (p.mutex.holder = some j ∧ ((OkFrom stop 1 (p.threads[j]?.getD []) ∧ ¬ HasOpen j (portEvents h)) ∨
          (OkFrom stop 2 (p.threads[j]?.getD []) ∧ HasOpen j (portEvents h)))) ∨
       (p.mutex.holder ≠ some j ∧ OkFrom stop 0 (p.threads[j]?.getD []) ∧ ¬ HasOpen j (portEvents h))

theorem portEvents_snoc (h : List (Nat × Real.Act)) (i : Nat) (a : Real.Act) :
    portEvents (h ++ [(i, a)]) = portEvents h ++ portEvents [(i, a)] := by
  unfold portEvents
  rw [List.filterMap_append]

theorem coherent_step {stop : Bool} {p p' : Real.Process} {h : List (Nat × Real.Act)} {i : Nat} {a : Real.Act}
    (hc : Coherent stop p h) (hs : Real.Process.Step p i a p') : Coherent stop p' (h ++ [(i, a)]) := by
  obtain ⟨hi, hm⟩ := hs
  rename_i rest m
  have hlt : i < p.threads.length := by
    rw [List.getElem?_eq_some_iff] at hi
    exact hi.1
  have hself : ((p.threads.set i rest)[i]?).getD [] = rest := by simp [hlt]
  have hother : ∀ j, j ≠ i → ((p.threads.set i rest)[j]?).getD [] = (p.threads[j]?).getD [] := by
    intro j hj
    rw [List.getElem?_set_ne (Ne.symm hj)]
  have hci := hc i
  rw [hi] at hci
  simp only [Option.getD_some] at hci
  intro j
  dsimp only
  by_cases hj : j = i
  · subst hj
    rw [hself]
    rcases hci with ⟨hh, ⟨ho, hn⟩ | ⟨ho, hn⟩⟩ | ⟨hh, ho, hn⟩
    · cases a with
      | lock => exact ho.elim
      | openFailed q r =>
        simp only [Real.Mutex.act, Option.some.injEq] at hm
        subst hm
        exact .inl ⟨hh, .inl ⟨ho, by rw [portEvents_snoc]; simpa [portEvents] using hn⟩⟩
      | opened q r =>
        simp only [Real.Mutex.act, Option.some.injEq] at hm
        subst hm
        exact .inl ⟨hh, .inr ⟨ho, by rw [portEvents_snoc]; exact (hasOpen_snoc _ _ _ _).mpr (.inl ⟨rfl, rfl⟩)⟩⟩
      | use c => exact ho.elim
      | close => exact ho.elim
      | unlock b =>
        simp only [Real.Mutex.act, Option.some.injEq] at hm
        subst hm
        exact .inr ⟨by simp, ho, by rw [portEvents_snoc]; simpa [portEvents] using hn⟩
    · cases a with
      | lock => exact ho.elim
      | openFailed q r => exact ho.elim
      | opened q r => exact ho.elim
      | use c =>
        simp only [Real.Mutex.act, Option.some.injEq] at hm
        subst hm
        exact .inl ⟨hh, .inr ⟨ho, by rw [portEvents_snoc]; simpa [portEvents] using hn⟩⟩
      | close =>
        simp only [Real.Mutex.act, Option.some.injEq] at hm
        subst hm
        exact .inl ⟨hh, .inl ⟨ho, by
          rw [portEvents_snoc]
          intro hx
          rcases (hasOpen_snoc _ _ _ _).mp hx with h | h
          · simp at h
          · exact h.1 rfl⟩⟩
      | unlock b => exact ho.elim
    · cases a with
      | lock =>
        simp only [Real.Mutex.act] at hm
        split at hm
        · simp only [Option.some.injEq] at hm
          subst hm
          exact .inl ⟨rfl, .inl ⟨ho, by rw [portEvents_snoc]; simpa [portEvents] using hn⟩⟩
        · simp at hm
      | openFailed q r => exact ho.elim
      | opened q r => exact ho.elim
      | use c => exact ho.elim
      | close => exact ho.elim
      | unlock b => exact ho.elim
  · rw [hother j hj]
    have hopen : HasOpen j (portEvents (h ++ [(i, a)])) ↔ HasOpen j (portEvents h) := by
      rw [portEvents_snoc]
      cases a <;> simp [portEvents, hasOpen_snoc, Ne.symm hj]
    rw [hopen]
    have hmj : m.holder = some j ↔ p.mutex.holder = some j := by
      cases a with
      | lock =>
        simp only [Real.Mutex.act] at hm
        split at hm
        · rename_i hf
          simp only [Option.some.injEq] at hm
          subst hm
          rw [hf]
          simp [Ne.symm hj]
        · simp at hm
      | unlock b =>
        simp only [Real.Mutex.act, Option.some.injEq] at hm
        subst hm
        have : p.mutex.holder = some i := by
          rcases hci with ⟨hh, -⟩ | ⟨-, ho, -⟩
          · exact hh
          · exact ho.elim
        rw [this]
        simp [Ne.symm hj]
      | _ =>
        simp only [Real.Mutex.act, Option.some.injEq] at hm
        subst hm
        rfl
    rw [Ne, hmj]
    exact hc j

theorem coherent_steps {stop : Bool} {p p' : Real.Process} {as : List (Nat × Real.Act)} (hs : Real.Process.Steps p as p') :
    ∀ h, Coherent stop p h → Coherent stop p' (h ++ as) := by
  induction hs with
  | nil p => intro h hc; simpa using hc
  | cons h1 h2 ih =>
    intro h hc
    have := ih _ (coherent_step hc h1)
    rwa [List.append_assoc] at this

theorem coherent_start {stop : Bool} {threads : List (List Real.Act)} (h : ∀ l ∈ threads, OkFrom stop 0 l) :
    Coherent stop (.start threads) [] := by
  intro j
  refine .inr ⟨by simp [Real.Process.start], ?_, ?_⟩
  · show OkFrom stop 0 (threads[j]?.getD [])
    cases hj : threads[j]? with
    | none => trivial
    | some l => exact h l (List.mem_of_getElem? hj)
  · rintro ⟨before, after, h, -⟩
    simp [portEvents] at h

/-- A test of a process: in which environment it finds itself, what the port does, and what it does. -/
structure RealTest where
  debug : Bool
  env : Real.Env
  port : List Byte → BitVec 32 → Outcome IoErr Port
  test : List Byte → SO Bus Empty Unit

/-- What its thread does. -/
def RealTest.acts (t : RealTest) : List Real.Act := Real.run t.debug t.env t.port t.test

/-- **C77** However many tests run at the same time and in whatever order their threads proceed, also when some of them panic:
no two of them have the port open at the same time. -/
theorem c77_exclusive (tests : List RealTest) {as : List (Nat × Real.Act)} {p : Real.Process}
    (hs : Real.Process.Steps (.start (tests.map RealTest.acts)) as p) (i j : Nat)
    (hi : HasOpen i (portEvents as)) (hj : HasOpen j (portEvents as)) : i = j := by
  have hc := coherent_steps hs [] (coherent_start (stop := true) (by
    intro l hl
    obtain ⟨t, -, rfl⟩ := List.mem_map.mp hl
    exact okFrom_run _ _ _ _))
  rw [List.nil_append] at hc
  have key : ∀ k, HasOpen k (portEvents as) → p.mutex.holder = some k := by
    intro k hk
    rcases hc k with ⟨h, -⟩ | ⟨-, -, h⟩
    · exact h
    · exact absurd hk h
  have := (key i hi).symm.trans (key j hj)
  simpa using this

/-- **C77** A test uses the port only while it has it open (and so while no other test has). -/
theorem c77_use (tests : List RealTest) {as : List (Nat × Real.Act)} {p p' : Real.Process} {i : Nat} {c : Call}
    (hs : Real.Process.Steps (.start (tests.map RealTest.acts)) as p) (hu : Real.Process.Step p i (.use c) p') :
    HasOpen i (portEvents as) := by
  have hc := coherent_steps hs [] (coherent_start (stop := true) (by
    intro l hl
    obtain ⟨t, -, rfl⟩ := List.mem_map.mp hl
    exact okFrom_run _ _ _ _))
  rw [List.nil_append] at hc
  obtain ⟨hi, hm⟩ := hu
  have := hc i
  rw [hi] at this
  rcases this with ⟨-, ⟨h, -⟩ | ⟨-, h⟩⟩ | ⟨-, h, -⟩
  · exact h.elim
  · exact h
  · exact h.elim

/-- The thread of the test ends: opening the port and the test itself do. -/
def RealTest.Ends (t : RealTest) : Prop := ∃ l b, t.acts = l ++ [.unlock b]

theorem okFrom_end {l : List Real.Act} {b : Bool} : ∀ k, OkFrom true k (l ++ [.unlock b]) → OkFrom false k (l ++ [.unlock b]) := by
  induction l with
  | nil =>
    intro k h
    match k, h with
    | 1, _ => trivial
  | cons a l ih =>
    intro k h
    match k, a, h with
    | 0, .lock, h => exact ih 1 h
    | 1, .unlock _, h => exact ih 0 h
    | 1, .openFailed _ _, h => exact ih 1 h
    | 1, .opened _ _, h => exact ih 2 h
    | 2, .use _, h => exact ih 2 h
    | 2, .close, h => exact ih 1 h

/-- What thread `i` did. -/
def actsOf (i : Nat) (as : List (Nat × Real.Act)) : List Real.Act := as.filterMap fun a => if a.1 = i then some a.2 else none

theorem actsOf_steps {p p' : Real.Process} {as : List (Nat × Real.Act)} (hs : Real.Process.Steps p as p') (i : Nat) :
    p.threads[i]?.getD [] = actsOf i as ++ p'.threads[i]?.getD [] := by
  induction hs with
  | nil p => rfl
  | cons h1 h2 ih =>
    obtain ⟨hi, hm⟩ := h1
    rename_i p p₂ j a as rest m
    have hlt : j < p.threads.length := by
      rw [List.getElem?_eq_some_iff] at hi
      exact hi.1
    dsimp only at ih
    by_cases hj : j = i
    · subst hj
      rw [hi]
      have : actsOf j ((j, a) :: as) = a :: actsOf j as := by simp [actsOf]
      rw [this, List.cons_append, ← ih]
      simp [hlt]
    · have : actsOf i ((j, a) :: as) = actsOf i as := by simp [actsOf, hj]
      rw [this, ← ih, List.getElem?_set_ne hj]

/-- **C77** If every test ends once it has the port, then all of them get it: as long as one thread has something left to do, some
thread can do something, also after others have panicked (and poisoned the mutex); and when none can, each test has done all
that it does when it runs alone. -/
theorem c77_all_end (tests : List RealTest) (he : ∀ t ∈ tests, t.Ends) {as : List (Nat × Real.Act)} {p : Real.Process}
    (hs : Real.Process.Steps (.start (tests.map RealTest.acts)) as p) (hstuck : ∀ i a p', ¬ Real.Process.Step p i a p') :
    ∀ (i : Nat) (t : RealTest), tests[i]? = some t → actsOf i as = t.acts := by
  have hc := coherent_steps hs [] (coherent_start (stop := false) (by
    intro l hl
    obtain ⟨t, ht, rfl⟩ := List.mem_map.mp hl
    obtain ⟨l, b, hl⟩ := he t ht
    have := okFrom_run t.debug t.env t.port t.test
    rw [show Real.run t.debug t.env t.port t.test = t.acts from rfl] at this
    rw [hl] at this ⊢
    exact okFrom_end _ this))
  -- Whoever holds the mutex can go on.
  have hnone : p.mutex.holder = none := by
    cases hh : p.mutex.holder with
    | none => rfl
    | some i =>
      exfalso
      rcases hc i with ⟨-, h⟩ | ⟨h, -⟩
      · cases hr : p.threads[i]? with
        | none =>
          rw [hr] at h
          rcases h with ⟨h, -⟩ | ⟨h, -⟩ <;> simp [OkFrom] at h
        | some l =>
          rw [hr] at h
          cases l with
          | nil => rcases h with ⟨h, -⟩ | ⟨h, -⟩ <;> simp [OkFrom] at h
          | cons a rest =>
            have hact : ∃ m, p.mutex.act i a = some m := by
              cases a with
              | lock => rcases h with ⟨h, -⟩ | ⟨h, -⟩ <;> exact h.elim
              | _ => exact ⟨_, rfl⟩
            obtain ⟨m, hm⟩ := hact
            exact hstuck i a _ (.mk hr hm)
      · exact h hh
  have hdone : ∀ i : Nat, p.threads[i]?.getD [] = [] := by
    intro i
    rcases hc i with ⟨h, -⟩ | ⟨-, h, -⟩
    · rw [hnone] at h; simp at h
    · cases hr : p.threads[i]? with
      | none => rfl
      | some l =>
        rw [hr] at h
        cases l with
        | nil => rfl
        | cons a rest =>
          cases a with
          | lock =>
            exact absurd (.mk hr (m := { p.mutex with holder := some i }) (by simp [Real.Mutex.act, hnone])) (hstuck i .lock _)
          | _ => exact h.elim
  intro i t ht
  have h := actsOf_steps hs i
  rw [hdone i, List.append_nil] at h
  rw [← h]
  show ((tests.map RealTest.acts)[i]?).getD [] = _
  rw [List.getElem?_map, ht]
  rfl

/-- **C77** No execution is longer than what the tests do one after the other, so that nobody waits for ever. -/
theorem c77_bounded (tests : List RealTest) {as : List (Nat × Real.Act)} {p : Real.Process}
    (hs : Real.Process.Steps (.start (tests.map RealTest.acts)) as p) :
    as.length ≤ (tests.map fun t => t.acts.length).sum := by
  have key : ∀ {p p' : Real.Process} {as : List (Nat × Real.Act)}, Real.Process.Steps p as p' →
      as.length + (p'.threads.map List.length).sum = (p.threads.map List.length).sum := by
    intro p p' as hs
    induction hs with
    | nil p => simp
    | cons h1 h2 ih =>
      obtain ⟨hi, hm⟩ := h1
      rename_i p p₂ j a as rest m
      have hset : ∀ (ls : List (List Real.Act)) (j : Nat), ls[j]? = some (a :: rest) →
          ((ls.set j rest).map List.length).sum + 1 = (ls.map List.length).sum := by
        intro ls
        induction ls with
        | nil => intro j h; simp at h
        | cons l ls ih =>
          intro j h
          cases j with
          | zero => simp at h; subst h; simp; omega
          | succ j =>
            have := ih j (by simpa using h)
            simp only [List.set_cons_succ, List.map_cons, List.sum_cons]
            omega
      have := hset p.threads j hi
      dsimp only at ih
      simp only [List.length_cons]
      omega
  have := key hs
  have e : ((Real.Process.start (tests.map RealTest.acts)).threads.map List.length) = tests.map fun t => t.acts.length := by
    simp [Real.Process.start, List.map_map, Function.comp_def]
  rw [e] at this
  omega

/-! ## Examples -/

/-- The settings of a string. -/
def idsOf (s : String) : Outcome Empty (List Byte) :=
  Real.ids { serialPath := .absent, serialBaud := .absent, deviceIds := .present (ascii s) }

example : idsOf "1,+07,255" = .ok [1#8, 7#8, 255#8] := by decide +kernel
example : idsOf "1, 2" = .panic := by decide +kernel
example : idsOf "1,2," = .panic := by decide +kernel
example : idsOf "" = .panic := by decide +kernel
example : idsOf "1,256" = .panic := by decide +kernel

def rateOf (s : String) : Outcome Empty (BitVec 32) :=
  Real.baud { serialPath := .absent, serialBaud := .present (ascii s), deviceIds := .absent }

example : rateOf "57600" = .ok 57600#32 := by decide +kernel
example : rateOf "4294967295" = .ok 4294967295#32 := by decide +kernel
example : rateOf "4294967296" = .panic := by decide +kernel
example : rateOf "57_600" = .panic := by decide +kernel

/-- A port on which nothing is ever received. -/
def quietReal : Port :=
  { now := 0, rx := [], tail := .silent, discardRes := [], discardIsNoop := false, writeRes := [], baudRes := [], rate := 57600,
    rateErr := none, log := [] }

/-- A test on that port with one motor: it gets no answer. -/
def lonely : RealTest :=
  { debug := true, env := { serialPath := .notUnicode, serialBaud := .present (ascii "57600"), deviceIds := .present (ascii "7") },
    port := fun _ _ => .ok quietReal, test := IntegrationTests.testRead }

/-- A test that has nothing to do. -/
def idle : RealTest :=
  { debug := true, env := { serialPath := .present (ascii "/dev/ttyACM0"), serialBaud := .absent, deviceIds := .absent },
    port := fun _ _ => .ok quietReal, test := fun _ => pure () }

example : idle.acts = [.lock, .opened (ascii "/dev/ttyACM0") 56700#32, .close, .unlock false] := by decide +kernel

example : lonely.acts.take 4 = [.lock, .opened (ascii "/dev/ttyUSB0") 57600#32, .use (.discard true),
    .use (.write [0xFF#8, 0xFF#8, 0xFD#8, 0x00#8, 7#8, 7#8, 0#8, 2#8, 132#8, 0#8, 4#8, 0#8, 0x09#8, 0x75#8] true)] := by
  decide +kernel

example : lonely.acts.drop 5 = [.close, .unlock true] := by decide +kernel

/-- Two tests begin at the same time: the second one waits while the first one has the port, and goes on after the first one has
panicked. -/
example : ∃ p as p', Real.Process.Steps (.start ([lonely, idle].map RealTest.acts)) [(0, .lock)] p ∧
    (∀ p₁, ¬ Real.Process.Step p 1 .lock p₁) ∧
    Real.Process.Steps p as p' ∧ p'.mutex.poisoned = true ∧ ∃ p₁, Real.Process.Step p' 1 .lock p₁ := by
  have run : ∀ (l : List Real.Act) (rest : List Real.Act), (∀ a ∈ l, a ≠ .lock ∧ ∀ b, a ≠ .unlock b) →
      Real.Process.Steps { threads := [l ++ [.unlock true], rest], mutex := ⟨some 0, false⟩ }
        (l.map (0, ·) ++ [(0, .unlock true)]) { threads := [[], rest], mutex := ⟨none, true⟩ } := by
    intro l rest
    induction l with
    | nil => exact fun _ => .cons (.mk rfl rfl) (.nil _)
    | cons a l ih =>
      intro h
      have ha := h a (by simp)
      have hm : (⟨some 0, false⟩ : Real.Mutex).act 0 a = some ⟨some 0, false⟩ := by
        cases a with
        | lock => exact absurd rfl ha.1
        | unlock b => exact absurd rfl (ha.2 b)
        | _ => rfl
      exact .cons (.mk rfl hm) (ih (fun b hb => h b (by simp [hb])))
  have hl : lonely.acts = .lock :: (lonely.acts.tail.dropLast ++ [.unlock true]) := by decide +kernel
  have hok : ∀ a ∈ lonely.acts.tail.dropLast, a ≠ .lock ∧ ∀ b, a ≠ .unlock b := by
    have h : lonely.acts.tail.dropLast.all (fun a => decide (a ≠ .lock) && decide (a ≠ .unlock true) && decide (a ≠ .unlock false)) = true := by
      decide +kernel
    intro a ha
    have := List.all_eq_true.mp h a ha
    simp only [Bool.and_eq_true, decide_eq_true_eq] at this
    exact ⟨this.1.1, fun b => match b with | true => this.1.2 | false => this.2⟩
  have hi : idle.acts = .lock :: idle.acts.tail := by decide +kernel
  generalize lonely.acts.tail.dropLast = l at hl hok
  generalize idle.acts.tail = k at hi
  refine ⟨{ threads := [l ++ [.unlock true], .lock :: k], mutex := ⟨some 0, false⟩ }, _, _, ?_, ?_, run l (.lock :: k) hok, rfl, ?_⟩
  · rw [List.map_cons, List.map_cons, hl, hi]
    exact .cons (.mk rfl rfl) (.nil _)
  · rintro p₁ ⟨h, hm⟩
    simp [Real.Mutex.act] at hm
  · exact ⟨_, .mk rfl rfl⟩

/-! ## Each theorem on these tests -/

/-- The list of motors contains a space. -/
def spacedEnv : Real.Env := { serialPath := .absent, serialBaud := .absent, deviceIds := .present (ascii "1, 2") }

theorem spacedEnv_bad : ∀ ids, ¬ AsksMotors spacedEnv.deviceIds ids := by
  intro ids h
  have hlt : ∀ id ∈ ids, id < 256 := by
    rcases h with ⟨h, -⟩ | ⟨s, -, -, h⟩
    · rcases h with h | h <;> cases h
    · exact h
  obtain ⟨motors, rfl⟩ := toNat_map hlt
  have := (ids_ok_iff (ε := Empty) spacedEnv motors).2 h
  rw [show (Real.ids spacedEnv : Outcome Empty (List Byte)) = .panic by decide +kernel] at this
  cases this

example : Real.run true spacedEnv (fun _ _ => .ok quietReal) IntegrationTests.testRead = [.lock, .unlock true] :=
  c77_rejected true spacedEnv _ _ (.inr spacedEnv_bad)

theorem lonely_path : AsksPath lonely.env.serialPath (ascii "/dev/ttyUSB0") := .inl ⟨.inr rfl, rfl⟩

theorem lonely_rate : AsksRate lonely.env.serialBaud (57600#32).toNat := (baud_ok_iff (ε := Empty) _ _).1 (by decide +kernel)

theorem lonely_motors : AsksMotors lonely.env.deviceIds ([7#8].map BitVec.toNat) := (ids_ok_iff (ε := Empty) _ _).1 (by decide +kernel)

example : Real.run true lonely.env (fun _ _ => .err .timedOut) IntegrationTests.testRead =
    [.lock, .openFailed (ascii "/dev/ttyUSB0") 57600#32, .unlock true] :=
  c77_open_fails true lonely.env _ _ lonely_path lonely_rate lonely_motors (.inl ⟨_, rfl⟩)

example : ∃ client : Bus, client.serialPort = quietReal ∧ client.baudRate = 57600 ∧
    client.readBuffer.length = 128 ∧ client.writeBuffer.length = 128 ∧
    ∀ uses after result, IntegrationTests.testRead [7#8] client = (after, result) → after.serialPort.log = quietReal.log ++ uses →
      lonely.acts = .lock :: .opened (ascii "/dev/ttyUSB0") 57600#32 :: (uses.map .use ++
        (if result = .hang then [] else [.close, .unlock (decide (result = .panic))])) :=
  c77_runs true lonely.env _ _ lonely_path lonely_rate lonely_motors rfl

/-- The threads of two tests: the first one has the port open. -/
theorem twoTests_open : ∃ p, Real.Process.Steps (.start ([idle, idle].map RealTest.acts))
    [(1, .lock), (1, .opened (ascii "/dev/ttyACM0") 56700#32)] p := by
  have h : idle.acts = [.lock, .opened (ascii "/dev/ttyACM0") 56700#32, .close, .unlock false] := by decide +kernel
  rw [List.map_cons, List.map_cons, h]
  exact ⟨_, .cons (.mk rfl rfl) (.cons (.mk rfl rfl) (.nil _))⟩

example : ∀ i j : Nat, HasOpen i [(1, true)] → HasOpen j [(1, true)] → i = j :=
  twoTests_open.elim fun _ h i j => c77_exclusive [idle, idle] h i j

/-- A test uses the port: it has it open. -/
theorem lonely_uses : ∃ p p', Real.Process.Steps (.start ([lonely].map RealTest.acts))
    [(0, .lock), (0, .opened (ascii "/dev/ttyUSB0") 57600#32)] p ∧ Real.Process.Step p 0 (.use (.discard true)) p' := by
  have h : lonely.acts = .lock :: .opened (ascii "/dev/ttyUSB0") 57600#32 :: .use (.discard true) :: lonely.acts.drop 3 := by decide +kernel
  rw [List.map_cons, h]
  exact ⟨_, _, .cons (.mk rfl rfl) (.cons (.mk rfl rfl) (.nil _)), .mk rfl rfl⟩

example : HasOpen 0 [(0, true)] := lonely_uses.elim fun _ h => h.elim fun _ h => c77_use [lonely] h.1 h.2

/-- Two tests one after the other, until no thread has anything to do. -/
theorem twoTests_done : Real.Process.Steps (.start ([idle, idle].map RealTest.acts))
    (idle.acts.map (1, ·) ++ idle.acts.map (0, ·)) { threads := [[], []], mutex := ⟨none, false⟩ } := by
  have h : idle.acts = [.lock, .opened (ascii "/dev/ttyACM0") 56700#32, .close, .unlock false] := by decide +kernel
  rw [List.map_cons, List.map_cons, h]
  exact .cons (.mk rfl rfl) (.cons (.mk rfl rfl) (.cons (.mk rfl rfl) (.cons (.mk rfl rfl) (.cons (.mk rfl rfl) (.cons (.mk rfl rfl)
    (.cons (.mk rfl rfl) (.cons (.mk rfl rfl) (.nil _))))))))

example : ∀ (i : Nat) (t : RealTest), [idle, idle][i]? = some t → actsOf i (idle.acts.map (1, ·) ++ idle.acts.map (0, ·)) = t.acts :=
  c77_all_end [idle, idle]
    (fun t ht => by
      have h : idle.acts = [.lock, .opened (ascii "/dev/ttyACM0") 56700#32, .close] ++ [.unlock false] := by decide +kernel
      have : t = idle := by simpa using ht
      rw [this]
      exact ⟨_, _, h⟩) twoTests_done
    (by
      rintro i a p' ⟨h, -⟩
      match i, h with
      | 0, h => exact nomatch h
      | 1, h => exact nomatch h
      | _ + 2, h => exact nomatch h)

end Dxl.Props
