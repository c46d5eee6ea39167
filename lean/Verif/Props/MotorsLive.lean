import Verif.Props.LinePanics

/-! # C75: the simulated motors do not panic in the integration tests -/

namespace Dxl.Props
open Dxl Spec Spec.Line Dxl.MockSerial

/-- `o` is the outcome of the thread of motor `k`: what its code sees of the line has happened, until it ended. -/
def MotorOutcome (ids : List Byte) (as : List Act) (k : Nat) (o : Outcome Empty Unit) : Prop :=
  ∃ (id : Byte) (debug : Bool) (port : Port) (device : Bus) (fuel n : Nat) (es : List Seen), ids[k]? = some id ∧
    Device.new debug port = .ok device ∧ Accepts port ∧
    Saw port es ((MockDevice.run fuel n : SO MockDevice Empty Unit) (.new id device)).1.device.serialPort ∧
    es <+: MockSerial.history (k + 1) as ∧ o = ((MockDevice.run fuel n : SO MockDevice Empty Unit) (.new id device)).2

/-- No motor panics. -/
def MotorsLive (ids : List Byte) (as : List Act) : Prop := ∀ k, ¬ MotorOutcome ids as k .panic

/-- The test ends the way that its body ends: it panics if that panics, and if not then all motors can be joined. -/
def EndsLikeBody (ids : List Byte) (as : List Act) : Prop :=
  ∀ (o : Outcome Empty Unit) (os : List (Outcome Empty Unit)), (∀ (k : Nat) o', os[k]? = some o' → MotorOutcome ids as k o') →
    runMock o os = o

/-! ## Any conversation of whole packets -/

theorem motor_quits {E : Prop} {R : Byte → Request → Prop} (hR : ∀ to r, R to r → Modest r ∧ (E → Served r)) {debug : Bool} {port : Port}
    {device : Bus} {id : Byte} {fuel n : Nat} {h : List Event'} (hnew : Device.new debug port = .ok device) (hacc : Accepts port)
    (hsaw : Saw port (h.map Event'.plain) ((MockDevice.run fuel n : SO MockDevice Empty Unit) (.new id device)).1.device.serialPort)
    (hg : ∀ m ∈ heard h, GoodOf R m.2) (ht : ∀ e, Event'.failed e ∈ h → e = .timedOut) :
    ((MockDevice.run fuel n : SO MockDevice Empty Unit) (.new id device)).2 ≠ .panic ∧
      (E → ((MockDevice.run fuel n : SO MockDevice Empty Unit) (.new id device)).2 ≠ .hang) := by
  obtain ⟨f1, -, f3, f4, f5, f6⟩ := fresh_bus (debug := debug) (port := port) (b := device) (new_device hnew)
  refine run_quits hR fuel n (.new id device) ⟨f3, f4, f5, ?_⟩ [] _ h f6 (by simpa using hg) ?_ rfl ?_
  · change Accepts device.serialPort
    rw [f1]
    exact hacc
  · change Saw device.serialPort _ _
    rw [f1]
    exact hsaw
  · intro e he
    obtain ⟨x, hx, hp⟩ := List.mem_map.mp he
    cases x <;> simp [Event'.plain] at hp
    subst hp
    rw [ht _ hx]
    rfl

/-- **C75** A motor with the buffers of the tests that hears whole packets, at most 128 bytes each, in any number per read and with
timeouts between them, does not panic if they are status packets, or instructions for any motor that only ping, write, register and act
or read at most 87 bytes. -/
theorem c75_motor {debug : Bool} {port : Port} {device : Bus} {id : Byte} {fuel n : Nat} {h : List Event'}
    (hnew : Device.new debug port = .ok device) (hacc : Accepts port)
    (hsaw : Saw port (h.map Event'.plain) ((MockDevice.run fuel n : SO MockDevice Empty Unit) (.new id device)).1.device.serialPort)
    (hg : ∀ m ∈ heard h, GoodOf (fun _ r => Modest r) m.2) (ht : ∀ e, Event'.failed e ∈ h → e = .timedOut) :
    ((MockDevice.run fuel n : SO MockDevice Empty Unit) (.new id device)).2 ≠ .panic :=
  (motor_quits (E := False) (fun _ _ h => ⟨h, False.elim⟩) hnew hacc hsaw hg ht).1

/-- **C75** If none of the instructions reads from several motors then the thread ends after any number of them. -/
theorem c75_motor_ends {debug : Bool} {port : Port} {device : Bus} {id : Byte} {fuel n : Nat} {h : List Event'}
    (hnew : Device.new debug port = .ok device) (hacc : Accepts port)
    (hsaw : Saw port (h.map Event'.plain) ((MockDevice.run fuel n : SO MockDevice Empty Unit) (.new id device)).1.device.serialPort)
    (hg : ∀ m ∈ heard h, GoodOf (fun _ r => Modest r ∧ Served r) m.2) (ht : ∀ e, Event'.failed e ∈ h → e = .timedOut) :
    ((MockDevice.run fuel n : SO MockDevice Empty Unit) (.new id device)).2 = .ok () := by
  obtain ⟨h1, h2⟩ := motor_quits (E := True) (fun _ _ h => ⟨h.1, fun _ => h.2⟩) hnew hacc hsaw hg ht
  generalize ((MockDevice.run fuel n : SO MockDevice Empty Unit) (.new id device)).2 = o at h1 h2
  cases o with
  | ok u => rfl
  | err e => cases e
  | panic => exact absurd rfl h1
  | hang => exact absurd rfl (h2 trivial)

/-- **C75** But a motor that is told to read after another one never ends once it has heard that instruction, whatever the number of
status packets and timeouts that it hears: it skips the packet that it waits for (C51), and its thread cannot be joined. -/
theorem c75_group_read_never_ends {debug : Bool} {port : Port} {device : Bus} {id x : Byte} {ids : List Byte} {r : Request} {fuel n : Nat}
    {h : List Event'} (hr : (∃ a len, r = .syncRead a len (x :: ids)) ∨ (∃ reads, r = .bulkRead reads ∧ x :: ids = reads.map (·.1)))
    (hx : x ≠ id) (hid : id ∈ ids) (hnew : Device.new debug port = .ok device)
    (hsaw : Saw port (h.map Event'.plain) ((MockDevice.run fuel n : SO MockDevice Empty Unit) (.new id device)).1.device.serialPort)
    (hg : ∀ m ∈ heard h, GoodOf (ForAll r) m.2) (hone : ((heard h).filter fun m => m.2 = requestFrame 254#8 r).length = 1)
    (ht : ∀ e, Event'.failed e ∈ h → e = .timedOut) :
    ((MockDevice.run fuel n : SO MockDevice Empty Unit) (.new id device)).2 = .hang := by
  obtain ⟨f1, -, f3, f4, f5, f6⟩ := fresh_bus (debug := debug) (port := port) (b := device) (new_device hnew)
  refine run_forever hr n (.new id device) hx hid f3 f4 [] _ h f6 (by simpa using hg) ?_ (fun h => by simp [Roll.times] at h) ?_ rfl ?_
  · rw [List.nil_append, ← hone, Roll.times, List.countP_eq_length_filter]
    congr 2
    funext m
    exact (Bool.beq_eq_decide_eq _ _)
  · change Saw device.serialPort _ _
    rw [f1]
    exact hsaw
  · intro e he
    obtain ⟨y, hy, hp⟩ := List.mem_map.mp he
    cases y <;> simp [Event'.plain] at hp
    subst hp
    rw [ht _ hy]
    rfl

/-! ## The tests -/

theorem history_failed {i : Nat} {as : List Act} {e : IoErr} (h : Seen.failed e ∈ MockSerial.history i as) : e = .timedOut := by
  obtain ⟨a, -, h⟩ := List.mem_filterMap.mp h
  cases a <;> simp [Act.for] at h
  exact h.2.symm

/-- What a motor hears on the simulated line is what was written to it. -/
theorem motor_hears {ids : List Byte} {as : List Act} (hline : ∃ s, Run (newClientDevice ids) init as s) {P : Request → Prop}
    (hsaid : SaysOnly P ids as) {k : Nat} {id : Byte} (hk : ids[k]? = some id) {es : List Seen} (hpre : es <+: MockSerial.history (k + 1) as) :
    ∃ h : List Event', es = h.map Event'.plain ∧ (∀ m ∈ heard h, GoodOf (fun _ r => P r) m.2) ∧ ∀ e, Event'.failed e ∈ h → e = .timedOut := by
  obtain ⟨s, hrun⟩ := hline
  obtain ⟨l, h1, h2, h3, h4⟩ := run_story hrun
  have hkl : k + 1 ≤ ids.length := by
    obtain ⟨hk, -⟩ := List.getElem?_eq_some_iff.mp hk
    omega
  obtain ⟨t, ht⟩ := hpre
  obtain ⟨h, h', hh, rfl, -⟩ := List.map_eq_append_iff.mp ((h1 (k + 1) hkl).trans ht.symm)
  refine ⟨h, rfl, fun m hm => hsaid m ?_, fun e he => history_failed (i := k + 1) (as := as) ?_⟩
  · rw [← h4]
    refine heard_mem (h2 l (List.prefix_refl _)) (j := k + 1) ?_
    rw [hh, heard_append]
    exact List.mem_append_left _ hm
  · rw [← ht]
    exact List.mem_append_left _ (List.mem_map.mpr ⟨_, he, rfl⟩)

/-- **C75** Motors on the simulated line, if all that is written to it are such packets. -/
theorem c75_line {ids : List Byte} {as : List Act} (hline : ∃ s, Run (newClientDevice ids) init as s)
    (hsaid : SaysOnly Modest ids as) : MotorsLive ids as := by
  rintro k ⟨id, debug, port, device, fuel, n, es, hk, hnew, hacc, hsaw, hpre, ho⟩
  obtain ⟨h, rfl, hg, ht⟩ := motor_hears hline hsaid hk hpre
  exact c75_motor hnew hacc hsaw hg ht ho.symm

theorem joinAll_ok {os : List (Outcome Empty Unit)} (h : ∀ o ∈ os, o = .ok ()) : joinAll os = .ok () := by
  induction os with
  | nil => rfl
  | cons o os ih =>
    rw [h o (by simp)]
    exact ih fun o ho => h o (by simp [ho])

/-- **C75** `run_mock` passes only if the body of the test does and no thread of a motor has panicked. -/
theorem c75_join_ok {ε : Type} {test : Outcome ε Unit} {threads : List (Outcome ε Unit)} :
    runMock test threads = .ok () ↔ test = .ok () ∧ ∀ o ∈ threads, o = .ok () := by
  unfold runMock
  cases test with
  | ok =>
    dsimp only [Outcome.bind]
    constructor
    · intro h
      refine ⟨rfl, ?_⟩
      induction threads with
      | nil => simp
      | cons o os ih =>
        cases o with
        | ok =>
          intro o ho
          rcases List.mem_cons.1 ho with rfl | ho
          · rfl
          · exact ih h o ho
        | _ => cases h
    · rintro ⟨_, h⟩
      induction threads with
      | nil => rfl
      | cons o os ih =>
        rw [h o (by simp)]
        exact ih fun o ho => h o (by simp [ho])
  | _ => simp [Outcome.bind]

/-- **C75** If the body passes and a motor has panicked then the test panics, unless a thread before it in the list never ends. -/
theorem c75_join_panic {ε : Type} {before after : List (Outcome ε Unit)} (h : ∀ o ∈ before, o ≠ .hang) :
    runMock (.ok ()) (before ++ .panic :: after) = .panic := by
  unfold runMock
  dsimp only [Outcome.bind]
  induction before with
  | nil => rfl
  | cons o os ih =>
    cases o with
    | ok => exact ih fun o ho => h o (by simp [ho])
    | hang => exact absurd rfl (h .hang (by simp))
    | _ => rfl

/-- **C75** If the body passes and a motor never ends then neither does the test, unless a thread before it has panicked. -/
theorem c75_join_hang {ε : Type} {before after : List (Outcome ε Unit)} (h : ∀ o ∈ before, o = .ok ()) :
    runMock (.ok ()) (before ++ .hang :: after) = .hang := by
  unfold runMock
  dsimp only [Outcome.bind]
  induction before with
  | nil => rfl
  | cons o os ih =>
    rw [h o (by simp)]
    exact ih fun o ho => h o (by simp [ho])

/-- **C75** If the body of the test does not pass then the test ends the way its body ends, whatever the threads of the motors do: a motor that
never ends is not waited for, and a panic of a motor changes nothing. -/
theorem c75_join_test {ε : Type} {test : Outcome ε Unit} (threads : List (Outcome ε Unit)) (h : test ≠ .ok ()) :
    runMock test threads = test := by
  unfold runMock
  cases test with
  | ok => exact absurd rfl h
  | _ => rfl

/-- The body panics, and the only motor waits for ever. -/
example : runMock (ε := Empty) .panic [.hang] = .panic := c75_join_test _ nofun

/-- Three motors, the second of which panicked. -/
example : runMock (ε := Empty) (.ok ()) ([.ok ()] ++ .panic :: [.ok ()]) = .panic := c75_join_panic (by simp)

/-- **C75** The same without instructions for several motors: if the flag is set then all motors can be joined. -/
theorem c75_line_ends {ids : List Byte} {as : List Act} (hline : ∃ s, Run (newClientDevice ids) init as s)
    (hsaid : SaysOnly AtOnce ids as) : EndsLikeBody ids as := by
  intro o os hos
  have hok : joinAll os = .ok () := joinAll_ok fun o' ho' => by
    obtain ⟨k, hk⟩ := List.getElem?_of_mem ho'
    obtain ⟨id, debug, port, device, fuel, n, es, hid, hnew, hacc, hsaw, hpre, rfl⟩ := hos k o' hk
    obtain ⟨h, rfl, hg, ht⟩ := motor_hears hline hsaid hid hpre
    exact c75_motor_ends hnew hacc hsaw hg ht
  unfold runMock
  rw [hok]
  cases o <;> rfl

theorem group_says {ids : List Byte} {as : List Act} {P : Request → Prop} {r₀ : Request} (hr : P r₀)
    (ht : ∀ m ∈ said ids.length as, GoodOf (ForAll r₀) m.2) : SaysOnly P ids as := by
  intro m hm
  have := ht m hm
  obtain ⟨k, f⟩ := m
  cases this with
  | request h1 h2 h3 => exact .request (h1.2 ▸ hr) h2 h3
  | reply h1 h2 => exact .reply h1 h2

theorem SaysOnly.modest {ids : List Byte} {as : List Act} (h : SaysOnly AtOnce ids as) : SaysOnly Modest ids as := by
  intro m hm
  have := h m hm
  obtain ⟨k, f⟩ := m
  cases this with
  | request h1 h2 h3 => exact .request h1.1 h2 h3
  | reply h1 h2 => exact .reply h1 h2

/-- **C75** `test_read`: no motor panics, in any interleaving, and the test ends like its body. -/
theorem c75_read {id : Byte} {rest : List Byte} {as : List Act}
    (h : Threads (id :: rest) (IntegrationTests.testRead (id :: rest)) as) (hn : (id :: rest).Nodup) (hid : id ≠ 254#8) :
    MotorsLive (id :: rest) as ∧ EndsLikeBody (id :: rest) as :=
  ⟨c75_line h.line (read_talk h hn hid).1.modest, c75_line_ends h.line (read_talk h hn hid).1⟩

/-- **C75** `test_read_bytes`: no motor panics, in any interleaving, and the test ends like its body. -/
theorem c75_read_bytes {id : Byte} {rest : List Byte} {as : List Act}
    (h : Threads (id :: rest) (IntegrationTests.testReadBytes (id :: rest)) as) (hn : (id :: rest).Nodup) (hid : id ≠ 254#8) :
    MotorsLive (id :: rest) as ∧ EndsLikeBody (id :: rest) as :=
  ⟨c75_line h.line (read_bytes_talk h hn hid).1.modest, c75_line_ends h.line (read_bytes_talk h hn hid).1⟩

/-- **C75** `test_write`: no motor panics, in any interleaving, and the test ends like its body. -/
theorem c75_write {id : Byte} {rest : List Byte} {as : List Act}
    (h : Threads (id :: rest) (IntegrationTests.testWrite (id :: rest)) as) (hn : (id :: rest).Nodup) (hid : id ≠ 254#8) :
    MotorsLive (id :: rest) as ∧ EndsLikeBody (id :: rest) as :=
  ⟨c75_line h.line (write_talk h hn hid).1.modest, c75_line_ends h.line (write_talk h hn hid).1⟩

/-- **C75** `test_write_bytes`: no motor panics, in any interleaving, and the test ends like its body. -/
theorem c75_write_bytes {id : Byte} {rest : List Byte} {as : List Act}
    (h : Threads (id :: rest) (IntegrationTests.testWriteBytes (id :: rest)) as) (hn : (id :: rest).Nodup) (hid : id ≠ 254#8) :
    MotorsLive (id :: rest) as ∧ EndsLikeBody (id :: rest) as :=
  ⟨c75_line h.line (write_bytes_talk h hn hid).1.modest, c75_line_ends h.line (write_bytes_talk h hn hid).1⟩

/-- **C75** `test_reg_write`: no motor panics, in any interleaving, and the test ends like its body. -/
theorem c75_reg_write {id : Byte} {rest : List Byte} {as : List Act}
    (h : Threads (id :: rest) (IntegrationTests.testRegWrite (id :: rest)) as) (hn : (id :: rest).Nodup) (hid : id ≠ 254#8) :
    MotorsLive (id :: rest) as ∧ EndsLikeBody (id :: rest) as :=
  ⟨c75_line h.line (reg_write_talk h hn hid).1.modest, c75_line_ends h.line (reg_write_talk h hn hid).1⟩

/-- **C75** `test_reg_write_bytes`: no motor panics, in any interleaving, and the test ends like its body. -/
theorem c75_reg_write_bytes {id : Byte} {rest : List Byte} {as : List Act}
    (h : Threads (id :: rest) (IntegrationTests.testRegWriteBytes (id :: rest)) as) (hn : (id :: rest).Nodup) (hid : id ≠ 254#8) :
    MotorsLive (id :: rest) as ∧ EndsLikeBody (id :: rest) as :=
  ⟨c75_line h.line (reg_write_bytes_talk h hn hid).1.modest, c75_line_ends h.line (reg_write_bytes_talk h hn hid).1⟩

/-- **C75** `test_ping` with up to nine motors: no motor panics, in any interleaving, and the test ends like its body. -/
theorem c75_ping {ids : List Byte} {fuel : Nat} {as : List Act} (h : Threads ids (IntegrationTests.testPing fuel ids) as)
    (hids : ids.length ≤ 9) : MotorsLive ids as ∧ EndsLikeBody ids as :=
  ⟨c75_line h.line (group_says .ping (ping_talk h hids).1),
    c75_line_ends h.line (group_says (r₀ := .ping) ⟨.ping, fun _ => ⟨_, _, rfl⟩⟩ (ping_talk h hids).1)⟩

/-- **C75** `test_sync_read`: no motor panics, in any interleaving. -/
theorem c75_sync_read {x : Byte} {rest : List Byte} {fuel : Nat} {as : List Act}
    (h : Threads (x :: rest) (IntegrationTests.testSyncRead fuel (x :: rest)) as) (hn : (x :: rest).Nodup)
    (hs : Survives (Request.syncRead 132#16 4#16 (x :: rest)).body)
    (hlen : (requestFrame 254#8 (.syncRead 132#16 4#16 (x :: rest))).length + 15 ≤ 128) : MotorsLive (x :: rest) as :=
  c75_line h.line (group_says (.syncRead (by decide)) (sync_read_talk h hn hs hlen).1)

/-- **C75** `test_sync_read_bytes`: no motor panics, in any interleaving. -/
theorem c75_sync_read_bytes {x : Byte} {rest : List Byte} {fuel : Nat} {as : List Act}
    (h : Threads (x :: rest) (IntegrationTests.testSyncReadBytes fuel (x :: rest)) as) (hn : (x :: rest).Nodup)
    (hs : Survives (Request.syncRead 132#16 4#16 (x :: rest)).body)
    (hlen : (requestFrame 254#8 (.syncRead 132#16 4#16 (x :: rest))).length + 15 ≤ 128) : MotorsLive (x :: rest) as :=
  c75_line h.line (group_says (.syncRead (by decide)) (sync_read_bytes_talk h hn hs hlen).1)

/-- **C75** `test_bulk_read_bytes`: no motor panics, in any interleaving. -/
theorem c75_bulk_read_bytes {x : Byte} {rest : List Byte} {as : List Act}
    (h : Threads (x :: rest) (IntegrationTests.testBulkReadBytes (x :: rest)) as) (hn : (x :: rest).Nodup)
    (hs : Survives (Request.bulkRead ((x :: rest).map fun id => (id, 132#16, 4#16))).body)
    (hlen : (requestFrame 254#8 (.bulkRead ((x :: rest).map fun id => (id, 132#16, 4#16)))).length + 15 ≤ 128) :
    MotorsLive (x :: rest) as :=
  c75_line h.line (group_says (.bulkRead fun r hr => by
    obtain ⟨id, -, rfl⟩ := List.mem_map.mp hr
    exact show (4#16 : U16).toNat ≤ 87 by decide) (bulk_read_bytes_talk h hn hs hlen).1)

/-! ## Executions -/

/-- Whether the code has panicked, after `n` packets or timeouts. -/
def panicked (id : Byte) (n : Nat) (es : List Seen) : Bool :=
  match ((MockDevice.run 0 n : SO MockDevice Empty Unit) (.new id (scriptedBus es))).2 with
  | .panic => true
  | _ => false

/-- What motor `k` sees in the execution where the client is answered: the instruction, and its own answer. -/
example : MockSerial.history 1 answeredRun ≠ [] ∧ panicked 1#8 1 (MockSerial.history 1 answeredRun) = false := by decide +kernel

/-- The motor reads 117 bytes, and its answer fills the buffer; with 118 bytes it panics. -/
example : panicked 1#8 1 [.got (requestFrame 1#8 (.read 0#16 117#16)), .wrote []] = false ∧
    panicked 1#8 1 [.got (requestFrame 1#8 (.read 0#16 118#16)), .wrote []] = true := by decide +kernel

/-- Whether the code is still waiting, after `turns` reads. -/
def waiting (id : Byte) (turns : Nat) (es : List Seen) : Bool :=
  match ((MockDevice.run turns 1 : SO MockDevice Empty Unit) (.new id (scriptedBus es))).2 with
  | .hang => true
  | _ => false

/-- The second motor of a sync read waits after the answer of the first one came; the first answers, and is done. -/
example : waiting 2#8 2 [.got (requestFrame 254#8 (.syncRead 132#16 4#16 [1#8, 2#8])), .got (replyFrame 1#8 ⟨0#8, [0, 0, 0, 0]⟩),
      .failed .timedOut] = true ∧
    waiting 1#8 2 [.got (requestFrame 254#8 (.syncRead 132#16 4#16 [1#8, 2#8])), .wrote []] = false := by decide +kernel

/-- It panics if it is told to reboot (C52), and if the line fails with another error than a timeout. -/
example : panicked 1#8 1 [.got (requestFrame 1#8 .reboot)] = true ∧ panicked 1#8 1 [.failed (.other 5)] = true ∧
    panicked 1#8 1 [.failed .timedOut] = false := by decide +kernel

/-- A packet that is damaged ends it, too. -/
example : panicked 1#8 1 [.got ((requestFrame 1#8 .ping).set 9 0#8)] = true := by decide +kernel

/-! ## Each theorem on a run -/

example : runMock (ε := Empty) (.ok ()) ([.ok ()] ++ .hang :: [.panic]) = .hang := c75_join_hang (by simp)

theorem answeredRun_says : SaysOnly AtOnce [1#8] answeredRun := (read_talk readRun_threads (by decide) (by decide)).1

example : MotorsLive [1#8] answeredRun := c75_line readRun_threads.line answeredRun_says.modest

example : EndsLikeBody [1#8] answeredRun := c75_line_ends readRun_threads.line answeredRun_says

example : MotorsLive [1#8] answeredRun ∧ EndsLikeBody [1#8] answeredRun := c75_read readRun_threads (by decide) (by decide)

example : MotorsLive [1#8] answeredRun ∧ EndsLikeBody [1#8] answeredRun := c75_read_bytes readBytesRun_threads (by decide) (by decide)

example : MotorsLive [1#8] writeTwiceRun ∧ EndsLikeBody [1#8] writeTwiceRun := c75_write writeTwiceRun_threads (by decide) (by decide)

example : MotorsLive [1#8] writeBytesRun ∧ EndsLikeBody [1#8] writeBytesRun := c75_write_bytes writeBytesRun_threads (by decide) (by decide)

example : MotorsLive [1#8] regWriteRun ∧ EndsLikeBody [1#8] regWriteRun := c75_reg_write regWriteRun_threads (by decide) (by decide)

example : MotorsLive [1#8] regWriteBytesRun ∧ EndsLikeBody [1#8] regWriteBytesRun :=
  c75_reg_write_bytes regWriteBytesRun_threads (by decide) (by decide)

example : MotorsLive [1#8, 2#8] pingRun ∧ EndsLikeBody [1#8, 2#8] pingRun := c75_ping pingRun_threads (by decide)

example : MotorsLive [1#8, 2#8] syncReadRun := c75_sync_read syncReadRun_threads (by decide) (NoFd.survives (by unfold NoFd; decide))
  (by rw [requestFrame, Bus.frame_length]; decide +kernel)

example : MotorsLive [1#8, 2#8] syncReadRun := c75_sync_read_bytes syncReadBytesRun_threads (by decide)
  (NoFd.survives (by unfold NoFd; decide)) (by rw [requestFrame, Bus.frame_length]; decide +kernel)

/-- The motor hears a ping, answers it, and then a read times out. -/
def pinged : List Event' := [.got [(0, requestFrame 254#8 .ping)], .wrote (replyFrame 1#8 ⟨0#8, [10#8, 20#8, 46#8]⟩), .failed .timedOut]

/-- A motor with a script sees what a script says, if it asks for it. -/
theorem motor_sees {id : Byte} {fuel n : Nat} {h : List Event'}
    (hs : ((scripted (h.map Event'.plain)).redoAll
      ((MockDevice.run fuel n : SO MockDevice Empty Unit) (.new id (scriptedBus (h.map Event'.plain)))).1.device.serialPort.log).2 =
        h.map Event'.plain) :
    ∃ device, Device.new false (scripted (h.map Event'.plain)) = .ok device ∧
      Saw (scripted (h.map Event'.plain)) (h.map Event'.plain) ((MockDevice.run fuel n : SO MockDevice Empty Unit) (.new id device)).1.device.serialPort := by
  obtain ⟨f1, -, f3, -⟩ := fresh_bus (scriptedBus_eq (h.map Event'.plain))
  have ht := saw_computed (motor_saw fuel n id f3)
  rw [f1, show (scripted (h.map Event'.plain)).log.length = 0 from rfl, List.drop_zero, hs] at ht
  refine ⟨scriptedBus (h.map Event'.plain), ?_, ht⟩
  unfold Device.new
  rw [show defaultBuffer = List.replicate 128 0#8 from rfl, scriptedBus_eq]

theorem pinged_good : ∀ m ∈ heard pinged, GoodOf (fun _ r => Modest r ∧ Served r) m.2 := by
  intro m hm
  obtain rfl := List.mem_singleton.mp (show m ∈ [(0, requestFrame 254#8 .ping)] from hm)
  exact .request ⟨.ping, fun _ => ⟨_, _, rfl⟩⟩ (NoFd.survives (by unfold NoFd; decide)) (frame_short (by decide +kernel))

theorem pinged_times : ∀ e, Event'.failed e ∈ pinged → e = .timedOut := by
  intro e he
  simpa [pinged] using he

example : ∃ device, Device.new false (scripted (pinged.map Event'.plain)) = .ok device ∧
    ((MockDevice.run 0 2 : SO MockDevice Empty Unit) (.new 1#8 device)).2 ≠ .panic :=
  (motor_sees (id := 1#8) (fuel := 0) (n := 2) (h := pinged) (by decide +kernel)).elim fun device hd => ⟨device, hd.1,
    c75_motor hd.1 (scripted_accepts _) hd.2 (fun m hm => by
      obtain rfl := List.mem_singleton.mp (show m ∈ [(0, requestFrame 254#8 .ping)] from hm)
      exact .request .ping (NoFd.survives (by unfold NoFd; decide)) (frame_short (by decide +kernel))) pinged_times⟩

example : ∃ device, Device.new false (scripted (pinged.map Event'.plain)) = .ok device ∧
    ((MockDevice.run 0 2 : SO MockDevice Empty Unit) (.new 1#8 device)).2 = .ok () :=
  (motor_sees (id := 1#8) (fuel := 0) (n := 2) (h := pinged) (by decide +kernel)).elim fun device hd => ⟨device, hd.1,
    c75_motor_ends hd.1 (scripted_accepts _) hd.2 pinged_good pinged_times⟩

/-- The second motor of a group read hears the instruction and the answer of the first; then nothing comes. -/
def groupRead : List Event' := [.got [(0, requestFrame 254#8 (.syncRead 132#16 4#16 [1#8, 2#8]))], .got [(1, replyFrame 1#8 ⟨0#8, [0, 0, 0, 0]⟩)],
  .failed .timedOut]

example : ∃ device, Device.new false (scripted (groupRead.map Event'.plain)) = .ok device ∧
    ((MockDevice.run 1 1 : SO MockDevice Empty Unit) (.new 2#8 device)).2 = .hang :=
  (motor_sees (id := 2#8) (fuel := 1) (n := 1) (h := groupRead) (by decide +kernel)).elim fun device hd => ⟨device, hd.1,
    c75_group_read_never_ends (r := .syncRead 132#16 4#16 [1#8, 2#8]) (x := 1#8) (ids := [2#8]) (.inl ⟨_, _, rfl⟩) (by decide) (by simp) hd.1 hd.2
      (fun m hm => by
        simp only [show heard groupRead = [(0, requestFrame 254#8 (.syncRead 132#16 4#16 [1#8, 2#8])), (1, replyFrame 1#8 ⟨0#8, [0, 0, 0, 0]⟩)] from rfl,
          List.mem_cons, List.not_mem_nil, or_false] at hm
        rcases hm with rfl | rfl
        · exact .request ⟨rfl, rfl⟩ (NoFd.survives (by unfold NoFd; decide)) (frame_short (by decide +kernel))
        · exact .reply (NoFd.survives (by unfold NoFd; decide)) (by decide +kernel)) (by decide +kernel) (fun e he => by simpa [groupRead] using he)⟩

end Dxl.Props
