import Verif.Props.CliRun
import Verif.Props.Network

/-! # C71: runs of the command line tool on a line with simulated motors -/

namespace Dxl.Props
open Dxl Spec

/-! ## What is to be shown -/

/-- The commands that a simulated motor serves: the ID in the packet, and the request. (No argument of the tool gives the ID 254
other than as `broadcast`, C48.) -/
inductive ToolSends : Cli.Command → Byte → Request → Prop
  | ping (id) (h : id ≠ 254#8) : ToolSends (.ping (.id id)) id .ping
  | read8 (id a) (h : id ≠ 254#8) : ToolSends (.read8 (.id id) a) id (.read a 1#16)
  | read16 (id a) (h : id ≠ 254#8) : ToolSends (.read16 (.id id) a) id (.read a 2#16)
  | read32 (id a) (h : id ≠ 254#8) : ToolSends (.read32 (.id id) a) id (.read a 4#16)
  | read (id a n) (h : id ≠ 254#8) : ToolSends (.read (.id id) a n) id (.read a n)
  | write8 (m a v bytes) (h : LittleEndian 1 v.toNat bytes) : ToolSends (.write8 m a v) (packetIdOf m) (.write a bytes)
  | write16 (m a v bytes) (h : LittleEndian 2 v.toNat bytes) : ToolSends (.write16 m a v) (packetIdOf m) (.write a bytes)
  | write32 (m a v bytes) (h : LittleEndian 4 v.toNat bytes) : ToolSends (.write32 m a v) (packetIdOf m) (.write a bytes)
  | write (m a data) : ToolSends (.write m a data) (packetIdOf m) (.write a data)

/-- A run of the tool: the command, the port it opens, and what it prints, with its exit code. -/
structure Ran where
  debug : Bool
  port : Port
  rate : Nat
  fuel : Nat
  cmd : Cli.Command
  id : Byte
  request : Request
  sends : ToolSends cmd id request
  output : Outcome Empty (List Cli.Line × Nat)

/-- The program. -/
def Ran.main (io : IoErr → List Char) (path : List Char) (r : Ran) : Option Bus × Outcome Empty (List Cli.Line × Nat) :=
  Cli.main r.debug io path (.ok r.port) r.rate r.fuel r.cmd

/-- What the tool wrote arrives at the motor while it waits; before it, there can be garbage and status packets. -/
def ReachesMotor (p : Port) (c : Option Bus) (d : MockDevice) : Prop :=
  ∀ b f calls, c = some b → b.serialPort.log = p.log ++ calls → Call.write f true ∈ calls →
    ∃ statuses g rest, Statuses d.device.readBuffer.length statuses ∧ ¬ header <:+: g ∧
      stream (d.device.serialPort.now + 10000000) d.device = itemBytes statuses ++ (g ++ f ++ rest)

/-- What the motor wrote arrives in time at the port `p`, for an answer with `n` bytes; before it, there can be garbage. -/
def ReachesTool (d d' : MockDevice) (p : Port) (rate n : Nat) : Prop :=
  ∀ f, Wrote d.device d'.device f → ∃ ns g rest, LeastTime (11 + n) rate ns ∧ ¬ header <:+: g ∧
    arriving (p.now + p.writeTime + (ns + 34000000)) (newInput p) = g ++ f ++ rest

/-- A run of the tool on a line with these motors, each of which runs its loop once: the port accepts the instruction, which
fits the buffer and survives the stuffing; every motor receives it, and the answer of the motor that is asked reaches the tool. -/
structure RunsWith (io : IoErr → List Char) (path : List Char) (fuel : Nat) (ds : List MockDevice) (r : Ran) : Prop where
  output : r.output = (r.main io path).2
  rate_lt : r.rate < 2 ^ 32
  rate_ne : r.rate ≠ 0
  sendOk : r.port.SendOk
  short : r.request.body.length ≤ 87
  survives : Survives r.request.body
  to : ∀ d ∈ ds, ReachesMotor r.port (r.main io path).1 d
  answer : ∀ d ∈ ds, r.id = d.id ∨ r.id = 254#8 → CanAnswer Survives d r.request
  back : ∀ d ∈ ds, r.id = d.id → ReachesTool d (d.after fuel) r.port r.rate (answerSize r.request)

/-- Runs of the tool one after the other, with any number of motors, which can run their loops in between without receiving an
instruction. -/
inductive Runs (io : IoErr → List Char) (path : List Char) (fuel : Nat) : List MockDevice → List Ran → List MockDevice → Prop
  | done (ds) : Runs io path fuel ds [] ds
  | idle {ds₁ d ds₂ rs ds'} {statuses : List Item} {trailing : List Byte} (hst : Statuses d.device.readBuffer.length statuses)
      (ht : ¬ header <:+: trailing) (hs : stream (d.device.serialPort.now + 10000000) d.device = itemBytes statuses ++ trailing)
      (h : Runs io path fuel (ds₁ ++ d.after fuel :: ds₂) rs ds') : Runs io path fuel (ds₁ ++ d :: ds₂) rs ds'
  | run {ds ds'} {r : Ran} {rs : List Ran} (hr : RunsWith io path fuel ds r)
      (h : Runs io path fuel (ds.map (MockDevice.after fuel)) rs ds') : Runs io path fuel ds (r :: rs) ds'

/-- What a motor needs: an ID of its own kind, and buffers that fit those of the tool. -/
structure FitsTool (d : MockDevice) : Prop where
  id : d.id ≠ 254#8
  inv : d.device.Inv
  size : 128 ≤ d.device.readBuffer.length
  back : d.device.writeBuffer.length ≤ 128

/-- The text for the data of an answer. -/
inductive RunText : Cli.Command → List Byte → List Char → Prop
  | asked {cmd ps text} (h : Prints cmd ps text) : RunText cmd ps text
  | write8 (m a v) : RunText (.write8 m a v) [] "Ok".toList
  | write16 (m a v) : RunText (.write16 m a v) [] "Ok".toList
  | write32 (m a v) : RunText (.write32 m a v) [] "Ok".toList
  | write (m a data) : RunText (.write m a data) [] "Ok".toList

/-- What a run says if it gets this answer: one line, with the data or with the error of the motor. -/
def RunSays (io : IoErr → List Char) (cmd : Cli.Command) (reply : ServoReply) (o : Outcome Empty (List Cli.Line × Nat)) : Prop :=
  if reply.error = 0#8 then ∃ text, RunText cmd reply.data text ∧ o = .ok ([(.info, text)], 0)
  else ∃ text, ErrorText io text (.readError (.motorError ⟨reply.error⟩)) ∧ o = .ok ([(.error, lead cmd ++ text)], 1)

/-- What one of several memories does in a run. -/
def ServesRun (io : IoErr → List Char) (r : Ran) (m m' : Byte × Servo) : Prop :=
  m'.1 = m.1 ∧
  (r.id = m.1 → ∃ reply, m.2.serve r.request = some (m'.2, reply) ∧ RunSays io r.cmd reply r.output) ∧
  (r.id = 254#8 → ∃ reply, m.2.serve r.request = some (m'.2, reply)) ∧
  (r.id ≠ m.1 → r.id ≠ 254#8 → m'.2 = m.2)

/-- The runs are what a user of several memories sees. -/
inductive RunsReport (io : IoErr → List Char) : List (Byte × Servo) → List Ran → List (Byte × Servo) → Prop
  | done (ms) : RunsReport io ms [] ms
  | run {ms ms₁ ms₂} {r : Ran} {rs : List Ran} (hs : Pairwise₂ (ServesRun io r) ms ms₁)
      (hall : r.id = 254#8 → r.output = .ok ([(.info, "Ok".toList)], 0)) (h : RunsReport io ms₁ rs ms₂) : RunsReport io ms (r :: rs) ms₂

/-! ## Proofs -/

/-- The call behind a command. -/
theorem ToolSends.call {cmd : Cli.Command} {id : Byte} {req : Request} (h : ToolSends cmd id req) (fuel : Nat) :
    ∃ (α : Type) (m : SO Bus TransferError (Response α)) (value : List Byte → α → Prop) (failure : TransferError → Cli.Failure)
      (result : Response α → Cli.Report), Uses m id req value ∧ Cli.doMain fuel cmd = Cli.report failure result m ∧
      (∀ io path e, (failure e).text io path = lead cmd ++ e.display io) ∧
      (∀ io rid data v, value data v → data.length = answerSize req →
        ∃ text, RunText cmd data text ∧ (result ⟨rid, false, v⟩).lines io = [(.info, text)]) ∧
      (id = 254#8 → Writes req) := by
  have hid : ∀ m : Cli.MotorId, m.raw = packetIdOf m := by rintro (_ | _) <;> rfl
  have ok : ∀ (io : IoErr → List Char) (rid : Byte), (Cli.Report.done ⟨rid, false, ()⟩).lines io = [(.info, "Ok".toList)] := fun _ _ => rfl
  cases h with
  | ping id hne =>
    refine ⟨_, _, _, .command, .ping, .ping id, rfl, fun _ _ _ => rfl, fun io rid data v hv _ => ?_, fun h => absurd h hne⟩
    subst hv
    exact ⟨_, .asked (.ping (le16_littleEndian _) (BitVec.isLt _) (decimal_written _) (decimal_written _)), rfl⟩
  | read8 id a hne =>
    refine ⟨_, _, _, .command, .read8, .read (unsigned_impl (by decide)) id a, rfl, fun _ _ _ => rfl, fun io rid data v hv _ => ?_,
      fun h => absurd h hne⟩
    exact ⟨_, .asked (.read8 (littleEndian_iff.mpr hv.2.symm) (.one (BitVec.isLt _) (decimal_written _) (upperHex_written _ _))), rfl⟩
  | read16 id a hne =>
    refine ⟨_, _, _, .command, .read16, .read (unsigned_impl (by decide)) id a, rfl, fun _ _ _ => rfl, fun io rid data v hv _ => ?_,
      fun h => absurd h hne⟩
    exact ⟨_, .asked (.read16 (littleEndian_iff.mpr hv.2.symm) (.two (BitVec.isLt _) (decimal_written _) (upperHex_written _ _))), rfl⟩
  | read32 id a hne =>
    refine ⟨_, _, _, .command, .read32, .read (unsigned_impl (by decide)) id a, rfl, fun _ _ _ => rfl, fun io rid data v hv _ => ?_,
      fun h => absurd h hne⟩
    exact ⟨_, .asked (.read32 (littleEndian_iff.mpr hv.2.symm) (valueText_four _)), rfl⟩
  | read id a n hne =>
    refine ⟨_, _, _, .command, .read, .readBytes id a n, rfl, fun _ _ _ => rfl, fun io rid data v hv hl => ?_,
      fun h => absurd h hne⟩
    subst hv
    exact ⟨_, .asked (.read hl (bytesText_of _)), rfl⟩
  | write8 m a v bytes hb =>
    obtain rfl := littleEndian_iff.mp hb
    refine ⟨_, _, _, .write, .done, .write (unsigned_impl (by decide)) _ a v trivial, by rw [← hid]; rfl, fun _ _ _ => rfl,
      fun io rid data v hv hl => ?_, fun _ => trivial⟩
    obtain rfl := List.length_eq_zero_iff.mp hl
    exact ⟨_, .write8 _ _ _, ok io rid⟩
  | write16 m a v bytes hb =>
    obtain rfl := littleEndian_iff.mp hb
    refine ⟨_, _, _, .command, .done, .write (unsigned_impl (by decide)) _ a v trivial, by rw [← hid]; rfl, fun _ _ _ => rfl,
      fun io rid data v hv hl => ?_, fun _ => trivial⟩
    obtain rfl := List.length_eq_zero_iff.mp hl
    exact ⟨_, .write16 _ _ _, ok io rid⟩
  | write32 m a v bytes hb =>
    obtain rfl := littleEndian_iff.mp hb
    refine ⟨_, _, _, .command, .done, .write (unsigned_impl (by decide)) _ a v trivial, by rw [← hid]; rfl, fun _ _ _ => rfl,
      fun io rid data v hv hl => ?_, fun _ => trivial⟩
    obtain rfl := List.length_eq_zero_iff.mp hl
    exact ⟨_, .write32 _ _ _, ok io rid⟩
  | write m a data =>
    refine ⟨_, _, _, .command, .done, .writeBytes _ a data, by rw [← hid]; rfl, fun _ _ _ => rfl,
      fun io rid data v hv hl => ?_, fun _ => trivial⟩
    obtain rfl := List.length_eq_zero_iff.mp hl
    exact ⟨_, .write _ _ _, ok io rid⟩

/-- One run and one motor. -/
theorem run_step {io : IoErr → List Char} {path : List Char} {fuel : Nat} {ds : List MockDevice} {r : Ran}
    (h : RunsWith io path fuel ds r) {d : MockDevice} (hd : d ∈ ds) (hf : FitsTool d) :
    ServesRun io r d.view (d.after fuel).view ∧ FitsTool (d.after fuel) := by
  obtain ⟨α, m, value, failure, result, huses, hcmd, hfail, hgood, -⟩ := r.sends.call r.fuel
  obtain ⟨b, hb, hmain⟩ := main_opened r.debug io path r.port r.rate r.fuel r.cmd
  have hN := hb.readSize
  have hW := hb.writeSize
  rw [List.length_replicate] at hN hW
  have hc : (r.main io path).1 = some (m b).1 := by
    unfold Ran.main
    rw [hmain, hcmd]
    unfold Cli.report
    rw [SO.bind_def, SO.mapErr_apply]
    rcases m b with ⟨c, o⟩
    cases o <;> rfl
  have ho : r.output = match (m b).2 with
      | .ok a => .ok ((result a).lines io, 0)
      | .err e => .ok ([(.error, (failure e).text io path)], 1)
      | .panic => .panic
      | .hang => .hang := by
    rw [h.output]
    unfold Ran.main
    rw [hmain, hcmd]
    unfold Cli.report
    rw [SO.bind_def, SO.mapErr_apply]
    rcases m b with ⟨c, o⟩
    cases o <;> rfl
  obtain ⟨⟨k1, k2, k3, k4⟩, k5⟩ := network_step (fuel := fuel) (b := b) (d := d) (c := ⟨m, (m b).2, r.id, r.request, value, huses⟩)
    ⟨hb.rinv, hb.winv⟩ ⟨hf.id, hf.inv, by have := hf.size; omega, by rw [hW]; exact hf.size, by rw [hN]; exact hf.back⟩
    ⟨by rw [hb.rate]; exact h.rate_lt, by rw [hb.rate]; exact h.rate_ne, by rw [hb.port]; exact h.sendOk,
      hb.room (by have := h.short; dsimp only; omega), h.survives⟩ rfl
    (fun f ⟨calls, h1, h2⟩ => h.to d hd _ f calls hc (by rw [← hb.port]; exact h1) h2)
    (h.answer d hd)
    (fun hid f hw => by
      have := h.back d hd hid f hw
      rwa [← hb.port, ← hb.rate] at this)
  refine ⟨⟨k1, fun hid => ?_, k3, k4⟩, ?_⟩
  · obtain ⟨reply, k6, k7⟩ := k2 hid
    refine ⟨reply, k6, ?_⟩
    unfold Shows at k7
    unfold RunSays
    split at k7
    · rename_i he
      rw [if_pos he]
      obtain ⟨v, hv, k8⟩ := k7
      have hl : reply.data.length = answerSize r.request := by
        rcases serve_reply k6 with rfl | h
        · exact absurd he (by decide)
        · exact h.2
      obtain ⟨text, h1, h2⟩ := hgood io r.id _ v hv hl
      dsimp only at k8
      exact ⟨text, h1, by rw [ho, k8]; dsimp only; rw [h2]⟩
    · rename_i he
      rw [if_neg he]
      dsimp only at k7
      refine ⟨_, c60_text io _ (by trivial), ?_⟩
      rw [ho, k7]
      dsimp only
      rw [hfail]
  · have hstep := huses.asks.2 b ⟨hb.rinv, hb.winv⟩
    obtain ⟨f1, f2, f3, f4, f5⟩ := k5
    refine ⟨f1, f2, ?_, ?_⟩
    · rw [hstep.writeSize, hW] at f4
      exact f4
    · rw [hstep.readSize, hN] at f5
      exact f5

/-- An order to all motors. -/
theorem run_all {io : IoErr → List Char} {path : List Char} {fuel : Nat} {ds : List MockDevice} {r : Ran}
    (h : RunsWith io path fuel ds r) (hid : r.id = 254#8) : r.output = .ok ([(.info, "Ok".toList)], 0) := by
  have hn := h.short
  have hs := h.sendOk
  obtain ⟨debug, port, rate, fuel', cmd, id, request, sends, output⟩ := r
  rw [h.output]
  dsimp only at hid hn hs
  unfold Ran.main
  dsimp only
  have key : ∀ {n}, CliOrders cmd id n → n ≤ 86 → (Cli.main debug io path (.ok port) rate fuel' cmd).2 = .ok ([(.info, "Ok".toList)], 0) :=
    fun ho hn => c61_broadcast (hid ▸ ho) hn debug io path rate fuel' hs
  cases sends with
  | ping => exact absurd hid ‹_›
  | read8 => exact absurd hid ‹_›
  | read16 => exact absurd hid ‹_›
  | read32 => exact absurd hid ‹_›
  | read => exact absurd hid ‹_›
  | write8 => exact key (.write8 ..) (by decide)
  | write16 => exact key (.write16 ..) (by decide)
  | write32 => exact key (.write32 ..) (by decide)
  | write =>
    refine key (.write ..) ?_
    simp [Request.body, Request.parameters, le16] at hn
    omega

/-- **C71** Whatever commands are run, one after the other, with any number of motors on the line: each motor is a memory of its
own, what a run prints and its exit code are the answer of the memory with the ID of the command, and only runs for it or for
all motors change it. -/
theorem c71_runs {io : IoErr → List Char} {path : List Char} {fuel : Nat} {ds ds' : List MockDevice} {rs : List Ran}
    (h : Runs io path fuel ds rs ds') (hf : ∀ d ∈ ds, FitsTool d) :
    RunsReport io (ds.map MockDevice.view) rs (ds'.map MockDevice.view) := by
  induction h with
  | done => exact .done _
  | @idle ds₁ d ds₂ rs ds' statuses trailing hst ht hs h ih =>
    have hfd := hf d (by simp)
    obtain ⟨d₁, k1, k2, k3, -, k5, -⟩ := c52_waits (ε := Empty) fuel hfd.inv (by have := hfd.size; omega) hst ht hs
    have hd₁ : d.after fuel = d₁ := k1
    rw [hd₁] at ih
    have hv : d₁.view = d.view := by unfold MockDevice.view; rw [k2, k3]
    have := ih (fun x hx => by
      rcases List.mem_append.mp hx with hx | hx
      · exact hf x (by simp [hx])
      · rcases List.mem_cons.mp hx with rfl | hx
        · exact ⟨k2 ▸ hfd.id, k5.inv, k5.readSize ▸ hfd.size, k5.writeSize ▸ hfd.back⟩
        · exact hf x (by simp [hx]))
    simp only [List.map_append, List.map_cons, hv] at this ⊢
    exact this
  | @run ds ds' r rs hr h ih =>
    have hall := fun d hd => run_step hr hd (hf d hd)
    refine .run (ms₁ := (ds.map (MockDevice.after fuel)).map MockDevice.view) ?_ (run_all hr) (ih fun x hx => ?_)
    · clear ih h hr hf
      induction ds with
      | nil => exact .nil
      | cons d ds ih => exact .cons (hall d (by simp)).1 (ih fun x hx => hall x (by simp [hx]))
    · obtain ⟨d, hd, rfl⟩ := List.mem_map.mp hx
      exact (hall d hd).2

/-! ## What this means for one of the motors -/

/-- What one memory with this ID has of the runs. -/
inductive KeptBy (io : IoErr → List Char) (id : Byte) : Servo → List Ran → Servo → Prop
  | done (s) : KeptBy io id s [] s
  | own {s s₁ s₂ : Servo} {r : Ran} {rs : List Ran} {reply : ServoReply} (hid : r.id = id) (hs : s.serve r.request = some (s₁, reply))
      (hr : RunSays io r.cmd reply r.output) (h : KeptBy io id s₁ rs s₂) : KeptBy io id s (r :: rs) s₂
  | all {s s₁ s₂ : Servo} {r : Ran} {rs : List Ran} {reply : ServoReply} (hid : r.id = 254#8)
      (hs : s.serve r.request = some (s₁, reply)) (h : KeptBy io id s₁ rs s₂) : KeptBy io id s (r :: rs) s₂
  | other {s s₂ : Servo} {r : Ran} {rs : List Ran} (hid : r.id ≠ id) (hall : r.id ≠ 254#8) (h : KeptBy io id s rs s₂) :
      KeptBy io id s (r :: rs) s₂

theorem RunsReport.kept {io : IoErr → List Char} {ms ms' : List (Byte × Servo)} {rs : List Ran} (h : RunsReport io ms rs ms') :
    Pairwise₂ (fun m m' => m'.1 = m.1 ∧ KeptBy io m.1 m.2 rs m'.2) ms ms' := by
  induction h with
  | done ms =>
    induction ms with
    | nil => exact .nil
    | cons m ms ih => exact .cons ⟨rfl, .done _⟩ ih
  | @run ms ms₁ ms₂ r rs hs hall h ih =>
    clear h hall
    induction hs generalizing ms₂ with
    | nil => cases ih; exact .nil
    | @cons m m₁ as bs hm _ ih' =>
      cases ih with
      | @cons _ m₂ _ cs hc hcs =>
        refine .cons ⟨hc.1.trans hm.1, ?_⟩ (ih' hcs)
        obtain ⟨h1, h2, h3, h4⟩ := hm
        have hc := hc.2
        rw [h1] at hc
        by_cases k1 : r.id = m.1
        · obtain ⟨reply, k2, k3⟩ := h2 k1
          exact .own k1 k2 k3 hc
        · by_cases k2 : r.id = 254#8
          · obtain ⟨reply, k3⟩ := h3 k2
            exact .all k2 k3 hc
          · rw [h4 k1 k2] at hc
            exact .other k1 k2 hc

/-- **C71** The motors stay in their places, keep their IDs, and each serves exactly the runs for it and for all. -/
theorem c71_each {io : IoErr → List Char} {path : List Char} {fuel : Nat} {ds ds' : List MockDevice} {rs : List Ran}
    (h : Runs io path fuel ds rs ds') (hf : ∀ d ∈ ds, FitsTool d) :
    Pairwise₂ (fun d d' => d'.id = d.id ∧ KeptBy io d.id (servo d) rs (servo d')) ds ds' :=
  pairwise₂_map (R := fun (m m' : Byte × Servo) => m'.1 = m.1 ∧ KeptBy io m.1 m.2 rs m'.2) (c71_runs h hf).kept

theorem KeptBy.split {io : IoErr → List Char} {id : Byte} {l₁ l₂ : List Ran} {s s' : Servo} (h : KeptBy io id s (l₁ ++ l₂) s') :
    ∃ t, KeptBy io id s l₁ t ∧ KeptBy io id t l₂ s' := by
  induction l₁ generalizing s with
  | nil => exact ⟨s, .done s, h⟩
  | cons c l ih =>
    rw [List.cons_append] at h
    cases h with
    | own hid hs hr h =>
      obtain ⟨t, h1, h2⟩ := ih h
      exact ⟨t, .own hid hs hr h1, h2⟩
    | all hid hs h =>
      obtain ⟨t, h1, h2⟩ := ih h
      exact ⟨t, .all hid hs h1, h2⟩
    | other hid hall h =>
      obtain ⟨t, h1, h2⟩ := ih h
      exact ⟨t, .other hid hall h1, h2⟩

theorem KeptBy.load {io : IoErr → List Char} {id : Byte} {l : List Ran} {s s' : Servo} {a n : Nat} (h : KeptBy io id s l s')
    (hl : ∀ r ∈ l, r.id = id ∨ r.id = 254#8 → LeavesAlone a n r.request) : load s'.memory a n = load s.memory a n := by
  induction h with
  | done => rfl
  | own hid hs hr h ih => rw [ih fun c hc => hl c (by simp [hc]), serve_load hs (hl _ (by simp) (.inl hid))]
  | all hid hs h ih => rw [ih fun c hc => hl c (by simp [hc]), serve_load hs (hl _ (by simp) (.inr hid))]
  | other hid _ h ih => exact ih fun c hc => hl c (by simp [hc])

theorem KeptBy.length {io : IoErr → List Char} {id : Byte} {l : List Ran} {s s' : Servo} (h : KeptBy io id s l s') :
    s'.memory.length = s.memory.length := by
  induction h with
  | done => rfl
  | own _ hs _ _ ih => rw [ih, serve_length hs]
  | all _ hs _ ih => rw [ih, serve_length hs]
  | other _ _ _ ih => exact ih

/-- The texts for data that were read are those of `Prints`. -/
theorem RunText.prints {cmd : Cli.Command} {id : Byte} {a n : U16} {data : List Byte} {text : List Char}
    (hs : ToolSends cmd id (.read a n)) (h : RunText cmd data text) : Prints cmd data text := by
  cases h with
  | asked h => exact h
  | write8 => cases hs
  | write16 => cases hs
  | write32 => cases hs
  | write => cases hs

/-- A read of a memory in which these bytes are stored prints them. -/
theorem kept_read {io : IoErr → List Char} {id : Byte} (hid : id ≠ 254#8) {s s' : Servo} {r : Ran} {a n : U16} {bytes : List Byte}
    (hr : r.request = .read a n) (hrid : r.id = id) (h : KeptBy io id s [r] s') (hl : Spec.load s.memory a.toNat n.toNat = some bytes) :
    ∃ text, Prints r.cmd bytes text ∧ r.output = .ok ([(.info, text)], 0) := by
  cases h with
  | other hne _ => exact absurd hrid hne
  | all hne _ => exact absurd (hrid ▸ hne) hid
  | own _ hs hsay _ =>
    rw [hr] at hs
    obtain ⟨-, hrep⟩ := Prod.mk.inj (Option.some.inj hs)
    unfold Servo.get at hrep
    rw [hl] at hrep
    subst hrep
    obtain ⟨text, h1, h2⟩ := hsay
    exact ⟨text, h1.prints (hr ▸ r.sends), h2⟩

/-- **C71** A run that writes to a motor and exits with 0, or that writes to all motors (to addresses that this motor has): a later
run that reads these addresses of the motor prints the bytes that were written, in the format of its command, and exits with 0,
whatever other runs there were in between, as long as they do not write to these addresses. -/
theorem c71_read_back {io : IoErr → List Char} {path : List Char} {fuel : Nat} {ds ds' : List MockDevice} {d : MockDevice} (hmem : d ∈ ds)
    {before between : List Ran} {w r : Ran} (h : Runs io path fuel ds (before ++ w :: (between ++ [r])) ds') (hf : ∀ d ∈ ds, FitsTool d)
    {a n : U16} {bytes : List Byte} (hw : w.request = .write a bytes) (hr : r.request = .read a n) (hrid : r.id = d.id)
    (hn : bytes.length = n.toNat)
    (hdone : (w.id = d.id ∧ ∃ lines, w.output = .ok (lines, 0)) ∨ (w.id = 254#8 ∧ a.toNat + n.toNat ≤ d.controlTable.length))
    (hbetween : ∀ x ∈ between, x.id = d.id ∨ x.id = 254#8 → LeavesAlone a.toNat n.toNat x.request) :
    ∃ text, Prints r.cmd bytes text ∧ r.output = .ok ([(.info, text)], 0) := by
  obtain ⟨d', -, -, ht⟩ := pairwise₂_mem (c71_each h hf) hmem
  have hid := (hf d hmem).id
  obtain ⟨s₁, t0, t1⟩ := ht.split
  have key : ∀ {s₂}, Spec.load s₂.memory a.toNat bytes.length = some bytes → KeptBy io d.id s₂ (between ++ [r]) (servo d') →
      ∃ text, Prints r.cmd bytes text ∧ r.output = .ok ([(.info, text)], 0) := by
    intro s₂ hl t2
    obtain ⟨s₃, t3, t4⟩ := t2.split
    rw [hn, ← t3.load hbetween] at hl
    exact kept_read hid hr hrid t4 hl
  cases t1 with
  | @own _ s₂ _ _ _ reply hwid hs hsay t2 =>
    rw [hw] at hs
    obtain ⟨-, lines, hlines⟩ := hdone.resolve_right fun h => hid (hwid ▸ h.1)
    have hs := Option.some.inj hs
    refine key ?_ t2
    unfold Servo.put at hs
    cases hst : store s₁.memory a.toNat bytes with
    | some m =>
      rw [hst] at hs
      rw [← (Prod.mk.inj hs).1]
      exact load_store hst
    | none =>
      rw [hst] at hs
      rw [← (Prod.mk.inj hs).2] at hsay
      obtain ⟨text, -, ho⟩ := hsay
      rw [ho] at hlines
      cases hlines
  | @all _ s₂ _ _ _ reply hwid hs t2 =>
    rw [hw] at hs
    obtain ⟨-, hsize⟩ := hdone.resolve_left fun h => hid (h.1 ▸ hwid)
    refine key ?_ t2
    rw [← show (s₁.put a bytes).1 = s₂ by rw [Option.some.inj hs]]
    exact put_stored (by rw [hn, t0.length]; exact hsize)
  | other h1 h2 =>
    rcases hdone with h | h
    · exact absurd h.1 h1
    · exact absurd h.1 h2

/-- **C71** In particular a number that is written is printed by a read of that width: decimal, and hexadecimal with all its
digits. -/
theorem c71_number_read_back {io : IoErr → List Char} {path : List Char} {fuel : Nat} {ds ds' : List MockDevice} {d : MockDevice}
    (hmem : d ∈ ds) {before between : List Ran} {w r : Ran} (h : Runs io path fuel ds (before ++ w :: (between ++ [r])) ds')
    (hf : ∀ d ∈ ds, FitsTool d) {a : U16} {v k : Nat} {lines : List Cli.Line}
    (hcmd : (k = 1 ∧ ∃ x, w.cmd = .write8 (.id d.id) a x ∧ r.cmd = .read8 (.id d.id) a ∧ v = x.toNat) ∨
      (k = 2 ∧ ∃ x, w.cmd = .write16 (.id d.id) a x ∧ r.cmd = .read16 (.id d.id) a ∧ v = x.toNat) ∨
      (k = 4 ∧ ∃ x, w.cmd = .write32 (.id d.id) a x ∧ r.cmd = .read32 (.id d.id) a ∧ v = x.toNat))
    (hdone : w.output = .ok (lines, 0))
    (hbetween : ∀ x ∈ between, x.id = d.id ∨ x.id = 254#8 → LeavesAlone a.toNat k x.request) :
    ∃ text, ValueText k text v ∧ r.output = .ok ([(.info, text)], 0) := by
  have hlen : ∀ {k v : Nat} {bytes : List Byte}, LittleEndian k v bytes → bytes.length = k := by
    intro k v bytes h
    rw [littleEndian_iff.mp h, toLeBytes_length]
  have huniq : ∀ {k v v' : Nat} {bytes : List Byte}, v < 256 ^ k → v' < 256 ^ k → LittleEndian k v bytes → LittleEndian k v' bytes →
      v = v' := by
    intro k v v' bytes h1 h2 h3 h4
    have := congrArg fromLeBytes ((littleEndian_iff.mp h3).symm.trans (littleEndian_iff.mp h4))
    rwa [fromLeBytes_toLeBytes, fromLeBytes_toLeBytes, Nat.mod_eq_of_lt h1, Nat.mod_eq_of_lt h2] at this
  obtain ⟨wdebug, wport, wrate, wfuel, wcmd, wid, wreq, wsends, wout⟩ := w
  obtain ⟨rdebug, rport, rrate, rfuel, rcmd, rid, rreq, rsends, rout⟩ := r
  dsimp only at hcmd hdone ⊢
  rcases hcmd with ⟨rfl, x, rfl, rfl, rfl⟩ | ⟨rfl, x, rfl, rfl, rfl⟩ | ⟨rfl, x, rfl, rfl, rfl⟩
  · cases wsends with
    | write8 m a v bytes hb =>
      cases rsends
      obtain ⟨text, h1, h2⟩ := c71_read_back hmem h hf rfl rfl rfl (hlen hb) (.inl ⟨rfl, _, hdone⟩) hbetween
      cases h1 with
      | read8 hp ht =>
        refine ⟨text, ?_, h2⟩
        rw [huniq x.isLt ?_ hb hp]
        · exact ht
        · cases ht; assumption
  · cases wsends with
    | write16 m a v bytes hb =>
      cases rsends
      obtain ⟨text, h1, h2⟩ := c71_read_back hmem h hf rfl rfl rfl (hlen hb) (.inl ⟨rfl, _, hdone⟩) hbetween
      cases h1 with
      | read16 hp ht =>
        refine ⟨text, ?_, h2⟩
        rw [huniq x.isLt ?_ hb hp]
        · exact ht
        · cases ht; assumption
  · cases wsends with
    | write32 m a v bytes hb =>
      cases rsends
      obtain ⟨text, h1, h2⟩ := c71_read_back hmem h hf rfl rfl rfl (hlen hb) (.inl ⟨rfl, _, hdone⟩) hbetween
      cases h1 with
      | read32 hp ht =>
        refine ⟨text, ?_, h2⟩
        rw [huniq x.isLt ?_ hb hp]
        · exact ht
        · cases ht; assumption

/-! ## Two motors, a write for all, and a read from the second -/

/-- The packets that a run wrote. -/
def toolWrote (p : Port) (c : Option Bus) : List (List Byte) :=
  match c with
  | some b => (b.serialPort.log.drop p.log.length).filterMap fun
    | .write f true => some f
    | _ => none
  | none => []

theorem reaches_one {p : Port} {c : Option Bus} {d : MockDevice} {f g rest : List Byte} (h1 : toolWrote p c = [f]) (hg : ¬ header <:+: g)
    (h2 : stream (d.device.serialPort.now + 10000000) d.device = g ++ f ++ rest) : ReachesMotor p c d := by
  rintro b f' calls rfl h3 h4
  have : f' ∈ toolWrote p (some b) := by
    unfold toolWrote
    dsimp only
    rw [h3, List.drop_left]
    exact List.mem_filterMap.mpr ⟨_, h4, rfl⟩
  rw [h1] at this
  cases List.mem_singleton.mp this
  exact ⟨[], g, rest, by simp [Statuses], hg, h2⟩

/-- `dynamixel2 write16 broadcast 5 4660` -/
def writeRun : Ran where
  debug := true
  port := (lineBus []).serialPort
  rate := 57600
  fuel := 9
  cmd := .write16 .broadcast 5#16 0x1234#16
  id := 254#8
  request := .write 5#16 [0x34#8, 0x12#8]
  sends := .write16 .broadcast 5#16 0x1234#16 _ (littleEndian_iff.mpr (by decide))
  output := .ok ([(.info, "Ok".toList)], 0)

/-- `dynamixel2 read16 2 5` -/
def readRun : Ran where
  debug := true
  port := (lineBus [sampleGarbage ++ frame 2#8 [0x55#8, 0#8, 0x34#8, 0x12#8]]).serialPort
  rate := 57600
  fuel := 9
  cmd := .read16 (.id 2#8) 5#16
  id := 2#8
  request := .read 5#16 2#16
  sends := .read16 2#8 5#16 (by decide)
  output := .ok ([(.info, "4660 (0x1234)".toList)], 0)

/-- `dynamixel2 read 2 199 4`, which is beyond the end of the table. -/
def outsideRun : Ran where
  debug := true
  port := (lineBus [frame 2#8 [0x55#8, 7#8]]).serialPort
  rate := 57600
  fuel := 9
  cmd := .read (.id 2#8) 199#16 4#16
  id := 2#8
  request := .read 199#16 4#16
  sends := .read 2#8 199#16 4#16 (by decide)
  output := .ok ([(.error, "Command failed: motor reported error status: 0x7".toList)], 1)

def toolMotor (id : Byte) : MockDevice :=
  .new id (lineBus [frame 254#8 (Request.write 5#16 [0x34#8, 0x12#8]).body, frame 2#8 (Request.read 5#16 2#16).body,
    frame 2#8 (Request.read 199#16 4#16).body])

set_option maxRecDepth 10000 in
/-- C71: three runs of the tool with two motors. -/
theorem toolMotors_run : ∃ ds', Runs ioText "/dev/tty".toList 0 [toolMotor 1#8, toolMotor 2#8] [writeRun, readRun, outsideRun] ds' ∧
    ds'.map (fun d => d.controlTable.take 8) =
    [[0#8, 0#8, 0#8, 0#8, 0#8, 0x34#8, 0x12#8, 0#8], [0#8, 0#8, 0#8, 0#8, 0#8, 0x34#8, 0x12#8, 0#8]] := by
  have two : ∀ {P : MockDevice → Prop} {d₁ d₂ : MockDevice}, P d₁ → P d₂ → ∀ d ∈ [d₁, d₂], P d := by
    intro P d₁ d₂ h1 h2 d hd
    rcases List.mem_cons.mp hd with rfl | hd
    · exact h1
    · obtain rfl := List.mem_singleton.mp hd
      exact h2
  have time : ∀ n ns, (11 + n) * 10 * 1000000000 ≤ ns * 57600 → (ns - 1) * 57600 < (11 + n) * 10 * 1000000000 →
      LeastTime (11 + n) 57600 ns := by
    intro n ns h1 h2
    unfold LeastTime LongEnough
    exact ⟨h1, fun m hm => by omega⟩
  have send : ∀ p : Port, p.discardRes = [] → p.writeRes = [] → p.SendOk := fun p h1 h2 => ⟨by rw [h1]; simp, by rw [h2]; simp⟩
  refine ⟨_, .run ⟨by decide +kernel, by decide, by decide, send _ rfl rfl, by decide, survives_plain (by decide +kernel), two ?_ ?_,
      two (fun _ => ?_) (fun _ => ?_), two (fun h => by cases h) (fun h => by cases h)⟩
    (.run (ds := [(toolMotor 1#8).after 0, (toolMotor 2#8).after 0])
      ⟨by decide +kernel, by decide, by decide, send _ rfl rfl, by decide, survives_plain (by decide +kernel), two ?_ ?_,
      two (fun h => absurd h (by decide +kernel)) (fun _ => ?_), two (fun h => absurd h (by decide +kernel)) (fun _ => ?_)⟩
    (.run (ds := [((toolMotor 1#8).after 0).after 0, ((toolMotor 2#8).after 0).after 0])
      ⟨by decide +kernel, by decide, by decide, send _ rfl rfl, by decide, survives_plain (by decide +kernel), two ?_ ?_,
      two (fun h => absurd h (by decide +kernel)) (fun _ => ?_), two (fun h => absurd h (by decide +kernel)) (fun _ => ?_)⟩ (.done _))), ?_⟩
  · exact reaches_one (f := frame 254#8 (Request.write 5#16 [0x34#8, 0x12#8]).body) (g := [])
      (rest := frame 2#8 (Request.read 5#16 2#16).body ++ frame 2#8 (Request.read 199#16 4#16).body) (by decide +kernel) (by decide) (by decide +kernel)
  · exact reaches_one (f := frame 254#8 (Request.write 5#16 [0x34#8, 0x12#8]).body) (g := [])
      (rest := frame 2#8 (Request.read 5#16 2#16).body ++ frame 2#8 (Request.read 199#16 4#16).body) (by decide +kernel) (by decide) (by decide +kernel)
  · exact canAnswer_plain (s' := ⟨[0#8, 0#8, 0#8, 0#8, 0#8, 0x34#8, 0x12#8] ++ List.replicate 193 0#8, none⟩) (reply := ⟨0#8, []⟩)
        (by decide +kernel) ⟨rfl, rfl⟩ (by unfold Room; decide +kernel) (by decide +kernel)
  · exact canAnswer_plain (s' := ⟨[0#8, 0#8, 0#8, 0#8, 0#8, 0x34#8, 0x12#8] ++ List.replicate 193 0#8, none⟩) (reply := ⟨0#8, []⟩)
        (by decide +kernel) ⟨rfl, rfl⟩ (by unfold Room; decide +kernel) (by decide +kernel)
  · exact reaches_one (f := frame 2#8 (Request.read 5#16 2#16).body) (g := [])
      (rest := frame 2#8 (Request.read 199#16 4#16).body) (by decide +kernel) (by decide) (by decide +kernel)
  · exact reaches_one (f := frame 2#8 (Request.read 5#16 2#16).body) (g := [])
      (rest := frame 2#8 (Request.read 199#16 4#16).body) (by decide +kernel) (by decide) (by decide +kernel)
  · exact canAnswer_plain (s' := ⟨[0#8, 0#8, 0#8, 0#8, 0#8, 0x34#8, 0x12#8] ++ List.replicate 193 0#8, none⟩)
        (reply := ⟨0#8, [0x34#8, 0x12#8]⟩) (by decide +kernel) (by decide +kernel) (by unfold Room; decide +kernel) (by decide +kernel)
  · intro f' hf
    have := wrote_mem hf
    rw [show written ((toolMotor 2#8).after 0).device (((toolMotor 2#8).after 0).after 0).device =
      [frame 2#8 [0x55#8, 0#8, 0x34#8, 0x12#8]] by decide +kernel] at this
    cases List.mem_singleton.mp this
    exact ⟨2256945, sampleGarbage, [], time 2 _ (by decide) (by decide), by decide, by decide +kernel⟩
  · exact reaches_one (f := frame 2#8 (Request.read 199#16 4#16).body) (g := []) (rest := []) (by decide +kernel) (by decide)
      (by decide +kernel)
  · exact reaches_one (f := frame 2#8 (Request.read 199#16 4#16).body) (g := []) (rest := []) (by decide +kernel) (by decide)
      (by decide +kernel)
  · exact canAnswer_plain (s' := ⟨[0#8, 0#8, 0#8, 0#8, 0#8, 0x34#8, 0x12#8] ++ List.replicate 193 0#8, none⟩)
        (reply := ⟨7#8, []⟩) (by decide +kernel) (by decide +kernel) (by unfold Room; decide +kernel) (by decide +kernel)
  · intro f' hf
    have := wrote_mem hf
    rw [show written (((toolMotor 2#8).after 0).after 0).device ((((toolMotor 2#8).after 0).after 0).after 0).device =
      [frame 2#8 [0x55#8, 7#8]] by decide +kernel] at this
    cases List.mem_singleton.mp this
    exact ⟨2604167, [], [], time 4 _ (by decide) (by decide), by decide, by decide +kernel⟩
  · decide +kernel

/-- C71: the motors of the example satisfy the other hypothesis. -/
theorem toolMotors_fit : ∀ d ∈ [toolMotor 1#8, toolMotor 2#8], FitsTool d := by
  intro d hd
  rcases List.mem_cons.mp hd with rfl | hd
  · exact ⟨by decide, lineBus_inv _, by decide +kernel, by decide +kernel⟩
  · obtain rfl := List.mem_singleton.mp hd
    exact ⟨by decide, lineBus_inv _, by decide +kernel, by decide +kernel⟩

/-! ## The theorems on these runs -/

example : ∃ ds' : List MockDevice, RunsReport ioText ([toolMotor 1#8, toolMotor 2#8].map MockDevice.view) [writeRun, readRun, outsideRun] (ds'.map MockDevice.view) :=
  toolMotors_run.elim fun ds' h => ⟨ds', c71_runs h.1 toolMotors_fit⟩

example : ∃ ds', Pairwise₂ (fun d d' => d'.id = d.id ∧ KeptBy ioText d.id (servo d) [writeRun, readRun, outsideRun] (servo d'))
    [toolMotor 1#8, toolMotor 2#8] ds' :=
  toolMotors_run.elim fun ds' h => ⟨ds', c71_each h.1 toolMotors_fit⟩

/-- The first two of the runs. -/
theorem toolMotors_first : ∃ ds', Runs ioText "/dev/tty".toList 0 [toolMotor 1#8, toolMotor 2#8] ([] ++ writeRun :: ([] ++ [readRun])) ds' := by
  obtain ⟨ds', h, -⟩ := toolMotors_run
  have key : ∀ {io path fuel ds l ds'} {l₁ l₂ : List Ran}, Runs io path fuel ds l ds' → l = l₁ ++ l₂ → ∃ ds'', Runs io path fuel ds l₁ ds'' := by
    intro io path fuel ds l ds' l₁ l₂ h
    induction h generalizing l₁ with
    | done ds =>
      intro hl
      rw [(List.append_eq_nil_iff.mp hl.symm).1]
      exact ⟨ds, .done ds⟩
    | idle hst ht hs _ ih => exact fun hl => (ih hl).elim fun ds'' k => ⟨ds'', .idle hst ht hs k⟩
    | @run ds _ r rs hr _ ih =>
      intro hl
      cases l₁ with
      | nil => exact ⟨ds, .done ds⟩
      | cons x l₁ =>
        injection hl with hx hl
        subst hx
        exact (ih hl).elim fun ds'' k => ⟨ds'', .run hr k⟩
  exact key h (l₂ := [outsideRun]) rfl

example : ∃ text, Prints readRun.cmd [0x34#8, 0x12#8] text ∧ readRun.output = .ok ([(.info, text)], 0) :=
  toolMotors_first.elim fun ds' h => c71_read_back (d := toolMotor 2#8) (by simp) h toolMotors_fit rfl rfl rfl (by decide)
    (.inr ⟨rfl, by decide +kernel⟩) (by simp)

end Dxl.Props
