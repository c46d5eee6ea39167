import Verif.Lemmas.Duration
import Verif.Props.Shifted

/-! # C100: how long a program can take -/

namespace Dxl.Props
open Spec

/-- **C100** A call that sends something: at most one `write_all`, and apart from that at most the time for the one response that is
awaited; whatever the line does. -/
theorem c100_call {ε α : Type} {m : SO Bus ε α} {expected : Option Nat} (hm : Waits m expected) {b : Bus} (hb : b.RInv)
    (hr : b.baudRate < 2 ^ 32) : Spends 1 (allowance b.baudRate expected) b (m b).1 := (waits_costs hm b hb hr).2.2

/-- **C100** A device that waits for an instruction: at most the time-out, however many other packets come, and nothing is written. -/
theorem c100_listen {ε α : Type} {m : SO Bus ε α} {timeout : Nat} (hm : Listening m timeout) {b : Bus} (hb : b.RInv)
    (hr : b.baudRate < 2 ^ 32) : Spends 0 timeout b (m b).1 := (listening_costs hm b hb hr).2.2

/-- **C100** The responses to a sync read, however the iterator is used, and whether it is dropped at the end or before: at most the
time for one response per motor, and nothing is written. -/
theorem c100_sync {b : Bus} {count : U16} {ids : List Byte} {s : SyncIter} (h : SyncUse ⟨b, count, ids, 0⟩ s) (hb : b.RInv)
    (hr : b.baudRate < 2 ^ 32) : Spends 0 (ids.length * responseWait b.baudRate count.toNat) b s.client :=
  ((syncUse_goes h).2.2 hb hr).spends

/-- **C100** The same for a bulk read. -/
theorem c100_bulk {b : Bus} {reads : List BulkReadData} {s : BulkIter} (h : BulkUse ⟨b, reads, 0⟩ s) (hb : b.RInv)
    (hr : b.baudRate < 2 ^ 32) :
    Spends 0 ((reads.map fun r => responseWait b.baudRate r.count.toNat).sum) b s.client ∧
    Spends 0 ((reads.map fun r => responseWait b.baudRate r.count.toNat).sum) b (BulkIter.drop (ε := Empty) s).1.client := by
  have hu := (bulkUse_goes h).2 hb hr
  exact ⟨hu.spends, (hu.trans (bulk_drop_uses s hu.rinv (by rw [hu.baudRate]; exact hr))).spends⟩

theorem scanDrop_costs (calls : Nat) : Costs 0 (fun r => calls * scanWait r) (Client.scanDrop (ε := Empty) calls) := by
  induction calls with
  | zero =>
    intro b hb _
    exact ⟨hb, rfl, (Spends.refl b).mono (by omega) (by omega)⟩
  | succ calls ih =>
    unfold Client.scanDrop
    have := (Costs.scanNext (ε := Empty)).bind (n' := 0) (w' := fun r => calls * scanWait r)
      (k := fun x => match x with | some _ => Client.scanDrop (ε := Empty) calls | none => pure ()) fun x => by
        cases x with
        | some => exact ih
        | none =>
          intro b hb _
          exact ⟨hb, rfl, (Spends.refl b).mono (by omega) (by omega)⟩
    intro b hb hr
    obtain ⟨h1, h2, h3⟩ := this b hb hr
    exact ⟨h1, h2, h3.mono (by omega) (by dsimp only; rw [Nat.add_mul, Nat.one_mul]; omega)⟩

/-- **C100** A step of a scan: at most 34 ms and the time for 253 answers. Dropping it: as many times that as it looks for an answer. -/
theorem c100_scan {b : Bus} (hb : b.RInv) (hr : b.baudRate < 2 ^ 32) (calls : Nat) :
    Spends 0 (scanWait b.baudRate) b (Client.scanNext (ε := Empty) b).1 ∧
    Spends 0 (calls * scanWait b.baudRate) b (Client.scanDrop (ε := Empty) calls b).1 :=
  ⟨(Costs.scanNext b hb hr).2.2, (scanDrop_costs calls b hb hr).2.2⟩

/-- A program: the bus before, how many times it sends, how long it may wait, and the bus after. The results of the calls do not
matter. -/
inductive Working : Bus → Nat → Nat → Bus → Prop
  | done (b : Bus) : Working b 0 0 b
  | pause {b c : Bus} {n w : Nat} (d : Nat)
      (h : Working { b with serialPort := { b.serialPort with now := b.serialPort.now + d } } n w c) : Working b n (d + w) c
  | setBaudRate {b c : Bus} {n w : Nat} (rate : Nat) (hr : rate < 2 ^ 32) (h : Working (Client.setBaudRate rate b).1 n w c) :
      Working b n w c
  | call {b c : Bus} {n w : Nat} {ε α : Type} {m : SO Bus ε α} {expected : Option Nat} (hm : Waits m expected)
      (h : Working (m b).1 n w c) : Working b (1 + n) (allowance b.baudRate expected + w) c
  | listen {b c : Bus} {n w : Nat} {ε α : Type} {m : SO Bus ε α} {timeout : Nat} (hm : Listening m timeout)
      (h : Working (m b).1 n w c) : Working b n (timeout + w) c
  | syncRead {b c : Bus} {n w : Nat} {count : U16} {ids : List Byte} {s : SyncIter} (hs : SyncUse ⟨b, count, ids, 0⟩ s)
      (h : Working s.client n w c) : Working b n (ids.length * responseWait b.baudRate count.toNat + w) c
  | bulkRead {b c : Bus} {n w : Nat} {reads : List BulkReadData} {s : BulkIter} (hs : BulkUse ⟨b, reads, 0⟩ s)
      (h : Working s.client n w c) : Working b n ((reads.map fun r => responseWait b.baudRate r.count.toNat).sum + w) c
  | bulkReadDrop {b c : Bus} {n w : Nat} {reads : List BulkReadData} {s : BulkIter} (hs : BulkUse ⟨b, reads, 0⟩ s)
      (h : Working (BulkIter.drop (ε := Empty) s).1.client n w c) :
      Working b n ((reads.map fun r => responseWait b.baudRate r.count.toNat).sum + w) c
  | scanNext {b c : Bus} {n w : Nat} (h : Working (Client.scanNext (ε := Empty) b).1 n w c) : Working b n (scanWait b.baudRate + w) c
  | scanDrop {b c : Bus} {n w : Nat} (calls : Nat) (h : Working (Client.scanDrop (ε := Empty) calls b).1 n w c) :
      Working b n (calls * scanWait b.baudRate + w) c

theorem setBaudRate_spends (rate : Nat) (b : Bus) (hb : b.RInv) (hr : rate < 2 ^ 32) (h : b.baudRate < 2 ^ 32) :
    Spends 0 0 b (Client.setBaudRate rate b).1 ∧ (Client.setBaudRate rate b).1.RInv ∧ (Client.setBaudRate rate b).1.baudRate < 2 ^ 32 := by
  unfold Client.setBaudRate Bus.setBaudRate
  rw [SO.bind_def, Bus.onPort_apply]
  unfold Port.setBaudRate
  rcases b.serialPort.baudRes with - | ⟨x, rest⟩
  · exact ⟨spends_of_port rfl rfl ⟨[.setBaud rate _], rfl, rfl⟩, ⟨hb.1, hb.2⟩, hr⟩
  · cases x with
    | none => exact ⟨spends_of_port rfl rfl ⟨[.setBaud rate _], rfl, rfl⟩, ⟨hb.1, hb.2⟩, hr⟩
    | some x => exact ⟨spends_of_port rfl rfl ⟨[.setBaud rate _], rfl, rfl⟩, ⟨hb.1, hb.2⟩, h⟩

/-- **C100** Any program, on any line: the time that it takes is at most the sum of what each of its calls may take, and the time spent
in `write_all`, which is called once per instruction. -/
theorem c100_program {b c : Bus} {n w : Nat} (h : Working b n w c) (hb : b.RInv) (hr : b.baudRate < 2 ^ 32) : Spends n w b c := by
  induction h with
  | done => exact .refl _
  | @pause b c n w d _ ih =>
    have h0 : Spends 0 d b { b with serialPort := { b.serialPort with now := b.serialPort.now + d } } :=
      ⟨⟨[], by simp, by simp⟩, [], rfl, by simp, by simp, by simp⟩
    exact (h0.trans (ih ⟨hb.1, hb.2⟩ hr)).mono (by omega) (Nat.le_refl _)
  | setBaudRate rate hrate _ ih =>
    obtain ⟨h1, h2, h3⟩ := setBaudRate_spends rate _ hb hrate hr
    exact (h1.trans (ih h2 h3)).mono (by omega) (by omega)
  | call hm _ ih =>
    obtain ⟨h1, h2, h3⟩ := waits_costs hm _ hb hr
    exact h3.trans (ih h1 (by rw [h2]; exact hr))
  | listen hm _ ih =>
    obtain ⟨h1, h2, h3⟩ := listening_costs hm _ hb hr
    exact (h3.trans (ih h1 (by rw [h2]; exact hr))).mono (by omega) (Nat.le_refl _)
  | syncRead hs _ ih =>
    have hu := (syncUse_goes hs).2.2 hb hr
    exact (hu.spends.trans (ih hu.rinv (by rw [hu.baudRate]; exact hr))).mono (by omega) (Nat.le_refl _)
  | bulkRead hs _ ih =>
    have hu := (bulkUse_goes hs).2 hb hr
    exact (hu.spends.trans (ih hu.rinv (by rw [hu.baudRate]; exact hr))).mono (by omega) (Nat.le_refl _)
  | bulkReadDrop hs _ ih =>
    have h0 := (bulkUse_goes hs).2 hb hr
    have hu := h0.trans (bulk_drop_uses (ε := Empty) _ h0.rinv (by rw [h0.baudRate]; exact hr))
    exact (hu.spends.trans (ih hu.rinv (by rw [hu.baudRate]; exact hr))).mono (by omega) (Nat.le_refl _)
  | scanNext _ ih =>
    obtain ⟨h1, h2, h3⟩ := Costs.scanNext (ε := Empty) _ hb hr
    exact (h3.trans (ih h1 (by rw [h2]; exact hr))).mono (by omega) (Nat.le_refl _)
  | scanDrop calls _ ih =>
    obtain ⟨h1, h2, h3⟩ := scanDrop_costs calls _ hb hr
    exact (h3.trans (ih h1 (by rw [h2]; exact hr))).mono (by omega) (Nat.le_refl _)

/-- **C100** There is no such limit for a scan: as long as a packet arrives within the time for 253 answers after the one before it, the
scan goes on, however many motors have answered already. It is still not over when the last of the packets arrives. -/
theorem c100_scan_goes_on (replies : List (Nat × Reply)) {t : Nat} {last : Reply} {b : Bus} (hb : b.RInv) (hr : b.baudRate < 2 ^ 32)
    (h0 : b.baudRate ≠ 0) (hp : b.pending = []) (hok : ∀ r ∈ replies ++ [(t, last)], r.2.Ok b.readBuffer.length)
    (hrx : b.serialPort.rx = (replies ++ [(t, last)]).map fun r => .data r.1 r.2.bytes)
    (hs : Spaced b.serialPort.now ((replies ++ [(t, last)]).map fun r => (r.1, scanWait b.baudRate, r.2.bytes))) :
    ∃ (c : Bus) (xs : List (Except ReadError (Response Client.Ping))),
      callTimes (Client.scanNext (ε := ReadError)) (replies.length + 1) b = (c, .ok (xs.map some)) ∧
      xs.length = replies.length + 1 ∧ t ≤ c.serialPort.now := by
  have hon := onTime_of_spaced (b := b) hp _ [] (by rw [hrx]; simp) hs
  obtain ⟨c, xs, h1, h2, -, -, h5, h6, -⟩ := c42_scan_delivered ((replies ++ [(t, last)]).map (·.2)) hb hr h0
    (by intro r hr; obtain ⟨x, hx, rfl⟩ := List.mem_map.mp hr; exact hok x hx) (by simpa [Function.comp_def] using hon)
  refine ⟨c, xs, by simpa using h1, by have := pairwise₂_length h2; simpa using this.symm, ?_⟩
  apply Nat.le_of_not_lt
  intro hlt
  have e := congrArg List.length (h6 c.serialPort.now (Nat.le_refl _))
  rw [stream_eq h5, hp, hrx, List.nil_append, List.map_append] at e
  have hl := arriving_late (T := c.serialPort.now) (t := t) (bs := last.bytes) [] hlt (replies.map fun r => (r.1, r.2.bytes))
  rw [List.map_map] at hl
  have hpos : 0 < last.bytes.length := by
    unfold Reply.bytes
    have := Bus.frame_length last.id last.wire
    rw [List.length_append]
    omega
  simp only [List.map_cons, List.map_nil, List.map_append, List.flatMap_append, List.length_append, List.flatMap_cons, List.flatMap_nil,
    List.append_nil, List.flatMap_map, Function.comp_def] at e hl
  omega

/-- The answer of one motor to a ping. -/
def chatterReply : Reply := ⟨[], 1#8, [0x55#8, 0x00#8, 0x06#8, 0x04#8, 0x26#8], 0x00#8, [0x06#8, 0x04#8, 0x26#8]⟩

/-- One motor that sends its answer again and again, `count` times. -/
def chatter (first count : Nat) : List (Nat × Reply) := (List.range' first count).map fun i => ((i + 1) * scanWait 57600, chatterReply)

theorem chatter_spaced (first count : Nat) :
    Spaced (first * scanWait 57600) ((chatter first count).map fun r => (r.1, scanWait 57600, r.2.bytes)) := by
  induction count generalizing first with
  | zero => trivial
  | succ count ih =>
    have := ih (first + 1)
    unfold chatter at this ⊢
    rw [List.range'_succ]
    refine ⟨Nat.mul_le_mul_right _ (by omega), by dsimp only; rw [Nat.add_mul, Nat.one_mul]; exact Nat.le_refl _, (by decide : chatterReply.bytes ≠ []), this⟩

/-- **C100** So there is no limit at all: for every time, one motor can keep a scan going for longer. -/
theorem c100_no_limit (limit : Nat) :
    ∃ (b c : Bus) (k : Nat) (xs : List (Except ReadError (Response Client.Ping))), b.RInv ∧ b.baudRate = 57600 ∧ b.serialPort.now = 0 ∧
      callTimes (Client.scanNext (ε := ReadError)) k b = (c, .ok (xs.map some)) ∧ xs.length = k ∧ limit < c.serialPort.now := by
  have hsplit : chatter 0 (limit + 1) = chatter 0 limit ++ [((limit + 1) * scanWait 57600, chatterReply)] := by
    unfold chatter
    rw [List.range'_concat, List.map_append]
    simp
  let b : Bus := busWithChunks ((chatter 0 (limit + 1)).map fun r => (r.1, r.2.bytes))
  have hb : b.RInv := by constructor <;> simp [b, busWithChunks, quietBus]
  have hN : b.readBuffer.length = 20 := by simp [b, busWithChunks, quietBus]
  obtain ⟨c, xs, h1, h2, h3⟩ := c100_scan_goes_on (chatter 0 limit) (t := (limit + 1) * scanWait 57600) (last := chatterReply) hb
    (show (57600 : Nat) < 2 ^ 32 by decide) (show (57600 : Nat) ≠ 0 by decide) (by rfl) (by
      rw [← hsplit, hN]
      intro r hr
      obtain ⟨i, -, rfl⟩ := List.mem_map.mp hr
      exact (⟨by decide, by decide, by decide, (unstuffs_iff _ _).2 (by decide +kernel)⟩ : chatterReply.Ok 20))
    (by rw [← hsplit]; simp [b, busWithChunks, Function.comp_def])
    (by rw [← hsplit]; have := chatter_spaced 0 (limit + 1); rw [Nat.zero_mul] at this; exact this)
  refine ⟨b, c, _, xs, hb, rfl, rfl, h1, h2, Nat.lt_of_lt_of_le ?_ h3⟩
  have : 1 ≤ scanWait 57600 := by decide +kernel
  have := Nat.mul_le_mul_left (limit + 1) this
  omega

/-! ## Cases -/

/-- A port where sending takes time, and on which only garbage arrives. -/
def garbageBus : Bus := { busWithChunks [(1000, sampleGarbage), (3000000, sampleGarbage), (40000000, sampleGarbage)] with
  serialPort := { quietPort with writeRes := [(7, none), (11, some (.other 3))], rx := [.data 1000 sampleGarbage, .data 30000000 sampleGarbage] } }

theorem garbageBus_rInv : garbageBus.RInv := by constructor <;> simp [garbageBus, busWithChunks, quietBus]

/-- A ping that is not answered, an action for all, a pause, a sync read of two motors. -/
theorem garbageBus_working : ∃ c, Working garbageBus (1 + (1 + (1 + 0)))
    (allowance 57600 (some 3) + (allowance 57600 none + (500 + (allowance 57600 none + (2 * responseWait 57600 2 + 0))))) c :=
  ⟨_, .call (.ping 1#8) (.call .broadcastAction (.pause 500 (.call (.syncReadBytes [1#8, 2#8] 132#16 2#16)
    (.syncRead (count := 2#16) (ids := [1#8, 2#8]) (.dropBytes (.nextBytes .none) 5) (.done _)))))⟩

example : ∃ c, Spends 3 (allowance 57600 (some 3) + (0 + (500 + (0 + (2 * responseWait 57600 2 + 0))))) garbageBus c :=
  garbageBus_working.elim fun _ h => ⟨_, c100_program h garbageBus_rInv (by decide)⟩

/-- The time of a ping that nobody answers is used up. -/
example : (Client.ping 1#8 garbageBus).1.serialPort.now = 7 + responseWait 57600 3 := by decide +kernel

example := c100_call (.ping 1#8) garbageBus_rInv (by decide)
example := c100_listen (.read 50) garbageBus_rInv (by decide)
example := c100_sync (count := 2#16) (ids := [1#8, 2#8]) (.dropBytes (.nextBytes .none) 5) garbageBus_rInv (by decide)
example := c100_bulk (reads := [⟨1#8, 132#16, 4#16⟩, ⟨2#8, 132#16, 2#16⟩]) (.next .none) garbageBus_rInv (by decide)
/-- Two answers of a motor, each at the last moment. -/
example := c100_scan_goes_on (chatter 0 1) (t := 2 * scanWait 57600) (last := chatterReply)
  (b := busWithChunks ((chatter 0 2).map fun r => (r.1, r.2.bytes))) (by constructor <;> simp [busWithChunks, quietBus]) (by decide)
  (by decide) rfl (by
    intro r hr
    have : r.2 = chatterReply := by
      rw [show chatter 0 1 ++ [(2 * scanWait 57600, chatterReply)] = chatter 0 2 from rfl] at hr
      obtain ⟨i, -, rfl⟩ := List.mem_map.mp hr
      rfl
    rw [this]
    exact (⟨by decide, by decide, by decide, (unstuffs_iff _ _).2 (by decide +kernel)⟩ : chatterReply.Ok 20)) rfl (by
    have := chatter_spaced 0 2
    rw [Nat.zero_mul] at this
    exact this)

example := c100_scan garbageBus_rInv (by decide) 3

end Dxl.Props
