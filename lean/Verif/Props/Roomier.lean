import Verif.Lemmas.Roomier
import Verif.Props.Forget

/-! # C101: larger buffers change nothing

A client (or device) with larger buffers gets the same results at the same times and sends the same packets, as long as nothing that
is received looks like a packet that is too large for the smaller read buffer, and until a call reports that the smaller write buffer
is too small. How much is read at a time depends on the size of the read buffer, so the port must be able to discard what was not
read yet. -/

namespace Dxl.Props
open Spec

theorem overSync_roomier {ε α : Type} {m : SO SyncIter ε α} (count : U16) (ids : List Byte) (index : Nat)
    (h : Forgets SyncIter.Roomier SyncIter.Roomier m) : Forgets Bus.Roomier Bus.Roomier (overSyncScript count ids index m) := by
  intro b c hbc
  obtain ⟨h1, h2⟩ := h ⟨b, count, ids, index⟩ ⟨c, count, ids, index⟩ ⟨hbc, rfl, rfl, rfl⟩
  refine ⟨?_, h2.client⟩
  simp only [overSyncScript]
  rw [h1, h2.rest.2.2]

theorem overBulk_roomier {ε α : Type} {m : SO BulkIter ε α} (reads : List BulkReadData) (index : Nat)
    (h : Forgets BulkIter.Roomier BulkIter.Roomier m) : Forgets Bus.Roomier Bus.Roomier (overBulkScript reads index m) := by
  intro b c hbc
  obtain ⟨h1, h2⟩ := h ⟨b, reads, index⟩ ⟨c, reads, index⟩ ⟨hbc, rfl, rfl⟩
  refine ⟨?_, h2.client⟩
  simp only [overBulkScript]
  rw [h1, h2.rest.2]

/-- **C101** Calls that only read have the same outcome, at the same time, with a larger read buffer. -/
theorem c101_listen {ε α : Type} {m : SO Bus ε α} (h : Listens m) : Forgets Bus.Roomier Bus.Roomier m := by
  cases h with
  | readStatusResponseTimeout => exact Client.readStatusResponseTimeout_roomier _
  | readStatusResponse => exact Client.readStatusResponse_roomier _
  | scanNext => exact Client.scanNext_roomier
  | scanDrop => exact Client.scanDrop_roomier _
  | syncNextBytes => exact overSync_roomier _ _ _ SyncIter.nextBytes_roomier
  | syncNext d => exact overSync_roomier _ _ _ (SyncIter.next_roomier d)
  | syncDropBytes => exact overSync_roomier _ _ _ (SyncIter.dropBytes_roomier _)
  | syncDrop d => exact overSync_roomier _ _ _ (SyncIter.drop_roomier d _)
  | bulkNext => exact overBulk_roomier _ _ BulkIter.next_roomier
  | bulkDrop => exact overBulk_roomier _ _ BulkIter.drop_roomier
  | deviceReadRaw => exact Device.readRaw_roomier _
  | deviceRead | deviceReadOwned => exact (Device.readRaw_roomier _).then fun _ => forgets_lift _

open Client in
/-- **C101** Calls that send something: the same, or the smaller write buffer is too small. -/
theorem c101_instruct {ε α : Type} {m : SO Bus ε α} (h : Instructs m) {b c : Bus} (hr : Bus.Roomier b c) :
    NoRoom (m b).2 ∨ ((m c).2 = (m b).2 ∧ Bus.Roomier (m b).1 (m c).1) := by
  have key : Fares m := by
    cases h with
    | setBaudRate | deviceSetBaudRate => exact fares_setBaudRate _
    | writeInstruction _ _ _ _ h => exact fares_writePacket _ _ h
    | transferSingle _ _ _ _ _ h => exact transferSingle_fares _ _ _ h
    | action | reboot => exact instruct_fares _ _ nothing_overwrites
    | broadcastAction | broadcastReboot | scan => exact fares_writePacket _ _ nothing_overwrites
    | clearRevolutionCounter | clearError => exact instruct_fares _ _ (constEncoder_overwrites _ _)
    | broadcastClearRevolutionCounter | broadcastClearError => exact fares_writePacket _ _ (constEncoder_overwrites _ _)
    | factoryReset => exact instruct_fares _ _ (factoryReset_overwrites _)
    | broadcastFactoryReset => exact fares_writePacket _ _ (factoryReset_overwrites _)
    | readRaw => exact readRaw_fares _ _ _
    | readBytes | read => exact (readRaw_fares _ _ _).lift _
    | write _ _ _ _ h => exact instruct_fares _ _ (writeEncoder_overwrites _ h)
    | regWrite _ _ _ _ h => exact instruct_fares _ _ (writeEncoder_overwrites _ h)
    | writeBytes | regWriteBytes => exact instruct_fares _ _ (writeBytesEncoder_overwrites _ _ _)
    | ping => exact ping_fares _
    | syncReadBytes | syncRead => exact fares_writePacket _ _ (syncReadEncoder_overwrites _ _ _)
    | bulkReadBytes => exact bulkRead_fares _
    | syncWriteBytes => exact fares_writePacket _ _ (syncWriteBytes_overwrites _ _ _)
    | syncWrite _ _ _ h => exact fares_writePacket _ _ (syncWrite_overwrites _ h)
    | bulkWrite => exact bulkWrite_fares _
    | deviceWriteStatus _ _ _ _ h => exact Device.writeStatus_fares _ _ h
    | deviceWriteStatusError | deviceWriteStatusOk => exact Device.writeStatus_fares _ _ nothing_overwrites
  exact key b c hr

/-- **C101** Any number of calls, one after another. -/
theorem c101_session {b c : Bus} (h : Bus.Roomier b c) : ∀ (calls : List BusCall),
    (∀ m ∈ calls, Instructs m.run ∨ Listens m.run) → SameUntilFull b c calls := by
  intro calls
  induction calls generalizing b c with
  | nil => exact fun _ => trivial
  | cons m rest ih =>
    intro hm
    have key : NoRoom (m.run b).2 ∨ ((m.run c).2 = (m.run b).2 ∧ Bus.Roomier (m.run b).1 (m.run c).1) := by
      rcases hm m List.mem_cons_self with h1 | h1
      · exact c101_instruct h1 h
      · exact .inr (c101_listen h1 b c h)
    rcases key with h1 | ⟨h1, h2⟩
    · exact .inl h1
    · exact .inr ⟨h1, h2.port, ih h2 fun x hx => hm x (List.mem_cons_of_mem _ hx)⟩

/-- **C101** Two new clients or devices on the same port with buffers of any contents: whatever the sizes of the buffers, and
whatever is called, the same happens. -/
theorem c101_made {debug : Bool} {port : Port} {r w r' w' : List Byte} {b c : Bus}
    (hb : Client.withBuffers debug port r w = .ok b ∨ Device.withBuffers debug port r w = .ok b)
    (hc : Client.withBuffers debug port r' w' = .ok c ∨ Device.withBuffers debug port r' w' = .ok c)
    (hr : 10 ≤ r.length) (hr' : r.length ≤ r'.length) (hw : w.length ≤ w'.length)
    (hd : port.discardIsNoop = false) (hd' : ∀ x ∈ port.discardRes, x = none) (hs : Sequential port.rx)
    (hn : NoneLarger r.length (allBytes port.rx)) (calls : List BusCall) (hm : ∀ m ∈ calls, Instructs m.run ∨ Listens m.run) :
    SameUntilFull b c calls := by
  have made : ∀ {r w : List Byte} {b : Bus}, Client.withBuffers debug port r w = .ok b ∨ Device.withBuffers debug port r w = .ok b →
      b.Inv ∧ b.serialPort = port ∧ b.baudRate = port.rate ∧ b.readBuffer = r ∧ b.writeBuffer.length = w.length ∧
        b.debug = debug ∧ b.pending = [] := by
    intro r w b h
    have hb : Bus.withBuffers debug port r w = .ok b := by
      rcases h with h | h
      · unfold Client.withBuffers at h
        cases e : Bus.withBuffers debug port r w <;> rw [e] at h <;> simp at h ⊢ <;> exact h
      · unfold Device.withBuffers at h
        cases e : Bus.withBuffers debug port r w <;> rw [e] at h <;> simp at h ⊢ <;> exact h
    obtain ⟨i1, i2, i3, i4, i5⟩ := withBuffersAndBaudRate_ok (withBuffers_ok hb).2
    have h := (withBuffers_ok hb).2
    unfold Bus.withBuffersAndBaudRate at h
    split at h
    · refine ⟨i1, i2, i3, i4, i5, ?_⟩
      rw [← Outcome.ok.inj h]
      exact ⟨rfl, by simp [Bus.pending]⟩
    · cases h
  obtain ⟨b1, b2, b3, b4, b5, b6, b7⟩ := made hb
  obtain ⟨c1, c2, c3, c4, c5, c6, c7⟩ := made hc
  refine c101_session ⟨⟨b1.rInv, c1.rInv⟩, ⟨b1.wInv, c1.wInv⟩, by rw [b3, c3], by rw [b6, c6], by rw [b4, c4]; exact ⟨hr, hr'⟩,
    by rw [b5, c5]; exact hw, by rw [b2, c2]; exact ⟨rfl, rfl, rfl, rfl, rfl, rfl, rfl, rfl, rfl⟩, by rw [b2]; exact ⟨hd, hd'⟩,
    [], port.rx, .all b7 (by rw [b2]), .all c7 (by rw [c2]), hs, ?_⟩ calls hm
  rw [b4]
  exact hn

/-- **C101** With a read buffer of 65542 bytes nothing is too large, whatever is received. -/
theorem c101_enough {n : Nat} (h : 65542 ≤ n) (s : List Byte) : NoneLarger n s := by
  intro k _ _
  unfold Spec.lengthField
  have h1 := ((s.drop k).getD 5 0#8).isLt
  have h2 := ((s.drop k).getD 6 0#8).isLt
  omega

/-! ## What the conditions are for -/

/-- Two status packets in one piece: 14 bytes from motor 1, and 11 bytes from motor 2. -/
def twoInOne : List Byte :=
  frame 1#8 [0x55#8, 0#8, 0x24#8, 0x04#8, 0x2D#8] ++ frame 2#8 [0x55#8, 0#8]

/-- A client with this read buffer. -/
def roomClient (noop : Bool) (discard : List (Option IoErr)) (size : Nat) : Bus :=
  { quietBus true 40 with
    serialPort := { quietPort with rx := [.data 5 twoInOne], discardIsNoop := noop, discardRes := discard }
    readBuffer := List.replicate size 0#8 }

/-- **C101** If the port ignores the request to discard its input ("maybe a no-op on some platforms"), then the size of the read
buffer decides whether an old packet is taken as the answer to the next instruction: with a read buffer that holds both packets the
second one is discarded; with one that holds the first only it is not. -/
theorem c101_noop :
    (Client.readStatusResponse 3#16 (roomClient true [] 14)).2 = (Client.readStatusResponse 3#16 (roomClient true [] 28)).2 ∧
    (Client.action 2#8 (Client.readStatusResponse 3#16 (roomClient true [] 14)).1).2 = .ok ⟨2#8, false, ()⟩ ∧
    (Client.action 2#8 (Client.readStatusResponse 3#16 (roomClient true [] 28)).1).2 = .err (.readError (.io .timedOut)) := by
  decide +kernel

/-- **C101** If discarding fails, so does the instruction, but the bytes in the read buffer are gone and those in the port are not.
Here the second packet can still be read with the smaller read buffer only. -/
theorem c101_failed_discard :
    let small := (Client.action 2#8 (Client.readStatusResponse 3#16 (roomClient false [some (.other 5)] 14)).1)
    let large := (Client.action 2#8 (Client.readStatusResponse 3#16 (roomClient false [some (.other 5)] 28)).1)
    small.2 = .err (.writeError (.discardBuffer (.other 5))) ∧ large.2 = small.2 ∧
    (Client.readStatusResponse 0#16 small.1).2 = .ok ⟨⟨(frame 2#8 [0x55#8, 0#8]).take 9⟩⟩ ∧
    (Client.readStatusResponse 0#16 large.1).2 = .err (.io .timedOut) := by
  decide +kernel

/-- **C101** A packet of 14 bytes is an error with a read buffer of 12 bytes. -/
theorem c101_too_large :
    ¬ NoneLarger 12 twoInOne ∧
    (Client.readStatusResponse 3#16 (roomClient false [] 12)).2 = .err (.bufferFull ⟨14, 12⟩) ∧
    (Client.readStatusResponse 3#16 (roomClient false [] 14)).2 = .ok ⟨⟨(frame 1#8 [0x55#8, 0#8, 0x24#8, 0x04#8, 0x2D#8]).take 12⟩⟩ := by
  refine ⟨fun h => ?_, by decide +kernel⟩
  have := h 0 (by decide +kernel) (by decide +kernel)
  revert this
  decide +kernel

/-! ## The theorems on concrete cases -/

theorem twoInOne_fit : NoneLarger 14 twoInOne := by
  intro k
  by_cases hk : k ≤ 25
  · have key : ∀ k : Fin 26, header <+: twoInOne.drop k.val → 7 + Spec.lengthField (twoInOne.drop k.val) ≤ 14 := by
      decide +kernel
    exact fun h _ => key ⟨k, by omega⟩ h
  · intro _ h
    have e : twoInOne.length = 25 := by decide +kernel
    simp [e] at h
    omega

/-- After the first packet: the smaller read buffer has none of the second packet, the larger one all of it. -/
theorem room_example : Bus.Roomier (roomClient false [] 14) (roomClient false [] 28) :=
  ⟨⟨⟨by decide, by decide⟩, ⟨by decide, by decide⟩⟩, ⟨⟨by decide, by decide⟩, ⟨by decide, by decide⟩⟩, rfl, rfl, by decide, by decide,
    ⟨rfl, rfl, rfl, rfl, rfl, rfl, rfl, rfl, rfl⟩, ⟨rfl, by decide⟩, [], [.data 5 twoInOne], .all (by decide) rfl,
    .all (by decide) rfl, by simp [Sequential], by simpa [allBytes, roomClient] using twoInOne_fit⟩

example := c101_listen (.readStatusResponse 3#16) _ _ room_example
example := c101_instruct (.action 2#8) (c101_listen (.readStatusResponse 3#16) _ _ room_example).2
example : (Client.readStatusResponse 3#16 (roomClient false [] 14)).1.pending = [] ∧
    (Client.readStatusResponse 3#16 (roomClient false [] 28)).1.pending = frame 2#8 [0x55#8, 0#8] ∧
    (Client.readStatusResponse 3#16 (roomClient false [] 14)).1.serialPort.rx = [.data 5 (frame 2#8 [0x55#8, 0#8])] := by
  decide +kernel
example := c101_session room_example [⟨Client.readStatusResponse 3#16⟩, ⟨Client.scan⟩, ⟨Client.scanNext (ε := Empty)⟩]
  (by
    intro m hm
    simp only [List.mem_cons, List.not_mem_nil, or_false] at hm
    rcases hm with rfl | rfl | rfl
    · exact .inr (.readStatusResponse _)
    · exact .inl .scan
    · exact .inr .scanNext)
example := c101_made (debug := true) (port := { quietPort with rx := [.data 5 twoInOne, .fail 6 (.other 1), .data 7 []] })
  (r := List.replicate 14 1#8) (w := List.replicate 10 2#8) (r' := List.replicate 28 3#8) (w' := List.replicate 40 4#8)
  (.inl rfl) (.inr rfl) (by decide) (by decide) (by decide) rfl (by intro x hx; cases hx) (by simp [Sequential])
  (by simpa [allBytes] using twoInOne_fit) [⟨Client.ping 1#8⟩, ⟨Client.writeBytes 1#8 2#16 [3#8]⟩]
  (by
    intro m hm
    simp only [List.mem_cons, List.not_mem_nil, or_false] at hm
    rcases hm with rfl | rfl
    · exact .inl (.ping _)
    · exact .inl (.writeBytes _ _ _))
example := c101_enough (n := 65542) (by omega) twoInOne
/-- The smaller write buffer is enough for a ping, but not for writing. -/
example : NoRoom (Client.writeBytes 1#8 2#16 [3#8] (quietBus true 6)).2 ∧
    (Client.ping 1#8 (quietBus true 6)).2 = .err (.readError (.io .timedOut)) := by
  refine ⟨?_, by decide +kernel⟩
  have : (Client.writeBytes 1#8 2#16 [3#8] (quietBus true 6)).2 = .err (.writeError (.bufferTooSmall ⟨13, 10⟩)) := by decide +kernel
  rw [this]
  exact .transfer _

end Dxl.Props
