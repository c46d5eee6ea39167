import Verif.Model.AnyValue
import Verif.Spec.Converted
import Verif.Props.Unwind

/-! # C105: conversions of the caller -/

namespace Dxl.Props
open Spec

variable {W α ω : Type}

theorem inside_bind {σ ε β γ : Type} (m : SO σ ε β) (k : β → SO (W × σ) ε γ) (w : W) (s : σ) :
    (SO.inside m >>= k) (w, s) =
      match (m s).2 with
      | .ok a => k a (w, (m s).1)
      | .err e => ((w, (m s).1), .err e)
      | .panic => ((w, (m s).1), .panic)
      | .hang => ((w, (m s).1), .hang) := by
  rw [SO.bind_def]
  unfold SO.inside SO.zoom
  dsimp only
  cases (m s).2 <;> rfl

theorem lift_converted {ε β : Type} {f : Conversion W α} {w : W} (o : Outcome ε β) {k : β → SO W ε (Response α)}
    {g : β → Outcome ε (Response (List Byte))} (h : ∀ a, k a w = converted f w (g a)) :
    (SO.lift o >>= k) w = converted f w (o >>= g) := by
  cases o with
  | ok a => exact h a
  | _ => rfl

theorem decodeAs_eq (f : Conversion W α) (p : StatusPacket) (w : W) :
    decodeStatusPacketBytesAs f p w = converted f w (decodeStatusPacketBytes p) := by
  unfold decodeStatusPacketBytesAs decodeStatusPacketBytes
  refine lift_converted _ fun e => lift_converted _ fun _ => lift_converted _ fun id => lift_converted _ fun a =>
    lift_converted _ fun ps => ?_
  show _ = ((f ps w).1, match (f ps w).2 with | some x => Outcome.ok (withData ⟨id, a, ps⟩ x) | none => Outcome.panic)
  rw [SO.bind_def, Conversion.call]
  rcases f ps w with ⟨w', _ | x⟩ <;> rfl

theorem outside_decode {σ ε : Type} (f : Conversion W α) (p : StatusPacket) (g : MotorError → ε) (w : W) (s : σ) :
    SO.outside ((decodeStatusPacketBytesAs f p).mapErr g) (w, s) =
      (((converted f w ((decodeStatusPacketBytes p).mapErr g)).1, s), (converted f w ((decodeStatusPacketBytes p).mapErr g)).2) := by
  unfold SO.outside SO.zoom SO.mapErr
  dsimp only
  rw [decodeAs_eq]
  cases decodeStatusPacketBytes p with
  | ok r =>
    dsimp only [converted, Outcome.mapErr]
    rcases f r.data w with ⟨w', _ | x⟩ <;> rfl
  | _ => rfl

/-- What a call that reads bytes becomes for a caller with a conversion: the client is the same afterwards, whatever the conversion
does, and the conversion is called once, with the data of the response, if there is one. -/
def Converts {σ ε : Type} (f : Conversion W α) (m : SO (W × σ) ε (Response α)) (bytes : SO σ ε (Response (List Byte))) : Prop :=
  ∀ w s, m (w, s) = (((converted f w (bytes s).2).1, (bytes s).1), (converted f w (bytes s).2).2)

/-- The same for an item of an iterator. -/
def ConvertsItem {σ ε : Type} (f : Conversion W α) (m : SO (W × σ) ε (Option (Except ReadError (Response α))))
    (bytes : SO σ ε (Option (Except ReadError (Response (List Byte))))) : Prop :=
  ∀ w s, m (w, s) = (((convertedItem f w (bytes s).2).1, (bytes s).1), (convertedItem f w (bytes s).2).2)

theorem converts_bind {σ ε β : Type} {f : Conversion W α} (m : SO σ ε β) {k : β → SO (W × σ) ε (Response α)}
    {g : β → SO σ ε (Response (List Byte))} (h : ∀ a, Converts f (k a) (g a)) : Converts f (SO.inside m >>= k) (m >>= g) := by
  intro w s
  rw [inside_bind, SO.bind_def]
  rcases m s with ⟨t, o⟩
  cases o with
  | ok a => exact h a w t
  | _ => rfl

theorem converts_lift {σ ε β : Type} {f : Conversion W α} (o : Outcome ε β) {k : β → SO (W × σ) ε (Response α)}
    {g : β → SO σ ε (Response (List Byte))} (h : ∀ a, Converts f (k a) (g a)) : Converts f (SO.lift o >>= k) (SO.lift o >>= g) := by
  intro w s
  cases o with
  | ok a => exact h a w s
  | _ => rfl

theorem converts_decode {σ ε : Type} (f : Conversion W α) (p : StatusPacket) (g : MotorError → ε) :
    Converts (σ := σ) f (SO.outside ((decodeStatusPacketBytesAs f p).mapErr g)) (SO.lift ((decodeStatusPacketBytes p).mapErr g)) :=
  fun w s => outside_decode f p g w s

/-- **C105** Reading bytes as a type of the caller: exactly what reading bytes does, and then the conversion of the data. It is called
only if the bytes would be returned, once and with just these bytes; it panics if the conversion does, and has then read (and used up)
the response all the same. -/
theorem c105_read_bytes (f : Conversion W α) (id : Byte) (address count : U16) :
    Converts f (Client.readBytesAs f id address count) (Client.readBytes id address count) :=
  converts_bind _ fun p => converts_decode f p _

theorem converts_attempt {σ ε : Type} {f : Conversion W α} {m : SO (W × σ) ReadError (Response α)}
    {bytes : SO σ ReadError (Response (List Byte))} (h : Converts f m bytes) :
    ConvertsItem (ε := ε) f (m.attempt >>= fun r => pure (some r)) (bytes.attempt >>= fun r => pure (some r)) := by
  intro w s
  rw [SO.bind_def, SO.bind_def, SO.attempt, SO.attempt, h w s]
  rcases bytes s with ⟨t, o⟩
  cases o with
  | ok r =>
    dsimp only [converted]
    rcases hx : f r.data w with ⟨w', _ | x⟩ <;> simp only [pure, convertedItem, hx]
  | _ => rfl

theorem sync_response (f : Conversion W α) (id : Byte) : Converts f (SyncIter.nextResponseBytesAs f id) (SyncIter.nextResponseBytes id) := by
  intro w s
  exact converts_bind (f := f) (SyncIter.onClient (Client.readStatusResponse s.count))
    (fun p => converts_lift (SyncIter.checkResponse p id s.count) fun _ => converts_decode f p _) w s

theorem bulk_response (f : Conversion W α) (id : Byte) (count : U16) :
    Converts f (BulkIter.nextResponseAs f id count) (BulkIter.nextResponse id count) :=
  converts_bind _ fun p => converts_lift _ fun _ => converts_decode f p _

/-- **C105** The same for the next item of a sync read. -/
theorem c105_sync (f : Conversion W α) : ConvertsItem (ε := Empty) f (SyncIter.nextBytesAs f) SyncIter.nextBytes := by
  intro w s
  unfold SyncIter.nextBytesAs SyncIter.nextBytes
  rw [inside_bind, SO.bind_def]
  rcases SyncIter.popMotorId (ε := Empty) s with ⟨t, o⟩
  cases o with
  | ok x =>
    cases x with
    | none => rfl
    | some id => exact converts_attempt (sync_response f id) w t
  | _ => rfl

/-- **C105** The same for the next item of a bulk read. -/
theorem c105_bulk (f : Conversion W α) : ConvertsItem (ε := Empty) f (BulkIter.nextAs f) BulkIter.next := by
  intro w s
  unfold BulkIter.nextAs BulkIter.next
  rw [inside_bind, SO.bind_def]
  rcases BulkIter.pop (ε := Empty) s with ⟨t, o⟩
  cases o with
  | ok x =>
    cases x with
    | none => rfl
    | some r => exact converts_attempt (bulk_response f r.motorId r.count) w t
  | _ => rfl

/-- How two ends of a scope go together, one of them with the state of the caller. -/
def sameEnd : ScopeEnd (W × ω) → ScopeEnd ω
  | .returned (_, a) => .returned a
  | .unwound => .unwound
  | .aborted => .aborted
  | .hung => .hung

/-- The code that uses an iterator with a conversion does what it would do converting by itself. -/
theorem run_byHand {σ : Type} {f : Conversion W α} {m : SO (W × σ) Empty (Option (Except ReadError (Response α)))}
    {bytes : SO σ Empty (Option (Except ReadError (Response (List Byte))))} (h : ConvertsItem f m bytes)
    (code : LoopCode (Except ReadError (Response α)) ω) : ∀ (w : W) (s : σ),
    (code.run m (w, s)).1.2 = ((byHand f code w).run bytes s).1 ∧
      match ((byHand f code w).run bytes s).2 with
      | .ok (w', a) => code.run m (w, s) = ((w', ((byHand f code w).run bytes s).1), .ok a)
      | .panic => (code.run m (w, s)).2 = .panic
      | .hang => (code.run m (w, s)).2 = .hang := by
  induction code with
  | returns a => intro w s; exact ⟨rfl, rfl⟩
  | panics => intro w s; exact ⟨rfl, rfl⟩
  | asks k ih =>
    intro w s
    rw [LoopCode.run, byHand, LoopCode.run, SO.bind_def, SO.bind_def, h w s]
    rcases bytes s with ⟨t, o⟩
    cases o with
    | ok x =>
      rcases x with _ | e | r
      · exact ih none w t
      · exact ih (some (.error e)) w t
      · dsimp only [convertedItem]
        rcases f r.data w with ⟨w', _ | a⟩
        · exact ⟨rfl, rfl⟩
        · exact ih (some (.ok (withData r a))) w' t
    | err e => exact e.elim
    | panic => exact ⟨rfl, rfl⟩
    | hang => exact ⟨rfl, rfl⟩

theorem scope_byHand {σ : Type} {f : Conversion W α} {m : SO (W × σ) Empty (Option (Except ReadError (Response α)))}
    {bytes : SO σ Empty (Option (Except ReadError (Response (List Byte))))} (h : ConvertsItem f m bytes) (drop : SO σ Empty Unit)
    (code : LoopCode (Except ReadError (Response α)) ω) (w : W) (s : σ) :
    (scopeOf m (SO.inside drop) code (w, s)).1.2 = (scopeOf bytes drop (byHand f code w) s).1 ∧
      (scopeOf m (SO.inside drop) code (w, s)).2 = sameEnd (scopeOf bytes drop (byHand f code w) s).2 := by
  obtain ⟨h1, h2⟩ := run_byHand h code w s
  unfold scopeOf
  rcases hb : (byHand f code w).run bytes s with ⟨t, o⟩
  rcases hm : code.run m (w, s) with ⟨⟨w2, t2⟩, o2⟩
  rw [hb, hm] at h1 h2
  dsimp only at h1
  subst h1
  cases o with
  | ok x =>
    obtain ⟨w', a⟩ := x
    dsimp only at h2
    cases h2
    dsimp only [SO.inside, SO.zoom]
    rcases drop t2 with ⟨u, _ | e | _ | _⟩
    · exact ⟨rfl, rfl⟩
    · exact e.elim
    · exact ⟨rfl, rfl⟩
    · exact ⟨rfl, rfl⟩
  | err e => exact e.elim
  | panic =>
    dsimp only at h2
    subst h2
    dsimp only [SO.inside, SO.zoom]
    rcases drop t2 with ⟨u, _ | e | _ | _⟩
    · exact ⟨rfl, rfl⟩
    · exact e.elim
    · exact ⟨rfl, rfl⟩
    · exact ⟨rfl, rfl⟩
  | hang =>
    dsimp only at h2
    subst h2
    exact ⟨rfl, rfl⟩

/-- **C105** Any code that uses the iterator of a sync read with a conversion leaves client and serial port as code that takes the bytes
and converts them itself, and ends like it, be it by returning, by a panic (also one of the conversion), or by aborting the process. -/
theorem c105_sync_scope (f : Conversion W α) (code : LoopCode (Except ReadError (Response α)) ω) (n : Nat) (w : W) (s : SyncIter) :
    (scopeOf (SyncIter.nextBytesAs f) (SyncIter.dropBytesAs n) code (w, s)).1.2 =
        (scopeOf SyncIter.nextBytes (SyncIter.dropBytes n) (byHand f code w) s).1 ∧
      (scopeOf (SyncIter.nextBytesAs f) (SyncIter.dropBytesAs n) code (w, s)).2 =
        sameEnd (scopeOf SyncIter.nextBytes (SyncIter.dropBytes n) (byHand f code w) s).2 :=
  scope_byHand (c105_sync f) (SyncIter.dropBytes n) code w s

/-- **C105** The same for a bulk read. -/
theorem c105_bulk_scope (f : Conversion W α) (code : LoopCode (Except ReadError (Response α)) ω) (w : W) (s : BulkIter) :
    (scopeOf (BulkIter.nextAs f) BulkIter.dropAs code (w, s)).1.2 = (scopeOf BulkIter.next BulkIter.drop (byHand f code w) s).1 ∧
      (scopeOf (BulkIter.nextAs f) BulkIter.dropAs code (w, s)).2 = sameEnd (scopeOf BulkIter.next BulkIter.drop (byHand f code w) s).2 :=
  scope_byHand (c105_bulk f) BulkIter.drop code w s

theorem unwinds_wellformed {σ ι ν : Type} {next : SO σ Empty (Option ι)} {drop : SO σ Empty Unit} {client : σ → Bus} {Dies : List Byte → Prop}
    {todo : List (Byte × Nat)} {code : LoopCode ι ν} {s : σ} (h : Unwinds next drop client Dies todo code s) :
    ∃ bads d, Sequel responseWait Dies (client s) todo bads d ∧ (true ∉ bads →
      (((scopeOf next drop code s).2 = .unwound ∨ ∃ a, (scopeOf next drop code s).2 = .returned a) ∧
        Sequel responseWait Dies (client s) todo bads (client (scopeOf next drop code s).1))) := by
  obtain ⟨bads, d, h1, k, s1, seen, -, -, h2⟩ := h
  refine ⟨bads, d, h1, fun hb => ?_⟩
  have hl := h1.length
  have hw : ∀ l : List Bool, true ∉ l → l.takeWhile (!·) = l := by
    intro l hl
    induction l with
    | nil => rfl
    | cons x l ih =>
      cases x with
      | true => exact absurd (List.mem_cons_self ..) hl
      | false => rw [List.takeWhile_cons_of_pos rfl, ih fun h => hl (List.mem_cons_of_mem _ h)]
  rcases h2 with ⟨own, -, h3, h4⟩ | ⟨-, h3, -⟩
  · have ha : (bads.drop k).any id = false := by
      rw [List.any_eq_false]
      intro x hx
      cases x with
      | true => exact absurd (List.mem_of_mem_drop hx) hb
      | false => simp
    have hn : bads.length ≤ awaitedUntil bads k := by
      unfold awaitedUntil
      rw [hw _ fun h => hb (List.mem_of_mem_drop h), List.length_drop]
      omega
    rw [List.take_of_length_le (by omega), List.take_of_length_le hn] at h4
    rw [ha] at h3
    refine ⟨?_, h4⟩
    cases own with
    | none => exact .inl h3
    | some a => exact .inr ⟨a, h3⟩
  · exact absurd (List.mem_of_getElem? h3) hb

/-- **C105** If no response to a sync read is malformed (as far as they come), then a panic of the conversion or of the code can be
caught, whichever it is, and all responses have been awaited by then: the conversion is not called by the destructor. -/
theorem c105_sync_caught (f : Conversion W α) (code : LoopCode (Except ReadError (Response α)) ω) {n : Nat} (w : W) {s : SyncIter}
    (hn : s.motorIds.length - s.index < n) (hr : s.client.RInv) (hb : s.client.baudRate < 2 ^ 32) :
    ∃ bads d, Sequel responseWait Never s.client ((s.motorIds.drop s.index).map fun id => (id, s.count.toNat)) bads d ∧ (true ∉ bads →
      (((scopeOf (SyncIter.nextBytesAs f) (SyncIter.dropBytesAs n) code (w, s)).2 = .unwound ∨
          ∃ a, (scopeOf (SyncIter.nextBytesAs f) (SyncIter.dropBytesAs n) code (w, s)).2 = .returned a) ∧
        Sequel responseWait Never s.client ((s.motorIds.drop s.index).map fun id => (id, s.count.toNat)) bads
          (scopeOf (SyncIter.nextBytesAs f) (SyncIter.dropBytesAs n) code (w, s)).1.2.client)) := by
  obtain ⟨bads, d, h1, h2⟩ := unwinds_wellformed (c89_sync_bytes (byHand f code w) hn hr hb)
  obtain ⟨e1, e2⟩ := c105_sync_scope f code n w s
  refine ⟨bads, d, h1, fun hx => ?_⟩
  rw [e1, e2]
  obtain ⟨h3, h4⟩ := h2 hx
  refine ⟨?_, h4⟩
  rcases h3 with h3 | ⟨⟨w', a⟩, h3⟩
  · exact .inl (by rw [h3]; rfl)
  · exact .inr ⟨a, by rw [h3]; rfl⟩

/-- **C105** The same for a bulk read. -/
theorem c105_bulk_caught (f : Conversion W α) (code : LoopCode (Except ReadError (Response α)) ω) (w : W) {s : BulkIter}
    (hs : s.index ≤ s.reads.length) (hr : s.client.RInv) (hb : s.client.baudRate < 2 ^ 32) :
    ∃ bads d, Sequel responseWait Never s.client ((s.reads.drop s.index).map fun r => (r.motorId, r.count.toNat)) bads d ∧ (true ∉ bads →
      (((scopeOf (BulkIter.nextAs f) BulkIter.dropAs code (w, s)).2 = .unwound ∨
          ∃ a, (scopeOf (BulkIter.nextAs f) BulkIter.dropAs code (w, s)).2 = .returned a) ∧
        Sequel responseWait Never s.client ((s.reads.drop s.index).map fun r => (r.motorId, r.count.toNat)) bads
          (scopeOf (BulkIter.nextAs f) BulkIter.dropAs code (w, s)).1.2.client)) := by
  obtain ⟨bads, d, h1, h2⟩ := unwinds_wellformed (c89_bulk (byHand f code w) hs hr hb)
  obtain ⟨e1, e2⟩ := c105_bulk_scope f code w s
  refine ⟨bads, d, h1, fun hx => ?_⟩
  rw [e1, e2]
  obtain ⟨h3, h4⟩ := h2 hx
  refine ⟨?_, h4⟩
  rcases h3 with h3 | ⟨⟨w', a⟩, h3⟩
  · exact .inl (by rw [h3]; rfl)
  · exact .inr ⟨a, by rw [h3]; rfl⟩

/-! ## Examples -/

/-- A conversion to arrays of three bytes, as of `<[u8; 3]>::try_from(data).unwrap()`, that counts its calls. -/
def toThree : Conversion Nat (Byte × Byte × Byte) := fun data calls =>
  (calls + 1, match data with | [a, b, c] => some (a, b, c) | _ => none)

/-- A conversion to a number, that counts its calls. -/
def toNumber : Conversion Nat Nat := fun data calls => (calls + 1, some (fromLeBytes data))

/-- A response of two bytes is converted to a number; to three bytes, that panics, and the response is used up: the next call does not
find it. A response with an error is not converted. -/
example : (Client.readBytesAs toNumber 1#8 0#16 2#16 (0, busWithChunks [(5, frame 1#8 [0x55#8, 0x00#8, 0x02#8, 0x01#8])])).2 =
      .ok ⟨1#8, false, 258⟩ ∧
    (Client.readBytesAs toThree 1#8 0#16 2#16 (0, busWithChunks [(5, frame 1#8 [0x55#8, 0x00#8, 0x02#8, 0x01#8])])).2 = .panic ∧
    (Client.readBytesAs toNumber 1#8 0#16 2#16
      (Client.readBytesAs toThree 1#8 0#16 2#16 (0, busWithChunks [(5, frame 1#8 [0x55#8, 0x00#8, 0x02#8, 0x01#8])])).1).2 =
      .err (.readError (.io .timedOut)) ∧
    (Client.readBytesAs toThree 1#8 0#16 2#16 (0, busWithChunks [(5, frame 1#8 [0x55#8, 0x01#8, 0x02#8, 0x01#8])])).1.1 = 0 := by
  decide +kernel

/-- Two answers of two bytes are converted. -/
example : (scopeOf (SyncIter.nextBytesAs toNumber) (SyncIter.dropBytesAs 3) (takeItems (.returns 7) 5) (0, goodAnswers)).2 = .returned 2 ∧
    (scopeOf (SyncIter.nextBytesAs toNumber) (SyncIter.dropBytesAs 3) (takeItems (.returns 7) 5) (0, goodAnswers)).1.1 = 2 := by
  decide +kernel

/-- The conversion panics for the first answer, and is not called for the second one, which is read all the same. -/
theorem toThree_panics :
    (scopeOf (SyncIter.nextBytesAs toThree) (SyncIter.dropBytesAs 3) (takeItems (.returns 7) 5) (0, goodAnswers)).2 = .unwound ∧
    (scopeOf (SyncIter.nextBytesAs toThree) (SyncIter.dropBytesAs 3) (takeItems (.returns 7) 5) (0, goodAnswers)).1.1 = 1 ∧
    (scopeOf (SyncIter.nextBytesAs toThree) (SyncIter.dropBytesAs 3) (takeItems (.returns 7) 5) (0, goodAnswers)).1.2.index = 2 := by
  decide +kernel

example := c105_sync_caught toThree (takeItems (.returns 7) 5) (n := 3) 0 (s := goodAnswers) (by decide) goodAnswers_rInv (by decide)

example := c105_bulk_caught toThree (takeItems (.returns 7) 5) 0 (s := twoMalformed) (by decide) (by constructor <;> decide) (by decide)

/-- A data type whose `decode` panics where `toThree` does. -/
def panickingData : DataTy Unit := ⟨2#16, fun _ => pure (), fun _ => .pure (), fun data => if data.length = 3 then .ok () else .panic⟩

/-- **C105** That is different for a type that implements `Data`, for the same answers: the destructor of its sync read decodes the
remaining responses. So where a conversion by `From` ends in a panic that can be caught, the same in `decode` aborts the process. -/
theorem c105_decode_aborts : ∃ (s : SyncIter) (d : DataTy Unit) (f : Conversion Nat (Byte × Byte × Byte)), s.client.RInv ∧
    s.client.baudRate ≠ 0 ∧ d.size = s.count ∧ (∀ data w, (f data w).2 = none ↔ d.decode data = .panic) ∧
    (scopeOf (SyncIter.nextBytesAs f) (SyncIter.dropBytesAs 3) (takeItems (.returns 7) 5) (0, s)).2 = .unwound ∧
    (scopeOf (SyncIter.next d) (SyncIter.drop d 3) (takeItems (.returns 7) 5) s).2 = .aborted := by
  refine ⟨goodAnswers, panickingData, toThree, goodAnswers_rInv, by decide, rfl, ?_, toThree_panics.1, by decide +kernel⟩
  intro data w
  show (match data with | [a, b, c] => some (a, b, c) | _ => none) = none ↔ (if data.length = 3 then Outcome.ok () else .panic) = .panic
  rcases data with _ | ⟨a, _ | ⟨b, _ | ⟨c, _ | ⟨d, l⟩⟩⟩⟩ <;> simp

end Dxl.Props
