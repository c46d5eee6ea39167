import Verif.Model.Endless
import Verif.Props.Words

/-! # C94: iterators that never end -/

namespace Dxl.Props
open Spec

/-- The iterator gives exactly these items: `None` comes right after them. -/
def GivesItems {α : Type} (next : Nat → Option α) (items : List α) : Prop :=
  (∀ (i : Nat) (h : i < items.length), next i = some items[i]) ∧ next items.length = none

/-- The iterator never ends. -/
def NeverEnds {α : Type} (next : Nat → Option α) : Prop := ∀ i, ∃ a, next i = some a

/-- What is taken from the iterator in so many rounds from item `i` on, and whether it ended. -/
def takenFrom {α : Type} (next : Nat → Option α) : (rounds i : Nat) → List α × Bool
  | 0, _ => ([], false)
  | rounds + 1, i =>
    match next i with
    | none => ([], true)
    | some a => (a :: (takenFrom next rounds (i + 1)).1, (takenFrom next rounds (i + 1)).2)

theorem takenFrom_ends {α : Type} {next : Nat → Option α} {items : List α} (h : GivesItems next items) (rounds : Nat) :
    ∀ i, i ≤ items.length → items.length < rounds + i → takenFrom next rounds i = (items.drop i, true) := by
  induction rounds with
  | zero => intro i h1 h2; omega
  | succ rounds ih =>
    intro i h1 h2
    by_cases hi : i < items.length
    · rw [takenFrom, h.1 i hi]
      dsimp only
      rw [ih (i + 1) (by omega) (by omega), List.drop_eq_getElem_cons hi]
    · have : i = items.length := by omega
      subst this
      rw [takenFrom, h.2, List.drop_length]

theorem takenFrom_endless {α : Type} {next : Nat → Option α} (h : NeverEnds next) (rounds : Nat) :
    ∀ i, (takenFrom next rounds i).1.length = rounds ∧ (takenFrom next rounds i).2 = false := by
  induction rounds with
  | zero => intro i; exact ⟨rfl, rfl⟩
  | succ rounds ih =>
    intro i
    obtain ⟨a, ha⟩ := h i
    rw [takenFrom, ha]
    exact ⟨by simp [(ih (i + 1)).1], (ih (i + 1)).2⟩

theorem takenFrom_mem {α : Type} {next : Nat → Option α} {a : α} (rounds : Nat) :
    ∀ i, a ∈ (takenFrom next rounds i).1 → ∃ j, next j = some a := by
  induction rounds with
  | zero => intro i h; simp [takenFrom] at h
  | succ rounds ih =>
    intro i h
    rw [takenFrom] at h
    cases hn : next i with
    | none => rw [hn] at h; simp at h
    | some c =>
      rw [hn] at h
      simp only [List.mem_cons] at h
      rcases h with rfl | h
      · exact ⟨i, hn⟩
      · exact ih _ h

/-- The end of a loop: it is left, or the rounds are used up. -/
def endOf {σ ε : Type} (ended : Bool) : SO σ ε Unit := if ended then pure () else SO.hang

theorem bind_endOf_true {σ ε : Type} (m : SO σ ε Unit) : (m >>= fun _ => endOf true) = m := by
  funext s
  rw [SO.bind_def]
  rcases m s with ⟨s', _ | _ | _ | _⟩ <;> rfl

theorem bind_endOf_panic {σ ε : Type} {m : SO σ ε Unit} {s : σ} (ended : Bool) (h : (m s).2 = .panic) :
    ((m >>= fun _ => endOf ended) s).2 = .panic := by
  rw [SO.bind_def]
  rcases hm : m s with ⟨s', o⟩
  rw [hm] at h
  simp only at h
  subst h
  rfl

theorem so_assoc {σ ε α β γ : Type} (m : SO σ ε α) (f : α → SO σ ε β) (g : β → SO σ ε γ) :
    (m >>= f) >>= g = m >>= fun a => f a >>= g := by
  funext s
  simp only [SO.bind_def]
  rcases m s with ⟨s', _ | _ | _ | _⟩ <;> rfl

theorem syncWriteBytesLoopE_eq {w : Nat} {debug : Bool} {count stride : Nat} {next : Nat → Option CallerCommand} (rounds : Nat) :
    ∀ i, Client.syncWriteBytesLoopE w debug count stride next rounds i =
      (Client.syncWriteBytesLoopW w debug count stride i (takenFrom next rounds i).1 >>= fun _ =>
        endOf (takenFrom next rounds i).2) := by
  induction rounds with
  | zero => intro i; rfl
  | succ rounds ih =>
    intro i
    rw [Client.syncWriteBytesLoopE, takenFrom]
    cases next i with
    | none => rfl
    | some c =>
      dsimp only
      rw [Client.syncWriteBytesLoopW]
      simp only [so_assoc, ih]

theorem syncWriteLoopE_eq {α : Type} {w : Nat} {debug : Bool} {d : DataTy α} {stride : Nat} {next : Nat → Option (SyncWriteData α)}
    (rounds : Nat) :
    ∀ i, Client.syncWriteLoopE w debug d stride next rounds i =
      (Client.syncWriteLoopW w debug d stride i (takenFrom next rounds i).1 >>= fun _ => endOf (takenFrom next rounds i).2) := by
  induction rounds with
  | zero => intro i; rfl
  | succ rounds ih =>
    intro i
    rw [Client.syncWriteLoopE, takenFrom]
    cases next i with
    | none => rfl
    | some c =>
      dsimp only
      rw [Client.syncWriteLoopW]
      simp only [so_assoc, ih]

theorem bulkWriteLoopE_eq {w : Nat} {debug : Bool} {written : Nat → Option BulkWriteData} (rounds : Nat) :
    ∀ i offset, Client.bulkWriteLoopE w debug written rounds i offset =
      (Client.bulkWriteLoopW w debug offset (takenFrom written rounds i).1 >>= fun _ => endOf (takenFrom written rounds i).2) := by
  induction rounds with
  | zero => intro i offset; rfl
  | succ rounds ih =>
    intro i offset
    rw [Client.bulkWriteLoopE, takenFrom]
    cases written i with
    | none => rfl
    | some c =>
      dsimp only
      rw [Client.bulkWriteLoopW]
      simp only [so_assoc, ih]

/-- The end of the first loop of `bulk_write`. -/
def endCount {ε : Type} (ended : Bool) (n : Nat) : Outcome ε Nat := if ended then .ok n else .hang

theorem bulkWriteCountE_eq {ε : Type} {w : Nat} {debug : Bool} {counted : Nat → Option Nat} (rounds : Nat) :
    ∀ i n, Client.bulkWriteCountE (ε := ε) w debug counted rounds i n =
      (Client.bulkWriteCountW w debug (takenFrom counted rounds i).1 n >>= endCount (takenFrom counted rounds i).2) := by
  induction rounds with
  | zero => intro i n; rfl
  | succ rounds ih =>
    intro i n
    rw [Client.bulkWriteCountE, takenFrom]
    cases counted i with
    | none => rfl
    | some c =>
      dsimp only
      rw [Client.bulkWriteCountW]
      by_cases hc : c > 65535
      · rw [if_pos hc, if_pos hc]; rfl
      · rw [if_neg hc, if_neg hc]
        rcases usizeAdd (ε := ε) w debug 5 c with size | _ | _ | _
        · simp only [Outcome.ok_bind]
          rcases usizeAdd (ε := ε) w debug n size with m | _ | _ | _
          · simp only [Outcome.ok_bind, ih]
          all_goals rfl
        all_goals rfl

theorem bind_endCount_true {ε : Type} (o : Outcome ε Nat) : (o >>= endCount true) = o := by
  cases o <;> rfl

/-- **C94** For an iterator that ends, the calls are those of C81 and C82, for every number of rounds above the number of items. -/
theorem c94_ends {α : Type} (w : Nat) (d : DataTy α) (address count : U16) (len rounds : Nat) :
    (∀ next items, GivesItems next items → items.length < rounds →
      Client.syncWriteBytesE w rounds address count ⟨len, next⟩ = Client.syncWriteBytesW w address count ⟨len, items⟩) ∧
    (∀ next items, GivesItems next items → items.length < rounds →
      Client.syncWriteE w rounds d address ⟨len, next⟩ = Client.syncWriteW w d address ⟨len, items⟩) ∧
    (∀ counted written ns items, GivesItems counted ns → GivesItems written items → ns.length < rounds → items.length < rounds →
      Client.bulkWriteE w rounds ⟨counted, written⟩ = Client.bulkWriteW w ⟨ns, items⟩) := by
  refine ⟨fun next items h hr => ?_, fun next items h hr => ?_, fun counted written ns items h1 h2 hr1 hr2 => ?_⟩
  · unfold Client.syncWriteBytesE Client.syncWriteBytesW Client.syncWriteBytesEncoderE Client.syncWriteBytesEncoderW
    simp only [syncWriteBytesLoopE_eq, takenFrom_ends h rounds 0 (by omega) (by omega), bind_endOf_true, List.drop_zero]
  · unfold Client.syncWriteE Client.syncWriteW Client.syncWriteEncoderE Client.syncWriteEncoderW
    simp only [syncWriteLoopE_eq, takenFrom_ends h rounds 0 (by omega) (by omega), bind_endOf_true, List.drop_zero]
  · unfold Client.bulkWriteE Client.bulkWriteW
    simp only [bulkWriteLoopE_eq, bulkWriteCountE_eq, takenFrom_ends h1 rounds 0 (by omega) (by omega),
      takenFrom_ends h2 rounds 0 (by omega) (by omega), bind_endOf_true, bind_endCount_true, List.drop_zero]

example := (c94_ends 32 (DataTy.unsigned 1) 116#16 2#16 1 5).1 (fun i => if i = 0 then some ⟨1#8, [5#8, 6#8], [5#8, 6#8]⟩ else none)
  [⟨1#8, [5#8, 6#8], [5#8, 6#8]⟩] ⟨by intro i h; match i, h with | 0, _ => rfl, rfl⟩ (by decide)

/-- A call whose encoder gives up. -/
theorem packetW_encoder_stops {w : Nat} (hw : 16 ≤ w) (id instr : Byte) {n : Nat} {enc : Encoder} {b : Bus} (hb : b.WInv)
    (hl : b.writeBuffer.length < 2 ^ (w - 1)) (hn : n < 2 ^ w)
    (he : n + 10 ≤ b.writeBuffer.length → (enc.run (b.paramSlice n)).2 = .panic ∨ ∃ e, (enc.run (b.paramSlice n)).2 = .err e) :
    NothingSent b (Bus.writePacketW w id instr n enc b) := by
  by_cases h : n + 10 < 2 ^ w
  · rw [writePacketW_eq hw id instr enc hl h]
    by_cases hfit : n + 10 ≤ b.writeBuffer.length
    · rw [Bus.writePacket_encode id instr n enc b hb hfit]
      have he := he hfit
      rcases hx : enc.run (b.paramSlice n) with ⟨p, o⟩
      rw [hx] at he
      simp only at he
      rcases he with rfl | ⟨e, rfl⟩
      · exact ⟨⟨_, rfl⟩, .inl rfl⟩
      · exact ⟨⟨_, rfl⟩, .inr ⟨_, rfl⟩⟩
    · rw [Bus.writePacket_too_small _ _ _ _ _ (by omega)]
      exact ⟨⟨b.writeBuffer, rfl⟩, .inr ⟨_, rfl⟩⟩
  · obtain ⟨buf, h1, _⟩ := writePacketW_over hw id instr enc hb hl hn (by omega)
    rw [h1]
    exact ⟨⟨buf, rfl⟩, .inl rfl⟩

/-- The sizes that `sync_write_bytes` and `sync_write` compute before they write. -/
theorem syncSizes_cases (w len stride : Nat) (k : Nat → SO Bus WriteError Unit) (b : Bus) :
    (do let body ← SO.lift (usizeMul w b.debug len stride); let n ← SO.lift (usizeAdd w b.debug 4 body); k n) b = (b, .panic) ∨
    (do let body ← SO.lift (usizeMul w b.debug len stride); let n ← SO.lift (usizeAdd w b.debug 4 body); k n) b =
      k ((4 + len * stride) % 2 ^ w) b := by
  rcases usizeMul_cases (ε := WriteError) w b.debug len stride with h | ⟨h, _, _⟩
  · rw [h, SO.lift_ok_bind]
    rcases usizeAdd_cases (ε := WriteError) w b.debug 4 (len * stride % 2 ^ w) with h | ⟨h, _, _⟩
    · rw [h, SO.lift_ok_bind, Nat.add_mod_mod]; exact .inr rfl
    · rw [h]; exact .inl rfl
  · rw [h]; exact .inl rfl

/-- **C94** `sync_write_bytes` with an iterator that never ends, whatever `len()` says: the call ends, in a panic or with the
report that the buffer is too small, and nothing is sent. -/
theorem c94_sync_write_bytes {w : Nat} (hw : 16 ≤ w) (address count : U16) (it : CallerStream CallerCommand) {b : Bus}
    (hb : b.WInv) (hl : b.writeBuffer.length < 2 ^ (w - 1)) (hs : 1 + count.toNat < 2 ^ w) (hi : NeverEnds it.next)
    (rounds : Nat) (hr : b.writeBuffer.length ≤ rounds) :
    NothingSent b (Client.syncWriteBytesE w rounds address count it b) := by
  have h16 := two_pow_16 hw
  have hhalf := two_pow_half hw
  unfold Client.syncWriteBytesE
  rw [SO.get_bind, usizeAdd_ok hs, SO.lift_ok_bind]
  rcases syncSizes_cases w it.len (1 + count.toNat) (fun n => Client.writeInstructionW w broadcast InstructionId.syncWrite n
    (Client.syncWriteBytesEncoderE w b.debug address count (1 + count.toNat) it.next rounds)) b with h | h
  · rw [h]; exact ⟨⟨b.writeBuffer, rfl⟩, .inl rfl⟩
  · rw [h]
    refine packetW_encoder_panics hw _ _ hb hl (Nat.mod_lt _ (by omega)) fun hfit => ?_
    have hlen := Bus.paramSlice_length hfit
    have he : (Client.syncWriteBytesEncoderE w b.debug address count (1 + count.toNat) it.next rounds).run =
        ((Client.syncWriteBytesEncoderW w b.debug address count (1 + count.toNat) (takenFrom it.next rounds 0).1).run >>= fun _ =>
          endOf (takenFrom it.next rounds 0).2) := by
      unfold Client.syncWriteBytesEncoderE Client.syncWriteBytesEncoderW
      simp only [so_assoc, syncWriteBytesLoopE_eq]
    rw [he]
    refine bind_endOf_panic _ (Client.syncWriteBytesEncoderW_bad (fun h2 => ?_) (by rw [hlen]; omega))
    have h3 := h2.2
    rw [(takenFrom_endless hi rounds 0).1, hlen] at h3
    have h4 : rounds ≤ rounds * (1 + count.toNat) := Nat.le_mul_of_pos_right _ (by omega)
    omega

/-- A call of `encode` comes back. -/
def EncodeReturns {α : Type} (d : DataTy α) : Prop := ∀ v s, (d.encode v s).2 ≠ .hang

theorem onSlice_no_hang {ε : Type} {m : SO (List Byte) ε Unit} (hm : ∀ s, (m s).2 ≠ .hang) (a b : Nat) (s : List Byte) :
    (onSlice a b m s).2 ≠ .hang := by
  unfold onSlice
  split
  · have := hm ((s.take b).drop a)
    rcases hx : m ((s.take b).drop a) with ⟨p, o⟩
    rw [hx] at this
    simpa [hx] using this
  · simp

theorem bind_no_hang {σ ε α β : Type} {m : SO σ ε α} {f : α → SO σ ε β} {s : σ} (hm : (m s).2 ≠ .hang)
    (hf : ∀ a s, (f a s).2 ≠ .hang) : ((m >>= f) s).2 ≠ .hang := by
  rw [SO.bind_def]
  rcases hx : m s with ⟨s', _ | _ | _ | _⟩
  · exact hf _ _
  · simp
  · simp
  · rw [hx] at hm; exact absurd rfl hm

theorem syncWriteLoopW_no_hang {α : Type} {w : Nat} {debug : Bool} {d : DataTy α} (hd : EncodeReturns d) {stride : Nat}
    (items : List (SyncWriteData α)) : ∀ i s, (Client.syncWriteLoopW w debug d stride i items s).2 ≠ .hang := by
  induction items with
  | nil =>
    intro i s
    show (Outcome.ok () : Outcome BufferTooSmall Unit) ≠ .hang
    simp
  | cons c rest ih =>
    intro i s
    rw [Client.syncWriteLoopW]
    refine bind_no_hang ?_ fun a s => bind_no_hang ?_ fun a s => bind_no_hang ?_ fun _ s => ih _ s
    · rw [SO.lift_apply]
      rcases usizeMul_cases (ε := BufferTooSmall) w debug i stride with h | ⟨h, _, _⟩ <;> rw [h] <;> simp
    · rw [SO.lift_apply]
      rcases usizeAdd_cases (ε := BufferTooSmall) w debug 4 a with h | ⟨h, _, _⟩ <;> rw [h] <;> simp
    · refine onSlice_no_hang (fun s => onSlice_no_hang (fun s => bind_no_hang ?_ fun _ s => ?_) _ _ s) _ _ s
      · unfold setIdx; split <;> simp
      · exact onSlice_no_hang (fun s => hd _ s) _ _ s

/-- **C94** The same for `sync_write`, for every type of data whose `encode` comes back. -/
theorem c94_sync_write {α : Type} {w : Nat} (hw : 16 ≤ w) (d : DataTy α) (hd : EncodeReturns d) (address : U16)
    (it : CallerStream (SyncWriteData α)) {b : Bus} (hb : b.WInv) (hl : b.writeBuffer.length < 2 ^ (w - 1))
    (hi : NeverEnds it.next) (rounds : Nat) (hr : b.writeBuffer.length ≤ rounds) :
    NothingSent b (Client.syncWriteE w rounds d address it b) := by
  have h16 := two_pow_16 hw
  have hhalf := two_pow_half hw
  unfold Client.syncWriteE
  rw [SO.get_bind, usizeAdd_ok (by omega), SO.lift_ok_bind]
  rcases syncSizes_cases w it.len 2 (fun n => Client.writeInstructionW w broadcast InstructionId.syncWrite n
    (Client.syncWriteEncoderE w b.debug d address 1 2 it.next rounds)) b with h | h
  · rw [h]; exact ⟨⟨b.writeBuffer, rfl⟩, .inl rfl⟩
  · rw [h]
    refine packetW_encoder_stops hw _ _ hb hl (Nat.mod_lt _ (by omega)) fun hfit => ?_
    have hlen := Bus.paramSlice_length hfit
    have he : (Client.syncWriteEncoderE w b.debug d address 1 2 it.next rounds).run =
        ((Client.syncWriteEncoderW w b.debug d address 1 2 (takenFrom it.next rounds 0).1).run >>= fun _ =>
          endOf (takenFrom it.next rounds 0).2) := by
      unfold Client.syncWriteEncoderE Client.syncWriteEncoderW
      simp only [so_assoc, syncWriteLoopE_eq]
    rw [he]
    generalize hq : b.paramSlice ((4 + it.len * 2) % 2 ^ w) = q at hlen ⊢
    have hno : ((Client.syncWriteEncoderW w b.debug d address 1 2 (takenFrom it.next rounds 0).1).run q).2 ≠ .ok () := by
      intro hok
      have h3 := Client.syncWriteEncoderW_fits (by rw [hlen]; omega) hok
      rw [(takenFrom_endless hi rounds 0).1, hlen] at h3
      omega
    have hnh : ((Client.syncWriteEncoderW w b.debug d address 1 2 (takenFrom it.next rounds 0).1).run q).2 ≠ .hang := by
      unfold Client.syncWriteEncoderW
      have hwr : ∀ (v : U16) (s : List Byte), (writeU16Le (ε := BufferTooSmall) v s).2 ≠ .hang := by
        intro v s
        unfold writeU16Le
        exact bind_no_hang (by unfold setIdx; split <;> simp) fun _ s => by unfold setIdx; split <;> simp
      exact bind_no_hang (onSlice_no_hang (hwr _) _ _ _) fun _ s => bind_no_hang (onSlice_no_hang (hwr _) _ _ _) fun _ s =>
        syncWriteLoopW_no_hang hd _ _ s
    rw [SO.bind_def]
    rcases hx : (Client.syncWriteEncoderW w b.debug d address 1 2 (takenFrom it.next rounds 0).1).run q with ⟨s', _ | e | _ | _⟩
    · rw [hx] at hno; exact absurd rfl hno
    · exact .inr ⟨e, rfl⟩
    · exact .inl rfl
    · rw [hx] at hnh; exact absurd rfl hnh

/-- **C94** `bulk_write`, if the counting ends and the writing does not. -/
theorem c94_bulk_write_written {w : Nat} (hw : 16 ≤ w) (it : StreamWrites) (ns : List Nat) {b : Bus} (hb : b.WInv)
    (hl : b.writeBuffer.length < 2 ^ (w - 1)) (hc : ∀ n ∈ ns, n < 2 ^ (w - 1))
    (hd : ∀ i c, it.written i = some c → c.data.length < 2 ^ (w - 1)) (h1 : GivesItems it.counted ns) (h2 : NeverEnds it.written)
    (rounds : Nat) (hr : ns.length < rounds ∧ b.writeBuffer.length ≤ rounds) :
    NothingSent b (Client.bulkWriteE w rounds it b) := by
  have h16 := two_pow_16 hw
  have hhalf := two_pow_half hw
  unfold Client.bulkWriteE
  rw [SO.get_bind, bulkWriteCountE_eq, takenFrom_ends h1 rounds 0 (by omega) (by omega), bind_endCount_true, List.drop_zero]
  rcases Client.bulkWriteCountW_cases (ε := WriteError) hw b.debug ns 0 hc (by omega) with h | ⟨h0, h⟩
  · rw [h, SO.lift_panic_bind]; exact ⟨⟨b.writeBuffer, rfl⟩, .inl rfl⟩
  · rw [h, SO.lift_ok_bind]
    refine packetW_encoder_panics hw _ _ hb hl (Nat.mod_lt _ (by omega)) fun hfit => ?_
    have hlen := Bus.paramSlice_length hfit
    dsimp only
    rw [bulkWriteLoopE_eq]
    refine bind_endOf_panic _ (Client.bulkWriteLoopW_bad hw _ 0 _ (fun c hcm => ?_) ?_ (by omega) (by rw [hlen]; omega))
    · obtain ⟨j, hj⟩ := takenFrom_mem rounds 0 hcm
      exact hd j c hj
    · rw [hlen]
      have hsize : ∀ items : List BulkWriteData, 5 * items.length ≤ Client.bulkWriteSize items := by
        intro items
        induction items with
        | nil => simp
        | cons c rest ih => rw [Client.bulkWriteSize_cons, List.length_cons]; omega
      have := hsize (takenFrom it.written rounds 0).1
      rw [(takenFrom_endless h2 rounds 0).1] at this
      omega

theorem bulkWriteCountW_large {ε : Type} {w : Nat} {debug : Bool} {m : Nat} (hm : 65535 < m) : ∀ (counted : List Nat) (n : Nat),
    m ∈ counted → (∀ c ∈ counted, c < 2 ^ (w - 1)) → 16 ≤ w → n < 2 ^ w →
    Client.bulkWriteCountW (ε := ε) w debug counted n = .panic := by
  intro counted n hmem hc hw hn
  rcases Client.bulkWriteCountW_cases (ε := ε) hw debug counted n hc hn with h | ⟨h0, h⟩
  · exact h
  · have := h0 m hmem
    omega

theorem bulkWriteCountW_overflow {ε : Type} {w : Nat} (hw : 16 ≤ w) : ∀ (counted : List Nat) (n : Nat),
    (∀ c ∈ counted, c < 2 ^ (w - 1)) → n < 2 ^ w → 2 ^ w ≤ n + 5 * counted.length →
    Client.bulkWriteCountW (ε := ε) w true counted n = .panic := by
  have h16 := two_pow_16 hw
  have hhalf := two_pow_half hw
  intro counted
  induction counted with
  | nil => intro n _ hn h; simp at h; omega
  | cons c rest ih =>
    intro n hsl hn h
    have hcl := hsl c (by simp)
    unfold Client.bulkWriteCountW
    by_cases hc : c > 65535
    · rw [if_pos hc]
    · rw [if_neg hc, usizeAdd_ok (by omega), Outcome.ok_bind]
      by_cases hs : n + (5 + c) < 2 ^ w
      · rw [usizeAdd_ok hs, Outcome.ok_bind]
        refine ih _ (fun x hx => hsl x (by simp [hx])) hs ?_
        rw [List.length_cons] at h
        omega
      · have : usizeAdd (ε := ε) w true n (5 + c) = .panic := by unfold usizeAdd; rw [if_neg hs]; rfl
        rw [this]
        rfl

theorem bulkWriteCountW_wraps {ε : Type} {w : Nat} (hw : 16 ≤ w) : ∀ (counted : List Nat) (n : Nat),
    (∀ c ∈ counted, c ≤ 65535 ∧ c < 2 ^ (w - 1)) → ∃ m, Client.bulkWriteCountW (ε := ε) w false counted n = .ok m := by
  have h16 := two_pow_16 hw
  have hhalf := two_pow_half hw
  intro counted
  induction counted with
  | nil => intro n _; exact ⟨n, rfl⟩
  | cons c rest ih =>
    intro n hsl
    have hcl := hsl c (by simp)
    unfold Client.bulkWriteCountW
    rw [if_neg (by omega), usizeAdd_ok (by omega), Outcome.ok_bind]
    have hex : ∃ m, usizeAdd (ε := ε) w false n (5 + c) = .ok m := by
      unfold usizeAdd
      split
      · exact ⟨_, rfl⟩
      · exact ⟨_, rfl⟩
    obtain ⟨m, hm⟩ := hex
    rw [hm, Outcome.ok_bind]
    exact ih m fun x hx => hsl x (by simp [hx])

theorem takenFrom_has {α : Type} {next : Nat → Option α} (h : NeverEnds next) {a : α} {j : Nat} (hj : next j = some a) (rounds : Nat) :
    ∀ i, i ≤ j → j < i + rounds → a ∈ (takenFrom next rounds i).1 := by
  induction rounds with
  | zero => intro i h1 h2; omega
  | succ rounds ih =>
    intro i h1 h2
    obtain ⟨c, hc⟩ := h i
    rw [takenFrom, hc]
    by_cases hij : i = j
    · subst hij
      rw [hc] at hj
      simp [Option.some.inj hj]
    · exact List.mem_cons_of_mem _ (ih (i + 1) (by omega) (by omega))

/-- **C94** `bulk_write`, if the counting never ends. With an item that is too large the call panics, and so it does in a debug
build, where the sum overflows; in all these cases nothing is sent. -/
theorem c94_bulk_write_panics {w : Nat} (hw : 16 ≤ w) (it : StreamWrites) (b : Bus) (hi : NeverEnds it.counted)
    (hc : ∀ i n, it.counted i = some n → n < 2 ^ (w - 1)) (rounds : Nat)
    (h : (∃ i n, it.counted i = some n ∧ 65535 < n ∧ i < rounds) ∨ (b.debug = true ∧ 2 ^ w ≤ rounds)) :
    Client.bulkWriteE w rounds it b = (b, .panic) := by
  have h16 := two_pow_16 hw
  have hsl : ∀ c ∈ (takenFrom it.counted rounds 0).1, c < 2 ^ (w - 1) := fun c hcm => by
    obtain ⟨j, hj⟩ := takenFrom_mem rounds 0 hcm
    exact hc j c hj
  have hp : Client.bulkWriteCountW (ε := WriteError) w b.debug (takenFrom it.counted rounds 0).1 0 = .panic := by
    rcases h with ⟨i, n, h1, h2, h3⟩ | ⟨h1, h2⟩
    · exact bulkWriteCountW_large h2 _ _ (takenFrom_has hi h1 rounds 0 (by omega) (by omega)) hsl hw (by omega)
    · rw [h1]
      refine bulkWriteCountW_overflow hw _ _ hsl (by omega) ?_
      rw [(takenFrom_endless hi rounds 0).1]
      omega
  unfold Client.bulkWriteE
  rw [SO.get_bind, bulkWriteCountE_eq, hp]
  rfl

/-- **C94** Otherwise, in a release build, `bulk_write` counts forever: no number of rounds is enough. -/
theorem c94_bulk_write_hangs {w : Nat} (hw : 16 ≤ w) (it : StreamWrites) (b : Bus) (hb : b.debug = false) (hi : NeverEnds it.counted)
    (hc : ∀ i n, it.counted i = some n → n ≤ 65535 ∧ n < 2 ^ (w - 1)) (rounds : Nat) :
    Client.bulkWriteE w rounds it b = (b, .hang) := by
  obtain ⟨m, hm⟩ := bulkWriteCountW_wraps (ε := WriteError) hw (takenFrom it.counted rounds 0).1 0 fun c hcm => by
    obtain ⟨j, hj⟩ := takenFrom_mem rounds 0 hcm
    exact hc j c hj
  unfold Client.bulkWriteE
  rw [← hb] at hm
  rw [SO.get_bind, bulkWriteCountE_eq, hm, Outcome.ok_bind, (takenFrom_endless hi rounds 0).2]
  rfl

/-! Concrete cases. -/

/-- `std::iter::repeat`. -/
def forever {α : Type} (a : α) : Nat → Option α := fun _ => some a

theorem forever_endless {α : Type} (a : α) : NeverEnds (forever a) := fun _ => ⟨a, rfl⟩

example := c94_sync_write_bytes (w := 32) (by decide) 116#16 2#16 ⟨3, forever ⟨1#8, [5#8, 6#8], [5#8, 6#8]⟩⟩
  (quietBus_wInv false 40 (by decide)) (by simp [quietBus, headerPrefix]) (by decide) (forever_endless _) 1000 (by simp [quietBus, headerPrefix])

theorem unsigned_returns (n : Nat) : EncodeReturns (DataTy.unsigned n) := by
  intro v s
  by_cases h : n ≤ s.length
  · simp only [DataTy.unsigned, encodeNumber_ok h]; simp
  · simp only [DataTy.unsigned, encodeNumber_short (show s.length < n by omega)]; simp

example := c94_sync_write (w := 32) (by decide) (DataTy.unsigned 1) (unsigned_returns 1) 64#16 ⟨3, forever ⟨1#8, 1#8⟩⟩
  (quietBus_wInv true 40 (by decide)) (by simp [quietBus, headerPrefix]) (forever_endless _) 1000 (by simp [quietBus, headerPrefix])

example := c94_bulk_write_written (w := 32) (by decide) ⟨fun i => if i = 0 then some 1 else none, forever ⟨1#8, 64#16, [1#8]⟩⟩ [1]
  (quietBus_wInv true 40 (by decide)) (by simp [quietBus, headerPrefix]) (by decide)
  (by intro i c h; simp only [forever, Option.some.injEq] at h; subst h; decide)
  ⟨by intro i h; match i, h with | 0, _ => rfl, rfl⟩ (forever_endless _) 1000 (by simp [quietBus, headerPrefix])

example := c94_bulk_write_panics (w := 16) (by decide) ⟨forever 1, forever ⟨1#8, 64#16, [1#8]⟩⟩ (quietBus true 40)
  (forever_endless _) (by intro i c h; simp only [forever, Option.some.injEq] at h; subst h; decide) 65536 (.inr ⟨rfl, by decide⟩)

example := c94_bulk_write_hangs (w := 64) (by decide) ⟨forever 1, forever ⟨1#8, 64#16, [1#8]⟩⟩ (quietBus false 40) rfl
  (forever_endless _) (by intro i c h; simp only [forever, Option.some.injEq] at h; subst h; decide) 1000000

end Dxl.Props
