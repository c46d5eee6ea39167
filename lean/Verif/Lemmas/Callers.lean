import Verif.Lemmas.Words

/-! # What the encoders of `sync_write_bytes`, `sync_write` and `bulk_write` do with the items of a caller -/

namespace Dxl
open Spec

/-- The item of a caller whose `as_ref()` returns the same slice twice. -/
def CallerCommand.ofData (c : SyncWriteData (List Byte)) : CallerCommand := ⟨c.motorId, c.data, c.data⟩

/-- The data of the item has the announced length, both times it is looked at. -/
def CallerCommand.Good (count : Nat) (c : CallerCommand) : Prop := c.checked.length = count ∧ c.copied.length = count

/-- The bytes of the item in the packet. -/
def CallerCommand.bytes (c : CallerCommand) : List Byte := c.motorId :: c.copied

namespace Client

theorem le_mul_of_le {i n k : Nat} (h : i ≤ n) : i * k ≤ n * k := Nat.mul_le_mul_right k h

/-- The loop of `sync_write_bytes` with the items of an honest caller. -/
theorem syncWriteBytesLoopW_eq {w : Nat} {debug : Bool} {count stride : Nat} : ∀ (data : List (SyncWriteData (List Byte))) (i : Nat)
    (l : List Byte), 4 + (i + data.length) * stride < 2 ^ w →
    syncWriteBytesLoopW w debug count stride i (data.map CallerCommand.ofData) l = syncWriteBytesLoop count stride i data l := by
  intro data
  induction data with
  | nil => intro i l _; rfl
  | cons c rest ih =>
    intro i l h
    have h1 := le_mul_of_le (k := stride) (Nat.le_add_right i (c :: rest).length)
    rw [List.map_cons]
    unfold syncWriteBytesLoopW syncWriteBytesLoop
    refine SO.bind_agree rfl fun _ s _ => ?_
    rw [usizeMul_ok (by omega), SO.lift_ok_bind, usizeAdd_ok (by omega), SO.lift_ok_bind]
    refine SO.bind_agree (onSliceFrom_onSlice _ _ _ _) fun _ s' _ => ?_
    exact ih (i + 1) s' (by rw [List.length_cons] at h; rw [show i + 1 + rest.length = i + (rest.length + 1) by omega]; exact h)

theorem syncWriteLoopW_eq {α : Type} {w : Nat} {debug : Bool} {d : DataTy α} {stride : Nat} :
    ∀ (data : List (SyncWriteData α)) (i : Nat) (l : List Byte), 4 + (i + data.length) * stride < 2 ^ w →
    syncWriteLoopW w debug d stride i data l = syncWriteLoop d stride i data l := by
  intro data
  induction data with
  | nil => intro i l _; rfl
  | cons c rest ih =>
    intro i l h
    have h1 := le_mul_of_le (k := stride) (Nat.le_add_right i (c :: rest).length)
    unfold syncWriteLoopW syncWriteLoop
    rw [usizeMul_ok (by omega), SO.lift_ok_bind, usizeAdd_ok (by omega), SO.lift_ok_bind]
    refine SO.bind_agree (onSliceFrom_onSlice _ _ _ _) fun _ s' _ => ?_
    exact ih (i + 1) s' (by rw [List.length_cons] at h; rw [show i + 1 + rest.length = i + (rest.length + 1) by omega]; exact h)

/-- All items have the right length and fit: they are written one after the other, and the rest of the slice is left as it was. -/
theorem syncWriteBytesLoopW_good {w : Nat} {debug : Bool} {count : Nat} : ∀ (items : List CallerCommand) (i : Nat) (l : List Byte),
    (∀ c ∈ items, c.Good count) → 4 + i * (1 + count) + items.length * (1 + count) ≤ l.length → l.length < 2 ^ w →
    syncWriteBytesLoopW w debug count (1 + count) i items l =
      (l.take (4 + i * (1 + count)) ++ items.flatMap CallerCommand.bytes ++
        l.drop (4 + i * (1 + count) + items.length * (1 + count)), .ok ()) := by
  intro items
  induction items with
  | nil => intro i l _ _ _; simp [syncWriteBytesLoopW]
  | cons c rest ih =>
    intro i l hc hl hw
    have hcl := hc c (by simp)
    rw [List.length_cons, Nat.succ_mul] at hl
    have e : (i + 1) * (1 + count) = i * (1 + count) + (1 + count) := Nat.succ_mul _ _
    unfold syncWriteBytesLoopW
    rw [decide_eq_true hcl.1, SO.assert_true, SO.pure_bind', usizeMul_ok (by omega), SO.lift_ok_bind,
      usizeAdd_ok (by omega), SO.lift_ok_bind]
    have hf := entry_fills (hcl.2 ▸ fills_copyFromSlice c.copied) c.motorId
    rw [SO.bind_ok ((onSliceFrom_onSlice _ _ _ _).trans (fills_at hf (by omega))), ih]
    · have t1 : (l.take (4 + i * (1 + count)) ++ c.motorId :: c.copied).length = 4 + (i + 1) * (1 + count) := by
        rw [e]; simp [hcl.2]; omega
      have e1 : 4 + i * (1 + count) + (1 + count) = 4 + (i + 1) * (1 + count) := by omega
      have e2 : 4 + i * (1 + count) + (rest.length + 1) * (1 + count) =
          4 + (i + 1) * (1 + count) + rest.length * (1 + count) := by rw [Nat.succ_mul]; omega
      rw [e1, List.take_left' t1, drop_replaced t1 _ _ rfl, List.flatMap_cons, List.length_cons, e2]
      simp only [List.append_assoc, CallerCommand.bytes]
    · exact fun x hx => hc x (by simp [hx])
    · rw [e]; simp [hcl.2]; omega
    · simp [hcl.2]; omega

/-- An item of another length, or more items than there is room for: the encoder panics. -/
theorem syncWriteBytesLoopW_bad {w : Nat} {debug : Bool} {count : Nat} : ∀ (items : List CallerCommand) (i : Nat) (l : List Byte),
    ¬ ((∀ c ∈ items, c.Good count) ∧ 4 + i * (1 + count) + items.length * (1 + count) ≤ l.length) →
    4 + i * (1 + count) ≤ l.length → l.length < 2 ^ w →
    (syncWriteBytesLoopW w debug count (1 + count) i items l).2 = .panic := by
  intro items
  induction items with
  | nil => intro i l h hl _; exact absurd ⟨by simp, by simpa using hl⟩ h
  | cons c rest ih =>
    intro i l h hl hw
    have e : (i + 1) * (1 + count) = i * (1 + count) + (1 + count) := Nat.succ_mul _ _
    unfold syncWriteBytesLoopW
    by_cases hc1 : c.checked.length = count
    · rw [decide_eq_true hc1, SO.assert_true, SO.pure_bind', usizeMul_ok (by omega), SO.lift_ok_bind,
        usizeAdd_ok (by omega), SO.lift_ok_bind]
      by_cases hfit : 4 + i * (1 + count) + (1 + count) ≤ l.length
      · by_cases hc2 : c.copied.length = count
        · have hf := entry_fills (hc2 ▸ fills_copyFromSlice c.copied) c.motorId
          rw [SO.bind_ok ((onSliceFrom_onSlice _ _ _ _).trans (fills_at hf (by omega)))]
          apply ih
          · intro ⟨h1, h2⟩
            apply h
            refine ⟨fun x hx => ?_, ?_⟩
            · rcases List.mem_cons.mp hx with rfl | hx
              · exact ⟨hc1, hc2⟩
              · exact h1 x hx
            · rw [List.length_cons, Nat.succ_mul]
              rw [e] at h2
              simp [hc2] at h2
              omega
          · rw [e]; simp [hc2]; omega
          · simp [hc2]; omega
        · have hstep : ∃ l', onSliceFrom (4 + i * (1 + count)) (onSlice 0 (1 + count) (do
              setIdx 0 c.motorId
              onSliceFrom 1 (copyFromSlice c.copied) : SO (List Byte) BufferTooSmall Unit)) l = (l', .panic) := by
            rw [onSliceFrom_onSlice, onSlice_ok _ (by omega) hfit]
            generalize hg : (l.take (4 + i * (1 + count) + (1 + count))).drop (4 + i * (1 + count)) = g
            have hgl : g.length = 1 + count := by rw [← hg]; simp; omega
            rw [SO.bind_ok (setIdx_ok _ (by omega)), onSliceFrom_ok _ (by simp; omega), copyFromSlice, if_neg (by simp; omega)]
            exact ⟨_, rfl⟩
          obtain ⟨l', hl'⟩ := hstep
          rw [SO.bind_panic hl']
      · have hstep : onSliceFrom (4 + i * (1 + count)) (onSlice 0 (1 + count) (do
              setIdx 0 c.motorId
              onSliceFrom 1 (copyFromSlice c.copied) : SO (List Byte) BufferTooSmall Unit)) l = (l, .panic) := by
          rw [onSliceFrom_onSlice, onSlice, if_neg (by omega)]
        rw [SO.bind_panic hstep]
    · rw [decide_eq_false hc1, SO.assert_false]
      rfl

/-- The whole encoder of `sync_write_bytes`. -/
theorem syncWriteBytesEncoderW_good {w : Nat} {debug : Bool} {address count : U16} {items : List CallerCommand} {s : List Byte}
    (hc : ∀ c ∈ items, c.Good count.toNat) (hs : 4 + items.length * (1 + count.toNat) ≤ s.length) (hw : s.length < 2 ^ w) :
    (syncWriteBytesEncoderW w debug address count (1 + count.toNat) items).run s =
      (le16 address ++ le16 count ++ items.flatMap CallerCommand.bytes ++ s.drop (4 + items.length * (1 + count.toNat)), .ok ()) := by
  unfold syncWriteBytesEncoderW
  dsimp only
  rw [SO.bind_ok (writeU16Le_at address (by omega)), SO.bind_ok (writeU16Le_at count (by simp [le16]; omega))]
  rw [syncWriteBytesLoopW_good items 0 _ hc (by simp [le16]; omega) (by simp [le16]; omega)]
  match s, hs with
  | a0 :: a1 :: a2 :: a3 :: t, hs =>
    simp [le16, Nat.add_comm 4]
  | [], hs | [_], hs | [_, _], hs | [_, _, _], hs => exfalso; simp only [List.length_cons, List.length_nil] at hs; omega

theorem syncWriteBytesEncoderW_bad {w : Nat} {debug : Bool} {address count : U16} {items : List CallerCommand} {s : List Byte}
    (h : ¬ ((∀ c ∈ items, c.Good count.toNat) ∧ 4 + items.length * (1 + count.toNat) ≤ s.length)) (hw : s.length < 2 ^ w) :
    ((syncWriteBytesEncoderW w debug address count (1 + count.toNat) items).run s).2 = .panic := by
  unfold syncWriteBytesEncoderW
  dsimp only
  match s, h, hw with
  | a0 :: a1 :: a2 :: a3 :: t, h, hw =>
    rw [SO.bind_ok (writeU16Le_at address (by simp)), SO.bind_ok (writeU16Le_at count (by simp [le16]))]
    refine syncWriteBytesLoopW_bad _ _ _ ?_ (by simp [le16]) (by simpa [le16] using hw)
    intro ⟨h1, h2⟩
    apply h
    refine ⟨h1, ?_⟩
    simp [le16] at h2 ⊢
    omega
  | [], _, _ => rfl
  | [_], _, _ => rfl
  | [_, _], _, _ => rfl
  | [_, _, _], _, _ => rfl

/-- `sync_write` only succeeds if all items fit. -/
theorem syncWriteLoopW_fits {α : Type} {w : Nat} {debug : Bool} {d : DataTy α} {stride : Nat} :
    ∀ (items : List (SyncWriteData α)) (i : Nat) (l : List Byte), 4 + i * stride ≤ l.length → l.length < 2 ^ w →
    (syncWriteLoopW w debug d stride i items l).2 = .ok () → 4 + (i + items.length) * stride ≤ l.length := by
  intro items
  induction items with
  | nil => intro i l h _ _; simpa using h
  | cons c rest ih =>
    intro i l h hw hok
    have e : (i + 1) * stride = i * stride + stride := Nat.succ_mul _ _
    unfold syncWriteLoopW at hok
    rw [usizeMul_ok (by omega), SO.lift_ok_bind, usizeAdd_ok (by omega), SO.lift_ok_bind, SO.bind_def, onSliceFrom_onSlice] at hok
    by_cases hfit : 4 + i * stride + stride ≤ l.length
    · have hk : KeepsLength (onSlice (4 + i * stride) (4 + i * stride + stride) (do
          setIdx 0 c.motorId
          onSliceFrom 1 (d.encode c.data) : SO (List Byte) BufferTooSmall Unit)) :=
        .onSlice _ _ (.bind (.setIdx _ _) fun _ => .onSliceFrom _ (d.encode_length _))
      have hkl := hk l
      rcases hx : onSlice (4 + i * stride) (4 + i * stride + stride) (do
          setIdx 0 c.motorId
          onSliceFrom 1 (d.encode c.data) : SO (List Byte) BufferTooSmall Unit) l with ⟨l', o⟩
      rw [hx] at hok hkl
      cases o with
      | ok u =>
        have := ih (i + 1) l' (by rw [hkl, e]; omega) (by rw [hkl]; exact hw) hok
        rw [hkl] at this
        rw [List.length_cons, show i + (rest.length + 1) = i + 1 + rest.length by omega]
        exact this
      | err e => simp at hok
      | panic => simp at hok
      | hang => simp at hok
    · rw [onSlice, if_neg (by omega)] at hok
      simp at hok

theorem syncWriteEncoderW_fits {α : Type} {w : Nat} {debug : Bool} {d : DataTy α} {address : U16} {count stride : Nat}
    {items : List (SyncWriteData α)} {s : List Byte} (hw : s.length < 2 ^ w)
    (hok : ((syncWriteEncoderW w debug d address count stride items).run s).2 = .ok ()) :
    4 + items.length * stride ≤ s.length := by
  unfold syncWriteEncoderW at hok
  dsimp only at hok
  match s, hw, hok with
  | a0 :: a1 :: a2 :: a3 :: t, hw, hok =>
    rw [SO.bind_ok (writeU16Le_at address (by simp)), SO.bind_ok (writeU16Le_at _ (by simp [le16]))] at hok
    have := syncWriteLoopW_fits _ _ _ (by simp [le16]) (by simpa [le16] using hw) hok
    simp [le16] at this ⊢
    omega
  | [], _, hok => simp [onSliceFrom, onSlice, writeU16Le, setIdx, SO.bind_def] at hok
  | [_], _, hok => simp [onSliceFrom, onSlice, writeU16Le, setIdx, SO.bind_def] at hok
  | [_, _], _, hok => simp [onSliceFrom, onSlice, writeU16Le, setIdx, SO.bind_def] at hok
  | [_, _, _], _, hok => simp [onSliceFrom, onSlice, writeU16Le, setIdx, SO.bind_def] at hok

/-! ## `bulk_write` -/

/-- One entry of a bulk write, written at the start of a slice. -/
def writeEntry (c : BulkWriteData) : SO (List Byte) BufferTooSmall Unit := do
  onSliceFrom 0 (writeU8Le c.motorId)
  onSliceFrom 1 (writeU16Le c.address)
  onSliceFrom 3 (writeU16Le (BitVec.ofNat 16 c.data.length))
  onSliceFrom 5 (onSlice 0 c.data.length (copyFromSlice c.data))

theorem writeEntry_fits (c : BulkWriteData) (s : List Byte) (hs : 5 + c.data.length ≤ s.length) :
    writeEntry c s = (bulkWriteEntry c ++ s.drop (5 + c.data.length), .ok ()) := by
  unfold writeEntry
  match s, hs with
  | a :: b :: c' :: d :: e :: t, hs =>
    rw [SO.bind_ok (writeU8Le_at _ (by simp)), SO.bind_ok (writeU16Le_at _ (by simp)),
      SO.bind_ok (writeU16Le_at _ (by simp [le16])), onSliceFrom_onSlice, fills_at (fills_copyFromSlice _) (by simp [le16] at hs ⊢; omega)]
    simp [le16, bulkWriteEntry, Nat.add_comm 5]
  | [], hs | [_], hs | [_, _], hs | [_, _, _], hs | [_, _, _, _], hs =>
    exfalso; simp only [List.length_cons, List.length_nil] at hs; omega

theorem writeEntry_panics (c : BulkWriteData) (s : List Byte) (hs : s.length < 5 + c.data.length) : (writeEntry c s).2 = .panic := by
  unfold writeEntry
  match s, hs with
  | a :: b :: c' :: d :: e :: t, hs =>
    rw [SO.bind_ok (writeU8Le_at _ (by simp)), SO.bind_ok (writeU16Le_at _ (by simp)),
      SO.bind_ok (writeU16Le_at _ (by simp [le16])), onSliceFrom_onSlice, onSlice, if_neg (by simp [le16] at hs ⊢; omega)]
  | [], _ => rfl
  | [_], _ => rfl
  | [_, _], _ => rfl
  | [_, _, _], _ => rfl
  | [_, _, _, _], _ => rfl

theorem bulkWriteSize_cons (c : BulkWriteData) (rest : List BulkWriteData) :
    bulkWriteSize (c :: rest) = (5 + c.data.length) + bulkWriteSize rest := by simp [bulkWriteSize]

theorem bulkWriteLoopW_cons (w : Nat) (debug : Bool) (offset : Nat) (c : BulkWriteData) (rest : List BulkWriteData) (l : List Byte)
    (ho : offset ≤ l.length) : bulkWriteLoopW w debug offset (c :: rest) l = (do
      let size ← SO.lift (usizeAdd w debug 5 c.data.length)
      let next ← SO.lift (usizeAdd w debug offset size)
      onSliceFrom offset (writeEntry c)
      bulkWriteLoopW w debug next rest : SO (List Byte) BufferTooSmall Unit) l := by
  rw [bulkWriteLoopW, SO.get_bind, decide_eq_true ho, SO.assert_true, SO.pure_bind']
  rfl

/-- All entries fit. -/
theorem bulkWriteLoopW_good {w : Nat} {debug : Bool} : ∀ (items : List BulkWriteData) (offset : Nat) (l : List Byte),
    offset + bulkWriteSize items ≤ l.length → l.length < 2 ^ w →
    bulkWriteLoopW w debug offset items l =
      (l.take offset ++ items.flatMap bulkWriteEntry ++ l.drop (offset + bulkWriteSize items), .ok ()) := by
  intro items
  induction items with
  | nil => intro i l _ _; simp [bulkWriteLoopW, bulkWriteSize]
  | cons c rest ih =>
    intro offset l hl hw
    rw [bulkWriteSize_cons] at hl ⊢
    have hel := bulkWriteEntry_length c
    rw [bulkWriteLoopW_cons _ _ _ _ _ _ (by omega), usizeAdd_ok (by omega), SO.lift_ok_bind, usizeAdd_ok (by omega), SO.lift_ok_bind]
    have hstep : onSliceFrom offset (writeEntry c) l =
        (l.take offset ++ (bulkWriteEntry c ++ l.drop (offset + (5 + c.data.length))), .ok ()) := by
      rw [onSliceFrom_ok _ (by omega), writeEntry_fits _ _ (by simp; omega), List.drop_drop]
    rw [SO.bind_ok hstep, ih]
    · have t1 : (l.take offset ++ bulkWriteEntry c).length = offset + (5 + c.data.length) := by
        simp [hel]; omega
      rw [← List.append_assoc, ← Nat.add_assoc] at *
      rw [List.take_left' t1, drop_replaced t1 _ _ rfl, List.flatMap_cons]
      simp only [List.append_assoc, Nat.add_assoc]
    · simp [hel]; omega
    · simp [hel]; omega

/-- Too many bytes for the slice: the encoder panics. -/
theorem bulkWriteLoopW_bad {w : Nat} (hw : 16 ≤ w) {debug : Bool} : ∀ (items : List BulkWriteData) (offset : Nat) (l : List Byte),
    (∀ c ∈ items, c.data.length < 2 ^ (w - 1)) → l.length < offset + bulkWriteSize items → offset ≤ l.length → l.length < 2 ^ (w - 1) →
    (bulkWriteLoopW w debug offset items l).2 = .panic := by
  have h16 := two_pow_16 hw
  have hhalf := two_pow_half hw
  intro items
  induction items with
  | nil => intro i l _ h ho _; simp [bulkWriteSize] at h; omega
  | cons c rest ih =>
    intro offset l hc hl ho hlen
    rw [bulkWriteSize_cons] at hl
    have hel := bulkWriteEntry_length c
    have hcl := hc c (by simp)
    rw [bulkWriteLoopW_cons _ _ _ _ _ _ ho, usizeAdd_ok (by omega), SO.lift_ok_bind]
    by_cases hfit : offset + (5 + c.data.length) ≤ l.length
    · rw [usizeAdd_ok (by omega), SO.lift_ok_bind]
      have hstep : onSliceFrom offset (writeEntry c) l =
          (l.take offset ++ (bulkWriteEntry c ++ l.drop (offset + (5 + c.data.length))), .ok ()) := by
        rw [onSliceFrom_ok _ ho, writeEntry_fits _ _ (by simp; omega), List.drop_drop]
      rw [SO.bind_ok hstep]
      have hll : (l.take offset ++ (bulkWriteEntry c ++ l.drop (offset + (5 + c.data.length)))).length = l.length := by
        simp [hel]; omega
      exact ih _ _ (fun x hx => hc x (by simp [hx])) (by rw [hll]; omega) (by rw [hll]; omega) (by rw [hll]; exact hlen)
    · have hstep : (onSliceFrom offset (writeEntry c) l).2 = .panic := by
        rw [onSliceFrom_ok _ ho]
        exact writeEntry_panics _ _ (by simp; omega)
      rcases usizeAdd_cases (ε := BufferTooSmall) w debug offset (5 + c.data.length) with h | ⟨h, _, _⟩
      · rw [h, SO.lift_ok_bind]
        exact congrArg Prod.snd (SO.bind_panic (s' := (onSliceFrom offset (writeEntry c) l).1) (by rw [← hstep]) _)
      · rw [h, SO.lift_panic_bind]

/-- The loop of `bulk_write`, as with natural numbers. -/
theorem bulkWriteLoopW_eq {w : Nat} {debug : Bool} : ∀ (items : List BulkWriteData) (offset : Nat) (l : List Byte),
    offset + bulkWriteSize items < 2 ^ w → bulkWriteLoopW w debug offset items l = bulkWriteLoop offset items l := by
  intro items
  induction items with
  | nil => intro i l _; rfl
  | cons c rest ih =>
    intro offset l h
    rw [bulkWriteSize_cons] at h
    by_cases ho : offset ≤ l.length
    · rw [bulkWriteLoopW_cons _ _ _ _ _ _ ho, usizeAdd_ok (by omega), SO.lift_ok_bind, usizeAdd_ok (by omega), SO.lift_ok_bind,
        bulkWriteLoop]
      refine SO.bind_agree ?_ fun _ s _ => ih _ _ (by omega)
      rw [onSliceFrom_ok _ ho, onSliceFrom_ok _ ho]
      unfold writeEntry
      have : ∀ s, (do
          onSliceFrom 0 (writeU8Le c.motorId)
          onSliceFrom 1 (writeU16Le c.address)
          onSliceFrom 3 (writeU16Le (BitVec.ofNat 16 c.data.length))
          onSliceFrom 5 (onSlice 0 c.data.length (copyFromSlice c.data)) : SO (List Byte) BufferTooSmall Unit) s = (do
          onSliceFrom 0 (writeU8Le c.motorId)
          onSliceFrom 1 (writeU16Le c.address)
          onSliceFrom 3 (writeU16Le (BitVec.ofNat 16 c.data.length))
          onSlice 5 (5 + c.data.length) (copyFromSlice c.data) : SO (List Byte) BufferTooSmall Unit) s := by
        intro s
        refine SO.bind_agree rfl fun _ s _ => ?_
        refine SO.bind_agree rfl fun _ s _ => ?_
        refine SO.bind_agree rfl fun _ s _ => ?_
        exact onSliceFrom_onSlice _ _ _ _
      rw [this]
    · rw [bulkWriteLoopW, SO.get_bind, decide_eq_false ho, SO.assert_false, bulkWriteLoop]
      have : onSliceFrom offset (do
          onSliceFrom 0 (writeU8Le c.motorId)
          onSliceFrom 1 (writeU16Le c.address)
          onSliceFrom 3 (writeU16Le (BitVec.ofNat 16 c.data.length))
          onSlice 5 (5 + c.data.length) (copyFromSlice c.data) : SO (List Byte) BufferTooSmall Unit) l = (l, .panic) := by
        rw [onSliceFrom, onSlice, if_neg (by omega)]
      rw [SO.bind_panic this]
      rfl

/-- Sum of the sizes that are counted in the first pass. -/
def countedSize (counted : List Nat) : Nat := (counted.map (5 + ·)).sum

/-- The first loop of `bulk_write`: the sum modulo the word size, or a panic. -/
theorem bulkWriteCountW_cases {ε : Type} {w : Nat} (hw : 16 ≤ w) (debug : Bool) : ∀ (counted : List Nat) (n : Nat),
    (∀ c ∈ counted, c < 2 ^ (w - 1)) → n < 2 ^ w →
    bulkWriteCountW (ε := ε) w debug counted n = .panic ∨
    ((∀ c ∈ counted, c ≤ 65535) ∧ bulkWriteCountW (ε := ε) w debug counted n = .ok ((n + countedSize counted) % 2 ^ w)) := by
  have h16 := two_pow_16 hw
  have hhalf := two_pow_half hw
  intro counted
  induction counted with
  | nil => intro n _ hn; right; simp [bulkWriteCountW, countedSize, Nat.mod_eq_of_lt hn]
  | cons c rest ih =>
    intro n hsl hn
    have hcl := hsl c (by simp)
    unfold bulkWriteCountW
    by_cases hc : c > 65535
    · rw [if_pos hc]; exact .inl rfl
    · rw [if_neg hc, usizeAdd_ok (by omega), Outcome.ok_bind]
      rcases usizeAdd_cases (ε := ε) w debug n (5 + c) with h | ⟨h, _, _⟩
      · rw [h, Outcome.ok_bind]
        rcases ih ((n + (5 + c)) % 2 ^ w) (fun x hx => hsl x (by simp [hx])) (Nat.mod_lt _ (by omega)) with h1 | ⟨h1, h2⟩
        · exact .inl h1
        · right
          refine ⟨fun x hx => ?_, ?_⟩
          · rcases List.mem_cons.mp hx with rfl | hx
            · omega
            · exact h1 x hx
          · rw [h2, Nat.mod_add_mod]
            simp [countedSize, Nat.add_assoc]
      · rw [h]; exact .inl rfl

theorem bulkWriteCountW_eq {ε : Type} {w : Nat} {debug : Bool} : ∀ (writes : List BulkWriteData) (n : Nat),
    n + bulkWriteSize writes < 2 ^ w →
    bulkWriteCountW (ε := ε) w debug (writes.map (·.data.length)) n = bulkWriteCount writes n := by
  intro writes
  induction writes with
  | nil => intro n _; rfl
  | cons c rest ih =>
    intro n h
    rw [bulkWriteSize_cons] at h
    rw [List.map_cons]
    unfold bulkWriteCountW bulkWriteCount
    split
    · rfl
    · rw [usizeAdd_ok (by omega), Outcome.ok_bind, usizeAdd_ok (by omega), Outcome.ok_bind]
      exact ih _ (by omega)

/-- What one item of `sync_write` leaves in its two bytes. -/
theorem syncItem_ok {α : Type} {d : DataTy α} {id : Byte} {v : α} {s : List Byte} (hs : s.length = 2)
    (h : ((do setIdx 0 id; onSliceFrom 1 (d.encode v) : SO (List Byte) BufferTooSmall Unit) s).2 = .ok ()) :
    ∃ old x, d.encode v [old] = ([x], .ok ()) ∧
      (do setIdx 0 id; onSliceFrom 1 (d.encode v) : SO (List Byte) BufferTooSmall Unit) s = ([id, x], .ok ()) := by
  match s, hs with
  | [a, b], _ =>
    rw [SO.bind_ok (setIdx_ok _ (by simp)), onSliceFrom_ok _ (by simp)] at h ⊢
    have hl := d.encode_length v [b]
    simp only [List.set_cons_zero, List.drop_succ_cons, List.drop_zero, List.take_succ_cons, List.take_zero] at h ⊢
    rcases hx : d.encode v [b] with ⟨r, o⟩
    rw [hx] at h hl
    simp only at h hl
    subst h
    match r, hl with
    | [x], _ => exact ⟨b, x, hx, rfl⟩

theorem syncWriteLoopW_codes {α : Type} {w : Nat} {debug : Bool} {d : DataTy α} :
    ∀ (items : List (SyncWriteData α)) (i : Nat) (l : List Byte), 4 + i * 2 ≤ l.length → l.length < 2 ^ w →
    (syncWriteLoopW w debug d 2 i items l).2 = .ok () →
    ∃ entries : List (SyncWriteData α × Byte), entries.map (·.1) = items ∧
      (∀ e ∈ entries, ∃ old, d.encode e.1.data [old] = ([e.2], .ok ())) ∧
      syncWriteLoopW w debug d 2 i items l =
        (l.take (4 + i * 2) ++ entries.flatMap (fun e => [e.1.motorId, e.2]) ++ l.drop (4 + i * 2 + items.length * 2), .ok ()) := by
  intro items
  induction items with
  | nil => intro i l h _ _; exact ⟨[], rfl, by simp, by simp [syncWriteLoopW]⟩
  | cons c rest ih =>
    intro i l h hw hok
    unfold syncWriteLoopW at hok ⊢
    rw [usizeMul_ok (by omega), SO.lift_ok_bind, usizeAdd_ok (by omega), SO.lift_ok_bind, SO.bind_def, onSliceFrom_onSlice] at hok ⊢
    by_cases hfit : 4 + i * 2 + 2 ≤ l.length
    · have hsl : ((l.take (4 + i * 2 + 2)).drop (4 + i * 2)).length = 2 := by simp; omega
      rw [onSlice_ok _ (by omega) hfit] at hok ⊢
      have hit : ((do setIdx 0 c.motorId; onSliceFrom 1 (d.encode c.data) : SO (List Byte) BufferTooSmall Unit)
          ((l.take (4 + i * 2 + 2)).drop (4 + i * 2))).2 = .ok () := by
        rcases hx : ((do setIdx 0 c.motorId; onSliceFrom 1 (d.encode c.data) : SO (List Byte) BufferTooSmall Unit)
          ((l.take (4 + i * 2 + 2)).drop (4 + i * 2))).2 with u | e | _ | _ <;> rw [hx] at hok <;> simp at hok
      obtain ⟨old, x, h1, h2⟩ := syncItem_ok hsl hit
      rw [h2] at hok ⊢
      simp only at hok ⊢
      have t1 : (l.take (4 + i * 2) ++ [c.motorId, x]).length = 4 + (i + 1) * 2 := by simp; omega
      obtain ⟨es, e1, e2, e3⟩ := ih (i + 1) _ (by simp; omega) (by simp; omega) hok
      refine ⟨(c, x) :: es, by simp [e1], ?_, ?_⟩
      · intro e he
        rcases List.mem_cons.mp he with rfl | he
        · exact ⟨old, h1⟩
        · exact e2 e he
      · rw [e3, show 4 + i * 2 + 2 = 4 + (i + 1) * 2 by omega, List.take_left' t1, drop_replaced t1 _ _ rfl, List.flatMap_cons, List.length_cons,
          show 4 + i * 2 + (rest.length + 1) * 2 = 4 + (i + 1) * 2 + rest.length * 2 by omega]
        simp only [List.append_assoc]
    · rw [onSlice, if_neg (by omega)] at hok
      simp at hok

theorem syncWriteEncoderW_codes {α : Type} {w : Nat} {debug : Bool} {d : DataTy α} {address : U16}
    {items : List (SyncWriteData α)} {s : List Byte} (hw : s.length < 2 ^ w)
    (hok : ((syncWriteEncoderW w debug d address 1 2 items).run s).2 = .ok ()) :
    ∃ entries : List (SyncWriteData α × Byte), entries.map (·.1) = items ∧
      (∀ e ∈ entries, ∃ old, d.encode e.1.data [old] = ([e.2], .ok ())) ∧
      (syncWriteEncoderW w debug d address 1 2 items).run s =
        (le16 address ++ [1#8, 0#8] ++ entries.flatMap (fun e => [e.1.motorId, e.2]) ++ s.drop (4 + items.length * 2), .ok ()) := by
  have hfit := syncWriteEncoderW_fits hw hok
  unfold syncWriteEncoderW at hok ⊢
  dsimp only at hok ⊢
  match s, hw, hok, hfit with
  | a0 :: a1 :: a2 :: a3 :: t, hw, hok, _ =>
    rw [SO.bind_ok (writeU16Le_at address (by simp)), SO.bind_ok (writeU16Le_at _ (by simp [le16]))] at hok ⊢
    obtain ⟨es, e1, e2, e3⟩ := syncWriteLoopW_codes _ _ _ (by simp [le16]) (by simpa [le16] using hw) hok
    refine ⟨es, e1, e2, ?_⟩
    rw [e3]
    simp [le16, Nat.add_comm 4]
  | [], _, _, hfit | [_], _, _, hfit | [_, _], _, _, hfit | [_, _, _], _, _, hfit =>
    exfalso; simp only [List.length_cons, List.length_nil] at hfit; omega

end Client
end Dxl
