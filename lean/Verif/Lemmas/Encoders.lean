import Verif.Lemmas.Data
import Verif.Model.Instructions

/-! # What the parameter encoders of the instructions write -/

namespace Dxl
open Spec

/-- Code that, given a slice of `n` bytes, overwrites all of it with `bytes`. -/
def Fills {ε : Type} (m : SO (List Byte) ε Unit) (n : Nat) (bytes : List Byte) : Prop :=
  ∀ s : List Byte, s.length = n → m s = (bytes, .ok ())

theorem writeU16Le_eq' {ε : Type} (v : U16) {l : List Byte} (h : 2 ≤ l.length) :
    writeU16Le (ε := ε) v l = (le16 v ++ l.drop 2, .ok ()) := by
  match l, h with
  | a :: b :: rest, _ => exact writeU16Le_eq v a b rest

theorem writeU16Le_at {ε : Type} (v : U16) {k : Nat} {l : List Byte} (h : k + 2 ≤ l.length) :
    onSliceFrom k (writeU16Le (ε := ε) v) l = (l.take k ++ le16 v ++ l.drop (k + 2), .ok ()) := by
  rw [onSliceFrom_ok _ (by omega), writeU16Le_eq' v (by simp; omega)]
  simp [List.drop_drop]

theorem writeU8Le_at {ε : Type} (v : Byte) {k : Nat} {l : List Byte} (h : k + 1 ≤ l.length) :
    onSliceFrom k (writeU8Le (ε := ε) v) l = (l.take k ++ v :: l.drop (k + 1), .ok ()) := by
  rw [onSliceFrom_ok _ (by omega)]
  unfold writeU8Le
  have hd : 0 < (l.drop k).length := by simp; omega
  rw [setIdx_ok _ hd]
  match hl : l.drop k, hd with
  | a :: t, _ =>
    have : l.drop (k + 1) = t := by rw [← List.drop_drop, hl]; rfl
    simp [this]

theorem fills_at {ε : Type} {m : SO (List Byte) ε Unit} {n : Nat} {bytes : List Byte} (hm : Fills m n bytes) {k : Nat}
    {l : List Byte} (h : k + n ≤ l.length) :
    onSlice k (k + n) m l = (l.take k ++ bytes ++ l.drop (k + n), .ok ()) := by
  rw [onSlice_ok _ (by omega) h, hm _ (by simp; omega)]

theorem fills_from {ε : Type} {m : SO (List Byte) ε Unit} {n : Nat} {bytes : List Byte} (hm : Fills m n bytes) {k : Nat}
    {l : List Byte} (h : k + n = l.length) : onSliceFrom k m l = (l.take k ++ bytes, .ok ()) := by
  rw [onSliceFrom_ok _ (by omega), hm _ (by simp; omega)]

theorem fills_copyFromSlice {ε : Type} (src : List Byte) : Fills (copyFromSlice (ε := ε) src) src.length src := by
  intro s hs
  simp [copyFromSlice, hs]

theorem Fills.length {enc : Encoder} {n : Nat} {bytes : List Byte} (h : Fills enc.run n bytes) : bytes.length = n := by
  have h1 := enc.length_eq (List.replicate n 0#8)
  rw [h _ (by simp)] at h1
  simpa using h1

theorem Codec.fills {α : Type} {d : DataTy α} {valid : α → Prop} {f : α → List Byte} (h : Codec d valid f) {v : α}
    (hv : valid v) : Fills (d.encode v) d.size.toNat (f v) := fun _ hs => h.encode_exact hv hs

/-- Skipping a replaced prefix. -/
theorem drop_replaced {p l : List Byte} {k : Nat} (h : p.length = k) (m n : Nat) (e : n = k + m) :
    (p ++ l.drop k).drop n = l.drop (k + m) := by
  rw [List.drop_append, List.drop_of_length_le (by omega), List.nil_append, List.drop_drop, h]
  congr 1
  omega

namespace Client

theorem nothing_fills : Fills Encoder.nothing.run 0 [] := by
  intro s hs
  have : s = [] := List.length_eq_zero_iff.mp hs
  subst this
  rfl

theorem constEncoder_fills (bytes : List Byte) : Fills (constEncoder bytes).run bytes.length bytes := fills_copyFromSlice bytes

theorem factoryResetEncoder_fills (kind : FactoryResetKind) : Fills (factoryResetEncoder kind).run 1 [kind.toByte] := by
  intro s hs
  match s, hs with
  | [a], _ => rfl

theorem readEncoder_fills (address count : U16) : Fills (readEncoder address count).run 4 (le16 address ++ le16 count) := by
  intro s hs
  unfold readEncoder
  dsimp only
  rw [SO.bind_ok (writeU16Le_at address (by omega)), writeU16Le_at count (by simp [le16]; omega)]
  match s, hs with
  | [_, _, _, _], _ => simp [le16]

/-- Address first, then data. -/
theorem address_fills {m : SO (List Byte) BufferTooSmall Unit} {n : Nat} {bytes : List Byte} (hm : Fills m n bytes)
    (address : U16) : Fills (do onSliceFrom 0 (writeU16Le address); onSliceFrom 2 m) (2 + n) (le16 address ++ bytes) := by
  intro s hs
  rw [SO.bind_ok (writeU16Le_at address (by omega)), fills_from hm (by simp [le16]; omega)]
  simp [le16]

theorem writeBytesEncoder_fills (address : U16) (data : List Byte) :
    Fills (writeBytesEncoder address data).run (2 + data.length) (le16 address ++ data) :=
  address_fills (fills_copyFromSlice data) address

theorem writeEncoder_fills {α : Type} {d : DataTy α} {valid : α → Prop} {f : α → List Byte} (h : Codec d valid f)
    (address : U16) {v : α} (hv : valid v) :
    Fills (writeEncoder d address v).run (2 + d.size.toNat) (le16 address ++ f v) :=
  address_fills (h.fills hv) address

/-- Two 16-bit numbers, then something else. -/
theorem two_then {m : SO (List Byte) BufferTooSmall Unit} {n : Nat} {tail : List Byte} (a c : U16)
    {o : Outcome BufferTooSmall Unit}
    (hm : ∀ s : List Byte, s.length = 4 + n → s.take 4 = le16 a ++ le16 c → m s = (le16 a ++ le16 c ++ tail, o))
    (s : List Byte) (hs : s.length = 4 + n) :
    (do onSliceFrom 0 (writeU16Le a); onSliceFrom 2 (writeU16Le c); m) s = (le16 a ++ le16 c ++ tail, o) := by
  rw [SO.bind_ok (writeU16Le_at a (by omega)), SO.bind_ok (writeU16Le_at c (by simp [le16]; omega))]
  apply hm
  · simp [le16]; omega
  · simp [le16]

theorem syncReadEncoder_fills (address count : U16) (ids : List Byte) :
    Fills (syncReadEncoder address count ids).run (4 + ids.length) (le16 address ++ le16 count ++ ids) := by
  intro s hs
  refine two_then (n := ids.length) address count ?_ s hs
  intro s hs ht
  rw [fills_from (fills_copyFromSlice ids) (by omega), ht]

theorem bulkReadEncodeLoop_eq : ∀ (reads : List BulkReadData) (i : Nat) (l : List Byte),
    i * 5 + 5 * reads.length ≤ l.length →
    bulkReadEncodeLoop i reads l =
      (l.take (i * 5) ++ reads.flatMap (fun r => r.motorId :: (le16 r.address ++ le16 r.count)) ++
        l.drop (i * 5 + 5 * reads.length), .ok ()) := by
  intro reads
  induction reads with
  | nil => intro i l _; simp [bulkReadEncodeLoop]
  | cons r rest ih =>
    intro i l hl
    rw [List.length_cons] at hl
    have hf : Fills (ε := BufferTooSmall) (do
        onSliceFrom 0 (writeU8Le r.motorId)
        onSliceFrom 1 (writeU16Le r.address)
        onSliceFrom 3 (writeU16Le r.count)) 5 (r.motorId :: (le16 r.address ++ le16 r.count)) := by
      intro s hs
      match s, hs with
      | [_, _, _, _, _], _ =>
        rw [SO.bind_ok (writeU8Le_at _ (by simp)), SO.bind_ok (writeU16Le_at _ (by simp)), writeU16Le_at _ (by simp [le16])]
        simp [le16]
    unfold bulkReadEncodeLoop
    rw [SO.bind_ok (fills_at hf (by omega)), ih]
    · have t1 : (l.take (i * 5) ++ r.motorId :: (le16 r.address ++ le16 r.count)).length = (i + 1) * 5 := by
        simp [le16]; omega
      have e : i * 5 + 5 = (i + 1) * 5 := by omega
      have e2 : i * 5 + 5 * (rest.length + 1) = (i + 1) * 5 + 5 * rest.length := by omega
      rw [e, List.take_left' t1, drop_replaced t1 _ _ rfl, List.flatMap_cons, List.length_cons, e2]
      simp only [List.append_assoc]
    · simp [le16]; omega

theorem bulkRead_fills (reads : List BulkReadData) :
    Fills (bulkReadEncodeLoop 0 reads) (5 * reads.length)
      (reads.flatMap fun r => r.motorId :: (le16 r.address ++ le16 r.count)) := by
  intro s hs
  rw [bulkReadEncodeLoop_eq reads 0 s (by omega)]
  simp [hs]

/-- One entry of a sync write. -/
theorem entry_fills {m : SO (List Byte) BufferTooSmall Unit} {n : Nat} {bytes : List Byte} (hm : Fills m n bytes) (id : Byte) :
    Fills (do setIdx 0 id; onSliceFrom 1 m) (1 + n) (id :: bytes) := by
  intro s hs
  match s, hs with
  | [], hs => simp at hs; omega
  | a :: t, hs =>
    rw [SO.bind_ok (setIdx_ok _ (by simp)), fills_from hm (by simp at hs ⊢; omega)]
    simp

theorem syncWriteBytesLoop_eq (count : Nat) : ∀ (data : List (SyncWriteData (List Byte))) (i : Nat) (l : List Byte),
    (∀ c ∈ data, c.data.length = count) → 4 + i * (1 + count) + data.length * (1 + count) ≤ l.length →
    syncWriteBytesLoop count (1 + count) i data l =
      (l.take (4 + i * (1 + count)) ++ data.flatMap (fun c => c.motorId :: c.data) ++
        l.drop (4 + i * (1 + count) + data.length * (1 + count)), .ok ()) := by
  intro data
  induction data with
  | nil => intro i l _ _; simp [syncWriteBytesLoop]
  | cons c rest ih =>
    intro i l hc hl
    have hcl := hc c (by simp)
    rw [List.length_cons, Nat.succ_mul] at hl
    have e : (i + 1) * (1 + count) = i * (1 + count) + (1 + count) := Nat.succ_mul _ _
    unfold syncWriteBytesLoop
    rw [decide_eq_true hcl, SO.assert_true, SO.pure_bind']
    have hf := entry_fills (hcl ▸ fills_copyFromSlice c.data) c.motorId
    rw [SO.bind_ok (fills_at hf (by omega)), ih]
    · have t1 : (l.take (4 + i * (1 + count)) ++ c.motorId :: c.data).length = 4 + (i + 1) * (1 + count) := by
        rw [e]; simp [hcl]; omega
      have e1 : 4 + i * (1 + count) + (1 + count) = 4 + (i + 1) * (1 + count) := by omega
      have e2 : 4 + i * (1 + count) + (rest.length + 1) * (1 + count) =
          4 + (i + 1) * (1 + count) + rest.length * (1 + count) := by rw [Nat.succ_mul]; omega
      rw [e1, List.take_left' t1, drop_replaced t1 _ _ rfl, List.flatMap_cons, List.length_cons, e2]
      simp only [List.append_assoc]
    · exact fun x hx => hc x (by simp [hx])
    · rw [e]; simp [hcl]; omega

theorem syncWriteBytesEncoder_fills (address count : U16) (data : List (SyncWriteData (List Byte)))
    (h : ∀ c ∈ data, c.data.length = count.toNat) :
    Fills (syncWriteBytesEncoder address count data).run (4 + data.length * (1 + count.toNat))
      (le16 address ++ le16 count ++ data.flatMap fun c => c.motorId :: c.data) := by
  intro s hs
  refine two_then (n := data.length * (1 + count.toNat)) address count ?_ s hs
  intro s hs ht
  rw [syncWriteBytesLoop_eq count.toNat data 0 s h (by omega)]
  simp [ht, hs]

/-- Some data of the wrong length: the encoder panics. -/
theorem syncWriteBytesLoop_panic (count : Nat) : ∀ (data : List (SyncWriteData (List Byte))) (i : Nat) (l : List Byte),
    (∃ c ∈ data, c.data.length ≠ count) → 4 + i * (1 + count) + data.length * (1 + count) ≤ l.length →
    (syncWriteBytesLoop count (1 + count) i data l).2 = .panic := by
  intro data
  induction data with
  | nil => rintro i l ⟨c, hc, _⟩; simp at hc
  | cons c rest ih =>
    intro i l hc hl
    rw [List.length_cons, Nat.succ_mul] at hl
    have e : (i + 1) * (1 + count) = i * (1 + count) + (1 + count) := Nat.succ_mul _ _
    unfold syncWriteBytesLoop
    by_cases hcl : c.data.length = count
    · rw [decide_eq_true hcl, SO.assert_true, SO.pure_bind']
      have hf := entry_fills (hcl ▸ fills_copyFromSlice c.data) c.motorId
      rw [SO.bind_ok (fills_at hf (by omega))]
      apply ih
      · obtain ⟨x, hx, hne⟩ := hc
        rcases List.mem_cons.mp hx with rfl | hx
        · exact absurd hcl hne
        · exact ⟨x, hx, hne⟩
      · rw [e]; simp [hcl]; omega
    · rw [decide_eq_false hcl, SO.assert_false]
      rfl

theorem syncWriteBytesEncoder_panic (address count : U16) (data : List (SyncWriteData (List Byte)))
    (h : ∃ c ∈ data, c.data.length ≠ count.toNat) (s : List Byte) (hs : s.length = 4 + data.length * (1 + count.toNat)) :
    ((syncWriteBytesEncoder address count data).run s).2 = .panic := by
  unfold syncWriteBytesEncoder
  dsimp only
  rw [SO.bind_ok (writeU16Le_at address (by omega)), SO.bind_ok (writeU16Le_at count (by simp [le16]; omega))]
  exact syncWriteBytesLoop_panic _ _ _ _ h (by simp [le16]; omega)

theorem syncWriteLoop_eq {α : Type} {d : DataTy α} {valid : α → Prop} {f : α → List Byte} (h : Codec d valid f) :
    ∀ (data : List (SyncWriteData α)) (i : Nat) (l : List Byte), (∀ c ∈ data, valid c.data) →
    4 + i * (1 + d.size.toNat) + data.length * (1 + d.size.toNat) ≤ l.length →
    syncWriteLoop d (1 + d.size.toNat) i data l =
      (l.take (4 + i * (1 + d.size.toNat)) ++ data.flatMap (fun c => c.motorId :: f c.data) ++
        l.drop (4 + i * (1 + d.size.toNat) + data.length * (1 + d.size.toNat)), .ok ()) := by
  intro data
  induction data with
  | nil => intro i l _ _; simp [syncWriteLoop]
  | cons c rest ih =>
    intro i l hc hl
    have hv := hc c (by simp)
    have hcl := h.length _ hv
    rw [List.length_cons, Nat.succ_mul] at hl
    have e : (i + 1) * (1 + d.size.toNat) = i * (1 + d.size.toNat) + (1 + d.size.toNat) := Nat.succ_mul _ _
    unfold syncWriteLoop
    have hf := entry_fills (h.fills hv) c.motorId
    rw [SO.bind_ok (fills_at hf (by omega)), ih]
    · have t1 : (l.take (4 + i * (1 + d.size.toNat)) ++ c.motorId :: f c.data).length = 4 + (i + 1) * (1 + d.size.toNat) := by
        rw [e]; simp [hcl]; omega
      have e1 : 4 + i * (1 + d.size.toNat) + (1 + d.size.toNat) = 4 + (i + 1) * (1 + d.size.toNat) := by omega
      have e2 : 4 + i * (1 + d.size.toNat) + (rest.length + 1) * (1 + d.size.toNat) =
          4 + (i + 1) * (1 + d.size.toNat) + rest.length * (1 + d.size.toNat) := by rw [Nat.succ_mul]; omega
      rw [e1, List.take_left' t1, drop_replaced t1 _ _ rfl, List.flatMap_cons, List.length_cons, e2]
      simp only [List.append_assoc]
    · exact fun x hx => hc x (by simp [hx])
    · rw [e]; simp [hcl]; omega

theorem syncWriteEncoder_fills {α : Type} {d : DataTy α} {valid : α → Prop} {f : α → List Byte} (h : Codec d valid f)
    (address : U16) (data : List (SyncWriteData α)) (hv : ∀ c ∈ data, valid c.data) :
    Fills (syncWriteEncoder d address d.size.toNat data).run (4 + data.length * (1 + d.size.toNat))
      (le16 address ++ le16 d.size ++ data.flatMap fun c => c.motorId :: f c.data) := by
  intro s hs
  unfold syncWriteEncoder
  dsimp only
  rw [BitVec.ofNat_toNat, BitVec.setWidth_eq]
  refine two_then (n := data.length * (1 + d.size.toNat)) address d.size ?_ s hs
  intro s hs ht
  rw [syncWriteLoop_eq h data 0 s hv (by omega)]
  simp [ht, hs]

/-- The number of parameter bytes of a bulk write. -/
def bulkWriteSize (writes : List BulkWriteData) : Nat := (writes.map fun w => 5 + w.data.length).sum

theorem bulkWriteCount_ok {ε : Type} : ∀ (writes : List BulkWriteData) (n : Nat), (∀ w ∈ writes, w.data.length ≤ 65535) →
    bulkWriteCount (ε := ε) writes n = .ok (n + bulkWriteSize writes) := by
  intro writes
  induction writes with
  | nil => intro n _; rfl
  | cons w rest ih =>
    intro n h
    have hw := h w (by simp)
    unfold bulkWriteCount
    rw [if_neg (by omega), ih _ fun x hx => h x (by simp [hx])]
    simp [bulkWriteSize]
    omega

theorem bulkWriteCount_panic {ε : Type} : ∀ (writes : List BulkWriteData) (n : Nat), (∃ w ∈ writes, 65535 < w.data.length) →
    bulkWriteCount (ε := ε) writes n = .panic := by
  intro writes
  induction writes with
  | nil => rintro n ⟨w, hw, _⟩; simp at hw
  | cons w rest ih =>
    intro n h
    unfold bulkWriteCount
    by_cases hw : 65535 < w.data.length
    · rw [if_pos hw]
    · rw [if_neg (by omega)]
      apply ih
      obtain ⟨x, hx, hne⟩ := h
      rcases List.mem_cons.mp hx with rfl | hx
      · exact absurd hne hw
      · exact ⟨x, hx, hne⟩

/-- The bytes of one entry of a bulk write. -/
def bulkWriteEntry (w : BulkWriteData) : List Byte :=
  w.motorId :: (le16 w.address ++ le16 (BitVec.ofNat 16 w.data.length) ++ w.data)

theorem bulkWriteEntry_length (w : BulkWriteData) : (bulkWriteEntry w).length = 5 + w.data.length := by
  simp [bulkWriteEntry, le16]; omega

theorem bulkWriteLoop_eq : ∀ (writes : List BulkWriteData) (offset : Nat) (l : List Byte),
    offset + bulkWriteSize writes ≤ l.length →
    bulkWriteLoop offset writes l =
      (l.take offset ++ writes.flatMap bulkWriteEntry ++ l.drop (offset + bulkWriteSize writes), .ok ()) := by
  intro writes
  induction writes with
  | nil => intro i l _; simp [bulkWriteLoop, bulkWriteSize]
  | cons w rest ih =>
    intro offset l hl
    have hsz : bulkWriteSize (w :: rest) = (5 + w.data.length) + bulkWriteSize rest := by simp [bulkWriteSize]
    rw [hsz] at hl ⊢
    have hf : ∀ s : List Byte, 5 + w.data.length ≤ s.length → (do
        onSliceFrom 0 (writeU8Le w.motorId)
        onSliceFrom 1 (writeU16Le w.address)
        onSliceFrom 3 (writeU16Le (BitVec.ofNat 16 w.data.length))
        onSlice 5 (5 + w.data.length) (copyFromSlice w.data) : SO (List Byte) BufferTooSmall Unit) s =
          (bulkWriteEntry w ++ s.drop (5 + w.data.length), .ok ()) := by
      intro s hs
      match s, hs with
      | a :: b :: c :: d :: e :: t, hs =>
        rw [SO.bind_ok (writeU8Le_at _ (by simp)), SO.bind_ok (writeU16Le_at _ (by simp)),
          SO.bind_ok (writeU16Le_at _ (by simp [le16])), fills_at (fills_copyFromSlice _) (by simp [le16] at hs ⊢; omega)]
        simp [le16, bulkWriteEntry, Nat.add_comm 5]
      | [], hs | [_], hs | [_, _], hs | [_, _, _], hs | [_, _, _, _], hs =>
        exfalso; simp only [List.length_cons, List.length_nil] at hs; omega
    unfold bulkWriteLoop
    have hstep : onSliceFrom offset (do
        onSliceFrom 0 (writeU8Le w.motorId)
        onSliceFrom 1 (writeU16Le w.address)
        onSliceFrom 3 (writeU16Le (BitVec.ofNat 16 w.data.length))
        onSlice 5 (5 + w.data.length) (copyFromSlice w.data) : SO (List Byte) BufferTooSmall Unit) l =
          (l.take offset ++ (bulkWriteEntry w ++ l.drop (offset + (5 + w.data.length))), .ok ()) := by
      rw [onSliceFrom_ok _ (by omega), hf _ (by simp; omega), List.drop_drop]
    have hel := bulkWriteEntry_length w
    rw [SO.bind_ok hstep, ih]
    · have t1 : (l.take offset ++ bulkWriteEntry w).length = offset + (5 + w.data.length) := by
        simp [hel]; omega
      rw [← List.append_assoc, ← Nat.add_assoc] at *
      rw [List.take_left' t1, drop_replaced t1 _ _ rfl, List.flatMap_cons]
      simp only [List.append_assoc, Nat.add_assoc]
    · simp [hel]; omega

theorem bulkWrite_fills (writes : List BulkWriteData) :
    Fills (bulkWriteLoop 0 writes) (bulkWriteSize writes) (writes.flatMap bulkWriteEntry) := by
  intro s hs
  rw [bulkWriteLoop_eq writes 0 s (by omega)]
  simp [hs]

end Client
end Dxl
