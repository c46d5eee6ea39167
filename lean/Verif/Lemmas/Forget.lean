import Verif.Spec.Forget
import Verif.Lemmas.Encoders

/-! # Code that does not depend on old contents of the buffers -/

namespace Dxl
open Spec

/-! ## Encoders -/

/-- With slices of `n` bytes that agree in the first `i` bytes: the same outcome, and if it is a success the slices agree in
the first `j` bytes afterwards. -/
def Grows {ε : Type} (n : Nat) (m : SO (List Byte) ε Unit) (i j : Nat) : Prop :=
  ∀ s t, s.length = n → t.length = n → t.take i = s.take i →
    (m t).2 = (m s).2 ∧ ((m s).2 = .ok () → (m t).1.take j = (m s).1.take j)

section grows
variable {ε : Type} {n i j k : Nat} {m m' : SO (List Byte) ε Unit}

theorem grows_overwrites {m : SO (List Byte) BufferTooSmall Unit} (hl : KeepsLength m) (h : Grows n m 0 n) : Overwrites n m := by
  intro s t hs ht
  obtain ⟨h1, h2⟩ := h s t hs ht rfl
  refine ⟨h1, fun ho => ?_⟩
  have := h2 ho
  rwa [List.take_of_length_le (by rw [hl]; omega), List.take_of_length_le (by rw [hl]; omega)] at this

theorem overwrites_grows {m : SO (List Byte) BufferTooSmall Unit} (h : Overwrites n m) : Grows n m i j := by
  intro s t hs ht _
  obtain ⟨h1, h2⟩ := h s t hs ht
  exact ⟨h1, fun ho => by rw [h2 ho]⟩

theorem Grows.bind (hl : KeepsLength m) (h : Grows n m i j) (h' : Grows n m' j k) : Grows n (m >>= fun _ => m') i k := by
  intro s t hs ht hi
  obtain ⟨h1, h2⟩ := h s t hs ht hi
  have ls := hl s
  have lt := hl t
  rw [SO.bind_def, SO.bind_def]
  rcases e : m s with ⟨s', o⟩
  rcases e' : m t with ⟨t', o'⟩
  rw [e] at h1 h2 ls
  rw [e'] at h1 h2 lt
  simp only at h1 h2 ls lt
  subst h1
  cases o' with
  | ok a => exact h' s' t' (by omega) (by omega) (h2 rfl)
  | _ => exact ⟨rfl, fun h => by simp at h⟩

theorem grows_pure : Grows (ε := ε) n (pure ()) i i := fun _ _ _ _ h => ⟨rfl, fun _ => h⟩

theorem grows_assert (c : Bool) : Grows (ε := ε) n (SO.assert c) i i := by
  intro s t _ _ h
  cases c
  · exact ⟨rfl, fun _ => h⟩
  · exact ⟨rfl, fun _ => h⟩

theorem grows_setIdx (v : Byte) : Grows (ε := ε) n (setIdx i v) i (i + 1) := by
  intro s t hs ht h
  unfold setIdx
  by_cases hi : i < n
  · rw [if_pos (by omega), if_pos (by omega)]
    refine ⟨rfl, fun _ => ?_⟩
    apply List.ext_getElem?
    intro q
    have hq := congrArg (fun l => l[q]?) h
    simp only [List.getElem?_take, List.getElem?_set] at hq ⊢
    by_cases h1 : q < i
    · rw [if_pos h1, if_pos h1] at hq
      have hne : ¬ i = q := by omega
      simp only [if_pos (show q < i + 1 by omega), if_neg hne, hq]
    · by_cases h2 : q = i
      · subst h2
        simp [hs, ht]
      · rw [if_neg (by omega), if_neg (by omega)]
  · rw [if_neg (by omega), if_neg (by omega)]
    exact ⟨rfl, fun h => by simp at h⟩

theorem grows_writeU16Le (v : U16) : Grows (ε := ε) n (writeU16Le v) 0 2 :=
  .bind (.setIdx _ _) (grows_setIdx _) (grows_setIdx _)

theorem grows_writeU8Le (v : Byte) : Grows (ε := ε) n (writeU8Le v) 0 1 := grows_setIdx _

theorem grows_copyFromSlice (src : List Byte) : Grows (ε := ε) n (copyFromSlice src) i j := by
  intro s t hs ht _
  unfold copyFromSlice
  by_cases h : n = src.length
  · rw [if_pos (by omega), if_pos (by omega)]
    exact ⟨rfl, fun _ => rfl⟩
  · rw [if_neg (by omega), if_neg (by omega)]
    exact ⟨rfl, fun h => by simp at h⟩

theorem take_middle {A X Y : List Byte} {a j : Nat} (ha : A.length = a) (hj : j ≤ X.length) :
    (A ++ X ++ Y).take (a + j) = A ++ X.take j := by
  subst ha
  rw [List.append_assoc, List.take_length_add_append, List.take_append_of_le_length hj]

theorem grows_onSlice {a b : Nat} (hl : KeepsLength m) (h : Grows (b - a) m i j) (hj : j ≤ b - a) :
    Grows n (onSlice a b m) (a + i) (a + j) := by
  intro s t hs ht hi
  by_cases hab : a ≤ b ∧ b ≤ n
  · rw [onSlice_ok m hab.1 (by omega), onSlice_ok m hab.1 (by omega)]
    have e1 : t.take a = s.take a := by
      have := congrArg (List.take a) hi
      rwa [List.take_take, List.take_take, Nat.min_eq_left (by omega)] at this
    have e2 : (((t.take b).drop a).take i) = (((s.take b).drop a).take i) := by
      have := congrArg (fun l => ((l.take b).drop a)) hi
      simp only [List.take_take] at this
      simp only [List.drop_take, List.take_take] at this ⊢
      have hm : min b (a + i) - a = min i (b - a) := by omega
      rwa [hm] at this
    obtain ⟨h1, h2⟩ := h ((s.take b).drop a) ((t.take b).drop a) (by simp; omega) (by simp; omega) e2
    refine ⟨h1, fun ho => ?_⟩
    have h3 := h2 ho
    have l1 := hl ((s.take b).drop a)
    have l2 := hl ((t.take b).drop a)
    simp only [List.length_drop, List.length_take] at l1 l2
    have hmin : min b s.length = b := by omega
    have hmin' : min b t.length = b := by omega
    rw [hmin] at l1
    rw [hmin'] at l2
    rw [take_middle (by simp; omega) (by omega), take_middle (by simp; omega) (by omega), e1, h3]
  · unfold onSlice
    rw [if_neg (by omega), if_neg (by omega)]
    exact ⟨rfl, fun h => by simp at h⟩

theorem grows_onSliceFrom {a : Nat} (hl : KeepsLength m) (h : Grows (n - a) m i j) :
    Grows n (onSliceFrom a m) (a + i) (a + j) := by
  intro s t hs ht hi
  have hi' : Grows (n - a) m i (min j (n - a)) := by
    intro s t hs ht hi
    obtain ⟨h1, h2⟩ := h s t hs ht hi
    refine ⟨h1, fun ho => ?_⟩
    have := congrArg (List.take (n - a)) (h2 ho)
    rwa [List.take_take, List.take_take, Nat.min_comm] at this
  obtain ⟨h1, h2⟩ := grows_onSlice (a := a) (b := n) hl hi' (by omega) s t hs ht hi
  unfold onSliceFrom
  rw [hs, ht]
  refine ⟨h1, fun ho => ?_⟩
  have h3 := h2 ho
  have l1 := (KeepsLength.onSlice a n hl) s
  have l2 := (KeepsLength.onSlice a n hl) t
  by_cases hj : j ≤ n - a
  · rwa [Nat.min_eq_left hj] at h3
  · rw [List.take_of_length_le (by omega), List.take_of_length_le (by omega)] at h3
    rw [h3]

/-- A slice that ends at the end of what it is part of. -/
theorem Grows.more {m : SO (List Byte) ε Unit} (hl : KeepsLength m) (h : Grows n m i j) (hj : n ≤ j) (k : Nat) : Grows n m i k := by
  intro s t hs ht hi
  obtain ⟨h1, h2⟩ := h s t hs ht hi
  refine ⟨h1, fun ho => ?_⟩
  have := h2 ho
  rw [List.take_of_length_le (by rw [hl]; omega), List.take_of_length_le (by rw [hl]; omega)] at this
  rw [this]

end grows

namespace Client

theorem nothing_overwrites : Overwrites 0 Encoder.nothing.run := grows_overwrites (.pure ()) grows_pure

theorem constEncoder_overwrites (bytes : List Byte) (n : Nat) : Overwrites n (constEncoder bytes).run :=
  grows_overwrites (.copyFromSlice _) (grows_copyFromSlice _)

theorem factoryReset_overwrites (kind : FactoryResetKind) : Overwrites 1 (factoryResetEncoder kind).run :=
  grows_overwrites (.setIdx _ _) (grows_setIdx _)

theorem readEncoder_overwrites (address count : U16) : Overwrites 4 (readEncoder address count).run :=
  grows_overwrites (readEncoder address count).length_eq
    (.bind (.onSliceFrom _ (.writeU16Le _)) (grows_onSliceFrom (.writeU16Le _) (grows_writeU16Le _))
      (grows_onSliceFrom (.writeU16Le _) (grows_writeU16Le _)))

/-- Two numbers at the start, then the rest. -/
theorem grows_address {n : Nat} {m : SO (List Byte) BufferTooSmall Unit} (address : U16) (hl : KeepsLength m)
    (h : Overwrites n m) : Grows (2 + n) (onSliceFrom 0 (writeU16Le address) >>= fun _ => onSliceFrom 2 m) 0 (2 + n) :=
  .bind (.onSliceFrom _ (.writeU16Le _)) (grows_onSliceFrom (.writeU16Le _) (grows_writeU16Le _))
    (grows_onSliceFrom (n := 2 + n) (a := 2) (i := 0) (j := n) hl (overwrites_grows (by rwa [Nat.add_sub_cancel_left])))

theorem writeEncoder_overwrites {α : Type} {d : DataTy α} {n : Nat} (address : U16) {value : α}
    (h : Overwrites n (d.encode value)) : Overwrites (2 + n) (writeEncoder d address value).run :=
  grows_overwrites (writeEncoder d address value).length_eq (grows_address address (d.encode_length _) h)

theorem writeBytesEncoder_overwrites (address : U16) (data : List Byte) (n : Nat) :
    Overwrites (2 + n) (writeBytesEncoder address data).run :=
  grows_overwrites (writeBytesEncoder address data).length_eq
    (grows_address address (.copyFromSlice _) (constEncoder_overwrites data n))

theorem grows_two {n k : Nat} {m : SO (List Byte) BufferTooSmall Unit} (a c : U16) (h : Grows n m 4 k) :
    Grows n (onSliceFrom 0 (writeU16Le a) >>= fun _ => onSliceFrom 2 (writeU16Le c) >>= fun _ => m) 0 k :=
  .bind (.onSliceFrom _ (.writeU16Le _)) (grows_onSliceFrom (.writeU16Le _) (grows_writeU16Le _))
    (.bind (.onSliceFrom _ (.writeU16Le _)) (grows_onSliceFrom (.writeU16Le _) (grows_writeU16Le _)) h)

theorem syncReadEncoder_overwrites (address count : U16) (ids : List Byte) :
    Overwrites (4 + ids.length) (syncReadEncoder address count ids).run :=
  grows_overwrites (syncReadEncoder address count ids).length_eq
    (grows_two _ _ (grows_onSliceFrom (a := 4) (i := 0) (j := ids.length) (.copyFromSlice _) (grows_copyFromSlice _)))

theorem grows_bulkRead : ∀ (reads : List BulkReadData) (n i : Nat),
    Grows n (bulkReadEncodeLoop i reads) (i * 5) ((i + reads.length) * 5)
  | [], n, i => grows_pure
  | r :: rest, n, i => by
    have h1 : Grows (i * 5 + 5 - i * 5) (ε := BufferTooSmall) (onSliceFrom 0 (writeU8Le r.motorId) >>= fun _ =>
        onSliceFrom 1 (writeU16Le r.address) >>= fun _ => onSliceFrom 3 (writeU16Le r.count)) 0 5 :=
      .bind (.onSliceFrom _ (.writeU8Le _)) (grows_onSliceFrom (.writeU8Le _) (grows_writeU8Le _))
        (.bind (.onSliceFrom _ (.writeU16Le _)) (grows_onSliceFrom (.writeU16Le _) (grows_writeU16Le _))
          (grows_onSliceFrom (.writeU16Le _) (grows_writeU16Le _)))
    have hl : KeepsLength (ε := BufferTooSmall) (onSliceFrom 0 (writeU8Le r.motorId) >>= fun _ =>
        onSliceFrom 1 (writeU16Le r.address) >>= fun _ => onSliceFrom 3 (writeU16Le r.count)) :=
      .bind (.onSliceFrom _ (.writeU8Le _)) fun _ => .bind (.onSliceFrom _ (.writeU16Le _)) fun _ => .onSliceFrom _ (.writeU16Le _)
    have h2 := grows_bulkRead rest n (i + 1)
    have e1 : (i + 1) * 5 = i * 5 + 5 := by omega
    have e2 : (i + 1 + rest.length) * 5 = (i + (r :: rest).length) * 5 := by simp; omega
    rw [e1, e2] at h2
    exact .bind (.onSlice _ _ hl) (grows_onSlice hl h1 (by omega)) h2

theorem bulkRead_overwrites (reads : List BulkReadData) : Overwrites (5 * reads.length) (bulkReadEncodeLoop 0 reads) := by
  have := grows_bulkRead reads (5 * reads.length) 0
  rw [Nat.zero_mul, Nat.zero_add, Nat.mul_comm reads.length] at this
  exact grows_overwrites (bulkReadEncodeLoop_length _ _) this

theorem grows_entry {k : Nat} {m : SO (List Byte) BufferTooSmall Unit} (id : Byte) (hl : KeepsLength m) (h : Overwrites k m) :
    Grows (1 + k) (setIdx 0 id >>= fun _ => onSliceFrom 1 m) 0 (1 + k) :=
  .bind (.setIdx _ _) (grows_setIdx _)
    (grows_onSliceFrom (n := 1 + k) (a := 1) (i := 0) (j := k) hl (overwrites_grows (by rwa [Nat.add_sub_cancel_left])))

theorem grows_syncWriteBytes (count : Nat) : ∀ (data : List (SyncWriteData (List Byte))) (n i : Nat),
    Grows n (syncWriteBytesLoop count (1 + count) i data) (4 + i * (1 + count)) (4 + (i + data.length) * (1 + count))
  | [], n, i => grows_pure
  | c :: rest, n, i => by
    have h2 := grows_syncWriteBytes count rest n (i + 1)
    have e1 : 4 + (i + 1) * (1 + count) = 4 + i * (1 + count) + (1 + count) := by rw [Nat.succ_mul]; omega
    have e2 : i + 1 + rest.length = i + (c :: rest).length := by simp; omega
    rw [e1, e2] at h2
    have hl : KeepsLength (ε := BufferTooSmall) (setIdx 0 c.motorId >>= fun _ => onSliceFrom 1 (copyFromSlice c.data)) :=
      .bind (.setIdx _ _) fun _ => .onSliceFrom _ (.copyFromSlice _)
    have h1 := grows_entry (k := count) c.motorId (.copyFromSlice _) (constEncoder_overwrites c.data count)
    refine .bind (.assert _) (grows_assert _) (.bind (.onSlice _ _ hl) ?_ h2)
    exact grows_onSlice (i := 0) hl (by rwa [Nat.add_sub_cancel_left]) (by omega)

theorem syncWriteBytes_overwrites (address count : U16) (data : List (SyncWriteData (List Byte))) :
    Overwrites (4 + data.length * (1 + count.toNat)) (syncWriteBytesEncoder address count data).run := by
  have h := grows_syncWriteBytes count.toNat data (4 + data.length * (1 + count.toNat)) 0
  rw [Nat.zero_mul, Nat.zero_add] at h
  exact grows_overwrites (syncWriteBytesEncoder address count data).length_eq (grows_two _ _ h)

theorem grows_syncWrite {α : Type} {d : DataTy α} (count : Nat) : ∀ (data : List (SyncWriteData α)) (n i : Nat),
    (∀ x ∈ data, Overwrites count (d.encode x.data)) →
    Grows n (syncWriteLoop d (1 + count) i data) (4 + i * (1 + count)) (4 + (i + data.length) * (1 + count))
  | [], n, i, _ => grows_pure
  | c :: rest, n, i, h => by
    have h2 := grows_syncWrite count rest n (i + 1) fun x hx => h x (List.mem_cons_of_mem _ hx)
    have e1 : 4 + (i + 1) * (1 + count) = 4 + i * (1 + count) + (1 + count) := by rw [Nat.succ_mul]; omega
    have e2 : i + 1 + rest.length = i + (c :: rest).length := by simp; omega
    rw [e1, e2] at h2
    have hl : KeepsLength (ε := BufferTooSmall) (setIdx 0 c.motorId >>= fun _ => onSliceFrom 1 (d.encode c.data)) :=
      .bind (.setIdx _ _) fun _ => .onSliceFrom _ (d.encode_length _)
    have h1 := grows_entry (k := count) c.motorId (d.encode_length _) (h c List.mem_cons_self)
    refine .bind (.onSlice _ _ hl) ?_ h2
    exact grows_onSlice (i := 0) hl (by rwa [Nat.add_sub_cancel_left]) (by omega)

theorem syncWrite_overwrites {α : Type} {d : DataTy α} (address : U16) {data : List (SyncWriteData α)} {count : Nat}
    (h : ∀ x ∈ data, Overwrites count (d.encode x.data)) :
    Overwrites (4 + data.length * (1 + count)) (syncWriteEncoder d address count data).run := by
  have h := grows_syncWrite count data (4 + data.length * (1 + count)) 0 h
  rw [Nat.zero_mul, Nat.zero_add] at h
  exact grows_overwrites (syncWriteEncoder d address count data).length_eq (grows_two _ _ h)

theorem grows_bulkWrite : ∀ (writes : List BulkWriteData) (n offset : Nat),
    Grows n (bulkWriteLoop offset writes) offset (offset + bulkWriteSize writes)
  | [], n, offset => grows_pure
  | w :: rest, n, offset => by
    have h2 := grows_bulkWrite rest n (offset + (5 + w.data.length))
    have e : offset + (5 + w.data.length) + bulkWriteSize rest = offset + bulkWriteSize (w :: rest) := by
      simp [bulkWriteSize]; omega
    rw [e] at h2
    have hl : KeepsLength (ε := BufferTooSmall) (onSliceFrom 0 (writeU8Le w.motorId) >>= fun _ =>
        onSliceFrom 1 (writeU16Le w.address) >>= fun _ => onSliceFrom 3 (writeU16Le (BitVec.ofNat 16 w.data.length)) >>= fun _ =>
        onSlice 5 (5 + w.data.length) (copyFromSlice w.data)) :=
      .bind (.onSliceFrom _ (.writeU8Le _)) fun _ => .bind (.onSliceFrom _ (.writeU16Le _)) fun _ =>
        .bind (.onSliceFrom _ (.writeU16Le _)) fun _ => .onSlice _ _ (.copyFromSlice _)
    have h1 : Grows (n - offset) (ε := BufferTooSmall) (onSliceFrom 0 (writeU8Le w.motorId) >>= fun _ =>
        onSliceFrom 1 (writeU16Le w.address) >>= fun _ => onSliceFrom 3 (writeU16Le (BitVec.ofNat 16 w.data.length)) >>= fun _ =>
        onSlice 5 (5 + w.data.length) (copyFromSlice w.data)) 0 (5 + w.data.length) :=
      .bind (.onSliceFrom _ (.writeU8Le _)) (grows_onSliceFrom (.writeU8Le _) (grows_writeU8Le _))
        (.bind (.onSliceFrom _ (.writeU16Le _)) (grows_onSliceFrom (.writeU16Le _) (grows_writeU16Le _))
          (.bind (.onSliceFrom _ (.writeU16Le _)) (grows_onSliceFrom (.writeU16Le _) (grows_writeU16Le _))
            (grows_onSlice (i := 0) (.copyFromSlice _) (grows_copyFromSlice _) (by omega))))
    exact .bind (.onSliceFrom _ hl) (grows_onSliceFrom (i := 0) hl h1) h2

theorem bulkWrite_overwrites (writes : List BulkWriteData) : Overwrites (bulkWriteSize writes) (bulkWriteLoop 0 writes) := by
  have := grows_bulkWrite writes (bulkWriteSize writes) 0
  rw [Nat.zero_add] at this
  exact grows_overwrites (bulkWriteLoop_length _ _) this

end Client

theorem statusEncoder_overwrites {n : Nat} (error : Byte) {enc : Encoder} (h : Overwrites n enc.run) :
    Overwrites (n + 1) (Bus.statusEncoder error enc).run := by
  rw [Nat.add_comm]
  exact grows_overwrites (Bus.statusEncoder error enc).length_eq (Client.grows_entry error enc.length_eq h)

end Dxl
