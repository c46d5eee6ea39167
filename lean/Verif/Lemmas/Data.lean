import Verif.Lemmas.Basic
import Verif.Lemmas.Endian
import Verif.Model.Data
import Verif.Spec.Integer

/-! # Encoding of integers and arrays -/

namespace Dxl

theorem toLeBytes_length (n : Nat) : ∀ v, (toLeBytes n v).length = n := by
  induction n with
  | zero => intro v; rfl
  | succ n ih => intro v; simp [toLeBytes, ih]

theorem toLeBytes_getElem (n : Nat) : ∀ (v i : Nat) (h : i < (toLeBytes n v).length),
    (toLeBytes n v)[i].toNat = v / 256 ^ i % 256 := by
  induction n with
  | zero => intro v i h; simp [toLeBytes] at h
  | succ n ih =>
    intro v i h
    cases i with
    | zero => simp [toLeBytes]
    | succ i =>
      simp only [toLeBytes, List.getElem_cons_succ]
      rw [ih, Nat.div_div_eq_div_mul, Nat.pow_succ, Nat.mul_comm]

theorem fromLeBytes_lt (bs : List Byte) : fromLeBytes bs < 256 ^ bs.length := by
  induction bs with
  | nil => simp [fromLeBytes]
  | cons b bs ih =>
    have := b.isLt
    simp only [fromLeBytes, List.length_cons, Nat.pow_succ]
    omega

theorem fromLeBytes_toLeBytes (n : Nat) : ∀ v, fromLeBytes (toLeBytes n v) = v % 256 ^ n := by
  induction n with
  | zero => intro v; simp [toLeBytes, fromLeBytes, Nat.mod_one]
  | succ n ih =>
    intro v
    simp only [toLeBytes, fromLeBytes, ih, BitVec.toNat_ofNat]
    rw [show 256 ^ (n + 1) = 256 * 256 ^ n from by rw [Nat.pow_succ, Nat.mul_comm], Nat.mod_mul]

theorem toLeBytes_fromLeBytes (bs : List Byte) : toLeBytes bs.length (fromLeBytes bs) = bs := by
  induction bs with
  | nil => rfl
  | cons b bs ih =>
    have hb := b.isLt
    have h1 : (b.toNat + 256 * fromLeBytes bs) / 256 = fromLeBytes bs := by omega
    simp only [List.length_cons, toLeBytes, fromLeBytes, h1, ih, List.cons.injEq, and_true]
    apply BitVec.eq_of_toNat_eq
    simp
    omega

theorem encodeNumber_ok {n v : Nat} {s : List Byte} (h : n ≤ s.length) :
    encodeNumber n v s = (toLeBytes n v ++ s.drop n, .ok ()) := by
  unfold encodeNumber
  rw [SO.get_bind]
  simp only [BufferTooSmall.check, h, if_true, SO.lift_ok_bind]
  rw [onSlice_ok _ (Nat.zero_le _) h]
  have : (s.take n).length = (toLeBytes n v).length := by rw [toLeBytes_length]; simp; omega
  simp [copyFromSlice, this]

theorem encodeNumber_short {n v : Nat} {s : List Byte} (h : s.length < n) :
    encodeNumber n v s = (s, .err ⟨n, s.length⟩) := by
  unfold encodeNumber
  rw [SO.get_bind]
  simp [BufferTooSmall.check, Nat.not_le.mpr h]

theorem decodeNumber_ok {n : Nat} {s : List Byte} (h : s.length = n) : decodeNumber n s = .ok (fromLeBytes s) := by
  subst h
  simp [decodeNumber, checkCount, slice]

theorem decodeNumber_other {n : Nat} {s : List Byte} (h : s.length ≠ n) :
    decodeNumber n s = .err (.parameterCount s.length (.exact n)) := by
  simp [decodeNumber, checkCount, h]

theorem littleEndian_iff {n v : Nat} {bytes : List Byte} : LittleEndian n v bytes ↔ bytes = toLeBytes n v := by
  constructor
  · rintro ⟨h1, h2⟩
    apply List.ext_getElem
    · rw [h1, toLeBytes_length]
    · intro i hi hi'
      apply BitVec.eq_of_toNat_eq
      rw [h2 i hi, toLeBytes_getElem]
  · rintro rfl
    exact ⟨toLeBytes_length n v, fun i h => toLeBytes_getElem n v i h⟩

/-- A type is encoded by `f`, for the values that satisfy `valid`: into a buffer that is large enough, `encode` writes
exactly `f v` and leaves the rest alone; a smaller buffer is reported; `decode` inverts `f`. -/
structure Codec {α : Type} (d : DataTy α) (valid : α → Prop) (f : α → List Byte) : Prop where
  length : ∀ v, valid v → (f v).length = d.size.toNat
  encode : ∀ v, valid v → ∀ s : List Byte, d.size.toNat ≤ s.length →
    d.encode v s = (f v ++ s.drop d.size.toNat, .ok ())
  short : ∀ v, valid v → ∀ s : List Byte, s.length < d.size.toNat → d.encode v s = (s, .err ⟨d.size.toNat, s.length⟩)
  decode : ∀ v, valid v → d.decode (f v) = .ok v

theorem Codec.encode_exact {α : Type} {d : DataTy α} {valid : α → Prop} {f : α → List Byte} (h : Codec d valid f) {v : α}
    (hv : valid v) {s : List Byte} (hs : s.length = d.size.toNat) : d.encode v s = (f v, .ok ()) := by
  rw [h.encode v hv s (by omega), List.drop_of_length_le (by omega), List.append_nil]

section array
variable {α : Type} {d : DataTy α} {valid : α → Prop} {f : α → List Byte}

theorem Codec.flatMap_length (h : Codec d valid f) : ∀ {vs : List α}, (∀ v ∈ vs, valid v) →
    (vs.flatMap f).length = d.size.toNat * vs.length := by
  intro vs
  induction vs with
  | nil => intro _; simp
  | cons v vs ih =>
    intro hv
    rw [List.flatMap_cons, List.length_append, h.length v (hv v (by simp)), ih fun w hw => hv w (by simp [hw]),
      List.length_cons, Nat.mul_succ, Nat.add_comm]

theorem Codec.encodeArrayLoop (h : Codec d valid f) : ∀ {vs : List α} (i : Nat) (l : List Byte), (∀ v ∈ vs, valid v) →
    i * d.size.toNat + d.size.toNat * vs.length ≤ l.length →
    Dxl.encodeArrayLoop d i vs l = (l.take (i * d.size.toNat) ++ vs.flatMap f ++
      l.drop (i * d.size.toNat + d.size.toNat * vs.length), .ok ()) := by
  intro vs
  induction vs with
  | nil => intro i l _ _; simp [Dxl.encodeArrayLoop]
  | cons v vs ih =>
    intro i l hv hl
    rw [List.length_cons, Nat.mul_succ] at hl
    unfold Dxl.encodeArrayLoop
    have hsl : ((l.take (i * d.size.toNat + d.size.toNat)).drop (i * d.size.toNat)).length = d.size.toNat := by
      simp; omega
    have hfl := h.length v (hv v (by simp))
    have h1 : onSlice (i * d.size.toNat) (i * d.size.toNat + d.size.toNat) (d.encode v) l =
        (l.take (i * d.size.toNat) ++ f v ++ l.drop (i * d.size.toNat + d.size.toNat), .ok ()) := by
      rw [onSlice_ok _ (by omega) (by omega), h.encode_exact (hv v (by simp)) hsl]
    rw [SO.bind_ok h1]
    have e : (i + 1) * d.size.toNat = i * d.size.toNat + d.size.toNat := Nat.succ_mul _ _
    rw [ih (i + 1) _ (fun w hw => hv w (by simp [hw]))]
    · simp only [Prod.mk.injEq, and_true, e]
      have t1 : (l.take (i * d.size.toNat) ++ f v).length = i * d.size.toNat + d.size.toNat := by simp; omega
      rw [List.take_left' t1]
      rw [List.drop_append, List.drop_of_length_le (by omega), List.nil_append, List.drop_drop]
      simp only [List.flatMap_cons, List.append_assoc, t1, List.length_cons]
      congr 4
      rw [Nat.mul_succ]
      omega
    · simp only [List.length_append, List.length_take, List.length_drop, hfl, e]
      omega

theorem Codec.decodeArrayLoop (h : Codec d valid f) (buffer : List Byte) : ∀ {vs : List α} (i : Nat) (rest : List Byte),
    (∀ v ∈ vs, valid v) → buffer.drop (i * d.size.toNat) = vs.flatMap f ++ rest →
    i * d.size.toNat + d.size.toNat * vs.length ≤ buffer.length →
    Dxl.decodeArrayLoop d buffer vs.length i = .ok vs := by
  intro vs
  induction vs with
  | nil => intro i rest _ _ _; rfl
  | cons v vs ih =>
    intro i rest hv hb hl
    have hfl := h.length v (hv v (by simp))
    rw [List.length_cons, Nat.mul_succ] at hl
    rw [List.flatMap_cons, List.append_assoc] at hb
    have e : (i + 1) * d.size.toNat = i * d.size.toNat + d.size.toNat := Nat.succ_mul _ _
    rw [List.length_cons]
    unfold Dxl.decodeArrayLoop
    have h1 : (buffer.take (i * d.size.toNat + d.size.toNat)).drop (i * d.size.toNat) = f v := by
      rw [List.drop_take, hb, Nat.add_sub_cancel_left, List.take_left' hfl]
    have h2 := ih (i + 1) rest (fun w hw => hv w (by simp [hw])) (by
      rw [e, ← List.drop_drop, hb, List.drop_left' hfl]) (by rw [e]; omega)
    rw [slice_ok (by omega) (by omega), h1]
    simp only [Outcome.ok_bind, h.decode v (hv v (by simp)), h2, Outcome.pure_eq]

theorem Codec.array (h : Codec d valid f) (N : Nat) (hN : d.size.toNat * N < 2 ^ 16) :
    Codec (DataTy.array d N hN) (fun vs => vs.length = N ∧ ∀ v ∈ vs, valid v) (fun vs => vs.flatMap f) := by
  have hsize : (DataTy.array d N hN).size.toNat = d.size.toNat * N := by
    simp only [DataTy.array, BitVec.toNat_ofNat]; exact Nat.mod_eq_of_lt hN
  constructor
  · rintro vs ⟨rfl, hv⟩
    rw [hsize, h.flatMap_length hv]
  · rintro vs ⟨rfl, hv⟩ s hs
    rw [hsize] at hs ⊢
    show encodeArray d vs.length vs s = _
    unfold encodeArray
    rw [SO.get_bind]
    simp only [BufferTooSmall.check, hs, if_true, SO.lift_ok_bind]
    rw [h.encodeArrayLoop 0 s hv (by omega)]
    simp
  · rintro vs ⟨rfl, hv⟩ s hs
    rw [hsize] at hs ⊢
    show encodeArray d vs.length vs s = _
    unfold encodeArray
    rw [SO.get_bind]
    simp [BufferTooSmall.check, Nat.not_le.mpr hs]
  · rintro vs ⟨rfl, hv⟩
    show Dxl.decodeArrayLoop d (vs.flatMap f) vs.length 0 = _
    exact h.decodeArrayLoop _ 0 [] hv (by simp) (by rw [h.flatMap_length hv]; omega)

end array
end Dxl
