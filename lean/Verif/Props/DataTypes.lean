import Verif.Lemmas.Data

/-! # C27, C28: encoding and decoding of integers and arrays -/

namespace Dxl.Props

/-! ## C27 -/

theorem two_pow_eight_mul (n : Nat) : 2 ^ (8 * n) = 256 ^ n := by rw [Nat.pow_mul]

/-- C27, unsigned integers of any number of bytes (`u8` to `u128` are 1, 2, 4, 8, 16): there is one sequence of bytes,
the little-endian representation of the value, that `encode` puts at the start of every buffer that has room for it, and
that `decode` turns back into the value. A buffer that is too small is reported and not touched. -/
theorem c27_unsigned_encode (n : Nat) (v : BitVec (8 * n)) :
    ∃ bytes, LittleEndian n v.toNat bytes ∧
      (∀ s : List Byte, n ≤ s.length → (DataTy.unsigned n).encode v s = (bytes ++ s.drop n, .ok ())) ∧
      (∀ s : List Byte, s.length < n → (DataTy.unsigned n).encode v s = (s, .err ⟨n, s.length⟩)) ∧
      (DataTy.unsigned n).decode bytes = .ok v := by
  refine ⟨toLeBytes n v.toNat, littleEndian_iff.mpr rfl, fun s h => encodeNumber_ok h, fun s h => encodeNumber_short h, ?_⟩
  simp only [DataTy.unsigned, decodeNumber_ok (toLeBytes_length n _), fromLeBytes_toLeBytes, Outcome.ok_bind,
    Outcome.pure_eq, Outcome.ok.injEq]
  apply BitVec.eq_of_toNat_eq
  have := v.isLt
  rw [two_pow_eight_mul] at this
  rw [BitVec.toNat_ofNat, two_pow_eight_mul, Nat.mod_mod, Nat.mod_eq_of_lt this]

example := c27_unsigned_encode 2 0x1234#16

/-- C27, unsigned: `decode` accepts exactly the slices of `n` bytes, and gives the number they represent. -/
theorem c27_unsigned_decode (n : Nat) (s : List Byte) :
    (s.length = n → ∃ v, (DataTy.unsigned n).decode s = .ok v ∧ LittleEndian n v.toNat s) ∧
    (s.length ≠ n → (DataTy.unsigned n).decode s = .err (.parameterCount s.length (.exact n))) := by
  constructor
  · intro h
    subst h
    refine ⟨BitVec.ofNat _ (fromLeBytes s), ?_, littleEndian_iff.mpr ?_⟩
    · simp only [DataTy.unsigned, decodeNumber_ok rfl, Outcome.ok_bind, Outcome.pure_eq]
    · rw [BitVec.toNat_ofNat, two_pow_eight_mul, Nat.mod_eq_of_lt (fromLeBytes_lt s), toLeBytes_fromLeBytes]
  · intro h
    simp only [DataTy.unsigned, decodeNumber_other h, Outcome.err_bind]

theorem toNat_ofInt_eq (n : Nat) (z : Int) : (BitVec.ofInt (8 * n) z).toNat = (z % (256 ^ n : Nat)).toNat := by
  rw [BitVec.toNat_ofInt, two_pow_eight_mul]

theorem toInt_ofNat_mod {n : Nat} {z : Int} (hz : InSignedRange n z) :
    (BitVec.ofNat (8 * n) ((z % (256 ^ n : Nat)).toNat % 256 ^ n)).toInt = z := by
  unfold InSignedRange at hz
  rw [BitVec.toInt_eq_toNat_cond, BitVec.toNat_ofNat, two_pow_eight_mul, Nat.mod_mod]
  have hp : (0 : Int) < (256 ^ n : Nat) := by
    have : 0 < 256 ^ n := Nat.pow_pos (by omega)
    omega
  have h1 := Int.emod_nonneg z (Int.ne_of_gt hp)
  have h2 := Int.emod_lt_of_pos z hp
  have h3 : ((z % ((256 ^ n : Nat) : Int)).toNat % 256 ^ n : Nat) = (z % ((256 ^ n : Nat) : Int)).toNat :=
    Nat.mod_eq_of_lt (by omega)
  rw [h3]
  generalize (256 ^ n : Nat) = m at *
  by_cases hz0 : 0 ≤ z
  · have : z % (m : Int) = z := Int.emod_eq_of_lt hz0 (by omega)
    rw [this]
    split <;> omega
  · have : z % (m : Int) = z + m := by
      rw [← Int.add_emod_right, Int.emod_eq_of_lt (by omega) (by omega)]
    rw [this]
    split <;> omega

/-- C27, signed integers of any number of bytes (`i8` to `i128` are 1, 2, 4, 8, 16), for every value in the range of the
type: as for unsigned, with two's complement. -/
theorem c27_signed_encode (n : Nat) (z : Int) (hz : InSignedRange n z) :
    ∃ bytes, TwosComplement n z bytes ∧
      (∀ s : List Byte, n ≤ s.length → (DataTy.signed n).encode z s = (bytes ++ s.drop n, .ok ())) ∧
      (∀ s : List Byte, s.length < n → (DataTy.signed n).encode z s = (s, .err ⟨n, s.length⟩)) ∧
      (DataTy.signed n).decode bytes = .ok z := by
  refine ⟨toLeBytes n (BitVec.ofInt (8 * n) z).toNat, ?_, fun s h => encodeNumber_ok h, fun s h => encodeNumber_short h, ?_⟩
  · unfold TwosComplement
    rw [littleEndian_iff, toNat_ofInt_eq]
  · simp only [DataTy.signed, decodeNumber_ok (toLeBytes_length n _), fromLeBytes_toLeBytes, Outcome.ok_bind,
      Outcome.pure_eq, Outcome.ok.injEq]
    rw [toNat_ofInt_eq, toInt_ofNat_mod hz]

/-- C27, signed: `decode` accepts exactly the slices of `n` bytes, and gives the number in range that they represent. -/
theorem c27_signed_decode (n : Nat) (s : List Byte) :
    (s.length = n → ∃ z, (DataTy.signed n).decode s = .ok z ∧ InSignedRange n z ∧ TwosComplement n z s) ∧
    (s.length ≠ n → (DataTy.signed n).decode s = .err (.parameterCount s.length (.exact n))) := by
  constructor
  · intro h
    subst h
    have hlt := fromLeBytes_lt s
    refine ⟨(BitVec.ofNat (8 * s.length) (fromLeBytes s)).toInt, ?_, ?_, ?_⟩
    · simp only [DataTy.signed, decodeNumber_ok rfl, Outcome.ok_bind, Outcome.pure_eq]
    · unfold InSignedRange
      rw [BitVec.toInt_eq_toNat_cond, BitVec.toNat_ofNat, two_pow_eight_mul, Nat.mod_eq_of_lt hlt]
      split <;> omega
    · unfold TwosComplement
      rw [littleEndian_iff, ← toNat_ofInt_eq, BitVec.ofInt_toInt, BitVec.toNat_ofNat, two_pow_eight_mul,
        Nat.mod_eq_of_lt hlt, toLeBytes_fromLeBytes]
  · intro h
    simp only [DataTy.signed, decodeNumber_other h, Outcome.err_bind]

/-- C27: no two values have the same representation, so the previous theorems determine the number. -/
theorem c27_representation_unique (n : Nat) (s : List Byte) (z w : Int) (hz : InSignedRange n z) (hw : InSignedRange n w)
    (h1 : TwosComplement n z s) (h2 : TwosComplement n w s) : z = w := by
  obtain ⟨b1, t1, -, -, d1⟩ := c27_signed_encode n z hz
  obtain ⟨b2, t2, -, -, d2⟩ := c27_signed_encode n w hw
  unfold TwosComplement at *
  rw [littleEndian_iff] at *
  subst t1; subst t2
  rw [← h1] at d1; rw [← h2, d1] at d2
  exact Outcome.ok.inj d2

/-- The encoded sizes of the integer types. -/
example : [(DataTy.unsigned 1).size, (DataTy.unsigned 2).size, (DataTy.unsigned 16).size, (DataTy.signed 8).size] =
    [1, 2, 16, 8] := by decide

/-- C27 on `-2 : i16` and on `0x01020304 : u32`, in a buffer with room to spare. -/
example : (DataTy.signed 2).encode (-2) [9, 9, 9] = ([0xFE, 0xFF, 9], .ok ()) ∧
    (DataTy.signed 2).decode [0xFE, 0xFF] = .ok (-2) ∧ InSignedRange 2 (-2) ∧
    (DataTy.unsigned 4).encode 0x01020304#32 [9, 9, 9, 9, 9] = ([4, 3, 2, 1, 9], .ok ()) ∧
    (DataTy.unsigned 4).decode [4, 3, 2] = .err (.parameterCount 3 (.exact 4)) := by
  refine ⟨by decide, by decide, by unfold InSignedRange; decide, by decide, by decide⟩

/-! ## C28 -/

/-- A type rejects slices of any other length than its encoded size. -/
def RejectsOtherLengths {α : Type} (d : DataTy α) : Prop :=
  ∀ s : List Byte, s.length ≠ d.size.toNat → ∃ e, d.decode s = .err e

theorem unsigned_codec (n : Nat) (hn : n < 2 ^ 16) :
    Codec (DataTy.unsigned n) (fun _ => True) (fun v => toLeBytes n v.toNat) := by
  have hs : (DataTy.unsigned n).size.toNat = n := by
    simp only [DataTy.unsigned, BitVec.toNat_ofNat]; exact Nat.mod_eq_of_lt hn
  constructor
  · intro v _; rw [hs, toLeBytes_length]
  · intro v _ s h; rw [hs] at h ⊢; exact encodeNumber_ok h
  · intro v _ s h; rw [hs] at h ⊢; exact encodeNumber_short h
  · intro v _
    obtain ⟨b, h1, -, -, h4⟩ := c27_unsigned_encode n v
    rw [littleEndian_iff] at h1
    exact h1 ▸ h4

theorem signed_codec (n : Nat) (hn : n < 2 ^ 16) :
    Codec (DataTy.signed n) (InSignedRange n) (fun z => toLeBytes n (z % (256 ^ n : Nat)).toNat) := by
  have hs : (DataTy.signed n).size.toNat = n := by
    simp only [DataTy.signed, BitVec.toNat_ofNat]; exact Nat.mod_eq_of_lt hn
  constructor
  · intro v _; rw [hs, toLeBytes_length]
  · intro v _ s h
    rw [hs] at h ⊢
    show encodeNumber n _ s = _
    rw [encodeNumber_ok h, toNat_ofInt_eq]
  · intro v _ s h; rw [hs] at h ⊢; exact encodeNumber_short h
  · intro v hv
    obtain ⟨b, h1, -, -, h4⟩ := c27_signed_encode n v hv
    unfold TwosComplement at h1
    rw [littleEndian_iff] at h1
    exact h1 ▸ h4

/-- The types for which the crate implements `Data`: integers and, recursively, arrays. `ImplData d valid f` says that `d`
is such a type and gives the meaning of an encoding by recursion: an integer by its little-endian bytes, an array by the
concatenation of its elements. -/
inductive ImplData : {α : Type} → DataTy α → (α → Prop) → (α → List Byte) → Prop
  | unsigned {n : Nat} (hn : n < 2 ^ 16) (f : BitVec (8 * n) → List Byte) (hf : ∀ v, LittleEndian n v.toNat (f v)) :
      ImplData (DataTy.unsigned n) (fun _ => True) f
  | signed {n : Nat} (hn : n < 2 ^ 16) (f : Int → List Byte) (hf : ∀ z, InSignedRange n z → TwosComplement n z (f z)) :
      ImplData (DataTy.signed n) (InSignedRange n) f
  | array {α : Type} {d : DataTy α} {valid : α → Prop} {f : α → List Byte} (h : ImplData d valid f) (N : Nat)
      (hN : d.size.toNat * N < 2 ^ 16) :
      ImplData (DataTy.array d N hN) (fun vs => vs.length = N ∧ ∀ v ∈ vs, valid v) (fun vs => vs.flatMap f)

theorem Codec.congr {α : Type} {d : DataTy α} {valid : α → Prop} {f g : α → List Byte} (h : Codec d valid f)
    (hfg : ∀ v, valid v → g v = f v) : Codec d valid g :=
  ⟨fun v hv => hfg v hv ▸ h.length v hv, fun v hv => hfg v hv ▸ h.encode v hv, h.short, fun v hv => hfg v hv ▸ h.decode v hv⟩

/-- C28 in full: for every type the crate implements `Data` for (arrays nested to any depth), every value is encoded as
the concatenation of the encodings of the elements, a buffer that is too small is reported, `decode` inverts, and a slice
of any other length is an error. -/
def C28_statement : Prop :=
  ∀ {α : Type} (d : DataTy α) (valid : α → Prop) (f : α → List Byte), ImplData d valid f →
    Codec d valid f ∧ RejectsOtherLengths d

/-- C28 without the clause about other lengths. -/
theorem c28_round_trip_partial {α : Type} (d : DataTy α) (valid : α → Prop) (f : α → List Byte) (h : ImplData d valid f) :
    Codec d valid f := by
  induction h with
  | unsigned hn f hf => exact Codec.congr (unsigned_codec _ hn) fun v _ => littleEndian_iff.mp (hf v)
  | signed hn f hf => exact Codec.congr (signed_codec _ hn) fun z hz => littleEndian_iff.mp (hf z hz)
  | array h N hN ih => exact ih.array N hN

/-- **C28** Every sequence of bytes of the right length is the encoding of a value. -/
theorem c28_onto {α : Type} (d : DataTy α) (valid : α → Prop) (f : α → List Byte) (h : ImplData d valid f) :
    ∀ bytes : List Byte, bytes.length = d.size.toNat → ∃ v, valid v ∧ f v = bytes := by
  induction h with
  | @unsigned n hn f hf =>
    intro bytes hl
    have hs : (DataTy.unsigned n).size.toNat = n := by
      simp only [DataTy.unsigned, BitVec.toNat_ofNat]; exact Nat.mod_eq_of_lt hn
    rw [hs] at hl
    subst hl
    refine ⟨BitVec.ofNat _ (fromLeBytes bytes), trivial, ?_⟩
    have h1 := littleEndian_iff.mp (hf (BitVec.ofNat _ (fromLeBytes bytes)))
    rw [h1, BitVec.toNat_ofNat, two_pow_eight_mul, Nat.mod_eq_of_lt (fromLeBytes_lt bytes), toLeBytes_fromLeBytes]
  | @signed n hn f hf =>
    intro bytes hl
    have hs : (DataTy.signed n).size.toNat = n := by
      simp only [DataTy.signed, BitVec.toNat_ofNat]; exact Nat.mod_eq_of_lt hn
    rw [hs] at hl
    obtain ⟨z, -, h2, h3⟩ := (c27_signed_decode n bytes).1 hl
    refine ⟨z, h2, ?_⟩
    have h4 := hf z h2
    unfold TwosComplement at h3 h4
    rw [littleEndian_iff] at h3 h4
    rw [h3, h4]
  | @array α d valid f h N hN ih =>
    have hs : (DataTy.array d N hN).size.toNat = d.size.toNat * N := by
      simp only [DataTy.array, BitVec.toNat_ofNat]; exact Nat.mod_eq_of_lt hN
    rw [hs]
    clear hs hN
    induction N with
    | zero =>
      intro bytes hl
      exact ⟨[], ⟨rfl, by simp⟩, (List.eq_nil_of_length_eq_zero (by omega)).symm⟩
    | succ N ihN =>
      intro bytes hl
      rw [Nat.mul_succ] at hl
      obtain ⟨v, hv, hfv⟩ := ih (bytes.take d.size.toNat) (by rw [List.length_take]; omega)
      obtain ⟨vs, ⟨hn, hvs⟩, hfvs⟩ := ihN (bytes.drop d.size.toNat) (by rw [List.length_drop]; omega)
      refine ⟨v :: vs, ⟨by simp [hn], ?_⟩, ?_⟩
      · intro w hw
        rcases List.mem_cons.mp hw with rfl | hw
        · exact hv
        · exact hvs w hw
      · dsimp only at hfvs ⊢
        rw [List.flatMap_cons, hfv, hfvs, List.take_append_drop]

/-- C28 does not hold: decoding `[u8; 2]` from one byte panics. -/
theorem c28_refuted : ¬ C28_statement := by
  intro h
  have h1 := (h _ _ _ (.array (.unsigned (n := 1) (by decide) _ fun v => littleEndian_iff.mpr rfl) 2 (by decide))).2
  obtain ⟨e, he⟩ := h1 [7] (by decide)
  have : (DataTy.array (DataTy.unsigned 1) 2 (by decide)).decode [7] = .panic := by decide
  rw [this] at he
  cases he

/-- C28 does not hold for longer slices either: decoding `[u8; 2]` from three bytes succeeds. -/
theorem c28_refuted_longer : ¬ RejectsOtherLengths (DataTy.array (DataTy.unsigned 1) 2 (by decide)) := by
  intro h
  obtain ⟨e, he⟩ := h [7, 8, 9] (by decide)
  have : (DataTy.array (DataTy.unsigned 1) 2 (by decide)).decode [7, 8, 9] = .ok [7, 8] := by decide
  rw [this] at he
  cases he

/-- Decoding an array of decodable elements: shorter slices panic, from longer ones the start is decoded. -/
theorem decodeArrayLoop_total {α : Type} {d : DataTy α} (hd : ∀ s : List Byte, s.length = d.size.toNat → ∃ v, d.decode s = .ok v)
    (buffer : List Byte) : ∀ (n i : Nat),
    (i * d.size.toNat + d.size.toNat * n ≤ buffer.length → ∃ vs, decodeArrayLoop d buffer n i = .ok vs) ∧
    (0 < n → buffer.length < i * d.size.toNat + d.size.toNat * n → decodeArrayLoop d buffer n i = .panic) := by
  intro n
  induction n with
  | zero => exact fun i => ⟨fun _ => ⟨[], rfl⟩, fun h => absurd h (by omega)⟩
  | succ n ih =>
    intro i
    have e : (i + 1) * d.size.toNat = i * d.size.toNat + d.size.toNat := Nat.succ_mul _ _
    obtain ⟨ih1, ih2⟩ := ih (i + 1)
    rw [e] at ih1 ih2
    rw [Nat.mul_succ]
    by_cases hsl : i * d.size.toNat + d.size.toNat ≤ buffer.length
    · obtain ⟨v, hv⟩ := hd ((buffer.take (i * d.size.toNat + d.size.toNat)).drop (i * d.size.toNat)) (by simp; omega)
      have step : decodeArrayLoop d buffer (n + 1) i =
          (decodeArrayLoop d buffer n (i + 1) >>= fun rest => pure (v :: rest)) := by
        rw [decodeArrayLoop.eq_2, slice_ok (by omega) hsl]
        simp only [Outcome.ok_bind, hv]
      rw [step]
      constructor
      · intro h
        obtain ⟨vs, hvs⟩ := ih1 (by omega)
        exact ⟨v :: vs, by rw [hvs]; rfl⟩
      · intro _ h
        have hn : 0 < n := by
          rcases Nat.eq_zero_or_pos n with rfl | h0
          · simp at h; omega
          · exact h0
        rw [ih2 hn (by omega)]
        rfl
    · refine ⟨fun h => absurd h (by omega), fun _ _ => ?_⟩
      rw [decodeArrayLoop.eq_2]
      have : slice (ε := InvalidMessage) buffer (i * d.size.toNat) (i * d.size.toNat + d.size.toNat) = .panic := by
        simp [slice, hsl]
      rw [this]
      rfl

/-- Every sequence of bytes of the right length is the encoding of a value. -/
theorem c28_decode_onto_partial {α : Type} (d : DataTy α) (valid : α → Prop) (f : α → List Byte) (h : ImplData d valid f)
    (s : List Byte) (hs : s.length = d.size.toNat) : ∃ v, valid v ∧ f v = s ∧ d.decode s = .ok v := by
  have hc := c28_round_trip_partial d valid f h
  suffices h' : ∃ v, valid v ∧ f v = s by
    obtain ⟨v, hv, hf⟩ := h'
    exact ⟨v, hv, hf, hf ▸ hc.decode v hv⟩
  clear hc
  induction h generalizing s with
  | @unsigned n hn f hf =>
    have hs' : s.length = n := by rw [hs]; simp only [DataTy.unsigned, BitVec.toNat_ofNat]; exact Nat.mod_eq_of_lt hn
    obtain ⟨v, -, hv⟩ := (c27_unsigned_decode n s).1 hs'
    exact ⟨v, trivial, (littleEndian_iff.mp (hf v)).trans (littleEndian_iff.mp hv).symm⟩
  | @signed n hn f hf =>
    have hs' : s.length = n := by rw [hs]; simp only [DataTy.signed, BitVec.toNat_ofNat]; exact Nat.mod_eq_of_lt hn
    obtain ⟨z, -, hr, hz⟩ := (c27_signed_decode n s).1 hs'
    exact ⟨z, hr, (littleEndian_iff.mp (hf z hr)).trans (littleEndian_iff.mp hz).symm⟩
  | @array α d valid f h N hN ih =>
    have hs' : s.length = d.size.toNat * N := by
      rw [hs]; simp only [DataTy.array, BitVec.toNat_ofNat]; exact Nat.mod_eq_of_lt hN
    clear hs hN
    induction N generalizing s with
    | zero => exact ⟨[], ⟨rfl, by simp⟩, by simpa using (List.length_eq_zero_iff.mp (by simpa using hs')).symm⟩
    | succ N ihN =>
      rw [Nat.mul_succ] at hs'
      obtain ⟨v, hv, hfv⟩ := ih (s.take d.size.toNat) (by simp; omega)
      obtain ⟨vs, ⟨hl, hvs⟩, hfvs⟩ := ihN (s.drop d.size.toNat) (by simp; omega)
      refine ⟨v :: vs, ⟨by simp [hl], by simpa using ⟨hv, hvs⟩⟩, ?_⟩
      dsimp only at hfvs ⊢
      rw [List.flatMap_cons, hfv, hfvs, List.take_append_drop]

/-- What decoding an array really does, for every type the crate implements `Data` for and every slice: from a slice of
the encoded size or longer the first bytes are decoded and the rest is ignored, a shorter one panics. -/
theorem c28_decode_array_partial {α : Type} (d : DataTy α) (valid : α → Prop) (f : α → List Byte) (h : ImplData d valid f)
    (N : Nat) (hN : d.size.toNat * N < 2 ^ 16) (s : List Byte) :
    (d.size.toNat * N ≤ s.length → ∃ vs, vs.length = N ∧ (∀ v ∈ vs, valid v) ∧
      vs.flatMap f = s.take (d.size.toNat * N) ∧ (DataTy.array d N hN).decode s = .ok vs) ∧
    (s.length < d.size.toNat * N → (DataTy.array d N hN).decode s = .panic) := by
  have hsize : (DataTy.array d N hN).size.toNat = d.size.toNat * N := by
    simp only [DataTy.array, BitVec.toNat_ofNat]; exact Nat.mod_eq_of_lt hN
  constructor
  · intro hl
    obtain ⟨vs, ⟨h1, h2⟩, h3, -⟩ := c28_decode_onto_partial _ _ _ (h.array N hN) (s.take (d.size.toNat * N))
      (by rw [hsize]; simp; omega)
    refine ⟨vs, h1, h2, h3, ?_⟩
    subst h1
    exact (c28_round_trip_partial d valid f h).decodeArrayLoop s 0 (s.drop (d.size.toNat * vs.length)) h2
      (by simp only [Nat.zero_mul, List.drop_zero]; rw [h3, List.take_append_drop]) (by omega)
  · intro hl
    refine (decodeArrayLoop_total (d := d) (fun s hs => ?_) s N 0).2 ?_ (by omega)
    · obtain ⟨v, -, -, hv⟩ := c28_decode_onto_partial d valid f h s hs
      exact ⟨v, hv⟩
    · rcases Nat.eq_zero_or_pos N with rfl | h0
      · simp at hl
      · exact h0

/-- C28 on a nested array, `[[i16; 2]; 2]`. -/
example :
    (DataTy.array (DataTy.array (DataTy.signed 2) 2 (by decide)) 2 (by decide)).encode [[1, -1], [2, -2]]
        [9, 9, 9, 9, 9, 9, 9, 9, 9] = ([1, 0, 0xFF, 0xFF, 2, 0, 0xFE, 0xFF, 9], .ok ()) ∧
    (DataTy.array (DataTy.array (DataTy.signed 2) 2 (by decide)) 2 (by decide)).decode
        [1, 0, 0xFF, 0xFF, 2, 0, 0xFE, 0xFF] = .ok [[1, -1], [2, -2]] := by decide

/-! Each theorem with hypotheses on a concrete case. -/

theorem implUnsigned {n : Nat} (hn : n < 2 ^ 16) : ImplData (DataTy.unsigned n) (fun _ => True) (fun v => toLeBytes n v.toNat) :=
  .unsigned hn _ fun _ => littleEndian_iff.2 rfl

theorem implSigned {n : Nat} (hn : n < 2 ^ 16) :
    ImplData (DataTy.signed n) (InSignedRange n) (fun z => toLeBytes n (z % (256 ^ n : Nat)).toNat) :=
  .signed hn _ fun _ _ => littleEndian_iff.2 rfl

example := c27_signed_encode 2 (-300) (by unfold InSignedRange; decide)

example := (c27_unsigned_decode 4 [1#8, 2#8, 3#8, 4#8]).1 rfl

example := (c27_signed_decode 4 [1#8, 2#8, 3#8]).2 (by decide)

/-- `[[i16; 2]; 3]` -/
example := c28_round_trip_partial _ _ _ (.array (.array (implSigned (n := 2) (by decide)) 2 (by decide)) 3 (by decide))

/-- `[u8; 4]` -/
example := c28_onto _ _ _ (.array (implUnsigned (n := 1) (by decide)) 4 (by decide)) [1#8, 2#8, 3#8, 4#8] rfl

example := c28_decode_onto_partial _ _ _ (.array (implUnsigned (n := 1) (by decide)) 4 (by decide)) [1#8, 2#8, 3#8, 4#8] rfl

end Dxl.Props
