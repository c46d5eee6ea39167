import Verif.Props.DataTypes
import Verif.Spec.EncodedSize

/-! # C93: which types compile, and the size of their values -/

namespace Dxl.Props

theorem IntWidth.sizeOf_le (w : IntWidth) : w.sizeOf ≤ 16 := by cases w <;> decide

theorem IntWidth.sizeOf_eq (w : IntWidth) : w.sizeOf = w.octets := by cases w <;> rfl

theorem toU16_ok {ε : Type} {n : Nat} (h : n ≤ 65535) : toU16 (ε := ε) n = .ok (BitVec.ofNat 16 n) := if_pos h

theorem toU16_panic {ε : Type} {n : Nat} (h : ¬ n ≤ 65535) : toU16 (ε := ε) n = .panic := if_neg h

theorem encodedSize_cases {ε : Type} (s : DataShape) :
    ((∀ n ∈ s.lengths, n ≤ 65535) ∧ (∀ a ∈ s.arrays, a.bytes ≤ 65535) → s.bytes ≤ 65535 ∧
      DataShape.encodedSize (ε := ε) s = .ok (BitVec.ofNat 16 s.bytes)) ∧
    (¬ ((∀ n ∈ s.lengths, n ≤ 65535) ∧ (∀ a ∈ s.arrays, a.bytes ≤ 65535)) →
      DataShape.encodedSize (ε := ε) s = .panic) := by
  induction s with
  | unsigned w =>
    have := IntWidth.sizeOf_le w
    rw [DataShape.bytes, ← IntWidth.sizeOf_eq]
    exact ⟨fun _ => ⟨by omega, toU16_ok (by omega)⟩,
      fun h => absurd ⟨by simp [DataShape.lengths], by simp [DataShape.arrays]⟩ h⟩
  | signed w =>
    have := IntWidth.sizeOf_le w
    rw [DataShape.bytes, ← IntWidth.sizeOf_eq]
    exact ⟨fun _ => ⟨by omega, toU16_ok (by omega)⟩,
      fun h => absurd ⟨by simp [DataShape.lengths], by simp [DataShape.arrays]⟩ h⟩
  | array elem n ih =>
    simp only [DataShape.lengths, DataShape.arrays, List.forall_mem_cons]
    by_cases he : (∀ n ∈ elem.lengths, n ≤ 65535) ∧ (∀ a ∈ elem.arrays, a.bytes ≤ 65535)
    · obtain ⟨hb, hs⟩ := ih.1 he
      have hmod : elem.bytes % 65536 = elem.bytes := Nat.mod_eq_of_lt (by omega)
      by_cases hn : n ≤ 65535
      · have hmodn : n % 65536 = n := Nat.mod_eq_of_lt (by omega)
        have hval : (BitVec.ofNat 16 elem.bytes).toNat * (BitVec.ofNat 16 n).toNat = elem.bytes * n := by
          simp only [BitVec.toNat_ofNat, show 2 ^ 16 = 65536 from rfl, hmod, hmodn]
        have hstep : DataShape.encodedSize (ε := ε) (.array elem n) =
            match checkedMulU16 (BitVec.ofNat 16 elem.bytes) (BitVec.ofNat 16 n) with
            | some product => .ok product
            | none => .panic := by
          simp only [DataShape.encodedSize, hs, toU16_ok hn, Outcome.ok_bind]
          rfl
        rw [hstep]
        unfold checkedMulU16
        rw [hval]
        by_cases hp : elem.bytes * n ≤ 65535
        · rw [if_pos (by omega)]
          exact ⟨fun _ => ⟨hp, by simp [DataShape.bytes, BitVec.ofNat_mul]⟩, fun h => absurd ⟨⟨hn, he.1⟩, hp, he.2⟩ h⟩
        · rw [if_neg (by omega)]
          exact ⟨fun h => absurd h.2.1 hp, fun _ => rfl⟩
      · have hstep : DataShape.encodedSize (ε := ε) (.array elem n) = .panic := by
          simp only [DataShape.encodedSize, hs, toU16_panic hn, Outcome.ok_bind, Outcome.panic_bind]
        exact ⟨fun h => absurd h.1.1 hn, fun _ => hstep⟩
    · have hstep : DataShape.encodedSize (ε := ε) (.array elem n) = .panic := by
        simp only [DataShape.encodedSize, ih.2 he, Outcome.panic_bind]
      exact ⟨fun h => absurd ⟨h.1.2, h.2.2⟩ he, fun _ => hstep⟩

/-- **C93** Which types compile, and what size the compiler computes: if all lengths, and the bytes of the type and of every
array in it, are at most 65535, then the size is the number of bytes; otherwise the program does not compile. -/
theorem c93_compiles {ε : Type} (s : DataShape) :
    ((∀ n ∈ s.lengths, n ≤ 65535) ∧ (∀ a ∈ s.arrays, a.bytes ≤ 65535) →
      ∃ size, DataShape.encodedSize (ε := ε) s = .ok size ∧ size.toNat = s.bytes) ∧
    (¬ ((∀ n ∈ s.lengths, n ≤ 65535) ∧ (∀ a ∈ s.arrays, a.bytes ≤ 65535)) →
      DataShape.encodedSize (ε := ε) s = .panic) := by
  refine ⟨fun h => ?_, (encodedSize_cases s).2⟩
  obtain ⟨hb, hs⟩ := (encodedSize_cases (ε := ε) s).1 h
  exact ⟨_, hs, by rw [BitVec.toNat_ofNat]; exact Nat.mod_eq_of_lt (by omega)⟩

theorem bytes_pos (s : DataShape) (h : ∀ n ∈ s.lengths, 0 < n) : 0 < s.bytes := by
  induction s with
  | unsigned w => cases w <;> decide
  | signed w => cases w <;> decide
  | array elem n ih =>
    simp only [DataShape.lengths, List.forall_mem_cons] at h
    exact Nat.mul_pos (ih h.2) h.1

theorem fits_of_bytes (s : DataShape) (h : ∀ n ∈ s.lengths, 0 < n) (hb : s.bytes ≤ 65535) :
    (∀ n ∈ s.lengths, n ≤ 65535) ∧ (∀ a ∈ s.arrays, a.bytes ≤ 65535) := by
  induction s with
  | unsigned w => exact ⟨by simp [DataShape.lengths], by simp [DataShape.arrays]⟩
  | signed w => exact ⟨by simp [DataShape.lengths], by simp [DataShape.arrays]⟩
  | array elem n ih =>
    simp only [DataShape.lengths, DataShape.arrays, List.forall_mem_cons] at h ⊢
    have hp := bytes_pos elem h.2
    have h1 : n ≤ elem.bytes * n := Nat.le_mul_of_pos_left n hp
    have h2 : elem.bytes ≤ elem.bytes * n := Nat.le_mul_of_pos_right _ h.1
    have h3 : elem.bytes * n ≤ 65535 := hb
    obtain ⟨h4, h5⟩ := ih h.2 (by omega)
    exact ⟨⟨by omega, h4⟩, hb, h5⟩

/-- **C93** For types without empty arrays: they compile exactly when a value has at most 65535 bytes. -/
theorem c93_compiles_nonempty {ε : Type} (s : DataShape) (h : ∀ n ∈ s.lengths, 0 < n) :
    (∃ size, DataShape.encodedSize (ε := ε) s = .ok size) ↔ s.bytes ≤ 65535 := by
  constructor
  · rintro ⟨size, hs⟩
    by_cases hf : (∀ n ∈ s.lengths, n ≤ 65535) ∧ (∀ a ∈ s.arrays, a.bytes ≤ 65535)
    · exact ((encodedSize_cases (ε := ε) s).1 hf).1
    · rw [(encodedSize_cases s).2 hf] at hs
      cases hs
  · intro hb
    exact ⟨_, ((encodedSize_cases (ε := ε) s).1 (fits_of_bytes s h hb)).2⟩

theorem inARow_unique {α : Type} {of : α → List Byte → Prop} {f : α → List Byte} (vs : List α)
    (h : ∀ v ∈ vs, ∀ bytes, of v bytes ↔ bytes = f v) (bytes : List Byte) : InARow of vs bytes ↔ bytes = vs.flatMap f := by
  induction vs generalizing bytes with
  | nil => simp [InARow]
  | cons v vs ih =>
    simp only [List.forall_mem_cons] at h
    simp only [InARow, List.flatMap_cons]
    constructor
    · rintro ⟨a, b, rfl, ha, hb⟩
      rw [(h.1 a).1 ha, (ih h.2 b).1 hb]
    · rintro rfl
      exact ⟨_, _, rfl, (h.1 _).2 rfl, (ih h.2 _).2 rfl⟩

theorem shape_impl {ε : Type} (s : DataShape) {size : U16} (h : DataShape.encodedSize (ε := ε) s = .ok size) :
    ∃ d f, s.data = some d ∧ d.size = size ∧ ImplData d s.Exists f ∧
      ∀ v, s.Exists v → ∀ bytes, s.Wire v bytes ↔ bytes = f v := by
  induction s generalizing size with
  | unsigned w =>
    have hw := IntWidth.sizeOf_le w
    rw [DataShape.encodedSize, toU16_ok (by omega)] at h
    exact ⟨_, _, rfl, Outcome.ok.inj h, implUnsigned (by omega), fun v _ bytes => by
      rw [DataShape.Wire, ← IntWidth.sizeOf_eq]; exact littleEndian_iff⟩
  | signed w =>
    have hw := IntWidth.sizeOf_le w
    rw [DataShape.encodedSize, toU16_ok (by omega)] at h
    have he : DataShape.Exists (.signed w) = InSignedRange w.sizeOf := by
      funext z; rw [DataShape.Exists, ← IntWidth.sizeOf_eq]
    refine ⟨_, fun (z : Int) => toLeBytes w.sizeOf (z % (256 ^ w.sizeOf : Nat)).toNat, rfl, Outcome.ok.inj h, ?_, fun v _ bytes => ?_⟩
    · rw [he]; exact implSigned (by omega)
    · rw [DataShape.Wire, ← IntWidth.sizeOf_eq]; exact littleEndian_iff
  | array elem n ih =>
    by_cases hf : (∀ m ∈ (DataShape.array elem n).lengths, m ≤ 65535) ∧
        (∀ a ∈ (DataShape.array elem n).arrays, a.bytes ≤ 65535)
    · obtain ⟨hb, hs⟩ := (encodedSize_cases (ε := ε) _).1 hf
      rw [hs] at h
      have hfe : (∀ m ∈ elem.lengths, m ≤ 65535) ∧ (∀ a ∈ elem.arrays, a.bytes ≤ 65535) := by
        simp only [DataShape.lengths, DataShape.arrays, List.forall_mem_cons] at hf
        exact ⟨hf.1.2, hf.2.2⟩
      obtain ⟨hbe, hse⟩ := (encodedSize_cases (ε := ε) elem).1 hfe
      obtain ⟨d, f, hd, hsize, himpl, hwire⟩ := ih hse
      have hdn : d.size.toNat = elem.bytes := by
        rw [hsize, BitVec.toNat_ofNat]; exact Nat.mod_eq_of_lt (by omega)
      have hfit : d.size.toNat * n < 2 ^ 16 := by
        rw [hdn]
        have : elem.bytes * n ≤ 65535 := hb
        omega
      refine ⟨DataTy.array d n hfit, fun vs => List.flatMap f vs, ?_, ?_, himpl.array n hfit, ?_⟩
      · simp only [DataShape.data, hd, dif_pos hfit]
      · rw [← Outcome.ok.inj h]
        simp only [DataTy.array, hdn, DataShape.bytes]
      · intro vs hvs bytes
        exact inARow_unique vs (fun v hv => hwire v (hvs.2 v hv)) bytes
    · rw [(encodedSize_cases _).2 hf] at h
      cases h

/-- **C93** For every type that compiles: the size is that of the implementation; every value has one representation, the
integers in little-endian order one after the other; it is that many bytes long; `encode` writes exactly it to the start of
a large enough buffer and reports a smaller buffer; `decode` gives the value back. -/
theorem c93_encode {ε : Type} (s : DataShape) (size : U16) (h : DataShape.encodedSize (ε := ε) s = .ok size) :
    ∃ d, s.data = some d ∧ d.size = size ∧ ∀ v, s.Exists v → ∃ bytes, (∀ other, s.Wire v other ↔ other = bytes) ∧
      bytes.length = s.bytes ∧
      (∀ buffer, s.bytes ≤ buffer.length → d.encode v buffer = (bytes ++ buffer.drop s.bytes, .ok ())) ∧
      (∀ buffer, buffer.length < s.bytes → d.encode v buffer = (buffer, .err ⟨s.bytes, buffer.length⟩)) ∧
      d.decode bytes = .ok v := by
  obtain ⟨d, f, hd, hsize, himpl, hwire⟩ := shape_impl s h
  have hn : d.size.toNat = s.bytes := by
    by_cases hf : (∀ n ∈ s.lengths, n ≤ 65535) ∧ (∀ a ∈ s.arrays, a.bytes ≤ 65535)
    · obtain ⟨hb, hs⟩ := (encodedSize_cases (ε := ε) s).1 hf
      rw [hs] at h
      rw [hsize, ← Outcome.ok.inj h, BitVec.toNat_ofNat]
      exact Nat.mod_eq_of_lt (by omega)
    · rw [(encodedSize_cases s).2 hf] at h
      cases h
  have hc := c28_round_trip_partial _ _ _ himpl
  refine ⟨d, hd, hsize, fun v hv => ⟨f v, hwire v hv, ?_, ?_, ?_, hc.decode v hv⟩⟩
  · rw [← hn]; exact hc.length v hv
  · rw [← hn]; exact hc.encode v hv
  · rw [← hn]; exact hc.short v hv

/-- **C93** For every type that compiles, all sequences of that many bytes are read, as the value they represent. -/
theorem c93_decode {ε : Type} (s : DataShape) (size : U16) (h : DataShape.encodedSize (ε := ε) s = .ok size) :
    ∃ d, s.data = some d ∧ ∀ bytes : List Byte, bytes.length = s.bytes →
      ∃ v, s.Exists v ∧ s.Wire v bytes ∧ d.decode bytes = .ok v := by
  obtain ⟨d, f, hd, hsize, himpl, hwire⟩ := shape_impl s h
  have hn : d.size.toNat = s.bytes := by
    by_cases hf : (∀ n ∈ s.lengths, n ≤ 65535) ∧ (∀ a ∈ s.arrays, a.bytes ≤ 65535)
    · obtain ⟨hb, hs⟩ := (encodedSize_cases (ε := ε) s).1 hf
      rw [hs] at h
      rw [hsize, ← Outcome.ok.inj h, BitVec.toNat_ofNat]
      exact Nat.mod_eq_of_lt (by omega)
    · rw [(encodedSize_cases s).2 hf] at h
      cases h
  refine ⟨d, hd, fun bytes hl => ?_⟩
  obtain ⟨v, hv, hfv, hdec⟩ := c28_decode_onto_partial d _ f himpl bytes (by rw [hn]; exact hl)
  exact ⟨v, hv, (hwire v hv bytes).2 hfv.symm, hdec⟩

/-! Concrete cases. -/

/-- `[[i16; 3]; 4]` -/
def grid : DataShape := .array (.array (.signed .w16) 3) 4

example : grid.bytes = 24 ∧ DataShape.encodedSize (ε := Empty) grid = .ok 24 := ⟨rfl, rfl⟩

/-- `[u128; 4095]` compiles, `[u128; 4096]` and `[u8; 65536]` do not; nor does `[[u8; 0]; 65536]`, although its values have no bytes. -/
example : DataShape.encodedSize (ε := Empty) (.array (.unsigned .w128) 4095) = .ok 65520 ∧
    DataShape.encodedSize (ε := Empty) (.array (.unsigned .w128) 4096) = .panic ∧
    DataShape.encodedSize (ε := Empty) (.array (.unsigned .w8) 65536) = .panic ∧
    DataShape.encodedSize (ε := Empty) (.array (.array (.unsigned .w8) 0) 65536) = .panic := by decide +kernel

/-- Nor does `[[u64; 8192]; 0]`. -/
example : DataShape.encodedSize (ε := Empty) (.array (.array (.unsigned .w64) 8192) 0) = .panic := by decide +kernel

example := (c93_compiles (ε := Empty) grid).1 (by decide)
example := (c93_compiles (ε := Empty) (.array (.array (.unsigned .w8) 0) 65536)).2 (by decide +kernel)
example := (c93_compiles_nonempty (ε := Empty) grid (by decide)).2 (by decide)

def gridValue : List (List Int) := [[1, 2, 3], [-1, -2, -3], [0, 0, 0], [32767, -32768, 7]]

theorem gridValue_exists : grid.Exists gridValue := by
  refine ⟨rfl, fun (v : List Int) (hv : v ∈ gridValue) => ?_⟩
  have h : ∀ v ∈ gridValue, v.length = 3 ∧ ∀ z ∈ v, -(256 ^ 2 : Nat) ≤ 2 * z ∧ 2 * z < (256 ^ 2 : Nat) := by decide
  exact h v hv

example : ∃ d, grid.data = some d ∧ ∃ bytes, d.decode bytes = .ok gridValue := by
  obtain ⟨d, hd, -, h⟩ := c93_encode (ε := Empty) grid 24 rfl
  obtain ⟨bytes, -, -, -, -, hdec⟩ := h _ gridValue_exists
  exact ⟨d, hd, bytes, hdec⟩

example := c93_decode (ε := Empty) grid 24 rfl

end Dxl.Props
