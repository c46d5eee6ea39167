import Verif.Lemmas.Crc

/-! # CRC: error detection -/

namespace Dxl
open Spec

/-- Parity (XOR of all bits) of a string of bits. -/
def parity (l : List Bool) : Bool := l.foldl (fun x y => x != y) false

/-- Parity of a 16-bit register. -/
def parity16 (c : BitVec 16) : Bool :=
  c.getLsbD 0 ^^ c.getLsbD 1 ^^ c.getLsbD 2 ^^ c.getLsbD 3 ^^ c.getLsbD 4 ^^ c.getLsbD 5 ^^ c.getLsbD 6 ^^ c.getLsbD 7 ^^
  c.getLsbD 8 ^^ c.getLsbD 9 ^^ c.getLsbD 10 ^^ c.getLsbD 11 ^^ c.getLsbD 12 ^^ c.getLsbD 13 ^^ c.getLsbD 14 ^^ c.getLsbD 15

/-- The generator has an even number of terms, so a CRC step preserves parity. -/
theorem parity16_crcBit (c : BitVec 16) (b : Bool) : parity16 (crcBit c b) = (parity16 c ^^ b) := by
  unfold crcBit parity16
  split
  · rename_i h
    rw [h]
    simp
  · rename_i h
    have h' : b = !c.getLsbD 15 := by cases b <;> simp_all
    subst h'
    simp

theorem parity16_crcBits (c : BitVec 16) (l : List Bool) : parity16 (crcBits c l) = (parity16 c ^^ parity l) := by
  have gen : ∀ (l : List Bool) (x : Bool), l.foldl (fun x y => x != y) x = (x ^^ parity l) := by
    intro l
    induction l with
    | nil => simp [parity]
    | cons y l ih => intro x; simp only [parity, List.foldl_cons] at ih ⊢; rw [ih, ih (false != y)]; simp
  induction l generalizing c with
  | nil => simp [crcBits, parity]
  | cons x l ih =>
    have h1 : parity (x :: l) = (x ^^ parity l) := by
      simp only [parity, List.foldl_cons]; rw [gen]; simp [parity]
    have h2 := ih (crcBit c x)
    simp only [crcBits, List.foldl_cons] at h2 ⊢
    rw [h2, parity16_crcBit, h1]
    simp

theorem parity_cons (x : Bool) (l : List Bool) : parity (x :: l) = (x ^^ parity l) := by
  have gen : ∀ (l : List Bool) (x : Bool), l.foldl (fun x y => x != y) x = (x ^^ parity l) := by
    intro l
    induction l with
    | nil => simp [parity]
    | cons y l ih => intro x; simp only [parity, List.foldl_cons] at ih ⊢; rw [ih, ih (false != y)]; simp
  simp only [parity, List.foldl_cons]; rw [gen]; simp [parity]

theorem parity_append (a b : List Bool) : parity (a ++ b) = (parity a ^^ parity b) := by
  induction a with
  | nil => simp [parity]
  | cons x a ih => rw [List.cons_append, parity_cons, parity_cons, ih]; simp

theorem parity_diff (a b : List Bool) (h : a.length = b.length) : parity (diff a b) = (parity a ^^ parity b) := by
  induction a generalizing b with
  | nil => cases b with
    | nil => rfl
    | cons _ _ => simp at h
  | cons x a ih => cases b with
    | nil => simp at h
    | cons y b =>
      have := ih b (by simpa using h)
      simp only [diff, List.zipWith_cons_cons] at this ⊢
      rw [parity_cons, parity_cons, parity_cons, this]
      cases x <;> cases y <;> simp

theorem parity_count (l : List Bool) : parity l = decide (l.count true % 2 = 1) := by
  induction l with
  | nil => rfl
  | cons x l ih =>
    rw [parity_cons, ih]
    cases x
    · simp
    · simp only [List.count_cons_self]
      rcases Nat.mod_two_eq_zero_or_one (l.count true) with h | h
      · have : (l.count true + 1) % 2 = 1 := by omega
        simp [h, this]
      · have : (l.count true + 1) % 2 = 0 := by omega
        simp [h, this]

theorem bits_append (a b : List (BitVec 8)) : bits (a ++ b) = bits a ++ bits b := by simp [bits]

theorem parity_le16 (c : BitVec 16) : parity (bits (le16 c)) = parity16 c := by
  simp only [bits, le16, byteBits, parity, parity16, List.flatMap_cons, List.flatMap_nil, List.append_nil,
    List.cons_append, List.nil_append, List.foldl_cons, List.foldl_nil, BitVec.getLsbD_setWidth,
    BitVec.getLsbD_ushiftRight]
  simp only [Nat.reduceLT, decide_true, Bool.true_and, Nat.reduceAdd, Bool.false_bne, Bool.bne_assoc]
  have hb : ∀ x y : Bool, (x != y) = (x ^^ y) := by decide
  simp only [hb]
  haveI : Std.Associative (fun x y : Bool => x ^^ y) := ⟨by decide⟩
  haveI : Std.Commutative (fun x y : Bool => x ^^ y) := ⟨by decide⟩
  haveI : Std.Associative Bool.xor := ⟨by decide⟩
  haveI : Std.Commutative Bool.xor := ⟨by decide⟩
  ac_rfl

/-! Zero bits -/

theorem crcBit_false_eq_zero {c : BitVec 16} (h : crcBit c false = 0#16) : c = 0#16 := by
  unfold crcBit at h
  split at h
  · rename_i h15
    ext i hi
    by_cases h' : i = 15
    · subst h'; simpa [BitVec.getLsbD_eq_getElem] using h15
    · have := congrArg (fun x => x.getLsbD (i + 1)) h
      simp at this
      have := this (by omega)
      rw [BitVec.getLsbD_eq_getElem hi] at this
      simp [this]
  · have := congrArg (fun x => x.getLsbD 0) h
    simp at this

theorem crcBits_zeros_eq_zero {c : BitVec 16} {n : Nat} (h : crcBits c (zeros n) = 0#16) : c = 0#16 := by
  induction n generalizing c with
  | zero => exact h
  | succ n ih => exact crcBit_false_eq_zero (ih h)

theorem crcBits_zero_zeros (n : Nat) : crcBits 0#16 (zeros n) = 0#16 := by
  induction n with
  | zero => rfl
  | succ n ih => exact ih

theorem crcBits_zeros_add (c : BitVec 16) (m n : Nat) :
    crcBits c (zeros (m + n)) = crcBits (crcBits c (zeros m)) (zeros n) := by
  rw [← crcBits_append, zeros, zeros, zeros, List.replicate_append_replicate]

theorem crcBits_zeros_inj {c c' : BitVec 16} {n : Nat} (h : crcBits c (zeros n) = crcBits c' (zeros n)) : c = c' := by
  have hx := crcBits_xor (zeros n) (zeros n) rfl c c'
  rw [h, BitVec.xor_self] at hx
  have hd : diff (zeros n) (zeros n) = zeros n := by
    have := diff_zeros (zeros n)
    simpa [zeros] using this
  rw [hd] at hx
  have := crcBits_zeros_eq_zero hx
  exact BitVec.xor_eq_zero_iff.mp this

/-! Bursts -/

/-- Bits placed at the top of the register. -/
def pack : List Bool → BitVec 16
  | [] => 0#16
  | x :: l => (if x then 0x8000#16 else 0#16) ^^^ (pack l >>> 1)

theorem pack_bit (l : List Bool) (j : Nat) (hj : j < 16) : (pack l).getLsbD j = l.getD (15 - j) false := by
  induction l generalizing j with
  | nil => simp [pack]
  | cons x l ih =>
    simp only [pack, BitVec.getLsbD_xor, BitVec.getLsbD_ushiftRight]
    by_cases h : j = 15
    · subst h
      have : (pack l).getLsbD (1 + 15) = false := BitVec.getLsbD_of_ge _ _ (by omega)
      rw [this]
      cases x <;> simp
    · rw [ih _ (by omega)]
      have h1 : (if x then 0x8000#16 else 0#16).getLsbD j = false := by
        have : ∀ j, j < 15 → (0x8000#16).getLsbD j = false := by decide
        cases x
        · simp
        · simpa using this j (by omega)
      rw [h1, show 15 - j = (15 - (1 + j)) + 1 by omega]
      simp

theorem crcBits_pack (l : List Bool) (hl : l.length ≤ 16) (c : BitVec 16) :
    crcBits c l = crcBits (c ^^^ pack l) (zeros l.length) := by
  induction l generalizing c with
  | nil => simp [pack, zeros]
  | cons x l ih =>
    simp at hl
    have h1 : crcBits c (x :: l) = crcBits (crcBit c x) l := rfl
    have h2 : ∀ d, crcBits d (zeros (l.length + 1)) = crcBits (crcBit d false) (zeros l.length) := fun _ => rfl
    rw [h1, ih (by omega), List.length_cons, h2]
    congr 1
    have hp : crcBit (pack l >>> 1) false = pack l := by
      have h15 : (pack l >>> 1).getLsbD 15 = false := by
        rw [BitVec.getLsbD_ushiftRight]; exact BitVec.getLsbD_of_ge _ _ (by omega)
      unfold crcBit
      rw [h15]
      simp only [if_true]
      ext i hi
      rw [BitVec.getElem_shiftLeft]
      by_cases h0 : i = 0
      · subst h0
        have := pack_bit l 0 (by omega)
        rw [BitVec.getLsbD_eq_getElem (by omega)] at this
        rw [this]
        simp
        rw [List.getElem?_eq_none (by omega)]; rfl
      · have e : 1 + (i - 1) = i := by omega
        simp [e, show ¬ i < 1 by omega, BitVec.getLsbD_eq_getElem hi]
    have hx : crcBit (c ^^^ (if x then 0x8000#16 else 0#16)) false = crcBit c x := by
      cases x
      · simp
      · have := crcBit_xor c 0x8000#16 true true
        simp only [bne_self_eq_false] at this
        simp only [if_true]
        rw [this]
        have : crcBit 0x8000#16 true = 0#16 := by decide
        rw [this]; simp
    have := crcBit_xor (c ^^^ (if x then 0x8000#16 else 0#16)) (pack l >>> 1) false false
    simp only [bne_self_eq_false] at this
    rw [hx, hp] at this
    rw [pack, ← BitVec.xor_assoc, this]

theorem pack_ne_zero {l : List Bool} (hl : l.length ≤ 16) (h : true ∈ l) : pack l ≠ 0#16 := by
  intro h0
  obtain ⟨i, hi, hli⟩ := List.mem_iff_getElem.mp h
  have := pack_bit l (15 - i) (by omega)
  rw [h0, show 15 - (15 - i) = i by omega] at this
  simp [hi, hli] at this

theorem crcBits_burst {w : List Bool} (hw : w.length ≤ 16) (h : true ∈ w) (a b : Nat) :
    crcBits 0#16 (zeros a ++ w ++ zeros b) ≠ 0#16 := by
  intro h0
  rw [crcBits_append, crcBits_append, crcBits_zero_zeros] at h0
  have h1 := crcBits_zeros_eq_zero h0
  rw [crcBits_pack w hw, BitVec.zero_xor] at h1
  exact pack_ne_zero hw h (crcBits_zeros_eq_zero h1)

/-! Two bits: the order of `x` modulo the generator is 32767 -/

/-- A zero bit, on natural numbers (for evaluation by the kernel). -/
def zeroStep (n : Nat) : Nat := if n < 32768 then 2 * n else (2 * n - 65536) ^^^ 0x8005

/-- `2 ^ d` zero bits; also says whether `0x8005` was never reached. -/
def zeroRun : Nat → Nat → Bool × Nat
  | 0, n => (zeroStep n != 0x8005, zeroStep n)
  | d + 1, n => match zeroRun d n with
    | (a, n') => match zeroRun d n' with
      | (a', n'') => (a && a', n'')

theorem zeroRun14 : zeroRun 14 0x8005 = (true, 34319) := by decide +kernel

theorem zeroRun_second : zeroRun 14 34319 = (false, 32783) := by decide +kernel

/-- `k` zero bits, on natural numbers. -/
def zeroIter : Nat → Nat → Nat
  | 0, n => n
  | k + 1, n => zeroIter k (zeroStep n)

theorem zeroIter_add (j k n : Nat) : zeroIter (j + k) n = zeroIter k (zeroIter j n) := by
  induction j generalizing n with
  | zero => simp [zeroIter]
  | succ j ih => rw [Nat.add_right_comm]; exact ih _

theorem zeroRun_spec (d n : Nat) : (zeroRun d n).2 = zeroIter (2 ^ d) n ∧
    ((zeroRun d n).1 = true → ∀ k, 0 < k → k ≤ 2 ^ d → zeroIter k n ≠ 0x8005) := by
  induction d generalizing n with
  | zero =>
    refine ⟨rfl, ?_⟩
    intro h k h0 h1
    have : k = 1 := by simp at h1; omega
    subst this
    simpa [zeroRun, zeroIter] using h
  | succ d ih =>
    obtain ⟨e1, f1⟩ := ih n
    obtain ⟨e2, f2⟩ := ih (zeroIter (2 ^ d) n)
    simp only [zeroRun]
    rw [e1]
    refine ⟨?_, ?_⟩
    · rw [e2, ← zeroIter_add]; congr 1; omega
    · intro h k h0 hk
      simp at h
      by_cases hk' : k ≤ 2 ^ d
      · exact f1 h.1 k h0 hk'
      · have := f2 h.2 (k - 2 ^ d) (by omega) (by omega)
        rwa [← zeroIter_add, show 2 ^ d + (k - 2 ^ d) = k by omega] at this

theorem zeroStep_crcBit (c : BitVec 16) : (crcBit c false).toNat = zeroStep c.toNat := by
  have hmsb : c.getLsbD 15 = decide (32768 ≤ c.toNat) := by
    have := BitVec.msb_eq_decide c
    rwa [BitVec.msb_eq_getLsbD_last] at this
  unfold crcBit zeroStep
  rw [hmsb]
  by_cases h : 32768 ≤ c.toNat
  · have h' : ¬ c.toNat < 32768 := by omega
    simp only [h, h', decide_true, Bool.true_eq_false, if_false, BitVec.toNat_xor, BitVec.toNat_shiftLeft]
    have e : c.toNat <<< 1 % 2 ^ 16 = 2 * c.toNat - 65536 := by
      have := c.isLt
      rw [Nat.shiftLeft_eq]; omega
    rw [e, BitVec.toNat_ofNat]
  · have h' : c.toNat < 32768 := by omega
    simp only [h, h', decide_false, if_true, BitVec.toNat_shiftLeft]
    rw [Nat.shiftLeft_eq]; omega

theorem zeroIter_crcBits (k : Nat) (c : BitVec 16) : (crcBits c (zeros k)).toNat = zeroIter k c.toNat := by
  induction k generalizing c with
  | zero => rfl
  | succ k ih =>
    have : crcBits c (zeros (k + 1)) = crcBits (crcBit c false) (zeros k) := rfl
    rw [this, ih, zeroStep_crcBit]; rfl

theorem no_return_half (k : Nat) (h0 : 0 < k) (h : k ≤ 16384) : crcBits 0x8005#16 (zeros k) ≠ 0x8005#16 := by
  intro he
  have := (zeroRun_spec 14 0x8005).2 (by rw [zeroRun14]) k h0 h
  apply this
  have h1 := zeroIter_crcBits k 0x8005#16
  rw [he] at h1
  exact h1.symm

theorem period : crcBits 0x8005#16 (zeros 32767) = 0x8005#16 := by
  apply crcBits_zeros_inj (n := 1)
  rw [← crcBits_zeros_add]
  apply BitVec.eq_of_toNat_eq
  rw [zeroIter_crcBits, zeroIter_crcBits]
  have e1 := (zeroRun_spec 14 0x8005).1
  rw [zeroRun14] at e1
  have e2 := (zeroRun_spec 14 34319).1
  rw [zeroRun_second] at e2
  rw [show 32767 + 1 = 2 ^ 14 + 2 ^ 14 by rfl, zeroIter_add]
  show zeroIter (2 ^ 14) (zeroIter (2 ^ 14) 0x8005) = zeroStep 0x8005
  have e3 : zeroStep 0x8005 = 32783 := by decide
  rw [← e1, ← e2, e3]

theorem no_return (k : Nat) (h0 : 0 < k) (h : k < 32767) : crcBits 0x8005#16 (zeros k) ≠ 0x8005#16 := by
  by_cases hk : k ≤ 16384
  · exact no_return_half k h0 hk
  · intro he
    apply no_return_half (32767 - k) (by omega) (by omega)
    have := period
    rw [show 32767 = k + (32767 - k) by omega, crcBits_zeros_add, he] at this
    exact this

theorem crcBits_two (k : Nat) (h : k + 1 < 32767) (a b : Nat) :
    crcBits 0#16 (zeros a ++ [true] ++ zeros k ++ [true] ++ zeros b) ≠ 0#16 := by
  intro h0
  rw [crcBits_append] at h0
  have h1 := crcBits_zeros_eq_zero h0
  rw [crcBits_append, crcBits_append, crcBits_append, crcBits_zero_zeros] at h1
  have e1 : crcBits 0#16 [true] = 0x8005#16 := by decide
  rw [e1] at h1
  have e2 := crcBit_xor (crcBits 0x8005#16 (zeros k)) 0#16 false true
  have e3 : crcBit 0#16 true = 0x8005#16 := by decide
  rw [BitVec.xor_zero, e3] at e2
  have e4 : crcBit (crcBits 0x8005#16 (zeros k)) false = crcBits 0x8005#16 (zeros (k + 1)) := by
    rw [crcBits_zeros_add]; rfl
  rw [e4] at e2
  have e5 : crcBits (crcBits 0x8005#16 (zeros k)) [true] = crcBits 0x8005#16 (zeros (k + 1)) ^^^ 0x8005#16 := e2
  rw [e5] at h1
  exact no_return (k + 1) (by omega) h (BitVec.xor_eq_zero_iff.mp h1)

theorem crcBits_two_return (k n b : Nat) (hn : n = k + 1) (h : crcBits 0x8005#16 (zeros n) = 0x8005#16) :
    crcBits 0#16 ([true] ++ zeros k ++ [true] ++ zeros b) = 0#16 := by
  have e1 : crcBits 0#16 [true] = 0x8005#16 := by decide
  have e3 : crcBit 0#16 true = 0x8005#16 := by decide
  have e2 := crcBit_xor (crcBits 0x8005#16 (zeros k)) 0#16 false true
  rw [BitVec.xor_zero, e3] at e2
  have e4 : crcBit (crcBits 0x8005#16 (zeros k)) false = crcBits 0x8005#16 (zeros n) := by
    rw [hn, crcBits_zeros_add]; rfl
  rw [e4, h, BitVec.xor_self] at e2
  have e5 : crcBits (crcBits 0x8005#16 (zeros k)) [true] = 0#16 := e2
  rw [crcBits_append, crcBits_append, crcBits_append, e1, e5]
  exact crcBits_zero_zeros b

/-- Two messages of equal length have the same CRC exactly if their difference has CRC zero. -/
theorem crc_eq_iff (init : BitVec 16) (m m' : List (BitVec 8)) (h : m.length = m'.length) :
    crc init m = crc init m' ↔ crcBits 0#16 (diff (bits m) (bits m')) = 0#16 := by
  have := crcBits_xor (bits m) (bits m') (by simp [bits_length, h]) init init
  rw [BitVec.xor_self] at this
  rw [this, BitVec.xor_eq_zero_iff]
  rfl

end Dxl
