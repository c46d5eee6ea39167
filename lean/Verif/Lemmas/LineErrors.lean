import Verif.Lemmas.CrcDetect
import Verif.Spec.LineErrors

/-! # CRC: errors on the line, in the message or in the CRC field -/

namespace Dxl
open Spec

/-- The bytes of the CRC in the order of the polynomial. -/
def be16 (v : BitVec 16) : List (BitVec 8) := [(v >>> 8).setWidth 8, v.setWidth 8]

/-- Bytewise difference. -/
def xorBytes (a b : List (BitVec 8)) : List (BitVec 8) := List.zipWith (· ^^^ ·) a b

theorem xorBytes_length {a b : List (BitVec 8)} (h : a.length = b.length) : (xorBytes a b).length = a.length := by
  simp [xorBytes, h]

theorem diff_byteBits (x y : BitVec 8) : diff (byteBits x) (byteBits y) = byteBits (x ^^^ y) := by
  simp [diff, byteBits]

theorem diff_byteLine (x y : BitVec 8) : diff (byteLine x) (byteLine y) = byteLine (x ^^^ y) := by
  simp [diff, byteLine]

theorem diff_append {a b c d : List Bool} (h : a.length = b.length) : diff (a ++ c) (b ++ d) = diff a b ++ diff c d := by
  simp [diff, List.zipWith_append h]

theorem diff_bits {a b : List (BitVec 8)} (h : a.length = b.length) : diff (bits a) (bits b) = bits (xorBytes a b) := by
  induction a generalizing b with
  | nil => cases b <;> simp_all [diff, bits, xorBytes]
  | cons x a ih => cases b with
    | nil => simp at h
    | cons y b =>
      have := ih (b := b) (by simpa using h)
      simp only [bits, xorBytes, List.flatMap_cons, List.zipWith_cons_cons] at this ⊢
      rw [diff_append (show (byteBits x).length = (byteBits y).length from rfl), diff_byteBits, this]

theorem diff_lineBits {a b : List (BitVec 8)} (h : a.length = b.length) :
    diff (lineBits a) (lineBits b) = lineBits (xorBytes a b) := by
  induction a generalizing b with
  | nil => cases b <;> simp_all [diff, lineBits, xorBytes]
  | cons x a ih => cases b with
    | nil => simp at h
    | cons y b =>
      have := ih (b := b) (by simpa using h)
      simp only [lineBits, xorBytes, List.flatMap_cons, List.zipWith_cons_cons] at this ⊢
      rw [diff_append (show (byteLine x).length = (byteLine y).length from rfl), diff_byteLine, this]

theorem lineBits_length (m : List (BitVec 8)) : (lineBits m).length = 8 * m.length := by
  induction m with
  | nil => rfl
  | cons a m ih => simp [lineBits] at ih ⊢; rw [ih]; simp [byteLine]; omega

theorem lineBits_append (a b : List (BitVec 8)) : lineBits (a ++ b) = lineBits a ++ lineBits b := by simp [lineBits]

theorem count_byteLine : ∀ x : BitVec 8, (byteLine x).count true = (byteBits x).count true := by decide +kernel

theorem count_lineBits (m : List (BitVec 8)) : (lineBits m).count true = (bits m).count true := by
  induction m with
  | nil => rfl
  | cons a m ih =>
    simp only [lineBits, bits, List.flatMap_cons, List.count_append] at ih ⊢
    rw [ih, count_byteLine]

theorem count_bits_append (a b : List (BitVec 8)) : (bits (a ++ b)).count true = (bits a).count true + (bits b).count true := by
  rw [bits_append, List.count_append]

/-- The difference of two valid codewords. -/
theorem xor_codeword {m m' : List (BitVec 8)} (h : m.length = m'.length) :
    crc 0#16 (xorBytes m m') = crc 0#16 m ^^^ crc 0#16 m' := by
  have := crcBits_xor (bits m) (bits m') (by simp [bits_length, h]) 0#16 0#16
  rw [BitVec.xor_self, diff_bits h] at this
  exact this

theorem crc_be16_self : ∀ v : BitVec 16, crc v (be16 v) = 0#16 := by
  intro v
  have h : bits (be16 v) = byteBits ((v >>> 8).setWidth 8) ++ byteBits (v.setWidth 8) := by simp [bits, be16]
  rw [crc, h, crcBits_append, crcBits_byte v]
  have h1 : v ^^^ (((v >>> 8).setWidth 8).setWidth 16 <<< 8) = (v.setWidth 8).setWidth 16 := by
    have := split_bytes v
    generalize ((v >>> 8).setWidth 8).setWidth 16 <<< 8 = x at *
    generalize (v.setWidth 8).setWidth 16 = y at *
    rw [this, BitVec.xor_comm x y, BitVec.xor_assoc, BitVec.xor_self, BitVec.xor_zero]
  rw [h1, crcBits_low, crcBits_byte_zero]

/-- The CRC of a message with its CRC behind it, in the order of the polynomial, is zero. -/
theorem crc_codeword (e : List (BitVec 8)) : crc 0#16 (e ++ be16 (crc 0#16 e)) = 0#16 := by
  rw [crc_append, crc_be16_self]

theorem crc_zeros_head (k : Nat) (e : List (BitVec 8)) : crc 0#16 (List.replicate k 0#8 ++ e) = crc 0#16 e := by
  induction k with
  | zero => rfl
  | succ k ih =>
    rw [List.replicate_succ, List.cons_append, crc_cons]
    have : crcBits 0#16 (byteBits 0#8) = 0#16 := by decide
    rw [this, ih]

theorem crc_zeros_tail {k : Nat} {e : List (BitVec 8)} (h : crc 0#16 (e ++ List.replicate k 0#8) = 0#16) : crc 0#16 e = 0#16 := by
  rw [crc_append] at h
  generalize crc 0#16 e = c at h
  induction k generalizing c with
  | zero => exact h
  | succ k ih =>
    rw [List.replicate_succ, crc_cons] at h
    exact crcBits_zeros_eq_zero (n := 8) (ih _ h)

/-- The shape of bits of which two are set. -/
theorem two_set {l : List Bool} (h : l.count true = 2) :
    ∃ a d b, l = zeros a ++ [true] ++ zeros d ++ [true] ++ zeros b := by
  have none_set : ∀ l : List Bool, l.count true = 0 → l = zeros l.length := by
    intro l h
    rw [zeros, List.eq_replicate_iff]
    refine ⟨rfl, fun x hx => ?_⟩
    cases x with
    | false => rfl
    | true => exact absurd hx (List.count_eq_zero.mp h)
  have one_set : ∀ l : List Bool, l.count true = 1 → ∃ d b, l = zeros d ++ [true] ++ zeros b := by
    intro l
    induction l with
    | nil => intro h; simp at h
    | cons x l ih =>
      intro h
      cases x with
      | true =>
        refine ⟨0, l.length, ?_⟩
        have := none_set l (by simpa using h)
        rw [← this]; rfl
      | false =>
        obtain ⟨d, b, e⟩ := ih (by simpa using h)
        refine ⟨d + 1, b, ?_⟩
        rw [e]; rfl
  induction l with
  | nil => simp at h
  | cons x l ih =>
    cases x with
    | true =>
      obtain ⟨d, b, e⟩ := one_set l (by simpa using h)
      exact ⟨0, d, b, by rw [e]; simp [zeros]⟩
    | false =>
      obtain ⟨a, d, b, e⟩ := ih (by simpa using h)
      exact ⟨a + 1, d, b, by rw [e]; simp [zeros, List.replicate_succ]⟩

theorem count_be16 (v : BitVec 16) : (bits (be16 v)).count true = (bits (le16 v)).count true := by
  have e1 : be16 v = [(v >>> 8).setWidth 8] ++ [v.setWidth 8] := rfl
  have e2 : le16 v = [v.setWidth 8] ++ [(v >>> 8).setWidth 8] := rfl
  rw [e1, e2, count_bits_append, count_bits_append, Nat.add_comm]

theorem xorBytes_append {a b c d : List (BitVec 8)} (h : a.length = b.length) :
    xorBytes (a ++ c) (b ++ d) = xorBytes a b ++ xorBytes c d := by
  simp [xorBytes, List.zipWith_append h]

theorem xorBytes_le16 (v v' : BitVec 16) : xorBytes (le16 v) (le16 v') = le16 (v ^^^ v') := by
  have h : (v ^^^ v') >>> 8 = (v >>> 8) ^^^ (v' >>> 8) := by
    ext i hi; simp
  simp [xorBytes, le16, h, BitVec.setWidth_xor]

theorem xorBytes_self (a : List (BitVec 8)) : xorBytes a a = List.replicate a.length 0#8 := by
  induction a with
  | nil => rfl
  | cons x a ih =>
    have := ih
    simp only [xorBytes, List.zipWith_cons_cons, BitVec.xor_self, List.length_cons, List.replicate_succ] at this ⊢
    rw [this]

/-- Two bits are wrong in a message, in its CRC or one in each: it is not valid. -/
theorem two_bits_of_codeword {e : List (BitVec 8)} (hsize : e.length + 2 ≤ 4095)
    (h : (bits (e ++ le16 (crc 0#16 e))).count true = 2) : False := by
  have h0 := crc_codeword e
  have h2 : (bits (e ++ be16 (crc 0#16 e))).count true = 2 := by
    rw [count_bits_append] at h ⊢
    rw [count_be16, h]
  obtain ⟨a, d, b, hs⟩ := two_set h2
  have hl := congrArg List.length hs
  rw [bits_length] at hl
  simp [be16, zeros] at hl
  rw [crc, hs] at h0
  exact crcBits_two d (by omega) a b h0

/-! Bursts -/

theorem lineBits_getElem {X : List (BitVec 8)} {i j : Nat} {x : BitVec 8} (h : X[i]? = some x) (hj : j < 8) :
    (lineBits X)[8 * i + j]? = some (x.getLsbD j) := by
  induction X generalizing i with
  | nil => simp at h
  | cons y X ih =>
    have e : lineBits (y :: X) = byteLine y ++ lineBits X := rfl
    rw [e]
    cases i with
    | zero =>
      simp at h
      subst h
      rw [List.getElem?_append_left (by simp [byteLine]; omega)]
      match j, hj with
      | 0, _ | 1, _ | 2, _ | 3, _ | 4, _ | 5, _ | 6, _ | 7, _ => rfl
    | succ i =>
      have := ih (i := i) (by simpa using h)
      rw [List.getElem?_append_right (by simp [byteLine]; omega), ← this]
      congr 1
      simp [byteLine]
      omega

theorem burst_position {a b k : Nat} {w : List Bool}
    (h : (List.replicate a false ++ w ++ List.replicate b false)[k]? = some true) : a ≤ k ∧ k < a + w.length := by
  by_cases h1 : k < a
  · rw [List.append_assoc, List.getElem?_append_left (by simpa using h1)] at h
    simp [h1] at h
  · refine ⟨by omega, ?_⟩
    by_cases h2 : k < a + w.length
    · exact h2
    · rw [List.getElem?_append_right (by simp; omega)] at h
      simp [List.getElem?_replicate] at h

/-- The set bits of the bytes are within 10 bits of the line, from bit `a` on. -/
def Within (a : Nat) (X : List (BitVec 8)) : Prop :=
  ∀ i j x, X[i]? = some x → j < 8 → x.getLsbD j = true → a ≤ 8 * i + j ∧ 8 * i + j < a + 10

theorem zero_of_bits {x : BitVec 8} (h : ∀ j, j < 8 → x.getLsbD j = true → False) : x = 0#8 := by
  ext j hj
  rw [← BitVec.getLsbD_eq_getElem hj, ← BitVec.getLsbD_eq_getElem hj, BitVec.getLsbD_zero]
  cases hx : x.getLsbD j with
  | false => rfl
  | true => exact absurd hx (fun hx => h j hj hx)

/-- Then three bytes in a row hold them. -/
theorem within_three {a : Nat} {X : List (BitVec 8)} (h : Within a X) (h3 : 3 ≤ X.length) :
    ∃ i k p q r j, X = List.replicate i 0#8 ++ [p, q, r] ++ List.replicate k 0#8 ∧ Within j [p, q, r] := by
  have hi : ∃ i, i ≤ a / 8 ∧ i + 3 ≤ X.length ∧ (i = a / 8 ∨ i + 3 = X.length) := by
    by_cases hc : a / 8 + 3 ≤ X.length
    · exact ⟨a / 8, by omega, hc, .inl rfl⟩
    · exact ⟨X.length - 3, by omega, by omega, .inr (by omega)⟩
  obtain ⟨i, h1, h2, h4⟩ := hi
  have hz1 : X.take i = List.replicate i 0#8 := by
    rw [List.eq_replicate_iff]
    refine ⟨by simp; omega, fun x hx => ?_⟩
    obtain ⟨n, hn, rfl⟩ := List.mem_iff_getElem.mp hx
    simp at hn
    refine zero_of_bits fun j hj hb => ?_
    have := h n j _ (by rw [List.getElem_take]; exact List.getElem?_eq_getElem (by omega)) hj hb
    omega
  have hz2 : X.drop (i + 3) = List.replicate (X.length - (i + 3)) 0#8 := by
    rw [List.eq_replicate_iff]
    refine ⟨by simp, fun x hx => ?_⟩
    obtain ⟨n, hn, rfl⟩ := List.mem_iff_getElem.mp hx
    simp at hn
    refine zero_of_bits fun j hj hb => ?_
    have := h (i + 3 + n) j _ (by rw [List.getElem_drop]; exact List.getElem?_eq_getElem (by omega)) hj hb
    omega
  have hm : ∃ p q r, (X.drop i).take 3 = [p, q, r] := by
    have : ((X.drop i).take 3).length = 3 := by simp; omega
    match (X.drop i).take 3, this with
    | [p, q, r], _ => exact ⟨p, q, r, rfl⟩
  obtain ⟨p, q, r, hm⟩ := hm
  have hX : X = X.take i ++ (X.drop i).take 3 ++ X.drop (i + 3) := by
    rw [List.append_assoc, ← List.drop_drop, List.take_append_drop, List.take_append_drop]
  refine ⟨i, X.length - (i + 3), p, q, r, a - 8 * i, by rw [← hz1, ← hz2, ← hm]; exact hX, ?_⟩
  intro n j x hx hj hb
  have hn : n < 3 := by
    have := (List.getElem?_eq_some_iff.mp hx).1
    simpa using this
  have hx' : X[i + n]? = some x := by
    rw [← hx, ← hm, List.getElem?_take_of_lt hn, List.getElem?_drop]
  have := h (i + n) j x hx' hj hb
  omega

theorem within_cases {j : Nat} {p q r : BitVec 8} (h : Within j [p, q, r]) :
    p = 0#8 ∨ r = 0#8 ∨ (p = 0x80#8 ∧ r = 1#8) := by
  by_cases h8 : 8 ≤ j
  · refine .inl (zero_of_bits fun k hk hb => ?_)
    have := h 0 k p rfl hk hb
    omega
  by_cases h6 : j ≤ 6
  · refine .inr (.inl (zero_of_bits fun k hk hb => ?_))
    have := h 2 k r rfl hk hb
    omega
  have hp : ∀ k, k < 7 → p.getLsbD k = false := by
    intro k hk
    cases hb : p.getLsbD k with
    | false => rfl
    | true => have := h 0 k p rfl (by omega) hb; omega
  have hr : ∀ k, 1 ≤ k → k < 8 → r.getLsbD k = false := by
    intro k h1 hk
    cases hb : r.getLsbD k with
    | false => rfl
    | true => have := h 2 k r rfl (by omega) hb; omega
  have ep : ∀ p : BitVec 8, (∀ k : Fin 7, p.getLsbD k = false) → p = 0#8 ∨ p = 0x80#8 := by decide +kernel
  have er : ∀ r : BitVec 8, (∀ k : Fin 7, r.getLsbD (k + 1) = false) → r = 0#8 ∨ r = 1#8 := by decide +kernel
  rcases ep p (fun k => hp k k.isLt) with e | e
  · exact .inl e
  rcases er r (fun k => hr (k + 1) (by omega) (by omega)) with e' | e'
  · exact .inr (.inl e')
  · exact .inr (.inr ⟨e, e'⟩)

theorem crc_two_zero {p q : BitVec 8} (h : crc 0#16 [p, q] = 0#16) : p = 0#8 ∧ q = 0#8 := by
  have hb : true ∉ bits [p, q] := by
    intro hm
    have := crcBits_burst (w := bits [p, q]) (by simp [bits_length]) hm 0 0
    simp only [zeros, List.replicate_zero, List.nil_append, List.append_nil] at this
    exact this h
  have hz : ∀ x : BitVec 8, true ∉ byteBits x → x = 0#8 := by decide +kernel
  simp only [bits, List.flatMap_cons, List.flatMap_nil, List.append_nil, List.mem_append, not_or] at hb
  exact ⟨hz p hb.1, hz q hb.2⟩

theorem within_two_a : ∀ (j : Fin 8) (q : BitVec 8), (∀ k : Fin 8, q.getLsbD k = true → j.val ≤ k.val ∧ k.val < j.val + 10) →
    (∀ k : Fin 8, ((crc 0#16 [q]).setWidth 8).getLsbD k = true → 8 + k.val < j.val + 10) →
    ((crc 0#16 [q]) >>> 8).setWidth 8 = 0#8 → q = 0#8 := by decide +kernel

/-- A byte and its CRC, if that is just a byte too, are more than 10 bits of the line. -/
theorem within_two {j i : Nat} {X : List (BitVec 8)} {q r : BitVec 8} (h : Within j X) (hq : X[i]? = some q) (hr : X[i + 1]? = some r)
    (hlo : (crc 0#16 [q]).setWidth 8 = r) (hhi : ((crc 0#16 [q]) >>> 8).setWidth 8 = 0#8) : q = 0#8 := by
  refine Classical.byContradiction fun hne => ?_
  have hj : j < 8 * i + 8 := by
    refine Classical.byContradiction fun hc => hne (zero_of_bits fun k hk hb => ?_)
    have := h i k q hq hk hb
    omega
  have hj' : ∀ k < 8, q.getLsbD k = true → j ≤ 8 * i + k ∧ 8 * i + k < j + 10 := fun k hk hb => h i k q hq hk hb
  have hr' : ∀ k < 8, r.getLsbD k = true → 8 * i + (8 + k) < j + 10 := fun k hk hb => by
    have := h (i + 1) k r hr hk hb
    omega
  exact hne (within_two_a ⟨j - 8 * i, by omega⟩ q (fun k hb => by have := hj' k k.isLt hb; simp only; omega)
    (fun k hb => by rw [hlo] at hb; have := hr' k k.isLt hb; simp only; omega) hhi)

/-- A burst of at most 10 bits on the line, in a message or its CRC or both: it is not valid. -/
theorem burst_of_codeword {e : List (BitVec 8)} (hne : e ≠ []) {a b : Nat} {w : List Bool} (hw : w.length ≤ 10) (ht : true ∈ w)
    (h : lineBits (e ++ le16 (crc 0#16 e)) = List.replicate a false ++ w ++ List.replicate b false) : False := by
  have hpos : 0 < e.length := List.length_pos_iff.mpr hne
  have hwithin : Within a (e ++ le16 (crc 0#16 e)) := by
    intro i j x hx hj hb
    have := lineBits_getElem hx hj
    rw [hb, h] at this
    have := burst_position this
    omega
  have hnz : ∀ n, e ++ le16 (crc 0#16 e) ≠ List.replicate n 0#8 := by
    intro n hn
    rw [hn] at h
    have hz : ∀ n, lineBits (List.replicate n 0#8) = List.replicate (8 * n) false := by
      intro n
      induction n with
      | zero => rfl
      | succ n ih =>
        have e1 : lineBits (List.replicate (n + 1) 0#8) = List.replicate 8 false ++ lineBits (List.replicate n 0#8) := rfl
        rw [e1, ih, List.replicate_append_replicate]
        congr 1
        omega
    have hm : true ∈ List.replicate (8 * n) false := by rw [← hz, h]; simp [ht]
    simp at hm
  have h3 : 3 ≤ (e ++ le16 (crc 0#16 e)).length := by simp [le16]; omega
  obtain ⟨i, k, p, q, r, j, hX, hj⟩ := within_three hwithin h3
  have hzero : ¬ (p = 0#8 ∧ q = 0#8 ∧ r = 0#8) := by
    rintro ⟨rfl, rfl, rfl⟩
    refine hnz (i + 3 + k) ?_
    rw [hX, show [0#8, 0#8, 0#8] = List.replicate 3 0#8 from rfl, List.replicate_append_replicate, List.replicate_append_replicate]
  match k with
  | 0 =>
    have e1 : e ++ le16 (crc 0#16 e) = (List.replicate i 0#8 ++ [p]) ++ [q, r] := by rw [hX]; simp
    obtain ⟨he, hc⟩ := List.append_inj' e1 rfl
    rw [he, crc_zeros_head] at hc
    simp only [le16, List.cons.injEq, and_true] at hc
    obtain ⟨hq, hr⟩ := hc
    rcases within_cases hj with rfl | rfl | ⟨rfl, rfl⟩
    · refine hzero ⟨rfl, ?_, ?_⟩
      · rw [← hq]; decide
      · rw [← hr]; decide
    · have hp := within_two (i := 0) hj rfl rfl hq hr
      subst hp
      exact hzero ⟨rfl, by rw [← hq]; decide, rfl⟩
    · revert hr; decide
  | 1 =>
    have e1 : e ++ le16 (crc 0#16 e) = (List.replicate i 0#8 ++ [p, q]) ++ [r, 0#8] := by rw [hX]; simp
    obtain ⟨he, hc⟩ := List.append_inj' e1 rfl
    rw [he, crc_zeros_head] at hc
    simp only [le16, List.cons.injEq, and_true] at hc
    obtain ⟨hq, hr⟩ := hc
    rcases within_cases hj with rfl | rfl | ⟨rfl, rfl⟩
    · have e2 : crc 0#16 [0#8, q] = crc 0#16 [q] := crc_zeros_head 1 [q]
      rw [e2] at hq hr
      have hq0 := within_two (i := 1) hj rfl rfl hq hr
      subst hq0
      exact hzero ⟨rfl, rfl, by rw [← hq]; decide⟩
    · have h0 : crc 0#16 [p, q] = 0#16 := by
        rw [split_bytes (crc 0#16 [p, q]), hq, hr]; decide
      obtain ⟨hp0, hq0⟩ := crc_two_zero h0
      exact hzero ⟨hp0, hq0, rfl⟩
    · have : ∀ q : BitVec 8, (crc 0#16 [0x80#8, q]).setWidth 8 = 1#8 → ((crc 0#16 [0x80#8, q]) >>> 8).setWidth 8 ≠ 0#8 := by
        decide +kernel
      exact this q hq hr
  | k + 2 =>
    have e1 : e ++ le16 (crc 0#16 e) = (List.replicate i 0#8 ++ ([p, q, r] ++ List.replicate k 0#8)) ++ [0#8, 0#8] := by
      rw [hX, ← List.replicate_append_replicate]; simp
    obtain ⟨he, hc⟩ := List.append_inj' e1 rfl
    have hc0 : crc 0#16 e = 0#16 := by
      simp only [le16, List.cons.injEq, and_true] at hc
      rw [split_bytes (crc 0#16 e), hc.1, hc.2]; decide
    rw [he, crc_zeros_head] at hc0
    have hc1 := crc_zeros_tail hc0
    rcases within_cases hj with rfl | rfl | ⟨rfl, rfl⟩
    · have e2 : crc 0#16 [0#8, q, r] = crc 0#16 [q, r] := crc_zeros_head 1 [q, r]
      obtain ⟨hq0, hr0⟩ := crc_two_zero (e2.symm.trans hc1)
      exact hzero ⟨rfl, hq0, hr0⟩
    · obtain ⟨hp0, hq0⟩ := crc_two_zero (crc_zeros_tail (k := 1) (e := [p, q]) hc1)
      exact hzero ⟨hp0, hq0, rfl⟩
    · have : ∀ q : BitVec 8, crc 0#16 [0x80#8, q, 1#8] ≠ 0#16 := by decide +kernel
      exact this q hc1

end Dxl
