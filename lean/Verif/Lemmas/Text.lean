import Verif.Model.Display
import Verif.Spec.Text

/-! # Numbers in text -/

namespace Dxl
open Spec

/-- A character of a number. -/
def HexChar (c : Char) : Prop := c ∈ "0123456789ABCDEF".toList

theorem digit_for {base x : Nat} (h : x < base) (hb : base ≤ 16) : DigitFor base (Fmt.digit x) x := by
  refine ⟨h, ?_⟩
  have hx : x < 16 := by omega
  have key : ∀ x : Fin 16, "0123456789ABCDEF".toList[x.val]? = some (Fmt.digit x.val) := by decide
  exact key ⟨x, hx⟩

theorem digitFor_unique {base d d' : Nat} {c : Char} (hb : base ≤ 16) (h : DigitFor base c d) (h' : DigitFor base c d') : d = d' := by
  have key : ∀ x y : Fin 16, "0123456789ABCDEF".toList[x.val]? = "0123456789ABCDEF".toList[y.val]? → x = y := by decide
  have := key ⟨d, by have := h.1; omega⟩ ⟨d', by have := h'.1; omega⟩ (h.2.trans h'.2.symm)
  exact congrArg Fin.val this

theorem digitFor_hex {base d : Nat} {c : Char} (h : DigitFor base c d) : HexChar c := List.mem_of_getElem? h.2

theorem readsAs_hex {base n : Nat} {s : List Char} (h : ReadsAs base s n) : ∀ c ∈ s, HexChar c := by
  induction h with
  | nil => simp
  | snoc _ hd ih =>
    intro c hc
    rcases List.mem_append.mp hc with hc | hc
    · exact ih c hc
    · rw [List.mem_singleton.mp hc]; exact digitFor_hex hd

theorem readsAs_unique {base n m : Nat} {s : List Char} (hb : base ≤ 16) (h : ReadsAs base s n) (h' : ReadsAs base s m) : n = m := by
  induction h generalizing m with
  | nil =>
    generalize hs : ([] : List Char) = s at h'
    cases h' with
    | nil => rfl
    | snoc _ _ => simp at hs
  | @snoc s n c d hs hd ih =>
    generalize ht : s ++ [c] = t at h'
    cases h' with
    | nil => simp at ht
    | snoc h2 hd2 =>
      obtain ⟨rfl, e⟩ := List.append_inj' ht rfl
      simp only [List.cons.injEq, and_true] at e
      subst e
      rw [ih h2, digitFor_unique hb hd hd2]

/-- The loop puts the digits in front of what is there. -/
theorem digitsLoop_acc (base : Nat) (fuel : Nat) : ∀ (x : Nat) (buffer : List Char),
    Fmt.digitsLoop base fuel x buffer = Fmt.digitsLoop base fuel x [] ++ buffer := by
  induction fuel with
  | zero => intro x buffer; rfl
  | succ fuel ih =>
    intro x buffer
    unfold Fmt.digitsLoop
    split
    · rfl
    · rw [ih _ (_ :: buffer), ih _ [_], List.append_assoc, List.singleton_append]

theorem head_ne_zero {x : Nat} (h : x ≠ 0) (hx : x < 16) : Fmt.digit x ≠ '0' := by
  have key : ∀ x : Fin 16, x.val ≠ 0 → Fmt.digit x.val ≠ '0' := by decide
  exact key ⟨x, hx⟩ h

theorem digitsLoop_written {base : Nat} (h2 : 2 ≤ base) (hb : base ≤ 16) (fuel : Nat) : ∀ x, x < fuel →
    ReadsAs base (Fmt.digitsLoop base fuel x []) x ∧ 1 ≤ (Fmt.digitsLoop base fuel x []).length ∧
      (x ≠ 0 → (Fmt.digitsLoop base fuel x []).head? ≠ some '0') ∧ (x = 0 → (Fmt.digitsLoop base fuel x []).length = 1) := by
  induction fuel with
  | zero => omega
  | succ fuel ih =>
    intro x hx
    unfold Fmt.digitsLoop
    have hm : x % base < base := Nat.mod_lt _ (by omega)
    have hdm := Nat.div_add_mod x base
    split
    · rename_i h0
      rw [h0, Nat.mul_zero, Nat.zero_add] at hdm
      refine ⟨?_, by simp, fun hne => ?_, by simp⟩
      · have := ReadsAs.snoc .nil (digit_for hm hb)
        rw [Nat.mul_zero, Nat.zero_add, List.nil_append] at this
        rw [hdm] at this ⊢
        exact this
      · simp only [List.head?_cons, ne_eq, Option.some.injEq]
        exact head_ne_zero (by omega) (by omega)
    · rename_i h0
      have hlt : x / base < x := Nat.div_lt_self (by
        rcases Nat.eq_zero_or_pos x with rfl | h
        · simp at h0
        · exact h) h2
      obtain ⟨i1, i2, i3, -⟩ := ih (x / base) (by omega)
      rw [digitsLoop_acc]
      refine ⟨?_, by simp, fun _ => ?_, fun h => absurd h (by rintro rfl; simp at h0)⟩
      · have := ReadsAs.snoc i1 (digit_for hm hb)
        rwa [hdm] at this
      · rw [List.head?_append]
        cases hh : (Fmt.digitsLoop base fuel (x / base) []).head? with
        | none => rw [List.head?_eq_none_iff] at hh; rw [hh] at i2; simp at i2
        | some c =>
          have := i3 h0
          rw [hh] at this
          simpa using this

theorem digits_written {base : Nat} (h2 : 2 ≤ base) (hb : base ≤ 16) (x : Nat) : Written base 1 (Fmt.digits base x) x := by
  obtain ⟨h3, h4, h5, h6⟩ := digitsLoop_written h2 hb (x + 1) x (by omega)
  refine ⟨h3, h4, h4, fun h _ => h5 ?_⟩
  rintro rfl
  have := h6 rfl
  unfold Fmt.digits at h
  omega

theorem readsAs_pad {base n : Nat} {s : List Char} (hb : 1 ≤ base) (h : ReadsAs base s n) (k : Nat) :
    ReadsAs base (List.replicate k '0' ++ s) n := by
  induction h with
  | nil =>
    rw [List.append_nil]
    induction k with
    | zero => exact .nil
    | succ k ih =>
      rw [List.replicate_succ']
      have := ReadsAs.snoc ih (c := '0') (d := 0) ⟨by omega, by decide⟩
      simpa using this
  | snoc _ hd ih => rw [← List.append_assoc]; exact .snoc ih hd

theorem decimal_written (x : Nat) : Written 10 1 (Fmt.decimal x) x := by
  simpa [Fmt.decimal, Fmt.padIntegral] using digits_written (base := 10) (by decide) (by decide) x

theorem upperHex_written (w x : Nat) : Written 16 w (Fmt.upperHex w x) x := by
  have h := digits_written (base := 16) (by decide) (by decide) x
  unfold Fmt.upperHex Fmt.padIntegral
  simp only [List.nil_append, List.length_nil, Nat.zero_add]
  refine ⟨readsAs_pad (by decide) h.reads _, ?_, ?_, ?_⟩
  · simp only [List.length_append, List.length_replicate]; omega
  · have := h.one
    simp only [List.length_append, List.length_replicate]; omega
  · intro h1 h2
    have e : w - (Fmt.digits 16 x).length = 0 := by
      simp only [List.length_append, List.length_replicate] at h1; omega
    rw [e] at h1 h2 ⊢
    simp only [List.replicate_zero, List.nil_append] at h1 h2 ⊢
    exact h.least h2 h2

/-- With a prefix of two characters the width of 2 does nothing. -/
theorem upperHexPrefixed_written (x : Nat) : ∃ s, Written 16 1 s x ∧ Fmt.upperHexPrefixed 2 x = "0x".toList ++ s := by
  refine ⟨_, digits_written (by decide) (by decide) x, ?_⟩
  simp [Fmt.upperHexPrefixed, Fmt.padIntegral]

/-! ## Reading numbers back -/

/-- The text ends here or goes on with something other than a digit. -/
def Stops (r : List Char) : Prop := ∀ c ∈ r.head?, ¬ HexChar c

theorem span_unique {s s' r r' : List Char} (hs : ∀ c ∈ s, HexChar c) (hs' : ∀ c ∈ s', HexChar c) (hr : Stops r) (hr' : Stops r')
    (h : s ++ r = s' ++ r') : s = s' ∧ r = r' := by
  induction s generalizing s' with
  | nil =>
    cases s' with
    | nil => exact ⟨rfl, h⟩
    | cons c s' =>
      rw [List.nil_append] at h
      subst h
      exact absurd (hs' c (by simp)) (hr c (by simp))
  | cons c s ih =>
    cases s' with
    | nil =>
      rw [List.nil_append] at h
      subst h
      exact absurd (hs c (by simp)) (hr' c (by simp))
    | cons c' s' =>
      simp only [List.cons_append, List.cons.injEq] at h
      obtain ⟨rfl, h⟩ := h
      obtain ⟨rfl, h2⟩ := ih (fun c hc => hs c (by simp [hc])) (fun c hc => hs' c (by simp [hc])) h
      exact ⟨rfl, h2⟩

theorem written_cancel {base w n m : Nat} {s s' r r' : List Char} (hb : base ≤ 16) (h : Written base w s n)
    (h' : Written base w s' m) (hr : Stops r) (hr' : Stops r') (e : s ++ r = s' ++ r') : n = m ∧ r = r' := by
  obtain ⟨rfl, e2⟩ := span_unique (readsAs_hex h.reads) (readsAs_hex h'.reads) hr hr' e
  exact ⟨readsAs_unique hb h.reads h'.reads, e2⟩

theorem decimal_cancel {n m : Nat} {r r' : List Char} (hr : Stops r) (hr' : Stops r')
    (e : Fmt.decimal n ++ r = Fmt.decimal m ++ r') : n = m ∧ r = r' :=
  written_cancel (by decide) (decimal_written n) (decimal_written m) hr hr' e

theorem upperHex_cancel {w n m : Nat} {r r' : List Char} (hr : Stops r) (hr' : Stops r')
    (e : Fmt.upperHex w n ++ r = Fmt.upperHex w m ++ r') : n = m ∧ r = r' :=
  written_cancel (by decide) (upperHex_written w n) (upperHex_written w m) hr hr' e

theorem upperHexPrefixed_cancel {n m : Nat} {r r' : List Char} (hr : Stops r) (hr' : Stops r')
    (e : Fmt.upperHexPrefixed 2 n ++ r = Fmt.upperHexPrefixed 2 m ++ r') : n = m ∧ r = r' := by
  obtain ⟨s, h1, h2⟩ := upperHexPrefixed_written n
  obtain ⟨s', h1', h2'⟩ := upperHexPrefixed_written m
  rw [h2, h2', List.append_assoc, List.append_assoc] at e
  exact written_cancel (by decide) h1 h1' hr hr' (List.append_cancel_left e)

theorem stops_nil : Stops [] := by simp [Stops]

theorem stops_cons {c : Char} {r : List Char} (h : c ∉ "0123456789ABCDEF".toList) : Stops (c :: r) := by
  intro d hd
  simp only [List.head?_cons, Option.mem_def, Option.some.injEq] at hd
  subst hd
  exact h

end Dxl
