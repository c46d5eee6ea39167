import Verif.Lemmas.Survive
import Verif.Spec.Misfits
import Verif.Spec.Frame

/-! # When the header prefix appears in what is sent for a body -/

namespace Dxl
open Spec

theorem misfits_eq (d : List Byte) (r : Nat) : misfits r d = missed r d := by
  induction d generalizing r with
  | nil => rfl
  | cons b d ih =>
    simp only [misfits, missed, ih]
    split
    · rfl
    · split <;> omega

/-- The header prefix ends in `l`, after a run of `r` `FF`s. -/
def headerGo : Nat → List Byte → Prop
  | _, [] => False
  | r, b :: l =>
    if b = 0xFF#8 then headerGo (r + 1) l
    else (b = 0xFD#8 ∧ 2 ≤ r ∧ l.head? = some 0x00#8) ∨ headerGo 0 l

theorem headerGo_splits (l p : List Byte) : headerGo (run p) l ↔
    ∃ u post, l = u ++ 0xFD#8 :: 0x00#8 :: post ∧ 2 ≤ run (u.reverse ++ p) := by
  induction l generalizing p with
  | nil => simp [headerGo]
  | cons b l ih =>
    have key : (∃ u post, b :: l = u ++ 0xFD#8 :: 0x00#8 :: post ∧ 2 ≤ run (u.reverse ++ p)) ↔
        ((b = 0xFD#8 ∧ 2 ≤ run p ∧ l.head? = some 0x00#8) ∨ headerGo (run (b :: p)) l) := by
      rw [ih]
      constructor
      · rintro ⟨u, post, h, hr⟩
        match u, h, hr with
        | [], h, hr =>
          simp only [List.nil_append, List.cons.injEq] at h
          left
          exact ⟨h.1, by simpa using hr, by simp [h.2]⟩
        | x :: u, h, hr =>
          simp only [List.cons_append, List.cons.injEq] at h
          obtain ⟨rfl, h⟩ := h
          right
          exact ⟨u, post, h, by simpa using hr⟩
      · rintro (⟨rfl, hr, hl⟩ | ⟨u, post, rfl, hr⟩)
        · match l, hl with
          | _ :: l, hl =>
            simp only [List.head?_cons, Option.some.injEq] at hl
            exact ⟨[], l, by simp [hl], by simpa using hr⟩
        · exact ⟨b :: u, post, by simp, by simpa using hr⟩
    rw [key]
    simp only [headerGo, run]
    by_cases hb : b = 0xFF#8
    · simp [hb]
    · simp [hb]

theorem header_infix_iff (l : List Byte) : header <:+: l ↔ headerGo 0 l := by
  have h := headerGo_splits l []
  simp only [run, List.append_nil] at h
  rw [h]
  constructor
  · rintro ⟨a, c, rfl⟩
    refine ⟨a ++ [0xFF#8, 0xFF#8], c, by simp [header], by simp [run]⟩
  · rintro ⟨u, post, rfl, hr⟩
    have := (take2_run u.reverse).mpr hr
    obtain ⟨q, hq⟩ : ∃ q, u.reverse = [0xFF#8, 0xFF#8] ++ q := ⟨u.reverse.drop 2, by
      conv => lhs; rw [← List.take_append_drop 2 u.reverse, this]⟩
    have hu : u = q.reverse ++ [0xFF#8, 0xFF#8] := by
      have := congrArg List.reverse hq
      simpa using this
    exact ⟨q.reverse, post, by simp [hu, header]⟩

/-- One of the first `skip` occurrences is followed by `00`. -/
def hitGo : Nat → Nat → List Byte → Prop
  | _, _, [] => False
  | skip, r, b :: d =>
    if b = 0xFF#8 then hitGo skip (r + 1) d
    else if b = 0xFD#8 ∧ 2 ≤ r then skip ≠ 0 ∧ (d.head? = some 0x00#8 ∨ hitGo (skip - 1) 0 d)
    else hitGo skip 0 d

theorem fstuff_head (skip r : Nat) (d : List Byte) : (fstuff skip r d).head? = d.head? := by
  cases d with
  | nil => simp [fstuff]
  | cons b d =>
    simp only [fstuff]
    split
    · simp
    · split
      · split <;> simp
      · simp

theorem hitGo_zero (r : Nat) (d : List Byte) : ¬ hitGo 0 r d := by
  induction d generalizing r with
  | nil => simp [hitGo]
  | cons b d ih =>
    simp only [hitGo]
    split
    · exact ih _
    · split
      · simp
      · exact ih _

theorem headerGo_fstuff (d : List Byte) (skip r : Nat) : headerGo r (fstuff skip r d) ↔ hitGo skip r d := by
  induction d generalizing skip r with
  | nil => simp [fstuff, headerGo, hitGo]
  | cons b d ih =>
    by_cases hb : b = 0xFF#8
    · rw [fstuff, if_pos hb, headerGo, if_pos hb, hitGo, if_pos hb, ih]
    · by_cases hd : b = 0xFD#8 ∧ 2 ≤ r
      · obtain ⟨rfl, hr⟩ := hd
        have hc : (0xFD#8 : Byte) = 0xFD#8 ∧ 2 ≤ r := ⟨rfl, hr⟩
        have e1 : hitGo skip r (0xFD#8 :: d) = (skip ≠ 0 ∧ (d.head? = some 0x00#8 ∨ hitGo (skip - 1) 0 d)) := by
          rw [hitGo, if_neg hb, if_pos hc]
        have e2 : fstuff skip r (0xFD#8 :: d) =
            if skip = 0 then 0xFD#8 :: 0xFD#8 :: fstuff 0 0 d else 0xFD#8 :: fstuff (skip - 1) 0 d := by
          rw [fstuff, if_neg hb, if_pos hc]
        rw [e1, e2]
        by_cases hs : skip = 0
        · subst hs
          rw [if_pos rfl, headerGo, if_neg hb, headerGo, if_neg hb]
          have : ¬ headerGo 0 (fstuff 0 0 d) := fun h => hitGo_zero 0 d ((ih 0 0).mp h)
          simp [this]
        · rw [if_neg hs, headerGo, if_neg hb, fstuff_head, ih]
          simp [hr, hs]
      · rw [fstuff, if_neg hb, if_neg hd, headerGo, if_neg hb, hitGo, if_neg hb, if_neg hd, ih]
        constructor
        · rintro (h | h)
          · exact absurd ⟨h.1, h.2.1⟩ hd
          · exact h
        · exact .inr

theorem hitGo_splits (d p : List Byte) (skip : Nat) : hitGo skip (run p) d ↔
    ∃ u post, d = u ++ 0xFD#8 :: 0x00#8 :: post ∧ 2 ≤ run (u.reverse ++ p) ∧ occF (run p) u < skip := by
  induction d generalizing p skip with
  | nil => simp [hitGo]
  | cons b d ih =>
    have hsplit : (∃ u post, b :: d = u ++ 0xFD#8 :: 0x00#8 :: post ∧ 2 ≤ run (u.reverse ++ p) ∧ occF (run p) u < skip) ↔
        (b = 0xFD#8 ∧ 2 ≤ run p ∧ d.head? = some 0x00#8 ∧ 0 < skip) ∨
        ∃ u post, d = u ++ 0xFD#8 :: 0x00#8 :: post ∧ 2 ≤ run (u.reverse ++ b :: p) ∧ occF (run p) (b :: u) < skip := by
      constructor
      · rintro ⟨u, post, h, hr, hs⟩
        match u, h, hr, hs with
        | [], h, hr, hs =>
          simp only [List.nil_append, List.cons.injEq] at h
          left
          exact ⟨h.1, by simpa using hr, by simp [h.2], by simpa [occF] using hs⟩
        | x :: u, h, hr, hs =>
          simp only [List.cons_append, List.cons.injEq] at h
          obtain ⟨rfl, h⟩ := h
          right
          exact ⟨u, post, h, by simpa using hr, hs⟩
      · rintro (⟨rfl, hr, hl, hs⟩ | ⟨u, post, rfl, hr, hs⟩)
        · match d, hl with
          | _ :: d, hl =>
            simp only [List.head?_cons, Option.some.injEq] at hl
            exact ⟨[], d, by simp [hl], by simpa using hr, by simpa [occF] using hs⟩
        · exact ⟨b :: u, post, by simp, by simpa using hr, hs⟩
    rw [hsplit]
    by_cases hb : b = 0xFF#8
    · subst hb
      have := ih (0xFF#8 :: p) skip
      simp only [run, if_true] at this
      rw [hitGo, if_pos rfl, this]
      simp [occF]
    · have hr0 : run (b :: p) = 0 := by simp [run, hb]
      by_cases hd : b = 0xFD#8 ∧ 2 ≤ run p
      · have := ih (b :: p) (skip - 1)
        rw [hr0] at this
        rw [hitGo, if_neg hb, if_pos hd, this]
        have ho : ∀ u, occF (run p) (b :: u) = 1 + occF 0 u := fun u => by rw [occF, if_neg hb, if_pos hd]
        simp only [ho]
        constructor
        · rintro ⟨hs, h | ⟨u, post, h1, h2, h3⟩⟩
          · exact .inl ⟨hd.1, hd.2, h, by omega⟩
          · exact .inr ⟨u, post, h1, h2, by omega⟩
        · rintro (⟨-, -, h, hs⟩ | ⟨u, post, h1, h2, h3⟩)
          · exact ⟨by omega, .inl h⟩
          · exact ⟨by omega, .inr ⟨u, post, h1, h2, by omega⟩⟩
      · have := ih (b :: p) skip
        rw [hr0] at this
        rw [hitGo, if_neg hb, if_neg hd, this]
        have ho : ∀ u, occF (run p) (b :: u) = occF 0 u := fun u => by rw [occF, if_neg hb, if_neg hd]
        simp only [ho]
        constructor
        · exact .inr
        · rintro (⟨h1, h2, -⟩ | h)
          · exact absurd ⟨h1, h2⟩ hd
          · exact h

theorem occurrences_eq (d : List Byte) : occurrences d = occF 0 d ∧
    occurrences (0xFF#8 :: d) = occF 1 d ∧ ∀ r, 2 ≤ r → occurrences (0xFF#8 :: 0xFF#8 :: d) = occF r d := by
  induction d with
  | nil => exact ⟨rfl, rfl, fun _ _ => rfl⟩
  | cons b d ih =>
    obtain ⟨h0, h1, h2⟩ := ih
    have tail : ∀ b : Byte, b ≠ 0xFF#8 → ∀ d, occurrences (b :: d) = occurrences d := by
      intro b hb d
      match d with
      | [] => rfl
      | [_] => rfl
      | c :: e :: d => rw [occurrences, if_neg (fun h => hb h.1), Nat.zero_add]
    have tail2 : ∀ b : Byte, b ≠ 0xFF#8 → ∀ d, occurrences (0xFF#8 :: b :: d) = occurrences d := by
      intro b hb d
      match d with
      | [] => rfl
      | c :: d => rw [occurrences, if_neg (fun h => hb h.2.1), Nat.zero_add, tail b hb]
    by_cases hb : b = 0xFF#8
    · subst hb
      refine ⟨?_, ?_, fun r hr => ?_⟩
      · rw [occF, if_pos rfl]; exact h1
      · rw [occF, if_pos rfl]; exact h2 2 (by omega)
      · rw [occF, if_pos rfl, ← h2 (r + 1) (by omega)]
        rw [occurrences, if_neg (by decide), Nat.zero_add]
    · refine ⟨?_, ?_, fun r hr => ?_⟩
      · rw [occF, if_neg hb, if_neg (fun h => absurd h.2 (by omega)), tail b hb, h0]
      · rw [occF, if_neg hb, if_neg (fun h => absurd h.2 (by omega)), tail2 b hb, h0]
      · rw [occF, if_neg hb, occurrences, tail2 b hb, h0]
        by_cases hd : b = 0xFD#8
        · rw [if_pos ⟨rfl, rfl, hd⟩, if_pos ⟨hd, hr⟩]
        · rw [if_neg (fun h => hd h.2.2), if_neg (fun h => hd h.1), Nat.zero_add]

/-- Exactly when the header prefix is in what is sent. -/
theorem header_codeStuff (d : List Byte) : header <:+: codeStuff d ↔
    ∃ pre post, d = pre ++ header ++ post ∧ occurrences (pre ++ [0xFF#8, 0xFF#8, 0xFD#8]) ≤ misfits 0 d := by
  have h := hitGo_splits d [] (missed 0 d)
  simp only [run, List.append_nil] at h
  rw [header_infix_iff, codeStuff_fstuff, headerGo_fstuff, h, misfits_eq]
  have hocc : ∀ u : List Byte, 2 ≤ run u.reverse → occurrences (u ++ [0xFD#8]) = occF 0 u + 1 := by
    intro u hu
    rw [(occurrences_eq _).1]
    have h1 := occR_append (u ++ [0xFD#8]) []
    have h2 := occR_append u []
    simp only [List.reverse_append, List.reverse_cons, List.reverse_nil, List.nil_append, List.append_nil, List.cons_append,
      occR, run, take2_run, hu, and_self, if_true, Nat.zero_add] at h1 h2
    omega
  constructor
  · rintro ⟨u, post, hd, hr, hs⟩
    have := (take2_run u.reverse).mpr hr
    obtain ⟨q, hq⟩ : ∃ q, u.reverse = [0xFF#8, 0xFF#8] ++ q := ⟨u.reverse.drop 2, by
      conv => lhs; rw [← List.take_append_drop 2 u.reverse, this]⟩
    have hu : u = q.reverse ++ [0xFF#8, 0xFF#8] := by
      have := congrArg List.reverse hq
      simpa using this
    refine ⟨q.reverse, post, by simp [hd, hu, header], ?_⟩
    have h := hocc u hr
    rw [hu] at h
    simp only [List.append_assoc, List.cons_append, List.nil_append] at h
    rw [h, ← hu]
    omega
  · rintro ⟨pre, post, hd, hs⟩
    have hr : 2 ≤ run (pre ++ [0xFF#8, 0xFF#8]).reverse := by simp [run]
    have h := hocc _ hr
    simp only [List.append_assoc, List.cons_append, List.nil_append] at h
    refine ⟨pre ++ [0xFF#8, 0xFF#8], post, by simp [hd, header], hr, by omega⟩

end Dxl
