import Verif.Lemmas.Write
import Verif.Spec.Stream

/-! # The stream parser of the specification: stability under more input -/

namespace Dxl
open Spec

theorem skip_eq_drop_findHeader (s : List Byte) : skip s = s.drop (Bus.findHeader s) := by
  induction s with
  | nil => rfl
  | cons b rest ih =>
    simp only [skip, Bus.findHeader]
    have hiff : ((b :: rest) <+: header ∨ header <+: (b :: rest)) ↔
        ((headerPrefix.take (min headerPrefix.length (rest.length + 1))).isPrefixOf (b :: rest)) = true := by
      rw [List.isPrefixOf_iff_prefix]
      have h4 : headerPrefix.length = 4 := rfl
      have hh : header = headerPrefix := rfl
      rw [hh]
      constructor
      · rintro (h | h)
        · have := h.length_le
          rw [List.prefix_iff_eq_take] at h
          rw [h4] at this ⊢
          rw [List.length_cons] at h this
          rw [show min 4 (rest.length + 1) = rest.length + 1 by omega, ← h]
          exact List.prefix_rfl
        · have := h.length_le
          rw [h4, List.length_cons] at this
          rw [h4, show min 4 (rest.length + 1) = 4 by omega, List.take_of_length_le (by rw [h4]; omega)]
          exact h
      · intro h
        by_cases hl : rest.length + 1 ≤ 4
        · left
          rw [h4, show min 4 (rest.length + 1) = rest.length + 1 by omega] at h
          have hlen : (headerPrefix.take (rest.length + 1)).length = (b :: rest).length := by
            simp [h4]; omega
          have := h.eq_of_length hlen
          rw [← this]
          exact List.take_prefix _ _
        · right
          rw [h4, show min 4 (rest.length + 1) = 4 by omega, List.take_of_length_le (by rw [h4]; omega)] at h
          exact h
    by_cases hc : ((b :: rest) <+: header ∨ header <+: (b :: rest))
    · rw [if_pos hc, if_pos (hiff.mp hc)]; rfl
    · rw [if_neg hc, if_neg (fun h => hc (hiff.mpr h)), ih]; rfl

theorem skip_suffix (s : List Byte) : skip s <:+ s := by
  rw [skip_eq_drop_findHeader]; exact List.drop_suffix _ _

/-- The head of what is left after skipping. -/
theorem skip_spec (s : List Byte) : skip s = [] ∨ skip s <+: header ∨ header <+: skip s := by
  induction s with
  | nil => simp [skip]
  | cons b rest ih =>
    rw [skip]
    split
    · right; assumption
    · exact ih

theorem skip_of_header {s : List Byte} (h : header <+: s) : skip s = s := by
  cases s with
  | nil => simp [header] at h
  | cons b rest => rw [skip, if_pos (.inr h)]

theorem skip_skip (s : List Byte) : skip (skip s) = skip s := by
  rcases skip_spec s with h | h | h
  · rw [h]; rfl
  · cases hs : skip s with
    | nil => rfl
    | cons b rest => rw [hs] at h; rw [skip, if_pos (.inl h)]
  · exact skip_of_header h

/-- Skipping can be done on the fly. -/
theorem skip_append (s u : List Byte) : skip (s ++ u) = skip (skip s ++ u) := by
  induction s with
  | nil => rfl
  | cons b rest ih =>
    by_cases hc : (b :: rest) <+: header ∨ header <+: (b :: rest)
    · rw [show skip (b :: rest) = b :: rest by rw [skip, if_pos hc]]
    · have hc' : ¬ ((b :: (rest ++ u)) <+: header ∨ header <+: (b :: (rest ++ u))) := by
        rintro (h | h)
        · exact hc (.inl ((List.prefix_append (b :: rest) u).trans h))
        · rcases Nat.le_total header.length (b :: rest).length with hl | hl
          · exact hc (.inr (List.prefix_of_prefix_length_le h (List.prefix_append (b :: rest) u) hl))
          · exact hc (.inl (List.prefix_of_prefix_length_le (List.prefix_append (b :: rest) u) h hl))
      rw [List.cons_append, skip, if_neg hc', skip, if_neg hc, ih]

theorem skip_header_of_long {s : List Byte} (h : 4 ≤ (skip s).length) : header <+: skip s := by
  rcases skip_spec s with h' | h' | h'
  · rw [h'] at h; simp at h
  · have h4 : header.length = 4 := rfl
    have := h'.length_le
    have := h'.eq_of_length (by omega)
    rw [this]
    exact List.prefix_rfl
  · exact h'

theorem skip_append_long {s u : List Byte} (h : 4 ≤ (skip s).length) : skip (s ++ u) = skip s ++ u := by
  rw [skip_append, skip_of_header]
  exact (skip_header_of_long h).trans (List.prefix_append _ _)

theorem lengthField_append {t u : List Byte} (h : 7 ≤ t.length) : Spec.lengthField (t ++ u) = Spec.lengthField t := by
  simp only [Spec.lengthField, List.getD_eq_getElem?_getD]
  rw [List.getElem?_append_left (by omega), List.getElem?_append_left (by omega)]

theorem parse_more_append {cap : Nat} {s u : List Byte} : parse cap (s ++ u) = parse cap (skip s ++ u) := by
  simp only [parse, ← skip_append]

theorem parse_skip (cap : Nat) (s : List Byte) : parse cap (skip s) = parse cap s := by
  simp only [parse, skip_skip]

theorem parse_tooBig_append {cap req : Nat} {s u rest : List Byte} (h : parse cap s = .tooBig req rest) :
    parse cap (s ++ u) = .tooBig req (rest ++ u) := by
  unfold parse at h
  split at h
  · simp at h
  · rename_i hl
    split at h
    · rename_i hc
      simp only [Parsed.tooBig.injEq] at h
      have hs := skip_append_long (u := u) (show 4 ≤ (skip s).length by omega)
      have hlf := lengthField_append (t := skip s) (u := u) (by omega)
      unfold parse
      rw [hs, hlf, if_neg (by simp; omega), if_pos hc, List.drop_append_of_le_length (by omega), h.1, h.2]
    · split at h <;> simp at h

theorem parse_packet_append {cap : Nat} {s u f rest : List Byte} (h : parse cap s = .packet f rest) :
    parse cap (s ++ u) = .packet f (rest ++ u) := by
  unfold parse at h
  split at h
  · simp at h
  · rename_i hl
    split at h
    · simp at h
    · rename_i hc
      split at h
      · simp at h
      · rename_i hlen
        simp only [Parsed.packet.injEq] at h
        have hs := skip_append_long (u := u) (show 4 ≤ (skip s).length by omega)
        have hlf := lengthField_append (t := skip s) (u := u) (by omega)
        unfold parse
        rw [hs, hlf, if_neg (by simp; omega), if_neg hc, if_neg (by simp; omega),
          List.drop_append_of_le_length (by omega), List.take_append_of_le_length (by omega), h.1, h.2]

/-- Everything about a complete packet found in the stream. -/
theorem parse_packet {cap : Nat} {s f rest : List Byte} (h : parse cap s = .packet f rest) :
    skip s = f ++ rest ∧ header <+: f ∧ f.length = 7 + Spec.lengthField f ∧ f.length ≤ cap ∧ 8 ≤ (skip s).length := by
  unfold parse at h
  split at h
  · simp at h
  · rename_i hl
    split at h
    · simp at h
    · rename_i hc
      split at h
      · simp at h
      · rename_i hlen
        simp only [Parsed.packet.injEq] at h
        obtain ⟨rfl, rfl⟩ := h
        have hf : Spec.lengthField ((skip s).take (7 + Spec.lengthField (skip s))) = Spec.lengthField (skip s) := by
          conv => rhs; rw [← List.take_append_drop (7 + Spec.lengthField (skip s)) (skip s)]
          rw [lengthField_append (by simp; omega)]
        refine ⟨(List.take_append_drop _ _).symm, ?_, ?_, ?_, by omega⟩
        · refine List.prefix_of_prefix_length_le (skip_header_of_long (by omega)) (List.take_prefix _ _) ?_
          simp [header]; omega
        · rw [hf]; simp; omega
        · simp; omega

theorem parse_tooBig {cap req : Nat} {s rest : List Byte} (h : parse cap s = .tooBig req rest) :
    ∃ hd, skip s = hd ++ rest ∧ header <+: hd ∧ hd.length = 7 ∧ req = 7 + Spec.lengthField hd ∧ cap < req ∧
      1 ≤ rest.length := by
  unfold parse at h
  split at h
  · simp at h
  · rename_i hl
    split at h
    · rename_i hc
      simp only [Parsed.tooBig.injEq] at h
      obtain ⟨rfl, rfl⟩ := h
      have hf : Spec.lengthField ((skip s).take 7) = Spec.lengthField (skip s) := by
        conv => rhs; rw [← List.take_append_drop 7 (skip s)]
        rw [lengthField_append (by simp; omega)]
      refine ⟨(skip s).take 7, (List.take_append_drop _ _).symm, ?_, by simp; omega, by rw [hf], hc, by simp; omega⟩
      refine List.prefix_of_prefix_length_le (skip_header_of_long (by omega)) (List.take_prefix _ _) ?_
      simp [header]; omega
    · split at h <;> simp at h

/-- When more bytes are needed there is room for them. -/
theorem parse_more_room {cap : Nat} {s : List Byte} (hcap : 10 ≤ cap) (h : parse cap s = .more) :
    (skip s).length < cap := by
  unfold parse at h
  split at h
  · omega
  · split at h
    · simp at h
    · split at h
      · omega
      · simp at h

end Dxl
