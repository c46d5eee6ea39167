import Verif.Lemmas.WireHeader

/-! # The forms of data on the wire, as specified -/

namespace Dxl
open Spec

/-! ## Stuffing -/

theorem marked_add_missed (d : List Byte) (r : Nat) : marked r d + missed r d = occF r d := by
  induction d generalizing r with
  | nil => rfl
  | cons b d ih =>
    simp only [marked, missed, occF]
    by_cases hb : b = 0xFF#8
    · simp only [hb, if_true]; exact ih _
    · have := ih 0
      by_cases hd : b = 0xFD#8
      · by_cases h1 : 2 ≤ r <;> by_cases h2 : r % 3 = 2 <;> simp [hd, h1, h2] <;> omega
      · simp [hb, hd]; exact this

theorem fstuff_zero (d : List Byte) (r : Nat) : fstuff 0 r d = stuffGo (min 2 r) d := by
  induction d generalizing r with
  | nil => rfl
  | cons b d ih =>
    simp only [fstuff, stuffGo]
    by_cases hb : b = 0xFF#8
    · simp only [hb, if_true]
      rw [ih, show min 2 (r + 1) = min 2 (min 2 r + 1) by omega]
    · by_cases hd : b = 0xFD#8 ∧ 2 ≤ r
      · obtain ⟨rfl, hr⟩ := hd
        have : min 2 r = 2 := by omega
        simp [hr, this, ih]
      · have : ¬ (b = 0xFD#8 ∧ min 2 r = 2) := fun h => hd ⟨h.1, by omega⟩
        simp only [hb, hd, this, if_false]
        rw [ih]; rfl

/-- Skipping all occurrences of a first part that does not end within a run. -/
theorem fstuff_skip (d₁ d₂ : List Byte) (r : Nat) (h : (List.replicate r 0xFF#8 ++ d₁).getLast? ≠ some 0xFF#8) :
    fstuff (occF r d₁) r (d₁ ++ d₂) = d₁ ++ fstuff 0 0 d₂ := by
  induction d₁ generalizing r with
  | nil =>
    have hr : r = 0 := by
      cases r with
      | zero => rfl
      | succ r => simp [List.replicate_succ'] at h
    subst hr; rfl
  | cons b d ih =>
    simp only [List.cons_append, fstuff, occF]
    have h0 : b ≠ 0xFF#8 → (List.replicate 0 0xFF#8 ++ d).getLast? ≠ some 0xFF#8 := by
      intro hb
      cases d with
      | nil => simp
      | cons c d => simpa using h
    by_cases hb : b = 0xFF#8
    · subst hb
      simp only [if_true]
      rw [ih (r + 1)]
      rw [List.replicate_succ', List.append_assoc]
      exact h
    · by_cases hd : b = 0xFD#8 ∧ 2 ≤ r
      · have hn : ¬ (1 + occF 0 d = 0) := by omega
        rw [if_neg hb, if_neg hb, if_pos hd, if_pos hd, if_neg hn]
        rw [show 1 + occF 0 d - 1 = occF 0 d by omega, ih 0 (h0 hb)]
      · simp only [hb, hd, if_false]
        rw [ih 0 (h0 hb)]

theorem occF_append (d₁ d₂ : List Byte) (r : Nat) (h : (List.replicate r 0xFF#8 ++ d₁).getLast? ≠ some 0xFF#8) :
    occF r (d₁ ++ d₂) = occF r d₁ + occF 0 d₂ := by
  induction d₁ generalizing r with
  | nil =>
    have hr : r = 0 := by
      cases r with
      | zero => rfl
      | succ r => simp [List.replicate_succ'] at h
    subst hr; simp [occF]
  | cons b d ih =>
    simp only [List.cons_append, occF]
    have h0 : b ≠ 0xFF#8 → (List.replicate 0 0xFF#8 ++ d).getLast? ≠ some 0xFF#8 := by
      intro hb
      cases d with
      | nil => simp
      | cons c d => simpa using h
    by_cases hb : b = 0xFF#8
    · subst hb
      simp only [if_true]
      rw [ih (r + 1)]
      rw [List.replicate_succ', List.append_assoc]
      exact h
    · by_cases hd : b = 0xFD#8 ∧ 2 ≤ r
      · rw [if_neg hb, if_neg hb, if_pos hd, if_pos hd, ih 0 (h0 hb)]; omega
      · simp only [hb, hd, if_false]
        rw [ih 0 (h0 hb)]

/-- There is a place behind any number of occurrences. -/
theorem split_occF (d : List Byte) (r s : Nat) (h : s + 1 ≤ occF r d) :
    ∃ d₁ d₂, d = d₁ ++ d₂ ∧ (List.replicate r 0xFF#8 ++ d₁).getLast? = some 0xFD#8 ∧ occF r d₁ = s + 1 := by
  induction d generalizing r s with
  | nil => simp [occF] at h
  | cons b d ih =>
    simp only [occF] at h
    by_cases hb : b = 0xFF#8
    · rw [if_pos hb] at h
      obtain ⟨d₁, d₂, rfl, h1, h2⟩ := ih _ _ h
      refine ⟨b :: d₁, d₂, rfl, ?_, ?_⟩
      · subst hb
        rw [← h1, List.replicate_succ', List.append_assoc]; rfl
      · simp only [occF, hb, if_true]; exact h2
    · rw [if_neg hb] at h
      by_cases hd : b = 0xFD#8 ∧ 2 ≤ r
      · rw [if_pos hd] at h
        cases s with
        | zero => exact ⟨[b], d, rfl, by simp [hd.1], by simp [occF, hd]⟩
        | succ s =>
          obtain ⟨d₁, d₂, rfl, h1, h2⟩ := ih 0 s (by omega)
          refine ⟨b :: d₁, d₂, rfl, ?_, ?_⟩
          · simp only [List.replicate_zero, List.nil_append] at h1
            simp [List.getLast?_cons, h1]
          · rw [occF, if_neg hb, if_pos hd, h2]; omega
      · rw [if_neg hd] at h
        obtain ⟨d₁, d₂, rfl, h1, h2⟩ := ih 0 s h
        refine ⟨b :: d₁, d₂, rfl, ?_, ?_⟩
        · simp only [List.replicate_zero, List.nil_append] at h1
          simp [List.getLast?_cons, h1]
        · simp only [occF, hb, hd, if_false, h2]

/-- What the code sends is what `Spec.StuffedForm` says. -/
theorem stuffedForm_iff {body wire : List Byte} : StuffedForm body wire ↔ wire = codeStuff body := by
  have hm := marked_add_missed body 0
  rw [codeStuff_fstuff]
  constructor
  · rintro ⟨d₁, d₂, rfl, rfl, hl, hocc⟩
    rw [(occurrences_eq d₂).1] at hocc
    have ha := occF_append d₁ d₂ 0 (by simpa using hl)
    have hs := fstuff_skip d₁ d₂ 0 (by simpa using hl)
    rw [show missed 0 (d₁ ++ d₂) = occF 0 d₁ by omega, hs, fstuff_zero, ← (stuffGo_eq d₂).1]
    rfl
  · rintro rfl
    cases hk : missed 0 body with
    | zero =>
      refine ⟨[], body, rfl, ?_, by simp, ?_⟩
      · rw [fstuff_zero, List.nil_append, ← (stuffGo_eq body).1]; rfl
      · rw [(occurrences_eq body).1]; omega
    | succ s =>
      obtain ⟨d₁, d₂, rfl, h1, h2⟩ := split_occF body 0 s (by omega)
      simp only [List.replicate_zero, List.nil_append] at h1
      have hl : (List.replicate 0 0xFF#8 ++ d₁).getLast? ≠ some 0xFF#8 := by simp [h1]
      refine ⟨d₁, d₂, rfl, ?_, by simp [h1], ?_⟩
      · rw [← h2, fstuff_skip d₁ d₂ 0 hl, fstuff_zero, ← (stuffGo_eq d₂).1]; rfl
      · rw [(occurrences_eq d₂).1]
        have := occF_append d₁ d₂ 0 hl
        omega

theorem stuffedForm_codeStuff (body : List Byte) : StuffedForm body (codeStuff body) := stuffedForm_iff.mpr rfl

/-! ## Unstuffing -/

theorem unstuffGo_run (n : Nat) (t : List Byte) :
    unstuffGo 0 (List.replicate n 0xFF#8 ++ t) = List.replicate n 0xFF#8 ++ unstuffGo (n % 3) t := by
  have h : ∀ (n r : Nat), unstuffGo (r % 3) (List.replicate n 0xFF#8 ++ t) =
      List.replicate n 0xFF#8 ++ unstuffGo ((r + n) % 3) t := by
    intro n
    induction n with
    | zero => intro r; rfl
    | succ n ih =>
      intro r
      rw [List.replicate_succ, List.cons_append, unstuffGo, ustep_FF, if_neg (by omega), ih (r + 1), List.cons_append,
        show r + 1 + n = r + (n + 1) by omega]
  have := h n 0
  simpa using this

theorem codeUnstuff_of {wire body : List Byte} (h : Unstuffs wire body) : codeUnstuff wire = body := by
  unfold codeUnstuff
  induction h with
  | run n =>
    have := unstuffGo_run n []
    simpa [unstuffGo] using this
  | @plain n c rest out hc hn _ ih =>
    rw [unstuffGo_run, unstuffGo]
    have hu : ustep (n % 3) c = 0 := by
      by_cases hd : c = 0xFD#8
      · have h2 := hn hd
        subst hd
        unfold ustep
        rw [if_neg (fun h => absurd h.2 (by decide)), if_neg (by omega)]
      · exact ustep_other _ _ hc hd
    rw [hu, if_neg (by omega), ih]
  | @removed n rest out hn _ ih =>
    rw [unstuffGo_run, hn, unstuffGo, if_neg (by decide), show ustep 2 0xFD#8 = 3 by decide, unstuffGo, if_pos (by decide), ih]
  | @kept n x rest out hn hx _ ih =>
    have hu : ustep 3 x = 0 := by
      unfold ustep
      rw [if_neg (by omega), if_neg (fun h => hx h.2)]
    rw [unstuffGo_run, hn, unstuffGo, if_neg (by decide), show ustep 2 0xFD#8 = 3 by decide, unstuffGo, hu, if_neg (by omega), ih]
  | last n hn =>
    rw [unstuffGo_run, hn]
    rfl

theorem unstuffs_codeUnstuff (n : Nat) : ∀ wire : List Byte, wire.length ≤ n → Unstuffs wire (codeUnstuff wire) := by
  induction n with
  | zero =>
    intro wire h
    rw [List.length_eq_zero_iff.mp (Nat.le_zero.mp h)]
    exact .run 0
  | succ n ih =>
    intro wire h
    have sub : ∀ (k : Nat) (rest : List Byte) (x : List Byte), wire = List.replicate k 0xFF#8 ++ x ++ rest → 1 ≤ x.length →
        Unstuffs rest (codeUnstuff rest) := by
      intro k rest x e hx
      refine ih rest ?_
      have := congrArg List.length e
      simp at this
      omega
    obtain ⟨q, hq, hh⟩ := run_split wire
    generalize run wire = k at hq
    match q, hh with
    | [], _ =>
      rw [List.append_nil] at hq
      subst hq
      have := codeUnstuff_of (Unstuffs.run k)
      rw [this]
      exact .run k
    | c :: rest, hh =>
      have hc : c ≠ 0xFF#8 := by simpa using hh
      by_cases hp : c = 0xFD#8 ∧ k % 3 = 2
      · obtain ⟨rfl, hk⟩ := hp
        match rest with
        | [] =>
          subst hq
          rw [codeUnstuff_of (Unstuffs.last k hk)]
          exact .last k hk
        | x :: rest =>
          by_cases hx : x = 0xFD#8
          · subst hx
            have h1 := sub k rest [0xFD#8, 0xFD#8] (by simpa using hq) (by simp)
            subst hq
            rw [codeUnstuff_of (Unstuffs.removed k hk h1)]
            exact .removed k hk h1
          · have h1 := sub k rest [0xFD#8, x] (by simpa using hq) (by simp)
            subst hq
            rw [codeUnstuff_of (Unstuffs.kept k hk hx h1)]
            exact .kept k hk hx h1
      · have h1 := sub k rest [c] (by simpa using hq) (by simp)
        have hp' : c = 0xFD#8 → k % 3 ≠ 2 := fun a b => hp ⟨a, b⟩
        subst hq
        rw [codeUnstuff_of (Unstuffs.plain k hc hp' h1)]
        exact .plain k hc hp' h1

/-- What the code makes of received bytes is what `Spec.Unstuffs` says. -/
theorem unstuffs_iff (wire body : List Byte) : Unstuffs wire body ↔ codeUnstuff wire = body := by
  constructor
  · exact codeUnstuff_of
  · rintro rfl
    exact unstuffs_codeUnstuff _ wire (Nat.le_refl _)

end Dxl
