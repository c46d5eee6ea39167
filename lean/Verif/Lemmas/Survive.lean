import Verif.Lemmas.Stuff

/-! # Which data survive stuffing and unstuffing, exactly -/

namespace Dxl
open Spec


/-- Number of occurrences after a run of length `r` that the counting misses. -/
def missed : Nat → List Byte → Nat
  | _, [] => 0
  | r, b :: d =>
    if b = 0xFF#8 then missed (r + 1) d
    else if b = 0xFD#8 ∧ 2 ≤ r ∧ r % 3 ≠ 2 then 1 + missed 0 d
    else missed 0 d

/-- All occurrences after a run of length `r`. -/
def occF : Nat → List Byte → Nat
  | _, [] => 0
  | r, b :: d =>
    if b = 0xFF#8 then occF (r + 1) d
    else if b = 0xFD#8 ∧ 2 ≤ r then 1 + occF 0 d
    else occF 0 d

/-- Stuff all occurrences but the first `skip`, reading forwards. -/
def fstuff : Nat → Nat → List Byte → List Byte
  | _, _, [] => []
  | skip, r, b :: d =>
    if b = 0xFF#8 then b :: fstuff skip (r + 1) d
    else if b = 0xFD#8 ∧ 2 ≤ r then
      if skip = 0 then b :: b :: fstuff 0 0 d else b :: fstuff (skip - 1) 0 d
    else b :: fstuff skip 0 d

theorem occR_append (d p : List Byte) : occR (d.reverse ++ p) = occR p + occF (run p) d := by
  induction d generalizing p with
  | nil => simp [occF]
  | cons b d ih =>
    have e : (b :: d).reverse ++ p = d.reverse ++ (b :: p) := by simp
    rw [e, ih]
    simp only [occR, occF, run, take2_run]
    by_cases hb : b = 0xFF#8
    · subst hb; simp
    · by_cases hd : b = 0xFD#8 ∧ 2 ≤ run p
      · obtain ⟨rfl, hr⟩ := hd
        simp [hr]; omega
      · simp only [hb, hd, if_false]; omega

theorem missed_eq (d p : List Byte) :
    occR (d.reverse ++ p) + ncount p = ncount (d.reverse ++ p) + occR p + missed (run p) d := by
  induction d generalizing p with
  | nil => simp [missed]; omega
  | cons b d ih =>
    have e : (b :: d).reverse ++ p = d.reverse ++ (b :: p) := by simp
    have := ih (b :: p)
    rw [e]
    simp only [occR, ncount, missed, run, take2_run, nstate_run] at this ⊢
    by_cases hb : b = 0xFF#8
    · subst hb; simp at this ⊢; exact this
    · by_cases hd : b = 0xFD#8
      · subst hd
        by_cases h1 : 2 ≤ run p <;> by_cases h2 : run p % 3 = 2 <;> simp [h1, h2] at this ⊢ <;> omega
      · simp [hb, hd] at this ⊢; exact this

theorem revStuff_fstuff (d p : List Byte) (n : Nat) :
    (revStuff n (d.reverse ++ p)).reverse = (revStuff (n - occF (run p) d) p).reverse ++ fstuff (occF (run p) d - n) (run p) d := by
  induction d generalizing p with
  | nil => simp [occF, fstuff]
  | cons b d ih =>
    have e : (b :: d).reverse ++ p = d.reverse ++ (b :: p) := by simp
    rw [e, ih]
    simp only [occF, fstuff, run, revStuff, take2_run]
    by_cases hb : b = 0xFF#8
    · subst hb; simp
    · by_cases hd : b = 0xFD#8 ∧ 2 ≤ run p
      · obtain ⟨rfl, hr⟩ := hd
        have hne : ¬ ((0xFD#8 : Byte) = 0xFF#8) := by decide
        by_cases hn : occF 0 d < n
        · have h1 : 0 < n - occF 0 d := by omega
          have h2 : 1 + occF 0 d - n = 0 := by omega
          have h3 : occF 0 d - n = 0 := by omega
          simp only [hne, if_false, hr, and_self, if_true, h1, h2, h3, List.reverse_cons, List.append_assoc, List.cons_append,
            List.nil_append]
          rw [show n - occF 0 d - 1 = n - (1 + occF 0 d) by omega]
        · have h1 : ¬ 0 < n - occF 0 d := by omega
          have h2 : ¬ (1 + occF 0 d - n = 0) := by omega
          simp only [hne, if_false, hr, and_self, if_true, h1, h2, false_and, List.reverse_cons, List.append_assoc, List.cons_append,
            List.nil_append]
          rw [show 1 + occF 0 d - n - 1 = occF 0 d - n by omega, show n - occF 0 d = n - (1 + occF 0 d) by omega]
      · simp only [hb, if_false, hd, and_false, List.reverse_cons, List.append_assoc, List.cons_append, List.nil_append]

theorem codeStuff_fstuff (d : List Byte) : codeStuff d = fstuff (missed 0 d) 0 d := by
  have h1 := revStuff_fstuff d [] (ncount d.reverse)
  have h2 := missed_eq d []
  have h3 := occR_append d []
  simp only [List.append_nil, run, occR, ncount, Nat.add_zero, Nat.zero_add, revStuff, List.reverse_nil, List.nil_append] at h1 h2 h3
  unfold codeStuff
  rw [h1]
  congr 1
  omega

/-- The first byte stays. -/
theorem codeStuff_cons (b : Byte) (d : List Byte) : ∃ t, codeStuff (b :: d) = b :: t := by
  rw [codeStuff_fstuff]
  simp only [fstuff]
  by_cases hb : b = 0xFF#8
  · rw [if_pos hb]; exact ⟨_, rfl⟩
  · rw [if_neg hb, if_neg (fun h => absurd h.2 (by omega))]; exact ⟨_, rfl⟩

theorem ustep_cases (u : Nat) (b : Byte) : ustep u b = 4 ↔ u = 3 ∧ b = 0xFD#8 := by
  unfold ustep
  split
  · rename_i h; constructor
    · omega
    · rintro ⟨rfl, -⟩; omega
  · split
    · rename_i h1 h2
      constructor
      · intro h; exact ⟨by omega, h2.2⟩
      · rintro ⟨rfl, -⟩; rfl
    · rename_i h1 h2
      constructor
      · intro h; omega
      · rintro ⟨rfl, rfl⟩; simp at h2

/-- The first two bytes stay. -/
theorem codeStuff_cons_cons (a b : Byte) (d : List Byte) : ∃ t, codeStuff (a :: b :: d) = a :: b :: t := by
  rw [codeStuff_fstuff]
  have h : ∀ s r (b : Byte) d, r < 2 → ∃ t s' r', fstuff s r (b :: d) = b :: t ∧ t = fstuff s' r' d ∧ r' ≤ r + 1 := by
    intro s r b d hr
    rw [fstuff]
    by_cases hb : b = 0xFF#8
    · rw [if_pos hb]; exact ⟨_, _, _, rfl, rfl, Nat.le_refl _⟩
    · rw [if_neg hb, if_neg (fun h => absurd h.2 (by omega))]; exact ⟨_, _, _, rfl, rfl, Nat.zero_le _⟩
  obtain ⟨_, s, r, h1, rfl, hr⟩ := h (missed 0 (a :: b :: d)) 0 a (b :: d) (by omega)
  obtain ⟨t, _, _, h2, -, -⟩ := h s r b d (by omega)
  exact ⟨t, by rw [h1, h2]⟩

/-- Unstuffing keeps the first two bytes. -/
theorem codeUnstuff_cons_cons (a b : Byte) (d : List Byte) : ∃ t, codeUnstuff (a :: b :: d) = a :: b :: t := by
  have h1 : ustep 0 a = 0 ∨ ustep 0 a = 1 := by
    by_cases ha : a = 0xFF#8
    · subst ha; right; decide
    · by_cases hd : a = 0xFD#8
      · subst hd; left; decide
      · left; exact ustep_other _ _ ha hd
  rw [codeUnstuff, unstuffGo, if_neg (by omega), unstuffGo, if_neg (fun h => by have := (ustep_cases _ _).mp h; omega)]
  exact ⟨_, rfl⟩

/-- Unstuffing gives back the data, as a condition on the states: `skip` occurrences are left, the run has length `r`, and the
automaton is in state `u`. -/
def okGo : Nat → Nat → Nat → List Byte → Prop
  | _, _, _, [] => True
  | skip, r, u, b :: d =>
    if b = 0xFF#8 then okGo skip (r + 1) (ustep u b) d
    else if b = 0xFD#8 then
      if 2 ≤ r then
        if skip = 0 then u = 2 ∧ okGo 0 0 0 d else okGo (skip - 1) 0 (ustep u b) d
      else u ≠ 3 ∧ okGo skip 0 0 d
    else okGo skip 0 0 d

/-- The states that occur. -/
def Consistent (r u : Nat) : Prop := (u = 3 ∧ r = 0) ∨ (u < 3 ∧ u ≤ r)

theorem unstuff_not_more (d : List Byte) (skip : Nat) : unstuffGo 0 (fstuff skip 0 d) ≠ 0xFD#8 :: d := by
  induction d with
  | nil => simp [fstuff, unstuffGo]
  | cons b d ih =>
    intro h
    by_cases hb : b = 0xFD#8
    · subst hb
      have hu : ustep 0 0xFD#8 = 0 := by decide
      have e : fstuff skip 0 (0xFD#8 :: d) = 0xFD#8 :: fstuff skip 0 d := by simp [fstuff]
      rw [e, unstuffGo, hu, if_neg (by decide)] at h
      exact ih (List.cons.inj h).2
    · have : ∃ t, fstuff skip 0 (b :: d) = b :: t := by
        simp only [fstuff]
        by_cases h : b = 0xFF#8 <;> simp [h, hb]
      obtain ⟨t, ht⟩ := this
      rw [ht, unstuffGo, if_neg (fun h => by have := (ustep_cases 0 b).mp h; omega)] at h
      exact hb (List.cons.inj h).1

theorem unstuff_not_less (d : List Byte) (skip : Nat) : 0xFD#8 :: unstuffGo 0 (fstuff skip 0 d) ≠ d := by
  induction d with
  | nil => simp
  | cons b d ih =>
    intro h
    obtain ⟨rfl, h⟩ := List.cons.inj h
    have hu : ustep 0 0xFD#8 = 0 := by decide
    have e : fstuff skip 0 (0xFD#8 :: d) = 0xFD#8 :: fstuff skip 0 d := by simp [fstuff]
    rw [e, unstuffGo, hu, if_neg (by decide)] at h
    exact ih h

theorem okGo_iff (d : List Byte) : ∀ (skip r u : Nat), Consistent r u → (unstuffGo u (fstuff skip r d) = d ↔ okGo skip r u d) := by
  induction d with
  | nil => intro skip r u _; simp [fstuff, unstuffGo, okGo]
  | cons b d ih =>
    intro skip r u hc
    by_cases hb : b = 0xFF#8
    · subst hb
      have h4 : ustep u 0xFF#8 ≠ 4 := fun h => by have := (ustep_cases _ _).mp h; exact absurd this.2 (by decide)
      have hc' : Consistent (r + 1) (ustep u 0xFF#8) := by
        unfold Consistent at hc ⊢
        right
        unfold ustep
        split
        · omega
        · split
          · rename_i h; exact absurd h.2 (by decide)
          · omega
      simp only [fstuff, okGo, if_true, unstuffGo, h4, if_false, List.cons.injEq, true_and]
      exact ih _ _ _ hc'
    · by_cases hd : b = 0xFD#8
      · subst hd
        have h00 : Consistent 0 0 := .inr ⟨by omega, by omega⟩
        have hne : (0xFD#8 : Byte) ≠ 0xFF#8 := by decide
        simp only [fstuff, okGo, hne, if_false, if_true, true_and]
        by_cases hr : 2 ≤ r
        · have hu3 : u ≠ 3 := by rintro rfl; unfold Consistent at hc; omega
          have h4 : ustep u 0xFD#8 ≠ 4 := fun h => by have := (ustep_cases _ _).mp h; exact hu3 this.1
          rw [if_pos hr, if_pos hr]
          by_cases hs : skip = 0
          · rw [if_pos hs, if_pos hs, unstuffGo, if_neg h4, List.cons.injEq]
            simp only [true_and]
            by_cases hu : u = 2
            · subst hu
              have e1 : ustep 2 0xFD#8 = 3 := by decide
              have e2 : ustep 3 0xFD#8 = 4 := by decide
              rw [e1, unstuffGo, if_pos e2]
              simp only [true_and]
              exact ih 0 0 0 h00
            · have hu' : u = 0 ∨ u = 1 := by unfold Consistent at hc; omega
              have e1 : ustep u 0xFD#8 = 0 := by rcases hu' with rfl | rfl <;> decide
              have e2 : ustep 0 0xFD#8 = 0 := by decide
              rw [e1, unstuffGo, e2, if_neg (by decide)]
              constructor
              · intro h; exact absurd h (unstuff_not_less d 0)
              · intro h; exact absurd h.1 hu
          · rw [if_neg hs, if_neg hs, unstuffGo, if_neg h4, List.cons.injEq]
            simp only [true_and]
            refine ih _ _ _ ?_
            unfold Consistent at hc ⊢
            have hu' : u = 0 ∨ u = 1 ∨ u = 2 := by omega
            rcases hu' with rfl | rfl | rfl
            · right; decide
            · right; decide
            · left; decide
        · rw [if_neg hr, if_neg hr, unstuffGo]
          by_cases hu : u = 3
          · subst hu
            rw [if_pos (by decide)]
            constructor
            · intro h; exact absurd h (unstuff_not_more d skip)
            · intro h; exact absurd rfl h.1
          · have hu' : u = 0 ∨ u = 1 := by unfold Consistent at hc; omega
            have e1 : ustep u 0xFD#8 = 0 := by rcases hu' with rfl | rfl <;> decide
            rw [e1, if_neg (by decide), List.cons.injEq]
            simp only [true_and, hu, ne_eq, not_false_eq_true]
            exact ih _ _ _ h00
      · have e1 := ustep_other u b hb hd
        simp only [fstuff, okGo, hb, hd, if_false, false_and, unstuffGo, e1, show (0 : Nat) ≠ 4 by decide, List.cons.injEq, true_and]
        exact ih _ _ _ (.inr ⟨by omega, by omega⟩)

theorem survives_okGo (d : List Byte) : codeUnstuff (codeStuff d) = d ↔ okGo (missed 0 d) 0 0 d := by
  rw [codeStuff_fstuff]
  exact okGo_iff d _ _ _ (.inr ⟨by omega, by omega⟩)


/-! ### The condition on the states, as a condition on the data -/

theorem okGo_FD_skip {s r u : Nat} (t : List Byte) (hr : 2 ≤ r) :
    okGo (s + 1) r u (0xFD#8 :: t) ↔ okGo s 0 (ustep u 0xFD#8) t := by
  rw [okGo, if_neg (by decide), if_pos rfl, if_pos hr, if_neg (by omega), Nat.add_sub_cancel]

theorem okGo_FD_stuff {r u : Nat} (t : List Byte) (hr : 2 ≤ r) :
    okGo 0 r u (0xFD#8 :: t) ↔ u = 2 ∧ okGo 0 0 0 t := by
  rw [okGo, if_neg (by decide), if_pos rfl, if_pos hr, if_pos rfl]

theorem okGo_FD_short {s r u : Nat} (t : List Byte) (hr : r < 2) :
    okGo s r u (0xFD#8 :: t) ↔ u ≠ 3 ∧ okGo s 0 0 t := by
  rw [okGo, if_neg (by decide), if_pos rfl, if_neg (by omega)]

theorem okGo_other {s r u : Nat} {b : Byte} (t : List Byte) (h1 : b ≠ 0xFF#8) (h2 : b ≠ 0xFD#8) :
    okGo s r u (b :: t) ↔ okGo s 0 0 t := by
  rw [okGo, if_neg h1, if_neg h2]

theorem missed_FD {r : Nat} (t : List Byte) :
    missed r (0xFD#8 :: t) = (if 2 ≤ r ∧ r % 3 ≠ 2 then 1 else 0) + missed 0 t := by
  rw [missed, if_neg (by decide)]
  by_cases h : 2 ≤ r ∧ r % 3 ≠ 2
  · rw [if_pos ⟨rfl, h⟩, if_pos h]
  · rw [if_neg (fun h' => h h'.2), if_neg h]; omega

theorem missed_other {r : Nat} {b : Byte} (t : List Byte) (h1 : b ≠ 0xFF#8) (h2 : b ≠ 0xFD#8) :
    missed r (b :: t) = missed 0 t := by
  rw [missed, if_neg h1, if_neg (fun h => h2 h.1)]

theorem goodGo_iff_missed (d : List Byte) (r : Nat) : goodGo r d ↔ missed r d = 0 := by
  induction d generalizing r with
  | nil => simp [goodGo, missed]
  | cons b d ih =>
    by_cases hb : b = 0xFF#8
    · rw [goodGo, if_pos hb, missed, if_pos hb]; exact ih _
    · by_cases hd : b = 0xFD#8
      · subst hd
        rw [goodGo, if_neg hb, if_pos rfl, missed_FD, ih]
        split <;> omega
      · rw [goodGo, if_neg hb, if_neg hd, missed_other _ hb hd]; exact ih _

theorem okGo_of_good (d : List Byte) (r : Nat) (h : goodGo r d) : okGo 0 r (r % 3) d := by
  induction d generalizing r with
  | nil => simp [okGo]
  | cons b d ih =>
    by_cases hb : b = 0xFF#8
    · subst hb
      rw [goodGo, if_pos rfl] at h
      rw [okGo, if_pos rfl, ustep_FF]
      exact ih _ h
    · by_cases hd : b = 0xFD#8
      · subst hd
        rw [goodGo, if_neg hb, if_pos rfl] at h
        by_cases hr : 2 ≤ r
        · rw [okGo_FD_stuff _ hr]
          exact ⟨by omega, ih _ h.2⟩
        · rw [okGo_FD_short _ (by omega)]
          exact ⟨by omega, ih _ h.2⟩
      · rw [goodGo, if_neg hb, if_neg hd] at h
        rw [okGo_other _ hb hd]
        exact ih _ h

theorem missed_append (d t p : List Byte) :
    missed (run p) (d ++ t) = missed (run p) d + missed (run (d.reverse ++ p)) t := by
  induction d generalizing p with
  | nil => simp [missed]
  | cons b d ih =>
    have := ih (b :: p)
    have e : (b :: d).reverse ++ p = d.reverse ++ (b :: p) := by simp
    rw [e]
    simp only [List.cons_append, missed, run] at this ⊢
    by_cases hb : b = 0xFF#8
    · simp only [hb, if_true] at this ⊢; exact this
    · simp only [hb, if_false] at this ⊢
      rw [this]
      split <;> omega

theorem ncount_le_append (d q : List Byte) : ncount q ≤ ncount (d ++ q) := by
  induction d with
  | nil => simp
  | cons x d ih => simp only [List.cons_append, ncount]; omega

/-- A part without runs of 2, 5, 8, ... is passed over. -/
theorem okGo_prefix (d t p : List Byte) (s : Nat) (h : ncount (d.reverse ++ p) = ncount p) :
    okGo (missed (run p) d + s) (run p) (run p % 3) (d ++ t) ↔
      okGo s (run (d.reverse ++ p)) (run (d.reverse ++ p) % 3) t := by
  induction d generalizing p with
  | nil => simp [missed]
  | cons b d ih =>
    have e : (b :: d).reverse ++ p = d.reverse ++ (b :: p) := by simp
    have h1 := ncount_le_append d.reverse (b :: p)
    rw [e] at h ⊢
    have h2 : ncount (b :: p) = ncount p := by simp only [ncount] at h1 ⊢; omega
    have ih := ih (b :: p) (by omega)
    rw [← ih]
    have h3 : ¬ (b = 0xFD#8 ∧ run p % 3 = 2) := by
      simp only [ncount, nstate_run] at h2
      intro h
      rw [if_pos h] at h2
      omega
    rw [List.cons_append]
    by_cases hb : b = 0xFF#8
    · subst hb
      rw [missed, if_pos rfl, okGo, if_pos rfl, ustep_FF, run, if_pos rfl]
    · have hr0 : run (b :: p) = 0 := by rw [run, if_neg hb]
      rw [hr0]
      by_cases hd : b = 0xFD#8
      · subst hd
        have h3 : run p % 3 ≠ 2 := fun h => h3 ⟨rfl, h⟩
        have hu : ustep (run p % 3) 0xFD#8 = 0 := by
          have : run p % 3 = 0 ∨ run p % 3 = 1 := by omega
          rcases this with h | h <;> rw [h] <;> decide
        rw [missed_FD]
        by_cases hr : 2 ≤ run p
        · rw [if_pos ⟨hr, h3⟩, show 1 + missed 0 d + s = missed 0 d + s + 1 by omega, okGo_FD_skip _ hr, hu]
        · rw [if_neg (fun h => hr h.1), okGo_FD_short _ (by omega), Nat.zero_add]
          simp only [ne_eq, show ¬ (run p % 3 = 3) by omega, not_false_eq_true, true_and, Nat.zero_mod]
      · rw [missed_other _ hb hd, okGo_other _ hb hd]

/-- A run of `FF`s. -/
theorem okGo_run (k s r : Nat) (t : List Byte) :
    okGo s r (r % 3) (List.replicate k 0xFF#8 ++ t) ↔ okGo s (r + k) ((r + k) % 3) t := by
  induction k generalizing r with
  | zero => simp
  | succ k ih =>
    rw [List.replicate_succ, List.cons_append, okGo, if_pos rfl, ustep_FF, ih, show r + 1 + k = r + (k + 1) by omega]

/-- A run of `FF`s after an `FF FF FD` that was not stuffed. -/
theorem okGo_run3 (k s : Nat) (t : List Byte) :
    okGo s 0 3 (List.replicate (k + 1) 0xFF#8 ++ t) ↔ okGo s (k + 1) (k % 3) t := by
  have h : ∀ k r s t, okGo s r ((r + 2) % 3) (List.replicate k 0xFF#8 ++ t) ↔ okGo s (r + k) ((r + k + 2) % 3) t := by
    intro k
    induction k with
    | zero => simp
    | succ k ih =>
      intro r s t
      rw [List.replicate_succ, List.cons_append, okGo, if_pos rfl, ustep_FF, show r + 2 + 1 = (r + 1) + 2 by omega, ih,
        show r + 1 + k = r + (k + 1) by omega]
  rw [List.replicate_succ, List.cons_append, okGo, if_pos rfl, show ustep 3 0xFF#8 = (1 + 2) % 3 by decide, h,
    show 0 + 1 = 1 by rfl, show 1 + k = k + 1 by omega, show (k + 1 + 2) % 3 = k % 3 by omega]

theorem missed_run (k r : Nat) (t : List Byte) : missed r (List.replicate k 0xFF#8 ++ t) = missed (r + k) t := by
  induction k generalizing r with
  | zero => simp
  | succ k ih => rw [List.replicate_succ, List.cons_append, missed, if_pos rfl, ih, show r + 1 + k = r + (k + 1) by omega]

theorem links_cons (k : Nat) (ks : List Nat) (t : List Byte) :
    links (k :: ks) ++ t = List.replicate k 0xFF#8 ++ 0xFD#8 :: (links ks ++ t) := by
  simp [links]

theorem missed_links (ks : List Nat) (t : List Byte) (h : ∀ k ∈ ks, k ≠ 0 ∧ k % 3 = 0) :
    missed 0 (links ks ++ t) = ks.length + missed 0 t := by
  induction ks with
  | nil => simp [links]
  | cons k ks ih =>
    have hk := h k (by simp)
    rw [links_cons, missed_run, missed_FD, ih (fun x hx => h x (by simp [hx])), Nat.zero_add, if_pos (by omega), List.length_cons]
    omega

theorem okGo_links (k : Nat) (ks : List Nat) (t : List Byte) (h : ∀ x ∈ k :: ks, x ≠ 0 ∧ x % 3 = 0) (ht : okGo 0 0 0 t) :
    okGo ks.length 0 3 (links (k :: ks) ++ t) := by
  induction ks generalizing k with
  | nil =>
    have hk := h k (by simp)
    obtain ⟨j, rfl⟩ : ∃ j, k = j + 1 := ⟨k - 1, by omega⟩
    rw [links_cons, okGo_run3, List.length_nil, okGo_FD_stuff _ (by omega)]
    exact ⟨by omega, by simpa [links] using ht⟩
  | cons k' ks ih =>
    have hk := h k (by simp)
    obtain ⟨j, rfl⟩ : ∃ j, k = j + 1 := ⟨k - 1, by omega⟩
    rw [links_cons, okGo_run3, List.length_cons, okGo_FD_skip _ (by omega), show j % 3 = 2 by omega,
      show ustep 2 0xFD#8 = 3 by decide]
    exact ih k' (fun x hx => h x (List.mem_cons_of_mem _ hx))

theorem run_of_last {d : List Byte} (h : d.getLast? ≠ some 0xFF#8) : run d.reverse = 0 := by
  have := run_replicate 0 d.reverse (by simpa using h)
  simpa using this

/-- What the specification calls surviving data does survive. -/
theorem okGo_of_survives {d : List Byte} (h : Survives d) : okGo (missed 0 d) 0 0 d := by
  obtain ⟨d₁, ks, d₂, rfl, hl, h1, hh, ht, h2⟩ := h
  have hr := run_of_last hl
  have hn := noSuchRuns_ncount h1
  have hg := (goodGo_iff d₂).mpr h2
  have hm := (goodGo_iff_missed d₂ 0).mp hg
  have hok := okGo_of_good d₂ 0 hg
  have e := missed_append d₁ (links ks ++ d₂) []
  have e2 := okGo_prefix d₁ (links ks ++ d₂) [] (missed 0 (links ks ++ d₂)) (by simpa [ncount] using hn)
  simp only [List.append_nil, hr, run, Nat.zero_mod] at e e2
  rw [List.append_assoc, e, e2]
  match ks, hh, ht with
  | [], _, _ =>
    simp only [links, List.flatMap_nil, List.nil_append, hm]
    exact hok
  | k :: ks, hh, ht =>
    have hk := hh k (by simp)
    simp only [List.tail_cons] at ht
    rw [links_cons, okGo_run k _ 0, missed_run, missed_FD, missed_links ks d₂ ht, hm]
    simp only [Nat.zero_add, Nat.add_zero]
    rw [if_neg (by omega), Nat.zero_add]
    match ks, ht with
    | [], _ =>
      rw [List.length_nil, okGo_FD_stuff _ (by omega)]
      exact ⟨hk, by simpa [links] using hok⟩
    | k' :: ks, ht =>
      rw [List.length_cons, okGo_FD_skip _ (by omega), hk, show ustep 2 0xFD#8 = 3 by decide]
      exact okGo_links k' ks d₂ ht hok

/-- If too few occurrences are skipped, something is lost. -/
theorem not_okGo (d : List Byte) : (∀ s r, s + 1 ≤ missed r d → ¬ okGo s r (r % 3) d) ∧
    (∀ s r u, s + 2 ≤ missed r d → ((r = 0 ∧ u = 3) ∨ (1 ≤ r ∧ u = (r - 1) % 3)) → ¬ okGo s r u d) := by
  induction d with
  | nil => exact ⟨fun s r h => by simp [missed] at h, fun s r u h => by simp [missed] at h⟩
  | cons b d ih =>
    obtain ⟨z1, z2⟩ := ih
    by_cases hb : b = 0xFF#8
    · subst hb
      refine ⟨fun s r h => ?_, fun s r u h hu => ?_⟩
      · rw [okGo, if_pos rfl, ustep_FF]
        rw [missed, if_pos rfl] at h
        exact z1 _ _ h
      · rw [okGo, if_pos rfl]
        rw [missed, if_pos rfl] at h
        refine z2 _ _ _ h (.inr ⟨by omega, ?_⟩)
        rcases hu with ⟨rfl, rfl⟩ | ⟨h1, rfl⟩
        · decide
        · rw [ustep_FF, show r - 1 + 1 = r + 1 - 1 by omega]
    · by_cases hd : b = 0xFD#8
      · subst hd
        refine ⟨fun s r h => ?_, fun s r u h hu => ?_⟩
        · rw [missed_FD] at h
          by_cases hr : 2 ≤ r
          · match s, h with
            | 0, h =>
              rw [okGo_FD_stuff _ hr]
              rintro ⟨h2, h0⟩
              rw [if_neg (by omega)] at h
              exact z1 0 0 (by omega) h0
            | s + 1, h =>
              rw [okGo_FD_skip _ hr]
              by_cases h2 : r % 3 = 2
              · rw [h2]
                rw [if_neg (by omega)] at h
                exact z2 _ _ _ (by omega) (.inl ⟨rfl, by decide⟩)
              · rw [if_pos ⟨hr, h2⟩] at h
                have hu : ustep (r % 3) 0xFD#8 = 0 := by
                  have : r % 3 = 0 ∨ r % 3 = 1 := by omega
                  rcases this with h | h <;> rw [h] <;> decide
                rw [hu]
                exact z1 _ 0 (by omega)
          · rw [okGo_FD_short _ (by omega)]
            rw [if_neg (by omega)] at h
            exact fun h' => z1 _ 0 (by omega) h'.2
        · rw [missed_FD] at h
          rcases hu with ⟨rfl, rfl⟩ | ⟨h1, rfl⟩
          · rw [okGo_FD_short _ (by omega)]
            exact fun h' => h'.1 rfl
          · by_cases hr : 2 ≤ r
            · match s, h with
              | 0, h =>
                rw [okGo_FD_stuff _ hr]
                rintro ⟨h2, h0⟩
                exact z1 0 0 (by split at h <;> omega) h0
              | s + 1, h =>
                rw [okGo_FD_skip _ hr]
                by_cases h0 : r % 3 = 0
                · rw [show (r - 1) % 3 = 2 by omega]
                  exact z2 _ _ _ (by split at h <;> omega) (.inl ⟨rfl, by decide⟩)
                · have hu : ustep ((r - 1) % 3) 0xFD#8 = 0 := by
                    have : (r - 1) % 3 = 0 ∨ (r - 1) % 3 = 1 := by omega
                    rcases this with h | h <;> rw [h] <;> decide
                  rw [hu]
                  exact z1 _ 0 (by split at h <;> omega)
            · rw [okGo_FD_short _ (by omega)]
              rw [if_neg (by omega)] at h
              exact fun h' => z1 _ 0 (by omega) h'.2
      · refine ⟨fun s r h => ?_, fun s r u h hu => ?_⟩
        · rw [okGo_other _ hb hd]
          rw [missed_other _ hb hd] at h
          exact z1 _ 0 h
        · rw [okGo_other _ hb hd]
          rw [missed_other _ hb hd] at h
          exact z1 _ 0 (by omega)

/-- After an `FF FF FD` that was not stuffed although it was counted. -/
theorem links_of_okGo (n : Nat) : ∀ d : List Byte, d.length ≤ n → ∀ s, missed 0 d = s + 1 → okGo s 0 3 d →
    ∃ ks d₂, d = links ks ++ d₂ ∧ (∀ k ∈ ks, k ≠ 0 ∧ k % 3 = 0) ∧ goodGo 0 d₂ := by
  induction n with
  | zero =>
    intro d hd s hm
    have : d = [] := by simpa using hd
    simp [this, missed] at hm
  | succ n ih =>
    intro d hd s hm hok
    obtain ⟨q, hq, hh⟩ := run_split d
    generalize ha : run d = a at hq
    subst hq
    rw [missed_run, Nat.zero_add] at hm
    have z := fun (s : Nat) (d : List Byte) => (not_okGo d).1 s 0
    match q, hh with
    | [], _ => simp [missed] at hm
    | b :: q, hh =>
      have hb : b ≠ 0xFF#8 := by simpa using hh
      have hlen : q.length ≤ n := by simp at hd; omega
      match a with
      | 0 =>
        simp only [List.replicate_zero, List.nil_append] at hok
        by_cases hbd : b = 0xFD#8
        · subst hbd
          rw [okGo_FD_short _ (by omega)] at hok
          exact absurd rfl hok.1
        · rw [okGo_other _ hb hbd] at hok
          rw [missed_other _ hb hbd] at hm
          exact absurd hok (z _ _ (by omega))
      | j + 1 =>
        rw [okGo_run3] at hok
        by_cases hbd : b = 0xFD#8
        · subst hbd
          rw [missed_FD] at hm
          by_cases hr : 2 ≤ j + 1
          · by_cases h2 : j % 3 = 2
            · rw [if_pos ⟨hr, by omega⟩] at hm
              match s, hm, hok with
              | 0, hm, hok =>
                rw [okGo_FD_stuff _ hr] at hok
                refine ⟨[j + 1], q, by simp [links], by simp; omega, (goodGo_iff_missed _ _).mpr (by omega)⟩
              | s + 1, hm, hok =>
                rw [okGo_FD_skip _ hr, h2, show ustep 2 0xFD#8 = 3 by decide] at hok
                obtain ⟨ks, d₂, rfl, h1, h3⟩ := ih q hlen s (by omega) hok
                refine ⟨(j + 1) :: ks, d₂, by rw [links_cons], ?_, h3⟩
                intro k hk
                rcases List.mem_cons.mp hk with rfl | hk
                · omega
                · exact h1 k hk
            · match s, hm, hok with
              | 0, hm, hok =>
                rw [okGo_FD_stuff _ hr] at hok
                exact absurd hok.1 h2
              | s + 1, hm, hok =>
                have hu : ustep (j % 3) 0xFD#8 = 0 := by
                  have : j % 3 = 0 ∨ j % 3 = 1 := by omega
                  rcases this with h | h <;> rw [h] <;> decide
                rw [okGo_FD_skip _ hr, hu] at hok
                exact absurd hok (z _ _ (by split at hm <;> omega))
          · rw [okGo_FD_short _ (by omega)] at hok
            rw [if_neg (by omega)] at hm
            exact absurd hok.2 (z _ _ (by omega))
        · rw [okGo_other _ hb hbd] at hok
          rw [missed_other _ hb hbd] at hm
          exact absurd hok (z _ _ (by omega))

theorem ncount_zero_noSuchRuns {d : List Byte} (h : ncount d.reverse = 0) : NoSuchRuns d := by
  rintro pre n post rfl hp h3
  have e : (pre ++ List.replicate n 0xFF#8 ++ 0xFD#8 :: post).reverse
      = post.reverse ++ 0xFD#8 :: (List.replicate n 0xFF#8 ++ pre.reverse) := by simp
  have hr : run (0xFD#8 :: (List.replicate n 0xFF#8 ++ pre.reverse)) = 0 := by simp [run]
  rw [e, ncount_append hr, ncount, nstate_run, run_replicate _ _ (by simpa using hp), if_pos ⟨rfl, h3⟩] at h
  omega

theorem survives_of_okGo (d : List Byte) : ∀ p : List Byte, ncount p = 0 →
    okGo (missed (run p) d) (run p) (run p % 3) d → Survives (p.reverse ++ d) := by
  induction d with
  | nil =>
    intro p hp _
    obtain ⟨q, hq, hh⟩ := run_split p
    refine ⟨q.reverse, [], List.replicate (run p) 0xFF#8, ?_, by simpa using hh, ?_, by simp, by simp, ?_⟩
    · have := congrArg List.reverse hq
      simpa [links] using this
    · refine ncount_zero_noSuchRuns ?_
      rw [List.reverse_reverse]
      have := ncount_le_append (List.replicate (run p) 0xFF#8) q
      rw [← hq] at this
      omega
    · intro pre n post h
      have : 0xFD#8 ∈ List.replicate (run p) 0xFF#8 := by rw [h]; simp
      exact absurd (List.eq_of_mem_replicate this) (by decide)
  | cons b d ih =>
    intro p hp hok
    have e : p.reverse ++ b :: d = (b :: p).reverse ++ d := by simp
    by_cases hR : b = 0xFD#8 ∧ run p % 3 = 2
    · obtain ⟨rfl, h2⟩ := hR
      obtain ⟨q, hq, hh⟩ := run_split p
      have hq' : p.reverse = q.reverse ++ List.replicate (run p) 0xFF#8 := by
        have := congrArg List.reverse hq
        simpa using this
      have hN : NoSuchRuns q.reverse := by
        refine ncount_zero_noSuchRuns ?_
        rw [List.reverse_reverse]
        have := ncount_le_append (List.replicate (run p) 0xFF#8) q
        rw [← hq] at this
        omega
      rw [missed_FD, if_neg (by omega), Nat.zero_add] at hok
      have key : ∃ ks d₂, d = links ks ++ d₂ ∧ (∀ k ∈ ks, k ≠ 0 ∧ k % 3 = 0) ∧ goodGo 0 d₂ := by
        cases hm : missed 0 d with
        | zero => exact ⟨[], d, rfl, by simp, (goodGo_iff_missed _ _).mpr hm⟩
        | succ s =>
          rw [hm, okGo_FD_skip _ (by omega), h2] at hok
          exact links_of_okGo d.length d (Nat.le_refl _) s hm hok
      obtain ⟨ks, d₂, rfl, h3, h4⟩ := key
      refine ⟨q.reverse, run p :: ks, d₂, ?_, by simpa using hh, hN, by simpa using h2, h3, (goodGo_iff d₂).mp h4⟩
      rw [List.append_assoc, links_cons, hq', List.append_assoc]
    · rw [e]
      refine ih (b :: p) (by rw [ncount, nstate_run, if_neg hR, hp]) ?_
      have := okGo_prefix [b] d p (missed (run (b :: p)) d) (by simp [ncount, nstate_run, hR])
      have hm := missed_append [b] d p
      simp only [List.reverse_cons, List.reverse_nil, List.nil_append, List.cons_append] at this hm
      rw [← this, ← hm]
      exact hok

/-- Exactly these data survive stuffing and unstuffing. -/
theorem codeUnstuff_codeStuff_iff (d : List Byte) : codeUnstuff (codeStuff d) = d ↔ Survives d := by
  rw [survives_okGo]
  exact ⟨fun h => survives_of_okGo d [] rfl h, okGo_of_survives⟩

theorem survives_of_runsOk {d : List Byte} (h : RunsOk d) : Survives d :=
  ⟨[], [], d, rfl, by simp, fun pre n post hd => by simp at hd, by simp, by simp, h⟩

theorem survives_of_noSuchRuns {d : List Byte} (h : NoSuchRuns d) : Survives d := by
  have h := noSuchRuns_ncount h
  rw [← codeUnstuff_codeStuff_iff, codeStuff_of_ncount_zero h, codeUnstuff_of_ncount_zero h]

end Dxl
