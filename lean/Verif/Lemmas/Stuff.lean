import Verif.Lemmas.Basic
import Verif.Model.ByteStuff
import Verif.Spec.Stuff

/-! # Byte stuffing: what the in-place code computes, as functions on lists -/

namespace Dxl
open Spec

/-- State of the counter of `stuffing_required` after the (reversed) data. -/
def nstate : List Byte → Nat
  | [] => 0
  | b :: p =>
    if b = 0xFF#8 ∧ nstate p = 0 then 1
    else if b = 0xFF#8 ∧ nstate p = 1 then 2
    else 0

/-- Count made by `stuffing_required` for the (reversed) data. -/
def ncount : List Byte → Nat
  | [] => 0
  | b :: p => ncount p + if b = 0xFD#8 ∧ nstate p = 2 then 1 else 0

/-- True number of occurrences of `FF FF FD` in the (reversed) data. -/
def occR : List Byte → Nat
  | [] => 0
  | b :: p => occR p + if b = 0xFD#8 ∧ p.take 2 = [0xFF#8, 0xFF#8] then 1 else 0

/-- Stuff the last `n` occurrences (the first `n` of the reversed data). -/
def revStuff : Nat → List Byte → List Byte
  | _, [] => []
  | n, b :: p =>
    if 0 < n ∧ b = 0xFD#8 ∧ p.take 2 = [0xFF#8, 0xFF#8] then 0xFD#8 :: 0xFD#8 :: revStuff (n - 1) p
    else b :: revStuff n p

/-- What the code sends for the body `d`. -/
def codeStuff (d : List Byte) : List Byte := (revStuff (ncount d.reverse) d.reverse).reverse

theorem nstate_lt (p : List Byte) : nstate p < 3 := by
  cases p with
  | nil => simp [nstate]
  | cons b p => simp only [nstate]; split; omega; split <;> omega

theorem nstate_one {p : List Byte} (h : nstate p = 1) : p.take 1 = [0xFF#8] := by
  cases p with
  | nil => simp [nstate] at h
  | cons b p =>
    simp only [nstate] at h
    split at h
    · simp_all
    · split at h <;> simp at h

theorem nstate_two {p : List Byte} (h : nstate p = 2) : p.take 2 = [0xFF#8, 0xFF#8] := by
  cases p with
  | nil => simp [nstate] at h
  | cons b p =>
    simp only [nstate] at h
    split at h
    · simp at h
    · split at h
      · rename_i h'
        have := nstate_one h'.2
        simp_all
      · simp at h

theorem ncount_le_occR (p : List Byte) : ncount p ≤ occR p := by
  induction p with
  | nil => simp [ncount, occR]
  | cons b p ih =>
    simp only [ncount, occR]
    by_cases h : b = 0xFD#8 ∧ nstate p = 2
    · have := nstate_two h.2
      simp [h, this]; omega
    · simp only [h, if_false]; split <;> omega

/-- The counting code. -/
theorem stuffingRequiredLoop_eq {ε : Type} (d p : List Byte) :
    stuffingRequiredLoop (ε := ε) d (nstate p) (ncount p) = .ok (ncount (d.reverse ++ p)) := by
  induction d generalizing p with
  | nil => simp [stuffingRequiredLoop]
  | cons b d ih =>
    have hs := nstate_lt p
    have h := ih (b :: p)
    simp only [stuffingRequiredLoop, List.reverse_cons, List.append_assoc, List.cons_append, List.nil_append]
    rw [← h]
    rcases (show nstate p = 0 ∨ nstate p = 1 ∨ nstate p = 2 by omega) with h0 | h0 | h0
    · by_cases hb : b = 0xFF#8 <;> simp [h0, hb, idx, pattern, nstate, ncount]
    · by_cases hb : b = 0xFF#8 <;> simp [h0, hb, idx, pattern, nstate, ncount]
    · by_cases hb : b = 0xFD#8 <;> simp [h0, hb, idx, pattern, nstate, ncount]

theorem stuffingRequired_eq {ε : Type} (d : List Byte) :
    stuffingRequired (ε := ε) d = .ok (ncount d.reverse) := by
  have := stuffingRequiredLoop_eq (ε := ε) d []
  simpa [stuffingRequired, nstate, ncount] using this

theorem revStuff_zero (p : List Byte) : revStuff 0 p = p := by
  induction p with
  | nil => rfl
  | cons b p ih => simp [revStuff, ih]

theorem patternEndsAt_eq {ε : Type} (b : Byte) (q y : List Byte) :
    patternEndsAt (ε := ε) (q.reverse ++ b :: y) q.length
      = .ok (decide (b = 0xFD#8 ∧ q.take 2 = [0xFF#8, 0xFF#8])) := by
  unfold patternEndsAt
  match q with
  | [] => simp
  | [a] => simp
  | a :: c :: r =>
    rw [if_pos (by simp)]
    rw [slice_ok (by omega) (by simp)]
    have : ((r.reverse ++ [c, a, b] ++ y).take (r.length + 3)).drop r.length = [c, a, b] := by
      rw [List.append_assoc, List.take_append, List.drop_append]
      simp
    simp only [List.reverse_cons, List.append_assoc, List.cons_append, List.nil_append, List.length_cons] at this ⊢
    rw [show r.length + 1 + 1 - 2 = r.length by omega, this]
    simp only [Outcome.ok_bind, Outcome.pure_eq]
    congr 1
    simp [pattern]
    grind

/-- The stuffing loop: `p` is the reversed data still to be read, `x` the free space between what is left to read
and what was written, `out` what was written (and what follows it). -/
theorem stuffLoop_eq {ε : Type} (n : Nat) : ∀ (p x out : List Byte) (len required fuel applied : Nat),
    p.length ≤ n → p.length ≤ len → applied + x.length = required → x.length ≤ occR p → p.length ≤ fuel →
    stuffLoop (ε := ε) len required fuel (len - p.length) applied (p.reverse ++ x ++ out)
      = ((revStuff x.length p).reverse ++ out, .ok required) := by
  induction n with
  | zero =>
    intro p x out len required fuel applied hn hlen hreq hocc hfuel
    have hp : p = [] := List.eq_nil_of_length_eq_zero (by omega)
    subst hp
    have hx : x = [] := List.eq_nil_of_length_eq_zero (by simpa [occR] using hocc)
    subst hx
    unfold stuffLoop
    simp [revStuff] at hreq ⊢
    exact hreq
  | succ n ih =>
    intro p x out len required fuel applied hn hlen hreq hocc hfuel
    by_cases hx : x = []
    · subst hx
      unfold stuffLoop
      simp at hreq
      simp [hreq, revStuff_zero]
    · have hxl : 0 < x.length := List.length_pos_iff.mpr hx
      match p, hn, hlen, hocc, hfuel with
      | [], _, _, hocc, _ => simp only [occR] at hocc; omega
      | b :: q, hn, hlen, hocc, hfuel =>
        simp only [List.length_cons] at hn hlen hfuel
        obtain ⟨fuel, rfl⟩ : ∃ f, fuel = f + 1 := ⟨fuel - 1, by omega⟩
        have hcond : len - (b :: q).length < len ∧ applied < required := by simp; omega
        have hrp : len - (len - (b :: q).length) - 1 = q.length := by simp; omega
        have hwp : q.length + (required - applied) = q.length + x.length := by omega
        unfold stuffLoop
        rw [if_pos hcond]
        simp only [hrp, hwp, SO.get_bind]
        have hbuf : (b :: q).reverse ++ x ++ out = q.reverse ++ b :: (x ++ out) := by simp
        rw [hbuf]
        rw [patternEndsAt_eq, SO.lift_ok_bind]
        by_cases hh : b = 0xFD#8 ∧ q.take 2 = [0xFF#8, 0xFF#8]
        · obtain ⟨hb, hq⟩ := hh
          obtain ⟨r, rfl⟩ : ∃ r, q = 0xFF#8 :: 0xFF#8 :: r := by
            match q, hq with
            | a :: c :: r, hq => exact ⟨r, by simp at hq; simp [hq]⟩
          subst hb
          have hw3 : 3 ≤ (0xFF#8 :: 0xFF#8 :: r).length + x.length := by simp; omega
          simp only [hq, and_self, decide_true, if_true, hw3]
          obtain ⟨x', hx'⟩ : ∃ x', x' = ([0xFF#8, 0xFF#8, 0xFD#8] ++ x).take (x.length - 1) := ⟨_, rfl⟩
          have hx'l : x'.length = x.length - 1 := by rw [hx']; simp; omega
          have hwr : onSlice (ε := ε) ((0xFF#8 :: 0xFF#8 :: r).length + x.length - 3)
              ((0xFF#8 :: 0xFF#8 :: r).length + x.length - 3 + 4) (copyFromSlice pattern)
              ((0xFF#8 :: 0xFF#8 :: r).reverse ++ 0xFD#8 :: (x ++ out))
              = (r.reverse ++ x' ++ (pattern ++ out), .ok ()) := by
            rw [onSlice_ok _ (by omega) (by simp; omega)]
            rw [show (0xFF#8 :: 0xFF#8 :: r).length + x.length - 3 = r.length + (x.length - 1) by simp; omega]
            have hb2 : (0xFF#8 :: 0xFF#8 :: r).reverse ++ 0xFD#8 :: (x ++ out)
              = r.reverse ++ ([0xFF#8, 0xFF#8, 0xFD#8] ++ x ++ out) := by simp
            rw [hb2]
            have t1 : (r.reverse ++ ([0xFF#8, 0xFF#8, 0xFD#8] ++ x ++ out)).take (r.length + (x.length - 1))
                = r.reverse ++ x' := by
              rw [hx', List.take_append, List.take_of_length_le (by simp)]
              congr 1
              rw [show r.length + (x.length - 1) - r.reverse.length = x.length - 1 by simp,
                List.take_append_of_le_length (by simp; omega)]
            have t2 : (r.reverse ++ ([0xFF#8, 0xFF#8, 0xFD#8] ++ x ++ out)).drop (r.length + (x.length - 1) + 4)
                = out := by
              rw [List.drop_append, List.drop_eq_nil_of_le (by simp; omega), List.nil_append,
                show r.length + (x.length - 1) + 4 - r.reverse.length = ([0xFF#8, 0xFF#8, 0xFD#8] ++ x).length by
                  simp; omega, List.drop_left]
            rw [t1, t2]
            have t3 : (((r.reverse ++ ([0xFF#8, 0xFF#8, 0xFD#8] ++ x ++ out)).take
                (r.length + (x.length - 1) + 4)).drop (r.length + (x.length - 1))).length = 4 := by
              simp; omega
            simp only [copyFromSlice, t3, show pattern.length = 4 from rfl, if_true]
            simp
          rw [SO.bind_ok hwr]
          have := ih r x' (pattern ++ out) len required fuel (applied + 1) (by simp at hn; omega)
            (by simp at hlen; omega) (by omega) (by simp [occR] at hocc; omega) (by simp at hfuel; omega)
          have hread : len - (0xFD#8 :: 0xFF#8 :: 0xFF#8 :: r).length + 3 = len - r.length := by
            simp at hlen ⊢; omega
          rw [hread, this, hx'l]
          have : revStuff x.length (0xFD#8 :: 0xFF#8 :: 0xFF#8 :: r)
              = 0xFD#8 :: 0xFD#8 :: 0xFF#8 :: 0xFF#8 :: revStuff (x.length - 1) r := by
            simp [revStuff, hxl]
          rw [this]
          simp [pattern]
        · rw [show decide (b = 0xFD#8 ∧ q.take 2 = [0xFF#8, 0xFF#8]) = false by simpa using hh]
          simp only [Bool.false_eq_true, if_false]
          have hidx : idx (ε := ε) (q.reverse ++ b :: (x ++ out)) q.length = .ok b := by
            simp [idx]
          rw [hidx, SO.lift_ok_bind]
          obtain ⟨x', hx'⟩ : ∃ x', x' = (b :: x).take x.length := ⟨_, rfl⟩
          have hx'l : x'.length = x.length := by rw [hx']; simp
          have hset : setIdx (ε := ε) (q.length + x.length) b (q.reverse ++ b :: (x ++ out))
              = (q.reverse ++ x' ++ (b :: out), .ok ()) := by
            rw [setIdx_ok _ (by simp; omega)]
            congr 1
            rw [List.set_append_right _ _ (by simp)]
            simp only [List.length_reverse, Nat.add_sub_cancel_left, List.append_assoc]
            congr 1
            rw [show b :: (x ++ out) = (b :: x) ++ out by rfl, List.set_append_left _ _ (by simp)]
            have e : (b :: x).set x.length b = x' ++ [b] := by
              rw [hx']
              apply List.ext_getElem
              · simp
              · intro i h1 h2
                simp only [List.length_set, List.length_cons] at h1
                rw [List.getElem_set]
                split
                · subst_vars; simp
                · rw [List.getElem_append_left (by simp; omega)]
                  simp
            rw [e]; simp
          rw [SO.bind_ok hset]
          have := ih q x' (b :: out) len required fuel applied (by omega) (by omega) (by omega)
            (by simp only [occR, hh, if_false] at hocc; omega) (by omega)
          have hread : len - (b :: q).length + 1 = len - q.length := by simp; omega
          rw [hread, this, hx'l]
          have hn : ¬ (0 < x.length ∧ b = 0xFD#8 ∧ q.take 2 = [0xFF#8, 0xFF#8]) := fun h => hh h.2
          simp [revStuff, hn]

/-- `stuff_inplace` on the data `d` in a buffer with `rest` behind it, when the result fits. -/
theorem stuffInplace_fits (debug : Bool) (d rest : List Byte) (h : ncount d.reverse ≤ rest.length) :
    stuffInplace debug d.length (d ++ rest)
      = (codeStuff d ++ rest.drop (ncount d.reverse), .ok (d.length + ncount d.reverse)) := by
  unfold stuffInplace
  rw [SO.get_bind, slice_ok (by omega) (by simp), SO.lift_ok_bind]
  simp only [List.take_left, List.drop_zero]
  rw [stuffingRequired_eq, SO.lift_ok_bind]
  by_cases h0 : ncount d.reverse = 0
  · simp [h0, codeStuff, revStuff_zero]
  · rw [if_neg h0]
    have hc : BufferTooSmall.check (d.length + ncount d.reverse) (d ++ rest).length = .ok () := by
      simp [BufferTooSmall.check, h]
    rw [hc, SO.lift_ok_bind]
    have hx : (rest.take (ncount d.reverse)).length = ncount d.reverse := by simp; omega
    have := stuffLoop_eq (ε := BufferTooSmall) d.length d.reverse (rest.take (ncount d.reverse))
      (rest.drop (ncount d.reverse)) d.length (ncount d.reverse) d.length 0 (by simp) (by simp) (by omega)
      (by rw [hx]; exact ncount_le_occR _) (by simp)
    simp only [List.length_reverse, Nat.sub_self, List.reverse_reverse, List.append_assoc, List.take_append_drop, hx]
      at this
    rw [SO.bind_ok this]
    simp [codeStuff]

/-- `stuff_inplace` when the result does not fit: nothing is changed. -/
theorem stuffInplace_too_small (debug : Bool) (d rest : List Byte) (h : rest.length < ncount d.reverse) :
    stuffInplace debug d.length (d ++ rest)
      = (d ++ rest, .err ⟨d.length + ncount d.reverse, d.length + rest.length⟩) := by
  unfold stuffInplace
  rw [SO.get_bind, slice_ok (by omega) (by simp), SO.lift_ok_bind]
  simp only [List.take_left, List.drop_zero]
  rw [stuffingRequired_eq, SO.lift_ok_bind, if_neg (by omega)]
  have hc : BufferTooSmall.check (d.length + ncount d.reverse) (d ++ rest).length
      = .err ⟨d.length + ncount d.reverse, d.length + rest.length⟩ := by
    simp [BufferTooSmall.check]; omega
  rw [hc, SO.lift_err_bind]

theorem revStuff_length (n : Nat) (p : List Byte) (h : n ≤ occR p) : (revStuff n p).length = p.length + n := by
  induction p generalizing n with
  | nil => simp [occR] at h; simp [revStuff, h]
  | cons b p ih =>
    simp only [occR] at h
    simp only [revStuff]
    by_cases hm : b = 0xFD#8 ∧ p.take 2 = [0xFF#8, 0xFF#8]
    · by_cases hn : 0 < n
      · simp only [hm, hn, and_self, if_true, List.length_cons]
        rw [ih _ (by simp [hm] at h; omega)]; omega
      · have : n = 0 := by omega
        subst this
        simp [revStuff_zero]
    · simp only [hm, if_false] at h
      simp only [hm, and_false, if_false, List.length_cons]
      rw [ih _ (by omega)]; omega

theorem codeStuff_length (d : List Byte) : (codeStuff d).length = d.length + ncount d.reverse := by
  rw [codeStuff, List.length_reverse, revStuff_length _ _ (ncount_le_occR _), List.length_reverse]

/-! The specification, from the back -/

/-- Forward view of the specification: `k` is the number of `FF`s just before, at most 2. -/
def stuffGo : Nat → List Byte → List Byte
  | _, [] => []
  | k, b :: d =>
    if b = 0xFF#8 then b :: stuffGo (min 2 (k + 1)) d
    else if b = 0xFD#8 ∧ k = 2 then 0xFD#8 :: 0xFD#8 :: stuffGo 0 d
    else b :: stuffGo 0 d

theorem stuff_cons_of_ne {b : Byte} {d : List Byte} (h : ¬ (b = 0xFF#8 ∧ d.take 2 = [0xFF#8, 0xFD#8])) :
    stuff (b :: d) = b :: stuff d := by
  match d with
  | [] => rfl
  | [x] => rfl
  | x :: y :: d =>
    rw [stuff]
    simp only [List.take_succ_cons, List.take_zero, List.cons.injEq, and_true] at h
    rw [if_neg h]

theorem stuffGo_eq (d : List Byte) : stuffGo 0 d = stuff d ∧ 0xFF#8 :: stuffGo 1 d = stuff (0xFF#8 :: d) ∧
    0xFF#8 :: 0xFF#8 :: stuffGo 2 d = stuff (0xFF#8 :: 0xFF#8 :: d) := by
  induction d with
  | nil => simp [stuffGo, stuff]
  | cons b d ih =>
    obtain ⟨i0, i1, i2⟩ := ih
    by_cases hb : b = 0xFF#8
    · subst hb
      refine ⟨?_, ?_, ?_⟩
      · simpa [stuffGo] using i1
      · simpa [stuffGo] using i2
      · rw [stuff_cons_of_ne (by simp), ← i2]
        simp [stuffGo]
    · have h0 : stuff (b :: d) = b :: stuff d := stuff_cons_of_ne (by simp [hb])
      have h1 : stuff (0xFF#8 :: b :: d) = 0xFF#8 :: stuff (b :: d) := by
        apply stuff_cons_of_ne
        cases d <;> simp [hb]
      by_cases hd : b = 0xFD#8
      · subst hd
        refine ⟨?_, ?_, ?_⟩
        · rw [h0, ← i0]; simp [stuffGo]
        · rw [h1, h0, ← i0]; simp [stuffGo]
        · rw [stuff, if_pos (by simp), ← i0]; simp [stuffGo]
      · refine ⟨?_, ?_, ?_⟩
        · rw [h0, ← i0]; simp [stuffGo, hb, hd]
        · rw [h1, h0, ← i0]; simp [stuffGo, hb, hd]
        · rw [stuff_cons_of_ne (by simp [hd]), h1, h0, ← i0]; simp [stuffGo, hb, hd]

/-- Number of `FF`s at the head, at most 2. -/
def headRun (p : List Byte) : Nat :=
  if p.take 2 = [0xFF#8, 0xFF#8] then 2 else if p.take 1 = [0xFF#8] then 1 else 0

theorem headRun_cons (b : Byte) (p : List Byte) :
    headRun (b :: p) = if b = 0xFF#8 then min 2 (headRun p + 1) else 0 := by
  by_cases hb : b = 0xFF#8
  · subst hb
    match p with
    | [] => simp [headRun]
    | [a] => by_cases ha : a = 0xFF#8 <;> simp [headRun, ha]
    | a :: c :: p => by_cases ha : a = 0xFF#8 <;> by_cases hc : c = 0xFF#8 <;> simp [headRun, ha, hc]
  · simp [headRun, hb]

theorem headRun_two (p : List Byte) : headRun p = 2 ↔ p.take 2 = [0xFF#8, 0xFF#8] := by
  unfold headRun
  split
  · simp_all
  · split <;> simp_all

/-- Stuffing continued after (reversed) data `p`. -/
theorem stuffGo_append (d : List Byte) : ∀ (p : List Byte) (n : Nat), occR (d.reverse ++ p) ≤ n →
    (revStuff n (d.reverse ++ p)).reverse
      = (revStuff (n - (occR (d.reverse ++ p) - occR p)) p).reverse ++ stuffGo (headRun p) d := by
  induction d with
  | nil => intro p n h; simp [stuffGo]
  | cons b d ih =>
    intro p n h
    have hmono : ∀ (d p : List Byte), occR p ≤ occR (d ++ p) := by
      intro d
      induction d with
      | nil => simp
      | cons x d ih => intro p; simp only [List.cons_append, occR]; have := ih p; split <;> omega
    have e : (b :: d).reverse ++ p = d.reverse ++ (b :: p) := by simp
    rw [e] at h ⊢
    rw [ih (b :: p) n h, headRun_cons]
    have m1 := hmono d.reverse (b :: p)
    have m2 : occR p ≤ occR (b :: p) := hmono [b] p
    simp only [stuffGo]
    by_cases hb : b = 0xFF#8
    · subst hb
      have : occR (0xFF#8 :: p) = occR p := by simp [occR]
      simp [this, revStuff]
    · rw [if_neg hb, if_neg hb]
      by_cases hm : b = 0xFD#8 ∧ headRun p = 2
      · obtain ⟨hb', hh⟩ := hm
        subst hb'
        have hh' := (headRun_two p).mp hh
        have ho : occR (0xFD#8 :: p) = occR p + 1 := by simp [occR, hh']
        rw [if_pos ⟨rfl, hh⟩, ho]
        rw [ho] at m1 m2
        simp only [revStuff, hh', and_self, and_true]
        rw [if_pos (by omega)]
        rw [show n - (occR (d.reverse ++ 253#8 :: p) - (occR p + 1)) - 1
          = n - (occR (d.reverse ++ 253#8 :: p) - occR p) by omega]
        simp
      · rw [if_neg hm]
        have hm' : ¬ (b = 0xFD#8 ∧ p.take 2 = [0xFF#8, 0xFF#8]) := by rw [← headRun_two]; exact hm
        have ho : occR (b :: p) = occR p := by simp only [occR, hm', if_false]; omega
        have hr : ∀ n, revStuff n (b :: p) = b :: revStuff n p := by
          intro n
          simp only [revStuff]
          rw [if_neg (fun h => hm' h.2)]
        rw [ho, hr]
        simp

/-- Stuffing every occurrence is what the protocol demands. -/
theorem revStuff_all (d : List Byte) (n : Nat) (h : occR d.reverse ≤ n) :
    (revStuff n d.reverse).reverse = stuff d := by
  have := stuffGo_append d [] n (by simpa using h)
  simpa [revStuff, headRun, (stuffGo_eq d).1] using this

theorem stuff_length (d : List Byte) : (stuff d).length = d.length + occR d.reverse := by
  rw [← revStuff_all d _ (Nat.le_refl _), List.length_reverse, revStuff_length _ _ (Nat.le_refl _), List.length_reverse]

/-- The code stuffs correctly exactly if it counts correctly. -/
theorem codeStuff_eq_stuff_iff (d : List Byte) : codeStuff d = stuff d ↔ ncount d.reverse = occR d.reverse := by
  constructor
  · intro h
    have := congrArg List.length h
    rw [codeStuff_length, stuff_length] at this
    omega
  · intro h
    rw [codeStuff, revStuff_all d _ (by omega)]

/-! When is the count correct? -/

/-- Every `FF FF FD` follows a run of length 2 modulo 3; `r` is the length of the run so far. -/
def goodGo : Nat → List Byte → Prop
  | _, [] => True
  | r, b :: d =>
    if b = 0xFF#8 then goodGo (r + 1) d
    else if b = 0xFD#8 then (r < 2 ∨ r % 3 = 2) ∧ goodGo 0 d
    else goodGo 0 d

/-- Length of the run of `FF`s at the head. -/
def run : List Byte → Nat
  | [] => 0
  | b :: p => if b = 0xFF#8 then run p + 1 else 0

theorem nstate_run (p : List Byte) : nstate p = run p % 3 := by
  induction p with
  | nil => rfl
  | cons b p ih =>
    simp only [nstate, run, ih]
    by_cases hb : b = 0xFF#8
    · simp only [hb, true_and, if_true]
      split
      · omega
      · split <;> omega
    · simp [hb]

theorem take2_run (p : List Byte) : p.take 2 = [0xFF#8, 0xFF#8] ↔ 2 ≤ run p := by
  match p with
  | [] => simp [run]
  | [a] => by_cases ha : a = 0xFF#8 <;> simp [run, ha]
  | a :: c :: p => by_cases ha : a = 0xFF#8 <;> by_cases hc : c = 0xFF#8 <;> simp [run, ha, hc]

/-- `ncount` and `occR` agree on the extension `d` of `p` exactly if they agree on `p` and `d` is good. -/
theorem count_iff (d p : List Byte) :
    ncount (d.reverse ++ p) = occR (d.reverse ++ p) ↔ ncount p = occR p ∧ goodGo (run p) d := by
  induction d generalizing p with
  | nil => simp [goodGo]
  | cons b d ih =>
    have e : (b :: d).reverse ++ p = d.reverse ++ (b :: p) := by simp
    rw [e, ih]
    have hle := ncount_le_occR p
    simp only [ncount, occR, goodGo, run, nstate_run, take2_run]
    by_cases hb : b = 0xFF#8
    · subst hb; simp
    · by_cases hd : b = 0xFD#8
      · subst hd
        by_cases h1 : 2 ≤ run p <;> by_cases h2 : run p % 3 = 2 <;> simp [h1, h2] <;> omega
      · simp [hb, hd]

theorem ncount_eq_iff_good (d : List Byte) : ncount d.reverse = occR d.reverse ↔ goodGo 0 d := by
  have := count_iff d []
  simpa [ncount, occR, run] using this

theorem run_split (p : List Byte) : ∃ q, p = List.replicate (run p) 0xFF#8 ++ q ∧ q.head? ≠ some 0xFF#8 := by
  induction p with
  | nil => exact ⟨[], by simp [run]⟩
  | cons b p ih =>
    obtain ⟨q, hq, hh⟩ := ih
    by_cases hb : b = 0xFF#8
    · refine ⟨q, ?_, hh⟩
      simp only [run, hb, if_true, List.replicate_succ, List.cons_append]
      rw [← hq]
    · exact ⟨b :: p, by simp [run, hb], by simpa using hb⟩

theorem run_replicate (n : Nat) (q : List Byte) (h : q.head? ≠ some 0xFF#8) :
    run (List.replicate n 0xFF#8 ++ q) = n := by
  induction n with
  | zero => cases q with
    | nil => rfl
    | cons b q => simp [run]; intro hb; simp [hb] at h
  | succ n ih => simp [List.replicate_succ, run, ih]

theorem goodGo_splits (d p : List Byte) : goodGo (run p) d ↔
    ∀ u post, d = u ++ 0xFD#8 :: post → run (u.reverse ++ p) < 2 ∨ run (u.reverse ++ p) % 3 = 2 := by
  induction d generalizing p with
  | nil => simp [goodGo]
  | cons b d ih =>
    have key : (∀ u post, b :: d = u ++ 0xFD#8 :: post → run (u.reverse ++ p) < 2 ∨ run (u.reverse ++ p) % 3 = 2) ↔
        ((b = 0xFD#8 → run p < 2 ∨ run p % 3 = 2) ∧ goodGo (run (b :: p)) d) := by
      rw [ih]
      constructor
      · intro h
        refine ⟨fun hb => by simpa using h [] d (by simp [hb]), fun u post hd => ?_⟩
        have := h (b :: u) post (by simp [hd])
        simpa using this
      · rintro ⟨h1, h2⟩ u post hd
        match u, hd with
        | [], hd => simp at hd; simpa using h1 hd.1
        | x :: u, hd =>
          simp at hd
          have := h2 u post hd.2
          rw [hd.1] at this
          simpa using this
    rw [key]
    simp only [goodGo, run]
    by_cases hb : b = 0xFF#8
    · simp [hb]
    · by_cases hd : b = 0xFD#8 <;> simp [hb, hd]

/-- `goodGo`, declaratively. -/
theorem goodGo_iff (d : List Byte) : goodGo 0 d ↔ RunsOk d := by
  have h := goodGo_splits d []
  simp only [run, List.append_nil] at h
  rw [h]
  constructor
  · intro h pre n post hd hpre
    have := h (pre ++ List.replicate n 0xFF#8) post hd
    have hr : (pre ++ List.replicate n 0xFF#8).reverse = List.replicate n 0xFF#8 ++ pre.reverse := by simp
    rw [hr, run_replicate n pre.reverse (by simpa using hpre)] at this
    exact this
  · intro h u post hd
    obtain ⟨q, hq, hh⟩ := run_split u.reverse
    refine h q.reverse (run u.reverse) post ?_ (by simpa using hh)
    rw [hd]
    congr 1
    have := congrArg List.reverse hq
    simpa using this

theorem codeStuff_eq_stuff (d : List Byte) : codeStuff d = stuff d ↔ RunsOk d := by
  rw [codeStuff_eq_stuff_iff, ncount_eq_iff_good, goodGo_iff]

/-- Data without `FF FF FF FD` is fine. -/
theorem runsOk_of_no_infix {d : List Byte} (h : ¬ [0xFF#8, 0xFF#8, 0xFF#8, 0xFD#8] <:+: d) : RunsOk d := by
  intro pre n post hd _
  by_cases hn : n < 3
  · omega
  · exfalso
    apply h
    refine ⟨pre ++ List.replicate (n - 3) 0xFF#8, post, ?_⟩
    rw [hd]
    have : List.replicate n 0xFF#8 = List.replicate (n - 3) 0xFF#8 ++ [0xFF#8, 0xFF#8, 0xFF#8] := by
      rw [show n = (n - 3) + 3 by omega, ← List.replicate_append_replicate]
      simp
    rw [this]
    simp

/-! Unstuffing -/

/-- One step of the automaton of `unstuff_inplace`. -/
def ustep (state : Nat) (b : Byte) : Nat :=
  if (state = 0 ∨ state = 1) ∧ b = 0xFF#8 then state + 1
  else if (state = 2 ∨ state = 3) ∧ b = 0xFD#8 then state + 1
  else 0

/-- What `unstuff_inplace` computes. -/
def unstuffGo : Nat → List Byte → List Byte
  | _, [] => []
  | state, b :: d => if ustep state b = 4 then unstuffGo 0 d else b :: unstuffGo (ustep state b) d

/-- What `unstuff_inplace` computes. -/
def codeUnstuff (d : List Byte) : List Byte := unstuffGo 0 d

theorem unstuffGo_length (d : List Byte) (s : Nat) : (unstuffGo s d).length ≤ d.length := by
  induction d generalizing s with
  | nil => simp [unstuffGo]
  | cons b d ih =>
    simp only [unstuffGo]
    split
    · have := ih 0; simp; omega
    · have := ih (ustep s b); simp; omega

/-- The loop: `out` was written, `junk` are bytes that were moved or deleted, `d` is to be read. -/
theorem unstuffLoop_eq {ε : Type} (d : List Byte) : ∀ (out junk : List Byte) (state : Nat), state < 4 →
    ∃ junk', unstuffLoop (ε := ε) d.length (out.length + junk.length) junk.length state (out ++ junk ++ d)
      = (out ++ unstuffGo state d ++ junk', .ok junk'.length) ∧
      junk'.length = junk.length + (d.length - (unstuffGo state d).length) := by
  induction d with
  | nil => intro out junk state _; exact ⟨junk, by simp [unstuffLoop, unstuffGo]⟩
  | cons b d ih =>
    intro out junk state hs
    have hidx : idx (ε := ε) (out ++ junk ++ b :: d) (out.length + junk.length) = .ok b := by
      have : (out ++ junk).length = out.length + junk.length := by simp
      simp only [idx]
      rw [← this, List.getElem?_append_right (by omega)]
      simp
    have hstep : ∀ (f : Nat → SO (List Byte) ε Nat) (s : List Byte),
        (SO.lift (idx pattern state) >>= fun p => f (if b = p then state + 1 else 0)) s = f (ustep state b) s := by
      intro f s
      match state, hs with
      | 0, _ => simp only [idx, pattern, ustep]; simp
      | 1, _ => simp only [idx, pattern, ustep]; simp
      | 2, _ => simp only [idx, pattern, ustep]; simp
      | 3, _ => simp only [idx, pattern, ustep]; simp
    have hu : ustep state b ≤ 4 := by unfold ustep; split; omega; split <;> omega
    simp only [List.length_cons, unstuffLoop, SO.get_bind]
    rw [hidx, SO.lift_ok_bind]
    rw [hstep (fun state => if state = 4 then unstuffLoop d.length (out.length + junk.length + 1) (junk.length + 1) 0
      else if junk.length > 0 then
        if junk.length ≤ out.length + junk.length then do
          setIdx (out.length + junk.length - junk.length) b
          unstuffLoop d.length (out.length + junk.length + 1) junk.length state
        else SO.panic
      else unstuffLoop d.length (out.length + junk.length + 1) junk.length state)]
    simp only [unstuffGo]
    by_cases h4 : ustep state b = 4
    · rw [if_pos h4, if_pos h4]
      obtain ⟨junk', h1, h2⟩ := ih out (junk ++ [b]) 0 (by omega)
      refine ⟨junk', ?_, ?_⟩
      · rw [← h1]; simp [Nat.add_assoc]
      · have := unstuffGo_length d 0
        rw [h2]; simp; omega
    · rw [if_neg h4, if_neg h4]
      by_cases hj : junk.length > 0
      · rw [if_pos hj, if_pos (by omega)]
        obtain ⟨j, js, rfl⟩ : ∃ j js, junk = j :: js := by
          cases junk with
          | nil => simp at hj
          | cons j js => exact ⟨j, js, rfl⟩
        have hset : setIdx (ε := ε) (out.length + (j :: js).length - (j :: js).length) b (out ++ j :: js ++ b :: d)
            = (out ++ [b] ++ (js ++ [b]) ++ d, .ok ()) := by
          rw [setIdx_ok _ (by simp)]
          simp
        rw [SO.bind_ok hset]
        obtain ⟨junk', h1, h2⟩ := ih (out ++ [b]) (js ++ [b]) (ustep state b) (by omega)
        refine ⟨junk', ?_, ?_⟩
        · simp only [List.length_append, List.length_cons, List.length_nil] at h1 ⊢
          rw [show out.length + (js.length + 1) + 1 = out.length + (0 + 1) + (js.length + (0 + 1)) by omega,
            show js.length + 1 = js.length + (0 + 1) by omega, h1]
          simp
        · rw [h2]; simp
      · rw [if_neg hj]
        have hj0 : junk = [] := List.eq_nil_of_length_eq_zero (by omega)
        subst hj0
        obtain ⟨junk', h1, h2⟩ := ih (out ++ [b]) [] (ustep state b) (by omega)
        refine ⟨junk', ?_, ?_⟩
        · simp only [List.length_append, List.length_cons, List.length_nil, Nat.add_zero, Nat.zero_add] at h1 ⊢
          simp only [List.append_nil, List.append_assoc, List.cons_append, List.nil_append] at h1 ⊢
          rw [h1]
        · rw [h2]; simp

/-- `unstuff_inplace` leaves the unstuffed data at the start of the slice and returns its length. -/
theorem unstuffInplace_eq {ε : Type} (d : List Byte) :
    ∃ junk, unstuffInplace (ε := ε) d = (codeUnstuff d ++ junk, .ok (codeUnstuff d).length) ∧
      (codeUnstuff d).length + junk.length = d.length := by
  obtain ⟨junk, h1, h2⟩ := unstuffLoop_eq (ε := ε) d [] [] 0 (by omega)
  have hl := unstuffGo_length d 0
  refine ⟨junk, ?_, ?_⟩
  · simp only [List.length_nil, Nat.add_zero, List.nil_append] at h1 h2
    unfold unstuffInplace
    rw [SO.get_bind, SO.bind_ok h1]
    have : junk.length ≤ d.length := by omega
    simp only [this, if_true, SO.pure_apply, codeUnstuff]
    congr 2; omega
  · simp only [codeUnstuff]; simp at h2; omega

theorem ustep_FF (r : Nat) : ustep (r % 3) 0xFF#8 = (r + 1) % 3 := by
  unfold ustep
  rcases (show r % 3 = 0 ∨ r % 3 = 1 ∨ r % 3 = 2 by omega) with h | h | h <;> simp [h] <;> omega

theorem ustep_other (r : Nat) (b : Byte) (h1 : b ≠ 0xFF#8) (h2 : b ≠ 0xFD#8) : ustep r b = 0 := by
  simp [ustep, h1, h2]

/-- Unstuffing what a conforming sender stuffed gives the data back, with one extra byte for each
occurrence that the automaton misses. -/
theorem unstuffGo_stuffGo (d : List Byte) (r : Nat) :
    (goodGo r d → unstuffGo (r % 3) (stuffGo (min 2 r) d) = d) ∧
    (¬ goodGo r d → d.length < (unstuffGo (r % 3) (stuffGo (min 2 r) d)).length) ∧
    d.length ≤ (unstuffGo (r % 3) (stuffGo (min 2 r) d)).length := by
  induction d generalizing r with
  | nil => simp [goodGo, stuffGo, unstuffGo]
  | cons b d ih =>
    by_cases hb : b = 0xFF#8
    · subst hb
      obtain ⟨h1, h2, h3⟩ := ih (r + 1)
      have e : min 2 (min 2 r + 1) = min 2 (r + 1) := by omega
      have hne : (r + 1) % 3 ≠ 4 := by omega
      simp only [goodGo, stuffGo, if_true, unstuffGo, ustep_FF, hne, if_false, e, List.length_cons]
      refine ⟨fun h => by rw [h1 h], fun h => by have := h2 h; omega, by omega⟩
    · obtain ⟨h1, h2, h3⟩ := ih 0
      have e0 : min 2 0 = 0 := rfl
      simp only [Nat.zero_mod] at h1 h2 h3
      by_cases hd : b = 0xFD#8
      · subst hd
        simp only [goodGo, stuffGo, show (0xFD#8 : Byte) ≠ 0xFF#8 by decide, if_false, if_true, true_and]
        rw [e0] at h1 h2 h3
        by_cases hr : min 2 r = 2
        · rw [if_pos hr]
          by_cases h3' : r % 3 = 2
          · have u1 : ustep 2 0xFD#8 = 3 := by decide
            have u2 : ustep 3 0xFD#8 = 4 := by decide
            have hok : r < 2 ∨ r % 3 = 2 := Or.inr h3'
            simp only [h3', unstuffGo, u1, u2, if_true, show (3 : Nat) ≠ 4 by decide, if_false, List.length_cons,
              or_true, true_and]
            refine ⟨fun h => by rw [h1 h], fun h => by have := h2 h; omega, by omega⟩
          · have hs : r % 3 = 0 ∨ r % 3 = 1 := by omega
            have u1 : ustep (r % 3) 0xFD#8 = 0 := by rcases hs with h | h <;> rw [h] <;> decide
            have u2 : ustep 0 0xFD#8 = 0 := by decide
            have hbad : ¬ (r < 2 ∨ r % 3 = 2) := by omega
            simp only [unstuffGo, u1, u2, show (0 : Nat) ≠ 4 by decide, if_false, List.length_cons, hbad, false_and,
              not_false_eq_true, true_implies]
            refine ⟨fun h => h.elim, by omega, by omega⟩
        · rw [if_neg hr]
          have hr2 : r < 2 := by omega
          have u1 : ustep (r % 3) 0xFD#8 = 0 := by
            rcases (show r = 0 ∨ r = 1 by omega) with h | h <;> rw [h] <;> decide
          simp only [unstuffGo, u1, show (0 : Nat) ≠ 4 by decide, if_false, List.length_cons, hr2, true_or, true_and]
          refine ⟨fun h => by rw [h1 h], fun h => by have := h2 h; omega, by omega⟩
      · rw [e0] at h1 h2 h3
        simp only [goodGo, stuffGo, hb, hd, if_false, false_and, unstuffGo, ustep_other _ _ hb hd,
          show (0 : Nat) ≠ 4 by decide, List.length_cons]
        refine ⟨fun h => by rw [h1 h], fun h => by have := h2 h; omega, by omega⟩

theorem codeUnstuff_stuff (d : List Byte) : codeUnstuff (stuff d) = d ↔ RunsOk d := by
  have := unstuffGo_stuffGo d 0
  simp only [Nat.zero_mod, show min 2 0 = 0 from rfl, (stuffGo_eq d).1] at this
  rw [← goodGo_iff]
  constructor
  · intro h
    by_cases hg : goodGo 0 d
    · exact hg
    · have := this.2.1 hg
      rw [codeUnstuff] at h
      rw [h] at this
      omega
  · exact this.1

/-- Data in which the automaton finds nothing is left alone. -/
theorem unstuffGo_append (d t p : List Byte) (h : ncount (d.reverse ++ p) = ncount p) :
    unstuffGo (nstate p) (d ++ t) = d ++ unstuffGo (nstate (d.reverse ++ p)) t := by
  have mono : ∀ (d p : List Byte), ncount p ≤ ncount (d ++ p) := by
    intro d
    induction d with
    | nil => simp
    | cons x d ih => intro p; simp only [List.cons_append, ncount]; have := ih p; omega
  induction d generalizing p with
  | nil => rfl
  | cons b d ih =>
    have e : (b :: d).reverse ++ p = d.reverse ++ (b :: p) := by simp
    rw [e] at h ⊢
    have m1 := mono d.reverse (b :: p)
    have m2 := mono [b] p
    simp only [List.cons_append, List.nil_append] at m2
    have h1 : ncount (b :: p) = ncount p := by omega
    have h2 := ih (b :: p) (by omega)
    have hs : ustep (nstate p) b = nstate (b :: p) := by
      simp only [ncount] at h1
      have := nstate_lt p
      unfold ustep
      simp only [nstate]
      rcases (show nstate p = 0 ∨ nstate p = 1 ∨ nstate p = 2 by omega) with h | h | h
      · by_cases hb : b = 0xFF#8 <;> simp [h, hb]
      · by_cases hb : b = 0xFF#8 <;> simp [h, hb]
      · have : b ≠ 0xFD#8 := by intro hb; simp [hb, h] at h1
        simp [h, this]
    have h4 : nstate (b :: p) ≠ 4 := by have := nstate_lt (b :: p); omega
    simp only [List.cons_append, unstuffGo, hs, h4, if_false, h2]

theorem unstuffGo_of_ncount (d p : List Byte) (h : ncount (d.reverse ++ p) = ncount p) :
    unstuffGo (nstate p) d = d := by
  have := unstuffGo_append d [] p h
  simpa [unstuffGo] using this

theorem codeUnstuff_of_ncount_zero {d : List Byte} (h : ncount d.reverse = 0) : codeUnstuff d = d := by
  have := unstuffGo_of_ncount d [] (by simpa [ncount] using h)
  simpa [nstate, codeUnstuff] using this

theorem codeStuff_of_ncount_zero {d : List Byte} (h : ncount d.reverse = 0) : codeStuff d = d := by
  simp [codeStuff, h, revStuff_zero]

/-- The first byte is never removed. -/
theorem codeUnstuff_cons (b : Byte) (d : List Byte) : ∃ d', codeUnstuff (b :: d) = b :: d' := by
  refine ⟨unstuffGo (ustep 0 b) d, ?_⟩
  have : ustep 0 b ≠ 4 := by unfold ustep; simp; split <;> omega
  simp [codeUnstuff, unstuffGo, this]

/-! `stuff` output has no `FF FF FD 00` -/

theorem stuff_cons_head (b : Byte) (d : List Byte) : ∃ d', stuff (b :: d) = b :: d' := by
  match d with
  | [] => exact ⟨_, rfl⟩
  | [x] => exact ⟨_, rfl⟩
  | x :: y :: d =>
    rw [stuff]
    split <;> exact ⟨_, rfl⟩

theorem stuff_prefix {d t : List Byte} (h : stuff d = 0xFF#8 :: 0xFD#8 :: t) : ∃ t', d = 0xFF#8 :: 0xFD#8 :: t' := by
  match d with
  | [] => simp [stuff] at h
  | [a] => simp [stuff] at h
  | [a, b] => simp [stuff] at h; exact ⟨[], by simp [h]⟩
  | a :: b :: c :: d =>
    rw [stuff] at h
    split at h
    · rename_i hc; simp [hc] at h
    · simp at h
      obtain ⟨t', ht'⟩ := stuff_cons_head b (c :: d)
      rw [ht'] at h
      simp at h
      exact ⟨c :: d, by simp [h]⟩

theorem stuff_no_header (d : List Byte) : ¬ [0xFF#8, 0xFF#8, 0xFD#8, 0x00#8] <:+: stuff d := by
  fun_induction stuff d with
  | case1 a b c rest h ih =>
    obtain ⟨ha, hb, hc⟩ := h
    subst ha hb hc
    simp only [List.infix_cons_iff, not_or]
    refine ⟨?_, ?_, ?_, ?_, ih⟩ <;> simp
  | case2 a b c rest h ih =>
    rw [List.infix_cons_iff, not_or]
    refine ⟨?_, ih⟩
    rintro ⟨t, ht⟩
    simp only [List.cons_append, List.nil_append, List.cons.injEq] at ht
    obtain ⟨t', ht'⟩ := stuff_prefix ht.2.symm
    apply h
    simp at ht'
    exact ⟨ht.1.symm, ht'.1, ht'.2.1⟩
  | case3 a b => intro h; have := h.length_le; simp at this
  | case4 a => intro h; have := h.length_le; simp at this
  | case5 => intro h; have := h.length_le; simp at this

end Dxl

namespace Dxl
open Spec

/-- The specification of stuffing is sane: it can be undone. -/
theorem unstuff_stuff (d : List Byte) : unstuff (stuff d) = d := by
  fun_induction stuff d with
  | case1 a b c rest h ih =>
    obtain ⟨rfl, rfl, rfl⟩ := h
    simp [unstuff, ih]
  | case2 a b c rest h ih =>
    have key : ∀ t, stuff (b :: c :: rest) = t → unstuff (a :: t) = a :: unstuff t := by
      intro t ht
      match t with
      | [] => rfl
      | [x] => rfl
      | [x, y] => rfl
      | x :: y :: z :: u =>
        rw [unstuff, if_neg]
        rintro ⟨rfl, rfl, rfl, rfl⟩
        obtain ⟨t', h'⟩ := stuff_prefix ht
        simp at h'
        exact h ⟨rfl, h'.1, h'.2.1⟩
    rw [key _ rfl, ih]
  | case3 a b => rfl
  | case4 a => rfl
  | case5 => rfl

/-! ### Data without runs of 2, 5, 8, ... -/

theorem run_append {p : List Byte} (h : run p = 0) (q : List Byte) : run (q ++ p) = run q := by
  induction q with
  | nil => simpa [run] using h
  | cons b q ih => simp only [List.cons_append, run, ih]

theorem ncount_append {p : List Byte} (h : run p = 0) (q : List Byte) : ncount (q ++ p) = ncount q + ncount p := by
  induction q with
  | nil => simp [ncount]
  | cons b q ih =>
    simp only [List.cons_append, ncount, ih, nstate_run, run_append h]
    omega

theorem ncount_splits (d p : List Byte) (h : ∀ u post, d = u ++ 0xFD#8 :: post → run (u.reverse ++ p) % 3 ≠ 2) :
    ncount (d.reverse ++ p) = ncount p := by
  induction d generalizing p with
  | nil => simp
  | cons b d ih =>
    have e : (b :: d).reverse ++ p = d.reverse ++ (b :: p) := by simp
    rw [e, ih]
    · have := h [] d
      by_cases hb : b = 0xFD#8
      · have := this (by simp [hb])
        simp [ncount, nstate_run, show (run p % 3 = 2) = False by simpa using this]
      · simp [ncount, hb]
    · intro u post hd
      have := h (b :: u) post (by simp [hd])
      simpa using this

theorem noSuchRuns_ncount {d : List Byte} (h : NoSuchRuns d) : ncount d.reverse = 0 := by
  have := ncount_splits d [] (fun u post hd => by
    obtain ⟨q, hq, hh⟩ := run_split u.reverse
    have := h q.reverse (run u.reverse) post (by
      rw [hd]
      congr 1
      have := congrArg List.reverse hq
      simpa using this) (by simpa using hh)
    simpa using this)
  simpa [ncount] using this

end Dxl
