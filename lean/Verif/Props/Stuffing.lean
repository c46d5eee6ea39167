import Verif.Lemmas.Forms

/-! # C03 (functions), C04, C06, C07: byte stuffing

The statements about packets on the wire (C03, C05) are in `Props/Send.lean`. -/

namespace Dxl.Props
open Spec

/-- **C07** `stuff_inplace(buffer, len)`, in both build profiles, never panics for a length within the buffer. There is one
`wire`, described by `Spec.StuffedForm` (and equal to what the protocol prescribes for data whose runs are fine, see
`Spec.RunsOk`), such that the call reports `BufferTooSmall` exactly if `wire` does not fit the buffer, with the buffer
unchanged; and otherwise puts `wire` at the front of the buffer, touching nothing behind it. -/
theorem c07_stuff_confined (buffer : List Byte) (len : Nat) (hlen : len ≤ buffer.length) :
    ∃ wire, (∀ w, StuffedForm (buffer.take len) w ↔ w = wire) ∧ (RunsOk (buffer.take len) → wire = stuff (buffer.take len)) ∧
      len ≤ wire.length ∧ wire.length ≤ (stuff (buffer.take len)).length ∧
      ∀ debug, stuffInplace debug len buffer =
        if wire.length ≤ buffer.length then (wire ++ buffer.drop wire.length, .ok wire.length)
        else (buffer, .err ⟨wire.length, buffer.length⟩) := by
  have hl : (buffer.take len).length = len := by simp; omega
  have hdl : (buffer.drop len).length = buffer.length - len := by simp
  refine ⟨codeStuff (buffer.take len), fun w => stuffedForm_iff, fun h => (codeStuff_eq_stuff _).mpr h, ?_, ?_, fun debug => ?_⟩
  · rw [codeStuff_length]; omega
  · rw [codeStuff_length, stuff_length]
    have := ncount_le_occR (buffer.take len).reverse
    omega
  · by_cases h : ncount (buffer.take len).reverse ≤ (buffer.drop len).length
    · have := stuffInplace_fits debug (buffer.take len) (buffer.drop len) h
      rw [List.take_append_drop, hl] at this
      rw [this, codeStuff_length, hl, if_pos (by omega), List.drop_drop]
    · have := stuffInplace_too_small debug (buffer.take len) (buffer.drop len) (by omega)
      rw [List.take_append_drop, hl] at this
      rw [this, codeStuff_length, hl, if_neg (by omega)]
      congr 3
      omega

/-- **C07** A length outside the buffer is the only way to make `stuff_inplace` panic. -/
theorem c07_stuff_panics_only_on_bad_length (debug : Bool) (buffer : List Byte) (len : Nat) :
    (stuffInplace debug len buffer).2 = .panic ↔ buffer.length < len := by
  constructor
  · intro h
    by_cases hl : len ≤ buffer.length
    · obtain ⟨w, _, _, _, _, hw⟩ := c07_stuff_confined buffer len hl
      rw [hw debug] at h
      split at h <;> simp at h
    · omega
  · intro h
    unfold stuffInplace
    rw [SO.get_bind, slice, if_neg (by omega), SO.lift_panic_bind]

/-- **C07** `unstuff_inplace(buffer)` never panics: it leaves `out`, described by `Spec.Unstuffs`, at the front of the
buffer and returns its length. -/
theorem c07_unstuff_confined (d : List Byte) : ∃ out d', (∀ o, Unstuffs d o ↔ o = out) ∧ out.length ≤ d.length ∧
    unstuffInplace (ε := Empty) d = (d', .ok out.length) ∧ d'.length = d.length ∧ d'.take out.length = out := by
  obtain ⟨junk, h, hl⟩ := unstuffInplace_eq (ε := Empty) d
  exact ⟨codeUnstuff d, _, fun o => by rw [unstuffs_iff]; exact eq_comm, unstuffGo_length d 0, h, by simp [hl], by simp⟩

/-- `unstuff_inplace` called with `wire` leaves `body` at the front of the buffer and returns its length. -/
def UnstuffsInplace (wire body : List Byte) : Prop :=
  (unstuffInplace (ε := Empty) wire).2 = .ok body.length ∧ (unstuffInplace (ε := Empty) wire).1.take body.length = body

theorem unstuffsInplace_iff (wire body : List Byte) : UnstuffsInplace wire body ↔ codeUnstuff wire = body := by
  obtain ⟨junk, h, _⟩ := unstuffInplace_eq (ε := Empty) wire
  rw [UnstuffsInplace, h]
  constructor
  · rintro ⟨h1, h2⟩
    simp only [Outcome.ok.injEq] at h1
    simp only [← h1, List.take_left] at h2
    exact h2
  · rintro rfl
    simp

/-- **C06** (partial: `Spec.Unstuffs` is not the `Spec.unstuff` of the protocol) What `unstuff_inplace` makes of any bytes. -/
theorem c06_unstuff_exact_partial (wire body : List Byte) : UnstuffsInplace wire body ↔ Unstuffs wire body := by
  rw [unstuffsInplace_iff, unstuffs_iff]

/-- **C03** (partial: `Spec.StuffedForm` is not the `Spec.stuff` of the protocol) What `stuff_inplace` makes of any data. -/
theorem c03_stuff_exact_partial (debug : Bool) (d space wire rest : List Byte) (h : (stuff d).length ≤ d.length + space.length) :
    stuffInplace debug d.length (d ++ space) = (wire ++ rest, .ok wire.length) ↔
      StuffedForm d wire ∧ rest = space.drop (wire.length - d.length) := by
  have hl := codeStuff_length d
  have hn := ncount_le_occR d.reverse
  have hs := stuff_length d
  rw [stuffInplace_fits debug d space (by omega), stuffedForm_iff]
  constructor
  · intro h
    simp only [Prod.mk.injEq, Outcome.ok.injEq] at h
    obtain ⟨h1, h2⟩ := h
    obtain ⟨h3, h4⟩ := List.append_inj h1 (by omega)
    refine ⟨h3.symm, ?_⟩
    rw [← h4, ← h2]
    congr 1; omega
  · rintro ⟨rfl, rfl⟩
    rw [hl]
    congr 3; omega

/-- **C06** (partial: the English claim has no hypothesis) A body stuffed according to the protocol is unstuffed to the
original. This holds exactly for bodies in which every `FF FF FD` ends a run of 2, 5, 8, ... `FF`s. -/
theorem c06_unstuff_conforming_partial (body : List Byte) : UnstuffsInplace (stuff body) body ↔ RunsOk body := by
  rw [unstuffsInplace_iff, codeUnstuff_stuff]

/-- **C06** In particular it holds for all bodies without `FF FF FF FD`. -/
theorem c06_unstuff_conforming_no_run_partial (body : List Byte) (h : ¬ [0xFF#8, 0xFF#8, 0xFF#8, 0xFD#8] <:+: body) :
    UnstuffsInplace (stuff body) body :=
  (c06_unstuff_conforming_partial body).mpr (runsOk_of_no_infix h)

/-- **C06** is false as stated: the protocol form `FF FF FF FD FD` of `FF FF FF FD` is left as it is. -/
theorem c06_refuted : ¬ ∀ body, UnstuffsInplace (stuff body) body := by
  intro h
  have := h [0xFF#8, 0xFF#8, 0xFF#8, 0xFD#8]
  revert this
  unfold UnstuffsInplace
  decide

/-- **C04** (partial: the English claim has no hypothesis) If the stuffed form of `d` fits in the buffer, then
unstuffing it gives back `d` exactly if `d` is as described by `Spec.Survives`. -/
theorem c04_round_trip_partial (debug : Bool) (d space : List Byte) (h : (stuff d).length ≤ d.length + space.length) :
    ∃ buffer k, stuffInplace debug d.length (d ++ space) = (buffer, .ok k) ∧ (UnstuffsInplace (buffer.take k) d ↔ Survives d) := by
  have hl := codeStuff_length d
  have hn := ncount_le_occR d.reverse
  have hs := stuff_length d
  have := stuffInplace_fits debug d space (by omega)
  refine ⟨_, _, this, ?_⟩
  rw [← hl, List.take_left, unstuffsInplace_iff]
  exact codeUnstuff_codeStuff_iff d

/-- **C04** In particular it holds for data in which only one of the two kinds of runs occurs. -/
theorem c04_round_trip_one_kind_partial (debug : Bool) (d space : List Byte) (hd : RunsOk d ∨ NoSuchRuns d)
    (h : (stuff d).length ≤ d.length + space.length) :
    ∃ buffer k, stuffInplace debug d.length (d ++ space) = (buffer, .ok k) ∧ UnstuffsInplace (buffer.take k) d := by
  obtain ⟨buffer, k, h1, h2⟩ := c04_round_trip_partial debug d space h
  exact ⟨buffer, k, h1, h2.mpr (hd.elim survives_of_runsOk survives_of_noSuchRuns)⟩

/-- **C04** is false as stated: `FF FF FD FF FF FF FF FD`, with plenty of space behind it, does not survive. -/
theorem c04_refuted : ∃ (d space : List Byte), (stuff d).length ≤ d.length + space.length ∧
    ∀ debug, ∃ buffer k, stuffInplace debug d.length (d ++ space) = (buffer, .ok k) ∧ ¬ UnstuffsInplace (buffer.take k) d := by
  refine ⟨[0xFF#8, 0xFF#8, 0xFD#8, 0xFF#8, 0xFF#8, 0xFF#8, 0xFF#8, 0xFD#8], List.replicate 8 0#8, by decide, ?_⟩
  intro debug
  refine ⟨[0xFF#8, 0xFF#8, 0xFD#8, 0xFF#8, 0xFF#8, 0xFF#8, 0xFF#8, 0xFD#8, 0xFD#8] ++ List.replicate 7 0#8, 9, ?_, ?_⟩
  · cases debug <;> decide
  · unfold UnstuffsInplace; decide

/-- **C03** for the function: the stuffed data is what the protocol prescribes exactly for data in which every
`FF FF FD` ends a run of 2, 5, 8, ... `FF`s. -/
theorem c03_stuff_inplace_partial (debug : Bool) (d space : List Byte) (h : (stuff d).length ≤ d.length + space.length) :
    (stuffInplace debug d.length (d ++ space)
      = (stuff d ++ space.drop ((stuff d).length - d.length), .ok (stuff d).length)) ↔ RunsOk d := by
  have hl := codeStuff_length d
  have hle := ncount_le_occR d.reverse
  have hsl := stuff_length d
  have := stuffInplace_fits debug d space (by omega)
  rw [this, ← codeStuff_eq_stuff]
  constructor
  · intro h
    simp only [Prod.mk.injEq, Outcome.ok.injEq] at h
    obtain ⟨h1, h2⟩ := h
    have := congrArg (List.take (stuff d).length) h1
    rw [List.take_left, ← h2, ← hl, List.take_left] at this
    exact this
  · intro h
    have hn : ncount d.reverse = (stuff d).length - d.length := by rw [← h]; omega
    rw [← hl, h, hn]

/-! Concrete cases. -/

/-- Non-trivial data with fine runs: runs of 2 and 5 `FF`s before `FD`, overlapping data around it. -/
example : RunsOk [0x55#8, 0xFF#8, 0xFF#8, 0xFD#8, 0xFF#8, 0xFF#8, 0xFD#8, 0xFD#8, 0x00#8] :=
  runsOk_of_no_infix (by decide)

example : stuff [0x55#8, 0xFF#8, 0xFF#8, 0xFD#8, 0xFF#8, 0xFF#8, 0xFD#8, 0xFD#8, 0x00#8]
    = [0x55#8, 0xFF#8, 0xFF#8, 0xFD#8, 0xFD#8, 0xFF#8, 0xFF#8, 0xFD#8, 0xFD#8, 0xFD#8, 0x00#8] := by decide

/-- How to check a condition on all runs in given data. -/
theorem runs_checked (d : List Byte) (P : Nat → Prop) (h : ∀ k, k < d.length → d[k]? = some 0xFD#8 → P (run (d.take k).reverse)) :
    ∀ pre n post, d = pre ++ List.replicate n 0xFF#8 ++ 0xFD#8 :: post → pre.getLast? ≠ some 0xFF#8 → P n := by
  intro pre n post hd hp
  have := h (pre.length + n) (by rw [hd]; simp) (by rw [hd]; simp)
  rw [hd, List.take_append_of_le_length (by simp), List.take_of_length_le (by simp), List.reverse_append,
    List.reverse_replicate, run_replicate _ _ (by simpa using hp)] at this
  exact this

/-- Cases of `c04_round_trip_partial` with both kinds of runs: the runs of 2 last, and a run of 2 with runs of 3 behind it
(the run of 3 before it and the run of 5 at the end are there for good measure). -/
example : Survives [0x01#8, 0xFF#8, 0xFF#8, 0xFF#8, 0xFD#8, 0xFF#8, 0xFF#8, 0xFD#8, 0xFD#8] ∧
    Survives [0x01#8, 0xFF#8, 0xFF#8, 0xFF#8, 0xFD#8, 0xFF#8, 0xFF#8, 0xFD#8, 0xFF#8, 0xFF#8, 0xFF#8, 0xFD#8, 0xFF#8, 0xFF#8,
      0xFF#8, 0xFD#8, 0x00#8, 0xFF#8, 0xFF#8, 0xFF#8, 0xFF#8, 0xFF#8, 0xFD#8] :=
  ⟨⟨[0x01#8, 0xFF#8, 0xFF#8, 0xFF#8, 0xFD#8], [], [0xFF#8, 0xFF#8, 0xFD#8, 0xFD#8], rfl, by decide,
    runs_checked _ (· % 3 ≠ 2) (by decide), by decide, by decide, runs_checked _ (fun n => n < 2 ∨ n % 3 = 2) (by decide)⟩,
  ⟨[0x01#8, 0xFF#8, 0xFF#8, 0xFF#8, 0xFD#8], [2, 3, 3], [0x00#8, 0xFF#8, 0xFF#8, 0xFF#8, 0xFF#8, 0xFF#8, 0xFD#8], rfl, by decide,
    runs_checked _ (· % 3 ≠ 2) (by decide), by decide, by decide, runs_checked _ (fun n => n < 2 ∨ n % 3 = 2) (by decide)⟩⟩

/-- Data that does not survive: a run of 4 in place of one of the runs of 3, or something between them. -/
example : ¬ Survives [0xFF#8, 0xFF#8, 0xFD#8, 0xFF#8, 0xFF#8, 0xFF#8, 0xFF#8, 0xFD#8] ∧
    ¬ Survives [0xFF#8, 0xFF#8, 0xFD#8, 0x00#8, 0xFF#8, 0xFF#8, 0xFF#8, 0xFD#8] := by
  rw [← codeUnstuff_codeStuff_iff, ← codeUnstuff_codeStuff_iff]
  decide

/-- A case of `c06_unstuff_exact_partial`: an `FD` is removed after a run of 2; the `00` and the `FF` after the next two marked
`FD`s are kept, and the `FF` does not count, so of the run of 3 behind it two `FF`s count, and the `FD` at the end is removed. -/
example : Unstuffs
    [0xFF#8, 0xFF#8, 0xFD#8, 0xFD#8, 0xFF#8, 0xFF#8, 0xFD#8, 0x00#8, 0xFF#8, 0xFF#8, 0xFD#8, 0xFF#8, 0xFF#8, 0xFF#8, 0xFD#8, 0xFD#8]
    [0xFF#8, 0xFF#8, 0xFD#8, 0xFF#8, 0xFF#8, 0xFD#8, 0x00#8, 0xFF#8, 0xFF#8, 0xFD#8, 0xFF#8, 0xFF#8, 0xFF#8, 0xFD#8] :=
  .removed 2 rfl (.kept 2 rfl (by decide) (.kept 2 rfl (by decide) (.removed 2 rfl (.run 0))))

/-- A case of `c03_stuff_exact_partial`: of two occurrences the second is stuffed, because of the first. -/
example : StuffedForm [0xFF#8, 0xFF#8, 0xFD#8, 0x00#8, 0xFF#8, 0xFF#8, 0xFF#8, 0xFD#8, 0x01#8]
    [0xFF#8, 0xFF#8, 0xFD#8, 0x00#8, 0xFF#8, 0xFF#8, 0xFF#8, 0xFD#8, 0xFD#8, 0x01#8] :=
  ⟨[0xFF#8, 0xFF#8, 0xFD#8, 0x00#8], [0xFF#8, 0xFF#8, 0xFF#8, 0xFD#8, 0x01#8], rfl, by decide, by decide, by decide⟩

/-- Data that is sent as it is. -/
example : stuffInplace true 5 [0xFF#8, 0xFF#8, 0xFF#8, 0xFD#8, 0x00#8]
    = ([0xFF#8, 0xFF#8, 0xFF#8, 0xFD#8, 0x00#8], .ok 5) := by decide

/-- Unit tests of the crate, `src/bus/bytestuff.rs:131, 135, 138`. -/
example : stuffInplace true 4 [0xFF#8, 0xFF#8, 0xFD#8, 0x00#8, 0x00#8]
    = ([0xFF#8, 0xFF#8, 0xFD#8, 0xFD#8, 0x00#8], .ok 5) := by decide
example : stuffInplace true 6 [0xFF#8, 0xFF#8, 0xFD#8, 0xFF#8, 0xFF#8, 0xFD#8, 0#8, 0#8]
    = ([0xFF#8, 0xFF#8, 0xFD#8, 0xFD#8, 0xFF#8, 0xFF#8, 0xFD#8, 0xFD#8], .ok 8) := by decide

/-- A buffer that is too small by one byte. -/
example : stuffInplace true 3 [0xFF#8, 0xFF#8, 0xFD#8] = ([0xFF#8, 0xFF#8, 0xFD#8], .err ⟨4, 3⟩) := by decide

/-! Each theorem with hypotheses on a concrete case. -/

example := c07_stuff_confined [0x55#8, 0xFF#8, 0xFF#8, 0xFD#8, 0x00#8, 0x01#8] 4 (by decide)

example := c03_stuff_exact_partial true [0x55#8, 0xFF#8, 0xFF#8, 0xFD#8] [0#8, 1#8]
  [0x55#8, 0xFF#8, 0xFF#8, 0xFD#8, 0xFD#8] [1#8] (by decide)

example := c06_unstuff_conforming_no_run_partial [0x55#8, 0xFF#8, 0xFF#8, 0xFD#8, 0xFD#8] (by decide)

example := c04_round_trip_partial true [0x55#8, 0xFF#8, 0xFF#8, 0xFF#8, 0xFD#8] [0#8] (by decide)

example := c04_round_trip_one_kind_partial true [0x55#8, 0xFF#8, 0xFF#8, 0xFD#8, 0xFF#8, 0xFF#8, 0xFD#8] [0#8, 0#8]
  (.inl (runsOk_of_no_infix (by decide))) (by decide)

example := c04_round_trip_one_kind_partial true [0x55#8, 0xFF#8, 0xFF#8, 0xFF#8, 0xFD#8] [0#8]
  (.inr (runs_checked _ (· % 3 ≠ 2) (by decide))) (by decide)

end Dxl.Props
