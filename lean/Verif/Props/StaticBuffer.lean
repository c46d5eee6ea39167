import Verif.Model.StaticBuffer

/-!
# C44: `static_buffer!`
-/

namespace Dxl.Props
open Dxl StaticBuffer

/-- Evaluation `i` is the first one to swap. -/
def FirstSwap (i : Nat) (as : List Action) : Prop :=
  ∃ before after, as = before ++ .swap i :: after ∧ ∀ j, .swap j ∉ before

theorem FirstSwap.append {i : Nat} {as : List Action} (h : FirstSwap i as) (bs : List Action) : FirstSwap i (as ++ bs) := by
  obtain ⟨before, after, rfl, h⟩ := h
  exact ⟨before, after ++ bs, by simp, h⟩

theorem FirstSwap.unique {i j : Nat} {as : List Action} (hi : FirstSwap i as) (hj : FirstSwap j as) : i = j := by
  obtain ⟨before, after, rfl, h⟩ := hi
  obtain ⟨before', after', e, h'⟩ := hj
  rcases List.append_eq_append_iff.mp e with ⟨x, h1, h2⟩ | ⟨x, h1, h2⟩
  · cases x with
    | nil => simp at h2; exact h2.1
    | cons y x =>
      simp at h2
      exact absurd (h1 ▸ by simp [h2.1]) (h' i)
  · cases x with
    | nil => simp at h2; exact h2.1.symm
    | cons y x =>
      simp at h2
      exact absurd (h1 ▸ by simp [h2.1]) (h j)

/-- What holds after any number of steps. -/
inductive Reachable (N : Nat) (s : State) (as : List Action) : Prop
  | fresh (hs : s = init N) (has : as = [])
  | taken (i : Nat) (hi : FirstSwap i as) (hused : s.used = true) (hlen : s.buffer.length = N)
      (hfirst : s.evals i = .swapped false ∧ s.buffer = List.replicate N 0#8 ∧ (∀ bytes, .store i bytes ∉ as) ∨ s.evals i = .holds)
      (hothers : ∀ j, j ≠ i → (s.evals j = .start ∧ .swap j ∉ as) ∨ s.evals j = .swapped true ∨ s.evals j = .panicked)
      (hstores : ∀ j bytes, .store j bytes ∈ as → j = i)

theorem reachable {N : Nat} {s : State} {as : List Action} (h : Run (init N) as s) : Reachable N s as := by
  generalize hs : init N = s₀ at h
  induction h with
  | nil => exact .fresh hs.symm rfl
  | @snoc s s' as a _ step ih =>
    cases ih with
    | fresh h1 h2 =>
      subst h1 h2
      cases step with
      | @swap i h =>
        refine .taken i ⟨[], [], rfl, by simp⟩ rfl (by simp [init, State.set]) (.inl ⟨by simp [State.set, init], rfl, by simp⟩) ?_ ?_
        · intro j hj
          exact .inl ⟨by simp [State.set, hj, init], by simp [hj]⟩
        · simp
      | panic h => simp [init] at h
      | take h => simp [init] at h
      | store h => simp [init] at h
    | taken i hi hused hlen hfirst hothers hstores =>
      have hstores' : ∀ a, (∀ j bytes, a ≠ Action.store j bytes) → ∀ j bytes, Action.store j bytes ∈ as ++ [a] → j = i := by
        intro a ha j bytes hm
        rcases List.mem_append.mp hm with hm | hm
        · exact hstores j bytes hm
        · exact absurd (List.mem_singleton.mp hm).symm (ha j bytes)
      cases step with
      | @swap k h =>
        have hk : k ≠ i := by
          rintro rfl
          rw [h] at hfirst
          simp at hfirst
        refine .taken i (hi.append _) rfl hlen ?_ ?_ (hstores' _ (by simp))
        · rcases hfirst with ⟨h1, h2, h3⟩ | h1
          · exact .inl ⟨by simp [State.set, Ne.symm hk, h1], h2, by simpa using h3⟩
          · exact .inr (by simp [State.set, Ne.symm hk, h1])
        · intro j hj
          by_cases hjk : j = k
          · exact .inr (.inl (by simp [State.set, hjk, hused]))
          · simpa [State.set, hjk] using hothers j hj
      | @panic k h =>
        have hk : k ≠ i := by
          rintro rfl
          rw [h] at hfirst
          simp at hfirst
        refine .taken i (hi.append _) hused hlen ?_ ?_ (hstores' _ (by simp))
        · rcases hfirst with ⟨h1, h2, h3⟩ | h1
          · exact .inl ⟨by simp [State.set, Ne.symm hk, h1], h2, by simpa using h3⟩
          · exact .inr (by simp [State.set, Ne.symm hk, h1])
        · intro j hj
          by_cases hjk : j = k
          · exact .inr (.inr (by simp [State.set, hjk]))
          · simpa [State.set, hjk] using hothers j hj
      | @take k h =>
        have hk : k = i := by
          apply Classical.byContradiction
          intro hk
          have := hothers k hk
          rw [h] at this
          simp at this
        subst hk
        refine .taken k (hi.append _) hused hlen (.inr (by simp [State.set])) ?_ (hstores' _ (by simp))
        intro j hj
        simpa [State.set, hj] using hothers j hj
      | @store k bytes h hl =>
        have hk : k = i := by
          apply Classical.byContradiction
          intro hk
          have := hothers k hk
          rw [h] at this
          simp at this
        subst hk
        refine .taken k (hi.append _) hused (hl.trans hlen) (.inr h) ?_ ?_
        · intro j hj
          simpa using hothers j hj
        · intro j bytes' hm
          rcases List.mem_append.mp hm with hm | hm
          · exact hstores j bytes' hm
          · simp at hm; exact hm.1

/-- **C44** In any interleaving of any number of evaluations, at any time, for the evaluation `i` that was first to swap: only
`i` has got the buffer, no other has ever stored anything in it, and `i` has not panicked. -/
theorem c44_only_first {N : Nat} {s : State} {as : List Action} (h : Run (init N) as s) {i : Nat} (hi : FirstSwap i as) :
    (∀ j, s.evals j = .holds → j = i) ∧ (∀ j bytes, .store j bytes ∈ as → j = i) ∧ s.evals i ≠ .panicked := by
  cases reachable h with
  | fresh h1 h2 => subst h2; obtain ⟨b, a, h, -⟩ := hi; simp at h
  | taken k hk hused hlen hfirst hothers hstores =>
    rw [hi.unique hk]
    refine ⟨fun j hj => ?_, hstores, fun hp => ?_⟩
    · apply Classical.byContradiction
      intro hne
      have := hothers j hne
      rw [hj] at this
      simp at this
    · rw [hp] at hfirst
      simp at hfirst

/-- **C44** Every evaluation that swapped can finish on its own, with one more step, and gets the buffer exactly if it was the
first to swap; otherwise it panics. -/
theorem c44_finish {N : Nat} {s : State} {as : List Action} (h : Run (init N) as s) {j : Nat} (hj : .swap j ∈ as)
    (hf : .finish j ∉ as) :
    ∃ s', Step s (.finish j) s' ∧ (∀ s'', Step s (.finish j) s'' → s'' = s') ∧
      (FirstSwap j as → s'.evals j = .holds ∧ s'.buffer = List.replicate N 0#8) ∧ (¬ FirstSwap j as → s'.evals j = .panicked) := by
  have hpc : ∀ {s₀ s : State} {as : List Action}, Run s₀ as s → s₀ = init N → .finish j ∉ as →
      (s.evals j = .start ∧ .swap j ∉ as) ∨ (∃ old, s.evals j = .swapped old) := by
    intro s₀ s as h
    induction h with
    | nil => intro h _; exact .inl ⟨by rw [h]; rfl, by simp⟩
    | @snoc s s' as a _ step ih =>
      intro h0 hf
      simp only [List.mem_append, not_or, List.mem_singleton] at hf
      have ih := ih h0 hf.1
      cases step with
      | @swap k hk =>
        by_cases hjk : j = k
        · exact .inr ⟨s.used, by simp [State.set, hjk]⟩
        · simpa [State.set, hjk] using ih
      | @panic k hk =>
        have hjk : j ≠ k := fun e => hf.2 (by rw [e])
        simpa [State.set, hjk] using ih
      | @take k hk =>
        have hjk : j ≠ k := fun e => hf.2 (by rw [e])
        simpa [State.set, hjk] using ih
      | store => simpa using ih
  rcases hpc h rfl hf with ⟨-, h1⟩ | ⟨old, ho⟩
  · exact absurd hj h1
  · cases old with
    | true =>
      refine ⟨_, .panic ho, fun s'' h'' => ?_, fun hfirst => ?_, fun _ => by simp [State.set]⟩
      · cases h'' with
        | panic => rfl
        | take h => rw [ho] at h; simp at h
      · cases reachable h with
        | fresh h1 h2 => subst h2; simp at hj
        | taken k hk hused hlen hfst hothers hstores =>
          rw [← hfirst.unique hk, ho] at hfst
          simp at hfst
    | false =>
      cases reachable h with
      | fresh h1 h2 => subst h2; simp at hj
      | taken k hk hused hlen hfst hothers hstores =>
        have hjk : j = k := by
          apply Classical.byContradiction
          intro hne
          have := hothers j hne
          rw [ho] at this
          simp at this
        subst hjk
        refine ⟨_, .take ho, fun s'' h'' => ?_, fun _ => ⟨by simp [State.set], ?_⟩, fun h => absurd hk h⟩
        · cases h'' with
          | take => rfl
          | panic h => rw [ho] at h; simp at h
        · rw [ho] at hfst
          simp at hfst
          exact hfst.1

/-- **C44** When at least one evaluation has finished, and all that began have, exactly one has got the buffer: the first to
swap. All others panicked. -/
theorem c44_exactly_one {N : Nat} {s : State} {as : List Action} (h : Run (init N) as s) (hany : ∃ j, .swap j ∈ as)
    (hall : ∀ j, s.evals j = .start ∨ s.evals j = .panicked ∨ s.evals j = .holds) :
    ∃ i, FirstSwap i as ∧ ∀ j, (s.evals j = .holds ↔ j = i) ∧ (s.evals j = .panicked ↔ .swap j ∈ as ∧ j ≠ i) := by
  cases reachable h with
  | fresh h1 h2 => subst h2; simp at hany
  | taken i hi hused hlen hfirst hothers hstores =>
    have hi' : s.evals i = .holds := by
      rcases hfirst with ⟨h1, -⟩ | h1
      · have := hall i; rw [h1] at this; simp at this
      · exact h1
    have started : ∀ {s₀ s : State} {as : List Action}, Run s₀ as s → s₀ = init N → ∀ j, s.evals j ≠ .start → .swap j ∈ as := by
      intro s₀ s as h
      induction h with
      | nil => intro h j hj; rw [h] at hj; exact absurd rfl hj
      | @snoc s s' as a _ step ih =>
        intro h0 j hj
        cases step with
        | @swap k hk =>
          by_cases hjk : j = k
          · simp [hjk]
          · simpa [hjk] using ih h0 j (by simpa [State.set, hjk] using hj)
        | @panic k hk =>
          by_cases hjk : j = k
          · simpa using ih h0 j (by rw [hjk, hk]; simp)
          · simpa using ih h0 j (by simpa [State.set, hjk] using hj)
        | @take k hk =>
          by_cases hjk : j = k
          · simpa using ih h0 j (by rw [hjk, hk]; simp)
          · simpa using ih h0 j (by simpa [State.set, hjk] using hj)
        | store => simpa using ih h0 j hj
    refine ⟨i, hi, fun j => ⟨⟨(c44_only_first h hi).1 j, fun e => e ▸ hi'⟩, ?_, ?_⟩⟩
    · intro hp
      exact ⟨started h rfl j (by rw [hp]; simp), fun e => by rw [e, hi'] at hp; simp at hp⟩
    · rintro ⟨h1, h2⟩
      rcases hothers j h2 with ⟨-, h3⟩ | h3 | h3
      · exact absurd h1 h3
      · have := hall j; rw [h3] at this; simp at this
      · exact h3

/-- Three evaluations. The second one swaps first; it gets the buffer last. -/
example : ∃ s, Run (init 2) [.swap 1, .swap 0, .finish 0, .swap 2, .finish 1, .store 1 [5#8, 6#8], .finish 2] s ∧
    s.evals 0 = .panicked ∧ s.evals 1 = .holds ∧ s.evals 2 = .panicked ∧ s.evals 3 = .start ∧ s.buffer = [5#8, 6#8] := by
  refine ⟨_, .snoc (.snoc (.snoc (.snoc (.snoc (.snoc (.snoc (.nil _) (.swap ?_)) (.swap ?_)) (.panic ?_)) (.swap ?_)) (.take ?_))
    (.store ?_ ?_)) (.panic ?_), ?_⟩ <;> simp [State.set, init]

/-! Each theorem with hypotheses on a concrete case: evaluation 1 is the first; it has not finished. -/

theorem swaps_run : ∃ s, Run (init 2) [.swap 1, .swap 0, .finish 0] s := by
  refine ⟨_, .snoc (.snoc (.snoc (.nil _) (.swap ?_)) (.swap ?_)) (.panic ?_)⟩ <;> simp [State.set, init]

theorem swaps_first : FirstSwap 1 [.swap 1, .swap 0, .finish 0] := ⟨[], _, rfl, fun _ h => nomatch h⟩

example : ∃ s, Run (init 2) [.swap 1, .swap 0, .finish 0] s ∧ ∀ j, s.evals j = .holds → j = 1 :=
  swaps_run.elim fun s h => ⟨s, h, (c44_only_first h swaps_first).1⟩

example : ∃ s s', Run (init 2) [.swap 1, .swap 0, .finish 0] s ∧ Step s (.finish 1) s' ∧ s'.evals 1 = .holds :=
  swaps_run.elim fun s h => (c44_finish h (j := 1) (by simp) (by simp)).elim fun s' h' => ⟨s, s', h, h'.1, (h'.2.2.1 swaps_first).1⟩

end Dxl.Props
