import Verif.Lemmas.Basic
import Verif.Model.ArrayInit

/-! # C29: array decoding drops every element exactly once -/

namespace Dxl.Props

/-- The elements handed to the caller. -/
def returned : Outcome Unit (List Nat) → List Nat
  | .ok l => l
  | _ => []

/-- The full claim C29: every element that was made is either dropped or handed out, and only once. -/
def C29_statement : Prop :=
  ∀ (N : Nat) (element : Nat → Outcome Unit Unit), (∀ i, element i ≠ .hang) →
    let r := decodeTokens N element
    (r.1.dropped ++ returned r.2).Perm r.1.made

/-- The first `i` slots of `N` hold the elements `0 .. i-1`. -/
def filled (N i : Nat) : ArrayInitializer :=
  ⟨(List.range i).map some ++ List.replicate (N - i) none, i⟩

theorem push_filled {N i : Nat} (h : i < N) : ArrayInitializer.push i (filled N i) = (filled N (i + 1), .ok ()) := by
  unfold ArrayInitializer.push filled
  rw [if_pos (by simp; omega)]
  have e : N - i = (N - (i + 1)) + 1 := by omega
  simp only [Prod.mk.injEq, ArrayInitializer.mk.injEq, and_true]
  rw [List.set_append_right _ _ (by simp)]
  simp only [List.length_map, List.length_range, Nat.sub_self, List.range_succ, List.map_append, List.map_cons, List.map_nil]
  rw [e, List.replicate_succ]
  simp

theorem filterMap_some (l : List Nat) : (l.map some).filterMap id = l := by
  induction l with
  | nil => rfl
  | cons a l ih => simp

theorem drop_filled {N i : Nat} (l : Ledger) :
    (filled N i).drop l = { l with dropped := l.dropped ++ List.range i } := by
  unfold ArrayInitializer.drop filled
  simp only [Ledger.mk.injEq, true_and]
  rw [List.take_append_of_le_length (by simp), List.take_of_length_le (by simp), filterMap_some]

theorem finish_filled {N : Nat} (l : Ledger) :
    (filled N N).finish l = ({ l with dropped := l.dropped ++ List.range N }, List.range N) := by
  unfold ArrayInitializer.finish
  rw [drop_filled]
  simp only [Prod.mk.injEq, true_and]
  simp [filled]

theorem decodeTokensLoop_ok {N : Nat} {element : Nat → Outcome Unit Unit} (h : ∀ i, i < N → element i = .ok ()) :
    ∀ n i, i + n = N → decodeTokensLoop element n i (filled N i) ⟨List.range i, []⟩ =
      (⟨List.range N, List.range N⟩, .ok (List.range N)) := by
  intro n
  induction n with
  | zero =>
    intro i hi
    have : i = N := by omega
    subst this
    simp [decodeTokensLoop, finish_filled]
  | succ n ih =>
    intro i hi
    unfold decodeTokensLoop
    rw [h i (by omega)]
    simp only
    rw [push_filled (by omega)]
    simp only
    have := ih (i + 1) (by omega)
    rw [List.range_succ] at this
    exact this

theorem decodeTokensLoop_fail {N k : Nat} {element : Nat → Outcome Unit Unit} (h : ∀ i, i < k → element i = .ok ())
    (hk : k < N) (hf : element k = .err () ∨ element k = .panic) :
    ∀ j i, i + j = k → decodeTokensLoop element (N - i) i (filled N i) ⟨List.range i, []⟩ =
      (⟨List.range k, List.range k⟩, if element k = .err () then .err () else .panic) := by
  intro j
  induction j with
  | zero =>
    intro i hi
    have : i = k := by omega
    subst this
    obtain ⟨m, hm⟩ : ∃ m, N - i = m + 1 := ⟨N - i - 1, by omega⟩
    rw [hm]
    unfold decodeTokensLoop
    rcases hf with hf | hf <;> rw [hf] <;> simp [drop_filled]
  | succ j ih =>
    intro i hi
    obtain ⟨m, hm⟩ : ∃ m, N - i = m + 1 := ⟨N - i - 1, by omega⟩
    have hm' : m = N - (i + 1) := by omega
    rw [hm]
    unfold decodeTokensLoop
    rw [h i (by omega)]
    simp only
    rw [push_filled (by omega), hm']
    simp only
    have := ih (i + 1) (by omega)
    rw [List.range_succ] at this
    exact this

theorem filled_zero (N : Nat) : ArrayInitializer.new N = filled N 0 := by simp [ArrayInitializer.new, filled]

/-- **C29** (partial: the English claim also says that nothing is dropped if decoding succeeds, see
`c29_success_drops_all_partial`) If element `k` can not be decoded, or its decoding panics, the `k` elements made before
are dropped once each, in order, and nothing is handed out. -/
theorem c29_failure_partial {N k : Nat} {element : Nat → Outcome Unit Unit} (h : ∀ i, i < k → element i = .ok ())
    (hk : k < N) (hf : element k = .err () ∨ element k = .panic) :
    ∃ o, decodeTokens N element = (⟨List.range k, List.range k⟩, o) ∧ returned o = [] ∧
      (element k = .err () → o = .err ()) := by
  have := decodeTokensLoop_fail h hk hf k 0 (by omega)
  refine ⟨if element k = .err () then .err () else .panic, ?_, ?_, fun he => if_pos he⟩
  · unfold decodeTokens
    rw [filled_zero]
    exact this
  · split <;> rfl

/-- **C29** (partial) The exact behaviour on success: all elements are handed out, and all of them have been dropped. -/
theorem c29_success_drops_all_partial {N : Nat} {element : Nat → Outcome Unit Unit}
    (h : ∀ i, i < N → element i = .ok ()) :
    decodeTokens N element = (⟨List.range N, List.range N⟩, .ok (List.range N)) := by
  unfold decodeTokens
  rw [filled_zero]
  exact decodeTokensLoop_ok h N 0 (by omega)

/-- **C29** is false as stated: an array of one element is returned after its element has been dropped. -/
theorem c29_refuted : ¬ C29_statement := by
  intro h
  have := (h 1 (fun _ => .ok ()) (by simp)).length_eq
  revert this
  decide

/-- The claim holds for the empty array only, among those that decode successfully. -/
theorem c29_holds_iff_empty_partial {N : Nat} {element : Nat → Outcome Unit Unit} (h : ∀ i, i < N → element i = .ok ()) :
    ((decodeTokens N element).1.dropped ++ returned (decodeTokens N element).2).Perm (decodeTokens N element).1.made ↔
      N = 0 := by
  rw [c29_success_drops_all_partial h]
  constructor
  · intro hp
    have := hp.length_eq
    simp [returned] at this
    omega
  · rintro rfl
    simp [returned]

/-- Four elements, the third fails: two made, two dropped. -/
example : decodeTokens 4 (fun i => if i = 2 then .err () else .ok ()) = (⟨[0, 1], [0, 1]⟩, .err ()) := by decide

/-- Three elements, all fine: a double drop in waiting. -/
example : decodeTokens 3 (fun _ => .ok ()) = (⟨[0, 1, 2], [0, 1, 2]⟩, .ok [0, 1, 2]) := by decide

/-! Each theorem on a concrete case. -/

example := c29_failure_partial (N := 4) (k := 2) (element := fun i => if i = 2 then .panic else .ok ())
  (fun i h => if_neg (by omega)) (by decide) (.inr rfl)

example := c29_success_drops_all_partial (N := 3) (element := fun i => if i = 3 then .err () else .ok ()) fun i h => if_neg (by omega)

end Dxl.Props
