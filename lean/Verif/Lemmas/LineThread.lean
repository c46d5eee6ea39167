import Verif.Lemmas.MotorThread
import Verif.Props.MockSerial

/-! # An execution of the line with the messages -/

namespace Dxl.Props
open Dxl.MockSerial Spec.Line

/-- What happened at all ports, in order. -/
abbrev Story := List (Nat × Event')

/-- What happened at port `i`. -/
def hist (i : Nat) (l : Story) : List Event' := (l.filter fun x => x.1 == i).map (·.2)

/-- All writes, as messages. -/
def writes (l : Story) : List Msg :=
  l.filterMap fun x => match x.2 with
    | .wrote data => some (x.1, data)
    | _ => none

theorem hist_append (i : Nat) (a b : Story) : hist i (a ++ b) = hist i a ++ hist i b := by simp [hist]
theorem writes_append (a b : Story) : writes (a ++ b) = writes a ++ writes b := by simp [writes, List.filterMap_append]

theorem hist_one (i j : Nat) (e : Event') : hist i [(j, e)] = if j = i then [e] else [] := by
  simp only [hist, List.filter_cons, List.filter_nil]
  by_cases h : j = i <;> simp [h]

/-- Messages arrive in order, and only those that were sent; the client does not hear itself. -/
structure InOrder (l : Story) : Prop where
  order : ∀ i j, from_ i (heard (hist j l)) <+: from_ i (writes l)
  self : from_ 0 (heard (hist 0 l)) = []
  nonempty : ∀ j ms, (j, Event'.got ms) ∈ l → ms ≠ []

/-- The lists of messages returned by the reads of a port. -/
def groups (h : List Event') : List (List Msg) :=
  h.filterMap fun e => match e with
    | .got ms => some ms
    | _ => none

theorem groups_flatten (h : List Event') : (groups h).flatten = heard h := by
  induction h with
  | nil => rfl
  | cons e h ih =>
    cases e with
    | got ms =>
      change (ms :: groups h).flatten = ms ++ heard h
      rw [List.flatten_cons, ih]
    | failed e => exact ih
    | wrote d => exact ih

theorem groups_append (a b : List Event') : groups (a ++ b) = groups a ++ groups b := by simp [groups, List.filterMap_append]

/-- The step with its messages, if it is one of the `n + 1` ports. -/
def noted (n : Nat) (rest : Nat → List Msg) : Act → Story
  | .take i _ => if i ≤ n then [(i, .got (rest i))] else []
  | .expire i => if i ≤ n then [(i, .failed .timedOut)] else []
  | .startWrite i data => if i ≤ n then [(i, .wrote data)] else []
  | _ => []

/-- The writes that were asked for at the `n + 1` ports, in order. -/
def said (n : Nat) (as : List Act) : List Msg :=
  as.filterMap fun a => match a with
    | .startWrite i data => if i ≤ n then some (i, data) else none
    | _ => none

theorem due_prefix (i j : Nat) (others : Nat → List Nat) (es : List Event) (t : Thread) :
    due i j others es t <+: written i es := by
  unfold due
  split
  · split
    · exact List.dropLast_prefix _
    · exact List.prefix_refl _
  · exact List.nil_prefix

theorem run_story {ids : List Byte} {s : State} {as : List Act} (h : Run (newClientDevice ids) init as s) :
    ∃ l : Story, (∀ i, i ≤ ids.length → (hist i l).map Event'.plain = MockSerial.history i as) ∧ (∀ l', l' <+: l → InOrder l') ∧
      (∀ x ∈ l, x.1 ≤ ids.length) ∧ writes l = said ids.length as := by
  suffices hmain : ∃ (l : Story) (rest : Nat → List Msg), (∀ i, i ≤ ids.length → (hist i l).map Event'.plain = MockSerial.history i as) ∧
      (∀ l', l' <+: l → InOrder l') ∧ (∀ x ∈ l, x.1 ≤ ids.length) ∧
      (∀ j, j ≤ ids.length → Holds (newClientDevice ids) j (as.filterMap seen) s (groups (hist j l)) (rest j)) ∧
      Busy (newClientDevice ids) (as.filterMap seen) s ∧
      (∀ i, i ≤ ids.length → from_ i (writes l) = written i (as.filterMap seen)) ∧ writes l = said ids.length as by
    obtain ⟨l, rest, h1, h2, h3, -, -, -, h4⟩ := hmain
    exact ⟨l, h1, h2, h3, h4⟩
  generalize hi : init = s0 at h
  induction h with
  | nil =>
    subst hi
    refine ⟨[], fun _ => [], fun i _ => rfl, ?_, by simp, ?_, fun i data p h => by simp [init] at h, fun i _ => rfl, rfl⟩
    · intro l' hl
      rw [List.prefix_nil.mp hl]
      exact ⟨fun i j => List.prefix_refl _, rfl, by simp⟩
    · intro j _
      refine ⟨rfl, rfl, fun i => ?_⟩
      simp [due, from_, written, pending, init, groups, hist]
  | @snoc s' s'' as a hrun hst ih =>
    obtain ⟨l, rest, h1, h2, h3, h4, h5, h6, h7⟩ := ih
    have he : (as ++ [a]).filterMap seen = as.filterMap seen ++ (seen a).toList := by
      rw [List.filterMap_append]; cases h : seen a <;> simp [h]
    have hholds := fun j (hj : j ≤ ids.length) => (step_holds (c56_connected_once ids) hst (h4 j hj) h5).1
    have hbusy := (step_holds (c56_connected_once ids) hst (h4 0 (by omega)) h5).2
    let rest' : Nat → List Msg := fun j => if hj : j ≤ ids.length then (hholds j hj).choose else []
    have hrest : ∀ j (hj : j ≤ ids.length), Holds (newClientDevice ids) j (as.filterMap seen ++ (seen a).toList) s''
        (groups (hist j l) ++ taken j (rest j) a) (rest' j) := by
      intro j hj
      simp only [rest', dif_pos hj]
      exact (hholds j hj).choose_spec
    have hgroups : ∀ j, j ≤ ids.length → groups (hist j (l ++ noted ids.length rest a)) = groups (hist j l) ++ taken j (rest j) a := by
      intro j hj
      rw [hist_append, groups_append]
      congr 1
      cases a with
      | take i bs =>
        simp only [noted, taken]
        by_cases hij : i = j
        · subst hij
          rw [if_pos hj, if_pos rfl, hist_one, if_pos rfl]
          rfl
        · rw [if_neg hij]
          split
          · rw [hist_one, if_neg hij]; rfl
          · rfl
      | expire i =>
        simp only [noted, taken]
        split
        · rw [hist_one]; split <;> rfl
        · rfl
      | startWrite i data =>
        simp only [noted, taken]
        split
        · rw [hist_one]; split <;> rfl
        · rfl
      | _ => rfl
    have hwritten : ∀ i, i ≤ ids.length →
        from_ i (writes (l ++ noted ids.length rest a)) = written i (as.filterMap seen ++ (seen a).toList) := by
      intro i hi'
      rw [writes_append, from_append, written_append, h6 i hi']
      congr 1
      cases a with
      | take i bs => simp only [noted]; split <;> rfl
      | expire i => simp only [noted]; split <;> rfl
      | startWrite k data =>
        by_cases hk : k = i
        · subst hk; simp [noted, hi', writes, from_, seen, written]
        · by_cases hk' : k ≤ ids.length <;> simp [noted, hk', writes, from_, seen, written, hk]
      | _ => rfl
    have hin : ∀ x ∈ l ++ noted ids.length rest a, x.1 ≤ ids.length := by
      intro x hx
      rcases List.mem_append.mp hx with hx | hx
      · exact h3 x hx
      · cases a with
        | take i bs | expire i | startWrite i data =>
          simp only [noted] at hx
          split at hx
          · obtain rfl := List.mem_singleton.mp hx; assumption
          · cases hx
        | _ => cases hx
    have hwall : ∀ x ∈ writes (l ++ noted ids.length rest a), x.1 ≤ ids.length := by
      intro x hx
      obtain ⟨y, hy, hxy⟩ := List.mem_filterMap.mp hx
      have := hin y hy
      split at hxy
      · cases hxy; exact this
      · cases hxy
    refine ⟨l ++ noted ids.length rest a, rest', ?_, ?_, hin, ?_, he ▸ hbusy, he ▸ hwritten, ?_⟩
    rotate_right
    · rw [writes_append, h7, said, said, List.filterMap_append]
      congr 1
      cases a with
      | take i bs | expire i | startWrite i data => simp only [noted]; split <;> simp_all [writes]
      | _ => rfl
    · intro i hi'
      have hb := h4 i hi'
      rw [hist_append, List.map_append, h1 i hi', MockSerial.history, MockSerial.history, List.filterMap_append]
      congr 1
      cases hst with
      | @take k cap deadline ht hp hne hl =>
        simp only [noted, List.filterMap_cons, List.filterMap_nil, Act.for]
        by_cases hk : k = i
        · subst hk
          rw [if_pos hi', if_pos rfl, hist_one, if_pos rfl, List.map_singleton]
          simp only [Event'.plain, hb.2.1]
        · rw [if_neg hk]
          split
          · rw [hist_one, if_neg hk]; rfl
          · rfl
      | @expire k cap deadline ht hd =>
        simp only [noted, List.filterMap_cons, List.filterMap_nil, Act.for]
        by_cases hk : k = i
        · subst hk
          rw [if_pos hi', if_pos rfl, hist_one, if_pos rfl]
          rfl
        · rw [if_neg hk]
          split
          · rw [hist_one, if_neg hk]; rfl
          · rfl
      | @startWrite k data ht =>
        simp only [noted, List.filterMap_cons, List.filterMap_nil, Act.for]
        by_cases hk : k = i
        · subst hk
          rw [if_pos hi', if_pos rfl, hist_one, if_pos rfl]
          rfl
        · rw [if_neg hk]
          split
          · rw [hist_one, if_neg hk]; rfl
          · rfl
      | _ => rfl
    · intro l' hl
      have hcase : l' <+: l ∨ l' = l ++ noted ids.length rest a := by
        rcases prefix_split hl with h | ⟨t, rfl, ht⟩
        · exact .inl h
        · have hlen : (noted ids.length rest a).length ≤ 1 := by
            cases a <;> simp only [noted] <;> (try split) <;> simp
          match t, ht with
          | [], _ => left; simp
          | x :: t, ht =>
            right
            rw [ht.eq_of_length_le (by simp only [List.length_cons]; omega)]
      rcases hcase with h | rfl
      · exact h2 l' h
      have hfrom : ∀ j, j ≤ ids.length → ∀ i, from_ i (heard (hist j (l ++ noted ids.length rest a))) ++ from_ i (rest' j) =
          due i j (newClientDevice ids) (as.filterMap seen ++ (seen a).toList) (s''.threads i) := by
        intro j hj i
        have := (hrest j hj).2.2 i
        rw [← hgroups j hj, groups_flatten, from_append] at this
        exact this
      refine ⟨fun i j => ?_, ?_, fun j ms hm => ?_⟩
      · by_cases hj : j ≤ ids.length
        · by_cases hi' : i ≤ ids.length
          · rw [hwritten i hi']
            exact (List.prefix_append _ _).trans (hfrom j hj i ▸ due_prefix _ _ _ _ _)
          · have hno : j ∉ newClientDevice ids i := fun h => hi' ((c56_connections ids i j).mp h).1
            have := hfrom j hj i
            rw [due, if_neg hno] at this
            rw [(List.append_eq_nil_iff.mp this).1]
            exact List.nil_prefix
        · have : hist j (l ++ noted ids.length rest a) = [] := by
            unfold hist
            rw [List.map_eq_nil_iff, List.filter_eq_nil_iff]
            intro x hx
            have := hin x hx
            simp; omega
          rw [this]
          exact List.nil_prefix
      · have hno : 0 ∉ newClientDevice ids 0 := fun h => ((c56_connections ids 0 0).mp h).2.2.1 rfl
        have := hfrom 0 (by omega) 0
        rw [due, if_neg hno] at this
        exact (List.append_eq_nil_iff.mp this).1
      · rcases List.mem_append.mp hm with hm | hm
        · exact (h2 l (List.prefix_refl _)).nonempty j ms hm
        · cases hst with
          | @take k cap deadline ht hp hne hl =>
            simp only [noted] at hm
            split at hm
            · rename_i hk
              have := List.mem_singleton.mp hm
              simp only [Prod.mk.injEq, Event'.got.injEq] at this
              obtain ⟨rfl, rfl⟩ := this
              intro h0
              have := (h4 j hk).2.1
              rw [h0] at this
              exact hne this
            · cases hm
          | @expire k cap deadline ht hd => simp only [noted] at hm; split at hm <;> simp at hm
          | @startWrite k data ht => simp only [noted] at hm; split at hm <;> simp at hm
          | _ => cases hm
    · intro j hj
      rw [hgroups j hj, he]
      exact hrest j hj

end Dxl.Props
