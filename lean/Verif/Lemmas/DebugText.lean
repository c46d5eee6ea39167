import Verif.Model.DebugText
import Verif.Lemmas.Text
import Verif.Spec.Template

/-! # Reading the texts of `{:?}` and `{:#?}` back -/

namespace Dxl
open Spec
namespace Dbg

/-- A character that is not used for punctuation. -/
def Plain (c : Char) : Prop := c ∉ [' ', ',', '(', ')', '[', ']', '{', '}', ':', '\n', '.', '-']

instance (c : Char) : Decidable (Plain c) := inferInstanceAs (Decidable (c ∉ _))

/-- A digit or the minus sign. -/
def Numeric (c : Char) : Prop := c ∈ ['-', '0', '1', '2', '3', '4', '5', '6', '7', '8', '9']

instance (c : Char) : Decidable (Numeric c) := inferInstanceAs (Decidable (c ∈ _))

/-- A name: punctuation nowhere, and no digit in front. -/
def Named (s : String) : Prop :=
  (∀ c ∈ s.toList, Plain c) ∧ match s.toList with | [] => False | c :: _ => ¬Numeric c

instance (s : String) : Decidable (Named s) := by
  unfold Named
  have : Decidable (match s.toList with | [] => False | c :: _ => ¬Numeric c) := by
    cases s.toList <;> dsimp only <;> infer_instance
  infer_instance

mutual
/-- Nothing comes from outside of the crate, and names are names. -/
def Wf : Dbg → Prop
  | .num _ => True
  | .raw _ _ => False
  | .unit => True
  | .list xs => WfAll xs
  | .tuple name xs => Named name ∧ WfAll xs
  | .record name ls vs more => Named name ∧ ls.length = vs.length ∧ (∀ l ∈ ls, Named l) ∧ WfAll vs ∧ (vs = [] → more = true)
/-- The same for all items. -/
def WfAll : List Dbg → Prop
  | [] => True
  | x :: xs => Wf x ∧ WfAll xs
end

theorem wfAll_iff {xs : List Dbg} : WfAll xs ↔ ∀ x ∈ xs, Wf x := by
  induction xs with
  | nil => simp [WfAll]
  | cons x xs ih => simp [WfAll, ih]

/-- What can come after a value. -/
def Ends (r : List Char) : Prop := match r with
  | [] => True
  | c :: s => c = ',' ∨ c = ')' ∨ c = ']' ∨ c = ' ' ∧ s.head? = some '}'

/-- A text that is not continued by a plain character. -/
def Cut (r : List Char) : Prop := ∀ c s, r = c :: s → ¬Plain c

theorem Ends.cut {r : List Char} (h : Ends r) : Cut r := by
  intro c s e
  subst e
  rcases h with h | h | h | ⟨h, _⟩ <;> subst h <;> decide

theorem span_cancel {s s' r r' : List Char} (hs : ∀ c ∈ s, Plain c) (hs' : ∀ c ∈ s', Plain c) (hr : Cut r) (hr' : Cut r')
    (h : s ++ r = s' ++ r') : s = s' ∧ r = r' := by
  induction s generalizing s' with
  | nil =>
    cases s' with
    | nil => exact ⟨rfl, h⟩
    | cons c s' => exact absurd (hs' c (by simp)) (hr c (s' ++ r') (by simpa using h))
  | cons c s ih =>
    cases s' with
    | nil => exact absurd (hs c (by simp)) (hr' c (s ++ r) (by simpa using h.symm))
    | cons c' s' =>
      simp only [List.cons_append, List.cons.injEq] at h
      obtain ⟨e1, e2⟩ := ih (fun x hx => hs x (by simp [hx])) (fun x hx => hs' x (by simp [hx])) h.2
      exact ⟨by rw [h.1, e1], e2⟩

theorem name_cancel {n n' : String} {r r' : List Char} (hn : Named n) (hn' : Named n') (hr : Cut r) (hr' : Cut r')
    (h : n.toList ++ r = n'.toList ++ r') : n = n' ∧ r = r' := by
  obtain ⟨e, e'⟩ := span_cancel hn.1 hn'.1 hr hr' h
  exact ⟨String.toList_inj.mp e, e'⟩

theorem decimal_digits (n : Nat) : (∀ c ∈ Fmt.decimal n, Numeric c ∧ c ≠ '-') ∧ Fmt.decimal n ≠ [] := by
  have h := decimal_written n
  refine ⟨?_, fun e => by have := h.one; rw [e] at this; simp at this⟩
  have key : ∀ {s : List Char} {m : Nat}, ReadsAs 10 s m → ∀ c ∈ s, Numeric c ∧ c ≠ '-' := by
    intro s m hr
    induction hr with
    | nil => simp
    | snoc h hd ih =>
      intro c hc
      rcases List.mem_append.mp hc with hc | hc
      · exact ih c hc
      · rw [List.mem_singleton] at hc
        subst hc
        obtain ⟨hd1, hd2⟩ := hd
        rename_i d
        have this : ∀ d : Fin 10, ∃ c, "0123456789ABCDEF".toList[d.val]? = some c ∧ Numeric c ∧ c ≠ '-' := by decide +kernel
        obtain ⟨c', h1, h2⟩ := this ⟨d, hd1⟩
        rw [show (⟨d, hd1⟩ : Fin 10).val = d from rfl, hd2, Option.some.injEq] at h1
        subst h1
        exact h2
  exact key h.reads

theorem plain_of_numeric {c : Char} (h : Numeric c) (h' : c ≠ '-') : Plain c := by
  simp only [Numeric, List.mem_cons, List.not_mem_nil, or_false] at h
  rcases h with h | h | h | h | h | h | h | h | h | h | h <;> subst h <;> first | exact absurd rfl h' | decide

theorem decimal_eq {n m : Nat} (h : Fmt.decimal n = Fmt.decimal m) : n = m :=
  (decimal_cancel (r := []) (r' := []) stops_nil stops_nil (by simpa using h)).1

theorem number_cancel {n n' : Int} {r r' : List Char} (hr : Cut r) (hr' : Cut r') (h : number n ++ r = number n' ++ r') :
    n = n' ∧ r = r' := by
  have key : ∀ (a b : Nat), Fmt.decimal a ++ r = Fmt.decimal b ++ r' → a = b ∧ r = r' := by
    intro a b h
    obtain ⟨e, e'⟩ := span_cancel (fun c hc => plain_of_numeric ((decimal_digits a).1 c hc).1 ((decimal_digits a).1 c hc).2)
      (fun c hc => plain_of_numeric ((decimal_digits b).1 c hc).1 ((decimal_digits b).1 c hc).2) hr hr' h
    exact ⟨decimal_eq e, e'⟩
  have mixed : ∀ (a b : Nat) (x y : List Char), '-' :: Fmt.decimal a ++ x ≠ Fmt.decimal b ++ y := by
    intro a b x y h
    obtain ⟨h1, h2⟩ := decimal_digits b
    cases hb : Fmt.decimal b with
    | nil => exact h2 hb
    | cons c s =>
      rw [hb] at h
      simp only [List.cons_append, List.cons.injEq] at h
      exact (h1 c (by simp [hb])).2 h.1.symm
  unfold number at h
  by_cases h0 : n < 0 <;> by_cases h1 : n' < 0
  · rw [if_pos h0, if_pos h1] at h
    obtain ⟨e, e'⟩ := key n.natAbs n'.natAbs (by simpa using h)
    exact ⟨by omega, e'⟩
  · rw [if_pos h0, if_neg h1] at h
    exact absurd h (mixed _ _ _ _)
  · rw [if_neg h0, if_pos h1] at h
    exact absurd h.symm (mixed _ _ _ _)
  · rw [if_neg h0, if_neg h1] at h
    obtain ⟨e, e'⟩ := key n.natAbs n'.natAbs h
    exact ⟨by omega, e'⟩

/-- What the first character says about a value. -/
def kindOf (c : Char) : Nat := if Numeric c then 0 else if c = '(' then 1 else if c = '[' then 2 else if Plain c then 3 else 5

/-- The kind of a value. -/
def kind : Dbg → Nat
  | .num _ => 0
  | .raw _ _ => 4
  | .unit => 1
  | .list _ => 2
  | .tuple _ _ => 3
  | .record _ _ _ _ => 3

theorem kind_ne (t : Dbg) : kindOf ']' ≠ t.kind := by
  have h : kindOf ']' = 5 := by decide
  rw [h]
  cases t <;> simp [kind]

theorem number_kind (n : Int) : ∃ c s, number n = c :: s ∧ kindOf c = 0 := by
  unfold number
  by_cases h0 : n < 0
  · rw [if_pos h0]
    exact ⟨_, _, rfl, by decide⟩
  · rw [if_neg h0]
    obtain ⟨h1, h2⟩ := decimal_digits n.natAbs
    cases hb : Fmt.decimal n.natAbs with
    | nil => exact absurd hb h2
    | cons c s => exact ⟨c, s, rfl, by unfold kindOf; rw [if_pos (h1 c (by simp [hb])).1]⟩

theorem name_kind {n : String} (h : Named n) (r : List Char) : ∃ c s, n.toList ++ r = c :: s ∧ kindOf c = 3 := by
  obtain ⟨h1, h2⟩ := h
  cases hb : n.toList with
  | nil => rw [hb] at h2; exact h2.elim
  | cons c s =>
    rw [hb] at h2
    refine ⟨c, s ++ r, rfl, ?_⟩
    have hp := h1 c (by simp [hb])
    unfold kindOf
    rw [if_neg h2, if_neg (fun e => by subst e; exact absurd hp (by decide)),
      if_neg (fun e => by subst e; exact absurd hp (by decide)), if_pos hp]

theorem text_kind {t : Dbg} (h : t.Wf) : ∃ c s, t.text = c :: s ∧ kindOf c = t.kind := by
  match t, h with
  | .num n, _ => simpa [text, kind] using number_kind n
  | .raw _ _, h => exact (by simp [Wf] at h)
  | .unit, _ => exact ⟨'(', [')'], by simp [text], by decide⟩
  | .list xs, _ => exact ⟨'[', _, by simp only [text]; rfl, by show kindOf '[' = 2; decide⟩
  | .tuple name [], h => simpa [text, kind] using name_kind (by simpa [Wf, WfAll] using h) []
  | .tuple name (x :: xs), h => simpa only [text, kind] using name_kind (by simp only [Wf] at h; exact h.1) _
  | .record name ls vs more, h => simpa only [text, kind] using name_kind (by simp only [Wf] at h; exact h.1) _

theorem pretty_kind {t : Dbg} (h : t.Wf) : ∃ c s, t.pretty = c :: s ∧ kindOf c = t.kind := by
  match t, h with
  | .num n, _ => simpa [pretty, kind] using number_kind n
  | .raw _ _, h => exact (by simp [Wf] at h)
  | .unit, _ => exact ⟨'(', [')'], by simp [pretty], by decide⟩
  | .list [], _ => exact ⟨'[', _, by simp only [pretty]; rfl, by decide⟩
  | .list (x :: xs), _ => exact ⟨'[', _, by simp only [pretty]; rfl, by show kindOf '[' = 2; decide⟩
  | .tuple name [], h => simpa [pretty, kind] using name_kind (by simpa [Wf, WfAll] using h) []
  | .tuple name (x :: xs), h => simpa only [pretty, kind] using name_kind (by simp only [Wf] at h; exact h.1) _
  | .record name ls vs more, h => simpa only [pretty, kind] using name_kind (by simp only [Wf] at h; exact h.1) _

theorem kind_eq_of {s s' : List Char} {r r' : List Char} {k k' : Nat} (hs : ∃ x y, s = x :: y ∧ kindOf x = k)
    (hs' : ∃ x y, s' = x :: y ∧ kindOf x = k') (h : s ++ r = s' ++ r') : k = k' := by
  obtain ⟨x, y, e, rfl⟩ := hs
  obtain ⟨x', y', e', rfl⟩ := hs'
  rw [e, e'] at h
  simp only [List.cons_append, List.cons.injEq] at h
  rw [h.1]

theorem ends_after {xs : List Dbg} {c : Char} {r : List Char} (hc : c = ')' ∨ c = ']') : Ends (entriesAfter xs ++ c :: r) := by
  cases xs with
  | nil => rcases hc with rfl | rfl <;> simp [entriesAfter, Ends]
  | cons x xs => simp [entriesAfter, Ends]

theorem ends_fields {ls : List String} {vs : List Dbg} {more : Bool} {r : List Char} : Ends (fields false ls vs more ++ r) := by
  match ls, vs, more with
  | l :: ls, v :: vs, more => simp [fields, Ends]
  | [], _, true => simp [fields, Ends]
  | [], _, false => simp [fields, Ends]
  | _ :: _, [], true => simp [fields, Ends]
  | _ :: _, [], false => simp [fields, Ends]

theorem cut_open {c : Char} {r : List Char} (h : ¬Plain c) : Cut (c :: r) := by
  intro c' s e
  simp only [List.cons.injEq] at e
  exact e.1 ▸ h

/-- The tail of a tuple or struct after its name. -/
theorem fields_first {ls : List String} {vs : List Dbg} {more : Bool} (hl : ls.length = vs.length) (hm : vs = [] → more = true) :
    ∃ s, fields true ls vs more = ' ' :: '{' :: ' ' :: s ∧
      ((∃ l ls' v vs', ls = l :: ls' ∧ vs = v :: vs' ∧ s = l.toList ++ ':' :: ' ' :: (text v ++ fields false ls' vs' more)) ∨
        (ls = [] ∧ vs = [] ∧ more = true ∧ s = ['.', '.', ' ', '}'])) := by
  match ls, vs, more with
  | l :: ls, v :: vs, more => exact ⟨_, by simp [fields], .inl ⟨l, ls, v, vs, rfl, rfl, rfl⟩⟩
  | [], [], true => exact ⟨_, by simp [fields], .inr ⟨rfl, rfl, rfl, rfl⟩⟩
  | [], [], false => exact absurd (hm rfl) (by simp)

theorem named_dot {l : String} (h : Named l) (x r : List Char) : l.toList ++ x ≠ '.' :: r := by
  intro e
  obtain ⟨h1, h2⟩ := h
  cases hb : l.toList with
  | nil => rw [hb] at h2; exact h2
  | cons c s =>
    rw [hb] at e
    simp only [List.cons_append, List.cons.injEq] at e
    exact absurd (h1 c (by simp [hb])) (by rw [e.1]; decide)

mutual
theorem text_cancel : ∀ (t t' : Dbg) {r r' : List Char}, t.Wf → t'.Wf → Ends r → Ends r' → t.text ++ r = t'.text ++ r' →
    t = t' ∧ r = r'
  | .num n, t', r, r', h, h', hr, hr', e => by
    have hk := kind_eq_of (text_kind h) (text_kind h') e
    match t', hk with
    | .num n', _ =>
      simp only [text] at e
      obtain ⟨e1, e2⟩ := number_cancel hr.cut hr'.cut e
      exact ⟨by rw [e1], e2⟩
  | .raw _ _, _, _, _, h, _, _, _, _ => by simp [Wf] at h
  | .unit, t', r, r', h, h', hr, hr', e => by
    have hk := kind_eq_of (text_kind h) (text_kind h') e
    match t', hk with
    | .unit, _ => exact ⟨rfl, by simpa [text] using e⟩
  | .list xs, t', r, r', h, h', hr, hr', e => by
    have hk := kind_eq_of (text_kind h) (text_kind h') e
    match t', hk with
    | .list xs', _ =>
      simp only [Wf] at h h'
      simp only [text, List.cons_append, List.cons.injEq, true_and, List.append_assoc, List.nil_append] at e
      obtain ⟨e1, e2⟩ := entries_cancel xs xs' h h' e
      exact ⟨by rw [e1], e2⟩
  | .tuple name [], t', r, r', h, h', hr, hr', e => by
    have hk := kind_eq_of (text_kind h) (text_kind h') e
    match t', hk with
    | .tuple name' [], _ =>
      simp only [Wf] at h h'
      simp only [text] at e
      obtain ⟨e1, e2⟩ := name_cancel h.1 h'.1 hr.cut hr'.cut e
      exact ⟨by rw [e1], e2⟩
    | .tuple name' (x :: xs), _ =>
      simp only [Wf] at h h'
      simp only [text, List.append_assoc, List.cons_append] at e
      obtain ⟨e1, e2⟩ := name_cancel h.1 h'.1 hr.cut (cut_open (by decide)) e
      subst e2
      simp [Ends] at hr
    | .record name' ls vs more, _ =>
      simp only [Wf] at h h'
      obtain ⟨s, e0, _⟩ := fields_first h'.2.1 h'.2.2.2.2
      simp only [text, e0, List.append_assoc, List.cons_append] at e
      obtain ⟨e1, e2⟩ := name_cancel h.1 h'.1 hr.cut (cut_open (by decide)) e
      subst e2
      simp [Ends] at hr
  | .tuple name (x :: xs), t', r, r', h, h', hr, hr', e => by
    have hk := kind_eq_of (text_kind h) (text_kind h') e
    match t', hk with
    | .tuple name' [], _ =>
      simp only [Wf] at h h'
      simp only [text, List.append_assoc, List.cons_append] at e
      obtain ⟨e1, e2⟩ := name_cancel h.1 h'.1 (cut_open (by decide)) hr'.cut e
      subst e2
      simp [Ends] at hr'
    | .tuple name' (x' :: xs'), _ =>
      simp only [Wf, WfAll] at h h'
      simp only [text, List.append_assoc, List.cons_append, List.nil_append] at e
      obtain ⟨e1, e2⟩ := name_cancel h.1 h'.1 (cut_open (by decide)) (cut_open (by decide)) e
      simp only [List.cons.injEq, true_and] at e2
      obtain ⟨e3, e4⟩ := text_cancel x x' h.2.1 h'.2.1 (ends_after (.inl rfl)) (ends_after (.inl rfl)) e2
      obtain ⟨e5, e6⟩ := after_cancel xs xs' h.2.2 h'.2.2 (.inl rfl) e4
      exact ⟨by rw [e1, e3, e5], e6⟩
    | .record name' ls vs more, _ =>
      simp only [Wf] at h h'
      obtain ⟨s, e0, _⟩ := fields_first h'.2.1 h'.2.2.2.2
      simp only [text, e0, List.append_assoc, List.cons_append] at e
      obtain ⟨e1, e2⟩ := name_cancel h.1 h'.1 (cut_open (by decide)) (cut_open (by decide)) e
      simp at e2
  | .record name [] [] more, t', r, r', h, h', hr, hr', e => by
    have hk := kind_eq_of (text_kind h) (text_kind h') e
    match t', hk with
    | .tuple name' [], _ =>
      simp only [Wf] at h h'
      obtain ⟨s, e0, _⟩ := fields_first h.2.1 (fun _ => h.2.2.2.2 (by simp))
      simp only [text, e0, List.append_assoc, List.cons_append] at e
      obtain ⟨e1, e2⟩ := name_cancel h.1 h'.1 (cut_open (by decide)) hr'.cut e
      subst e2
      simp [Ends] at hr'
    | .tuple name' (x' :: xs'), _ =>
      simp only [Wf] at h h'
      obtain ⟨s, e0, _⟩ := fields_first h.2.1 (fun _ => h.2.2.2.2 (by simp))
      simp only [text, e0, List.append_assoc, List.cons_append] at e
      obtain ⟨e1, e2⟩ := name_cancel h.1 h'.1 (cut_open (by decide)) (cut_open (by decide)) e
      simp at e2
    | .record name' ls' vs' more', _ =>
      simp only [Wf] at h h'
      obtain ⟨s', e0', hs'⟩ := fields_first h'.2.1 h'.2.2.2.2
      have hm := h.2.2.2.2 trivial
      subst hm
      simp only [text, fields, if_true, e0', List.append_assoc, List.cons_append, List.nil_append] at e
      obtain ⟨e1, e2⟩ := name_cancel h.1 h'.1 (cut_open (by decide)) (cut_open (by decide)) e
      simp only [List.cons.injEq, true_and] at e2
      rcases hs' with ⟨l, ls', v, vs', rfl, rfl, hs'⟩ | ⟨rfl, rfl, hm', hs'⟩
      · rw [hs'] at e2
        exact absurd e2.symm (by
          rw [List.append_assoc]
          exact named_dot (h'.2.2.1 l (by simp)) _ _)
      · rw [hs'] at e2
        exact ⟨by rw [e1, hm'], by simpa using e2⟩
  | .record name (l :: ls) (v :: vs) more, t', r, r', h, h', hr, hr', e => by
    have hk := kind_eq_of (text_kind h) (text_kind h') e
    match t', hk with
    | .tuple name' [], _ =>
      simp only [Wf] at h h'
      obtain ⟨s, e0, _⟩ := fields_first (more := more) h.2.1 (fun a => by simp at a)
      simp only [text, e0, List.append_assoc, List.cons_append] at e
      obtain ⟨e1, e2⟩ := name_cancel h.1 h'.1 (cut_open (by decide)) hr'.cut e
      subst e2
      simp [Ends] at hr'
    | .tuple name' (x' :: xs'), _ =>
      simp only [Wf] at h h'
      obtain ⟨s, e0, _⟩ := fields_first (more := more) h.2.1 (fun a => by simp at a)
      simp only [text, e0, List.append_assoc, List.cons_append] at e
      obtain ⟨e1, e2⟩ := name_cancel h.1 h'.1 (cut_open (by decide)) (cut_open (by decide)) e
      simp at e2
    | .record name' ls' vs' more', _ =>
      simp only [Wf] at h h'
      obtain ⟨s', e0', hs'⟩ := fields_first h'.2.1 h'.2.2.2.2
      simp only [text, fields, if_true, e0', List.append_assoc, List.cons_append, List.nil_append] at e
      obtain ⟨e1, e2⟩ := name_cancel h.1 h'.1 (cut_open (by decide)) (cut_open (by decide)) e
      simp only [List.cons.injEq, true_and] at e2
      rcases hs' with ⟨l', ls', v', vs', rfl, rfl, hs'⟩ | ⟨rfl, rfl, hm', hs'⟩
      · rw [hs'] at e2
        simp only [List.append_assoc, List.cons_append] at e2
        obtain ⟨b1, b2⟩ := name_cancel (h.2.2.1 l (by simp)) (h'.2.2.1 l' (by simp)) (cut_open (by decide))
          (cut_open (by decide)) e2
        simp only [List.cons.injEq, true_and] at b2
        have w := h.2.2.2.1
        have w' := h'.2.2.2.1
        simp only [WfAll] at w w'
        obtain ⟨b3, b4⟩ := text_cancel v v' w.1 w'.1 ends_fields ends_fields b2
        obtain ⟨c1, c2, c3, c4⟩ := fields_cancel vs ls ls' vs' more more' w.2 w'.2 (by simpa using h.2.1)
          (by simpa using h'.2.1) (fun x hx => h.2.2.1 x (by simp [hx])) (fun x hx => h'.2.2.1 x (by simp [hx])) b4
        exact ⟨by rw [e1, b1, b3, c1, c2, c3], c4⟩
      · rw [hs'] at e2
        exact absurd e2 (named_dot (h.2.2.1 l (by simp)) _ _)
  | .record name [] (_ :: _) _, _, _, _, h, _, _, _, _ => by simp [Wf] at h
  | .record name (_ :: _) [] _, _, _, _, h, _, _, _, _ => by simp [Wf] at h
termination_by structural t => t
theorem entries_cancel : ∀ (xs xs' : List Dbg) {r r' : List Char}, WfAll xs → WfAll xs' →
    entries xs ++ ']' :: r = entries xs' ++ ']' :: r' → xs = xs' ∧ r = r'
  | [], xs', r, r', h, h', e => by
    match xs' with
    | [] => exact ⟨rfl, by simpa [entries] using e⟩
    | x' :: xs' =>
      simp only [WfAll] at h'
      obtain ⟨c, s, e1, e2⟩ := text_kind h'.1
      simp only [entries, e1, List.nil_append, List.cons_append, List.cons.injEq] at e
      rw [← e.1] at e2
      exact absurd e2 (kind_ne x')
  | x :: xs, xs', r, r', h, h', e => by
    match xs' with
    | [] =>
      simp only [WfAll] at h
      obtain ⟨c, s, e1, e2⟩ := text_kind h.1
      simp only [entries, e1, List.nil_append, List.cons_append, List.cons.injEq] at e
      rw [e.1] at e2
      exact absurd e2 (kind_ne x)
    | x' :: xs' =>
      simp only [WfAll] at h h'
      simp only [entries, List.append_assoc] at e
      obtain ⟨e1, e2⟩ := text_cancel x x' h.1 h'.1 (ends_after (.inr rfl)) (ends_after (.inr rfl)) e
      obtain ⟨e3, e4⟩ := after_cancel xs xs' h.2 h'.2 (.inr rfl) e2
      exact ⟨by rw [e1, e3], e4⟩
termination_by structural xs => xs
theorem after_cancel : ∀ (xs xs' : List Dbg) {c : Char} {r r' : List Char}, WfAll xs → WfAll xs' → (c = ')' ∨ c = ']') →
    entriesAfter xs ++ c :: r = entriesAfter xs' ++ c :: r' → xs = xs' ∧ r = r'
  | [], xs', c, r, r', h, h', hc, e => by
    match xs' with
    | [] => exact ⟨rfl, by simpa [entriesAfter] using e⟩
    | x' :: xs' =>
      simp only [entriesAfter, List.nil_append, List.cons_append, List.cons.injEq] at e
      rcases hc with rfl | rfl <;> exact absurd e.1 (by decide)
  | x :: xs, xs', c, r, r', h, h', hc, e => by
    match xs' with
    | [] =>
      simp only [entriesAfter, List.nil_append, List.cons_append, List.cons.injEq] at e
      rcases hc with rfl | rfl <;> exact absurd e.1 (by decide)
    | x' :: xs' =>
      simp only [WfAll] at h h'
      simp only [entriesAfter, List.cons_append, List.cons.injEq, true_and, List.append_assoc] at e
      obtain ⟨e1, e2⟩ := text_cancel x x' h.1 h'.1 (ends_after hc) (ends_after hc) e
      obtain ⟨e3, e4⟩ := after_cancel xs xs' h.2 h'.2 hc e2
      exact ⟨by rw [e1, e3], e4⟩
termination_by structural xs => xs
theorem fields_cancel : ∀ (vs : List Dbg) (ls ls' : List String) (vs' : List Dbg) (more more' : Bool) {r r' : List Char}, WfAll vs →
    WfAll vs' → ls.length = vs.length → ls'.length = vs'.length → (∀ l ∈ ls, Named l) → (∀ l ∈ ls', Named l) →
    fields false ls vs more ++ r = fields false ls' vs' more' ++ r' → ls = ls' ∧ vs = vs' ∧ more = more' ∧ r = r'
  | [], ls, ls', vs', more, more', r, r', h, h', hl, hl', hn, hn', e => by
    match ls, ls', vs' with
    | [], [], [] =>
      match more, more' with
      | true, true | false, false => exact ⟨rfl, rfl, rfl, by simpa [fields] using e⟩
      | true, false | false, true => simp [fields] at e
    | [], l' :: ls', v' :: vs' =>
      match more with
      | false => simp [fields] at e
      | true =>
        simp only [fields, Bool.false_eq_true, if_false, List.cons_append, List.nil_append, List.cons.injEq, true_and,
          List.append_assoc] at e
        exact absurd e.symm (named_dot (hn' l' (by simp)) _ _)
  | v :: vs, ls, ls', vs', more, more', r, r', h, h', hl, hl', hn, hn', e => by
    match ls, ls', vs' with
    | l :: ls, [], [] =>
      match more' with
      | false => simp [fields] at e
      | true =>
        simp only [fields, Bool.false_eq_true, if_false, List.cons_append, List.nil_append, List.cons.injEq, true_and,
          List.append_assoc] at e
        exact absurd e (named_dot (hn l (by simp)) _ _)
    | l :: ls, l' :: ls', v' :: vs' =>
      simp only [WfAll] at h h'
      simp only [fields, Bool.false_eq_true, if_false, List.cons_append, List.nil_append, List.cons.injEq, true_and,
        List.append_assoc] at e
      obtain ⟨b1, b2⟩ := name_cancel (hn l (by simp)) (hn' l' (by simp)) (cut_open (by decide)) (cut_open (by decide)) e
      simp only [List.cons.injEq, true_and] at b2
      obtain ⟨b3, b4⟩ := text_cancel v v' h.1 h'.1 ends_fields ends_fields b2
      obtain ⟨c1, c2, c3, c4⟩ := fields_cancel vs ls ls' vs' more more' h.2 h'.2 (by simpa using hl) (by simpa using hl')
        (fun x hx => hn x (by simp [hx])) (fun x hx => hn' x (by simp [hx])) b4
      exact ⟨by rw [b1, c1], by rw [b3, c2], c3, c4⟩
termination_by structural vs => vs
end

/-! ## The texts of `{:#?}` -/

theorem pad_line (nl : Bool) (a b : List Char) : pad nl (a ++ '\n' :: b) = pad nl (a ++ ['\n']) ++ pad true b := by
  induction a generalizing nl with
  | nil => simp [pad]
  | cons c a ih => simp [pad, ih]

theorem pad_inj {nl : Bool} {s s' : List Char} (h : pad nl s = pad nl s') : s = s' := by
  induction s generalizing s' nl with
  | nil => cases s' with
    | nil => rfl
    | cons c s' => simp [pad] at h
  | cons c s ih =>
    cases s' with
    | nil => simp [pad] at h
    | cons c' s' =>
      simp only [pad] at h
      have h := List.append_cancel_left h
      simp only [List.cons.injEq] at h
      obtain ⟨rfl, h⟩ := h
      rw [ih h]

/-- A padded text that consists of whole lines ends where no indentation follows. -/
theorem pad_cancel {nl : Bool} {s s' : List Char} {c c' : Char} {r r' : List Char} (hc : c ≠ ' ') (hc' : c' ≠ ' ')
    (hs : if s = [] then nl = true else s.getLast? = some '\n') (hs' : if s' = [] then nl = true else s'.getLast? = some '\n')
    (h : pad nl s ++ c :: r = pad nl s' ++ c' :: r') : s = s' ∧ c :: r = c' :: r' := by
  induction s generalizing s' nl with
  | nil =>
    cases s' with
    | nil => exact ⟨rfl, by simpa [pad] using h⟩
    | cons x s' =>
      simp only [if_true] at hs
      subst hs
      simp [pad] at h
      exact absurd h.1 hc
  | cons x s ih =>
    cases s' with
    | nil =>
      simp only [if_true] at hs'
      subst hs'
      simp [pad] at h
      exact absurd h.1.symm hc'
    | cons x' s' =>
      simp only [pad, List.append_assoc] at h
      have h := List.append_cancel_left h
      simp only [List.cons_append, List.cons.injEq] at h
      obtain ⟨rfl, h⟩ := h
      have last : ∀ {s : List Char}, (if (x :: s) = [] then nl = true else (x :: s).getLast? = some '\n') →
          if s = [] then (x == '\n') = true else s.getLast? = some '\n' := by
        intro s hs
        simp only [reduceCtorEq, if_false] at hs
        by_cases h0 : s = []
        · subst h0
          simpa using hs
        · rw [if_neg h0]
          rwa [List.getLast?_cons_of_ne_nil h0] at hs
      obtain ⟨e1, e2⟩ := ih (last hs) (last hs') h
      exact ⟨by rw [e1], e2⟩

/-- The lines of the items before they are indented. -/
def lines : List Dbg → List Char
  | [] => []
  | x :: xs => pretty x ++ ',' :: '\n' :: lines xs

theorem prettyEntries_eq (xs : List Dbg) : prettyEntries xs = pad true (lines xs) := by
  induction xs with
  | nil => simp [prettyEntries, lines, pad]
  | cons x xs ih =>
    have := pad_line true (pretty x ++ [',']) (lines xs)
    simp only [List.append_assoc, List.cons_append, List.nil_append] at this
    simp [prettyEntries, lines, this, ih]

/-- The lines of the fields before they are indented. -/
def fieldLines : List String → List Dbg → Bool → List Char
  | l :: ls, v :: vs, more => l.toList ++ ':' :: ' ' :: (pretty v ++ ',' :: '\n' :: fieldLines ls vs more)
  | _, _, true => ['.', '.', '\n']
  | _, _, false => []

theorem prettyFields_eq (ls : List String) (vs : List Dbg) (more : Bool) (h : ls.length = vs.length) :
    prettyFields false ls vs more = pad true (fieldLines ls vs more) ++ ['}'] := by
  induction ls generalizing vs with
  | nil =>
    cases vs with
    | nil => cases more <;> simp [prettyFields, fieldLines, pad]
    | cons v vs => simp at h
  | cons l ls ih =>
    cases vs with
    | nil => simp at h
    | cons v vs =>
      have := pad_line true (l.toList ++ ':' :: ' ' :: (pretty v ++ [','])) (fieldLines ls vs more)
      simp only [List.append_assoc, List.cons_append, List.nil_append] at this
      simp [prettyFields, fieldLines, this, ih vs (by simpa using h)]

/-- A text of whole lines. -/
def Whole (s : List Char) : Prop := if s = [] then true = true else s.getLast? = some '\n'

theorem whole_nl (a : List Char) {b : List Char} (h : Whole b) : Whole (a ++ '\n' :: b) := by
  unfold Whole at h ⊢
  rw [if_neg (by simp)]
  by_cases h0 : b = []
  · subst h0
    simp
  · rw [if_neg h0] at h
    rw [List.getLast?_append, List.getLast?_cons_of_ne_nil h0, h]
    rfl

theorem whole_lines (xs : List Dbg) : Whole (lines xs) := by
  induction xs with
  | nil => simp [lines, Whole]
  | cons x xs ih =>
    have := whole_nl (pretty x ++ [',']) ih
    simpa [lines] using this

theorem whole_fieldLines (ls : List String) (vs : List Dbg) (more : Bool) : Whole (fieldLines ls vs more) := by
  induction ls generalizing vs with
  | nil => cases vs <;> cases more <;> simp [fieldLines, Whole]
  | cons l ls ih =>
    cases vs with
    | nil => cases more <;> simp [fieldLines, Whole]
    | cons v vs =>
      have := whole_nl (l.toList ++ ':' :: ' ' :: (pretty v ++ [','])) (ih vs)
      simpa [fieldLines] using this

theorem pretty_list (x : Dbg) (xs : List Dbg) : pretty (.list (x :: xs)) = '[' :: '\n' :: (pad true (lines (x :: xs)) ++ [']']) := by
  rw [← prettyEntries_eq]
  simp [pretty, prettyEntries]

theorem pretty_tuple (n : String) (x : Dbg) (xs : List Dbg) :
    pretty (.tuple n (x :: xs)) = n.toList ++ '(' :: '\n' :: (pad true (lines (x :: xs)) ++ [')']) := by
  rw [← prettyEntries_eq]
  simp [pretty, prettyEntries]

theorem pretty_record (n l : String) (ls : List String) (v : Dbg) (vs : List Dbg) (more : Bool) (h : ls.length = vs.length) :
    pretty (.record n (l :: ls) (v :: vs) more) =
      n.toList ++ ' ' :: '{' :: '\n' :: (pad true (fieldLines (l :: ls) (v :: vs) more) ++ ['}']) := by
  rw [← prettyFields_eq _ _ _ (by simpa using h)]
  simp [pretty, prettyFields]

theorem pretty_hidden (n : String) : pretty (.record n [] [] true) = n.toList ++ [' ', '{', ' ', '.', '.', ' ', '}'] := by
  simp [pretty, prettyFields]

theorem ends_comma (r : List Char) : Ends (',' :: r) := by simp [Ends]

mutual
theorem pretty_cancel : ∀ (t t' : Dbg) {r r' : List Char}, t.Wf → t'.Wf → Ends r → Ends r' → t.pretty ++ r = t'.pretty ++ r' →
    t = t' ∧ r = r'
  | .num n, t', r, r', h, h', hr, hr', e => by
    have hk := kind_eq_of (pretty_kind h) (pretty_kind h') e
    match t', hk with
    | .num n', _ =>
      simp only [pretty] at e
      obtain ⟨e1, e2⟩ := number_cancel hr.cut hr'.cut e
      exact ⟨by rw [e1], e2⟩
  | .raw _ _, _, _, _, h, _, _, _, _ => by simp [Wf] at h
  | .unit, t', r, r', h, h', hr, hr', e => by
    have hk := kind_eq_of (pretty_kind h) (pretty_kind h') e
    match t', hk with
    | .unit, _ => exact ⟨rfl, by simpa [pretty] using e⟩
  | .list [], t', r, r', h, h', hr, hr', e => by
    have hk := kind_eq_of (pretty_kind h) (pretty_kind h') e
    match t', hk with
    | .list [], _ => exact ⟨rfl, by simpa [pretty] using e⟩
    | .list (x :: xs), _ => simp [pretty] at e
  | .list (x :: xs), t', r, r', h, h', hr, hr', e => by
    have hk := kind_eq_of (pretty_kind h) (pretty_kind h') e
    match t', hk with
    | .list [], _ => simp [pretty] at e
    | .list (x' :: xs'), _ =>
      simp only [Wf] at h h'
      rw [pretty_list, pretty_list] at e
      simp only [List.cons_append, List.cons.injEq, true_and, List.append_assoc, List.nil_append] at e
      obtain ⟨e1, e2⟩ := pad_cancel (by decide) (by decide) (whole_lines _) (whole_lines _) e
      simp only [lines] at e1
      simp only [WfAll] at h h'
      obtain ⟨e3, e4⟩ := pretty_cancel x x' h.1 h'.1 (ends_comma _) (ends_comma _) e1
      simp only [List.cons.injEq, true_and] at e4 e2
      exact ⟨by rw [e3, lines_cancel xs xs' h.2 h'.2 e4], e2⟩
  | .tuple name [], t', r, r', h, h', hr, hr', e => by
    have hk := kind_eq_of (pretty_kind h) (pretty_kind h') e
    match t', hk with
    | .tuple name' [], _ =>
      simp only [Wf] at h h'
      simp only [pretty] at e
      obtain ⟨e1, e2⟩ := name_cancel h.1 h'.1 hr.cut hr'.cut e
      exact ⟨by rw [e1], e2⟩
    | .tuple name' (x :: xs), _ =>
      simp only [Wf] at h h'
      simp only [pretty, List.append_assoc, List.cons_append] at e
      obtain ⟨e1, e2⟩ := name_cancel h.1 h'.1 hr.cut (cut_open (by decide)) e
      subst e2
      simp [Ends] at hr
    | .record name' [] [] true, _ =>
      simp only [Wf] at h h'
      simp only [pretty_hidden, List.append_assoc, List.cons_append] at e
      simp only [pretty] at e
      obtain ⟨e1, e2⟩ := name_cancel h.1 h'.1 hr.cut (cut_open (by decide)) e
      subst e2
      simp [Ends] at hr
    | .record name' (l :: ls) (v :: vs) more, _ =>
      simp only [Wf] at h h'
      rw [pretty_record _ _ _ _ _ _ (by simpa using h'.2.1)] at e
      simp only [pretty, List.append_assoc, List.cons_append] at e
      obtain ⟨e1, e2⟩ := name_cancel h.1 h'.1 hr.cut (cut_open (by decide)) e
      subst e2
      simp [Ends] at hr
    | .record name' [] [] false, _ => simp [Wf] at h'
    | .record name' [] (_ :: _) _, _ => simp [Wf] at h'
    | .record name' (_ :: _) [] _, _ => simp [Wf] at h'
  | .tuple name (x :: xs), t', r, r', h, h', hr, hr', e => by
    have hk := kind_eq_of (pretty_kind h) (pretty_kind h') e
    match t', hk with
    | .tuple name' [], _ =>
      simp only [Wf] at h h'
      simp only [pretty, List.append_assoc, List.cons_append] at e
      obtain ⟨e1, e2⟩ := name_cancel h.1 h'.1 (cut_open (by decide)) hr'.cut e
      subst e2
      simp [Ends] at hr'
    | .tuple name' (x' :: xs'), _ =>
      simp only [Wf, WfAll] at h h'
      rw [pretty_tuple, pretty_tuple] at e
      simp only [List.append_assoc, List.cons_append, List.nil_append] at e
      obtain ⟨e1, e2⟩ := name_cancel h.1 h'.1 (cut_open (by decide)) (cut_open (by decide)) e
      simp only [List.cons.injEq, true_and] at e2
      obtain ⟨e3, e4⟩ := pad_cancel (by decide) (by decide) (whole_lines _) (whole_lines _) e2
      simp only [lines] at e3
      obtain ⟨e5, e6⟩ := pretty_cancel x x' h.2.1 h'.2.1 (ends_comma _) (ends_comma _) e3
      simp only [List.cons.injEq, true_and] at e6 e4
      exact ⟨by rw [e1, e5, lines_cancel xs xs' h.2.2 h'.2.2 e6], e4⟩
    | .record name' [] [] true, _ =>
      simp only [Wf] at h h'
      simp only [pretty_hidden, pretty_tuple, List.append_assoc, List.cons_append] at e
      obtain ⟨e1, e2⟩ := name_cancel h.1 h'.1 (cut_open (by decide)) (cut_open (by decide)) e
      simp at e2
    | .record name' (l :: ls) (v :: vs) more, _ =>
      simp only [Wf] at h h'
      rw [pretty_record _ _ _ _ _ _ (by simpa using h'.2.1)] at e
      simp only [pretty_tuple, List.append_assoc, List.cons_append] at e
      obtain ⟨e1, e2⟩ := name_cancel h.1 h'.1 (cut_open (by decide)) (cut_open (by decide)) e
      simp at e2
    | .record name' [] [] false, _ => simp [Wf] at h'
    | .record name' [] (_ :: _) _, _ => simp [Wf] at h'
    | .record name' (_ :: _) [] _, _ => simp [Wf] at h'
  | .record name [] [] true, t', r, r', h, h', hr, hr', e => by
    have hk := kind_eq_of (pretty_kind h) (pretty_kind h') e
    match t', hk with
    | .tuple name' [], _ =>
      simp only [Wf] at h h'
      simp only [pretty_hidden, List.append_assoc, List.cons_append] at e
      simp only [pretty] at e
      obtain ⟨e1, e2⟩ := name_cancel h.1 h'.1 (cut_open (by decide)) hr'.cut e
      subst e2
      simp [Ends] at hr'
    | .tuple name' (x :: xs), _ =>
      simp only [Wf] at h h'
      simp only [pretty_hidden, pretty_tuple, List.append_assoc, List.cons_append] at e
      obtain ⟨e1, e2⟩ := name_cancel h.1 h'.1 (cut_open (by decide)) (cut_open (by decide)) e
      simp at e2
    | .record name' [] [] true, _ =>
      simp only [Wf] at h h'
      simp only [pretty_hidden, List.append_assoc, List.cons_append] at e
      obtain ⟨e1, e2⟩ := name_cancel h.1 h'.1 (cut_open (by decide)) (cut_open (by decide)) e
      exact ⟨by rw [e1], by simpa using e2⟩
    | .record name' (l :: ls) (v :: vs) more, _ =>
      simp only [Wf] at h h'
      rw [pretty_record _ _ _ _ _ _ (by simpa using h'.2.1)] at e
      simp only [pretty_hidden, List.append_assoc, List.cons_append] at e
      obtain ⟨e1, e2⟩ := name_cancel h.1 h'.1 (cut_open (by decide)) (cut_open (by decide)) e
      simp at e2
    | .record name' [] [] false, _ => simp [Wf] at h'
    | .record name' [] (_ :: _) _, _ => simp [Wf] at h'
    | .record name' (_ :: _) [] _, _ => simp [Wf] at h'
  | .record name (l :: ls) (v :: vs) more, t', r, r', h, h', hr, hr', e => by
    have hk := kind_eq_of (pretty_kind h) (pretty_kind h') e
    match t', hk with
    | .tuple name' [], _ =>
      simp only [Wf] at h h'
      rw [pretty_record _ _ _ _ _ _ (by simpa using h.2.1)] at e
      simp only [pretty, List.append_assoc, List.cons_append] at e
      obtain ⟨e1, e2⟩ := name_cancel h.1 h'.1 (cut_open (by decide)) hr'.cut e
      subst e2
      simp [Ends] at hr'
    | .tuple name' (x :: xs), _ =>
      simp only [Wf] at h h'
      rw [pretty_record _ _ _ _ _ _ (by simpa using h.2.1)] at e
      simp only [pretty_tuple, List.append_assoc, List.cons_append] at e
      obtain ⟨e1, e2⟩ := name_cancel h.1 h'.1 (cut_open (by decide)) (cut_open (by decide)) e
      simp at e2
    | .record name' [] [] true, _ =>
      simp only [Wf] at h h'
      rw [pretty_record _ _ _ _ _ _ (by simpa using h.2.1)] at e
      simp only [pretty_hidden, List.append_assoc, List.cons_append] at e
      obtain ⟨e1, e2⟩ := name_cancel h.1 h'.1 (cut_open (by decide)) (cut_open (by decide)) e
      simp at e2
    | .record name' (l' :: ls') (v' :: vs') more', _ =>
      simp only [Wf, WfAll] at h h'
      rw [pretty_record _ _ _ _ _ _ (by simpa using h.2.1), pretty_record _ _ _ _ _ _ (by simpa using h'.2.1)] at e
      simp only [List.append_assoc, List.cons_append, List.nil_append] at e
      obtain ⟨e1, e2⟩ := name_cancel h.1 h'.1 (cut_open (by decide)) (cut_open (by decide)) e
      simp only [List.cons.injEq, true_and] at e2
      obtain ⟨e3, e4⟩ := pad_cancel (by decide) (by decide) (whole_fieldLines _ _ _) (whole_fieldLines _ _ _) e2
      simp only [fieldLines] at e3
      obtain ⟨b1, b2⟩ := name_cancel (h.2.2.1 l (by simp)) (h'.2.2.1 l' (by simp)) (cut_open (by decide))
        (cut_open (by decide)) e3
      simp only [List.cons.injEq, true_and] at b2
      obtain ⟨e5, e6⟩ := pretty_cancel v v' h.2.2.2.1.1 h'.2.2.2.1.1 (ends_comma _) (ends_comma _) b2
      simp only [List.cons.injEq, true_and] at e6 e4
      obtain ⟨c1, c2, c3⟩ := fieldLines_cancel vs ls ls' vs' more more' h.2.2.2.1.2 h'.2.2.2.1.2 (by simpa using h.2.1)
        (by simpa using h'.2.1) (fun x hx => h.2.2.1 x (by simp [hx])) (fun x hx => h'.2.2.1 x (by simp [hx])) e6
      exact ⟨by rw [e1, b1, e5, c1, c2, c3], e4⟩
    | .record name' [] [] false, _ => simp [Wf] at h'
    | .record name' [] (_ :: _) _, _ => simp [Wf] at h'
    | .record name' (_ :: _) [] _, _ => simp [Wf] at h'
  | .record name [] [] false, _, _, _, h, _, _, _, _ => by simp [Wf] at h
  | .record name [] (_ :: _) _, _, _, _, h, _, _, _, _ => by simp [Wf] at h
  | .record name (_ :: _) [] _, _, _, _, h, _, _, _, _ => by simp [Wf] at h
termination_by structural t => t
theorem lines_cancel : ∀ (xs xs' : List Dbg), WfAll xs → WfAll xs' → lines xs = lines xs' → xs = xs'
  | [], xs', h, h', e => by
    match xs' with
    | [] => rfl
    | x' :: xs' => simp [lines] at e
  | x :: xs, xs', h, h', e => by
    match xs' with
    | [] => simp [lines] at e
    | x' :: xs' =>
      simp only [WfAll] at h h'
      simp only [lines] at e
      obtain ⟨e1, e2⟩ := pretty_cancel x x' h.1 h'.1 (ends_comma _) (ends_comma _) e
      simp only [List.cons.injEq, true_and] at e2
      rw [e1, lines_cancel xs xs' h.2 h'.2 e2]
termination_by structural xs => xs
theorem fieldLines_cancel : ∀ (vs : List Dbg) (ls ls' : List String) (vs' : List Dbg) (more more' : Bool), WfAll vs → WfAll vs' →
    ls.length = vs.length → ls'.length = vs'.length → (∀ l ∈ ls, Named l) → (∀ l ∈ ls', Named l) →
    fieldLines ls vs more = fieldLines ls' vs' more' → ls = ls' ∧ vs = vs' ∧ more = more'
  | [], ls, ls', vs', more, more', h, h', hl, hl', hn, hn', e => by
    match ls, ls', vs' with
    | [], [], [] =>
      match more, more' with
      | true, true | false, false => exact ⟨rfl, rfl, rfl⟩
      | true, false | false, true => simp [fieldLines] at e
    | [], l' :: ls', v' :: vs' =>
      match more with
      | false => simp [fieldLines] at e
      | true =>
        simp only [fieldLines] at e
        exact absurd e.symm (named_dot (hn' l' (by simp)) _ _)
  | v :: vs, ls, ls', vs', more, more', h, h', hl, hl', hn, hn', e => by
    match ls, ls', vs' with
    | l :: ls, [], [] =>
      match more' with
      | false => simp [fieldLines] at e
      | true =>
        simp only [fieldLines] at e
        exact absurd e (named_dot (hn l (by simp)) _ _)
    | l :: ls, l' :: ls', v' :: vs' =>
      simp only [WfAll] at h h'
      simp only [fieldLines] at e
      obtain ⟨b1, b2⟩ := name_cancel (hn l (by simp)) (hn' l' (by simp)) (cut_open (by decide)) (cut_open (by decide)) e
      simp only [List.cons.injEq, true_and] at b2
      obtain ⟨b3, b4⟩ := pretty_cancel v v' h.1 h'.1 (ends_comma _) (ends_comma _) b2
      simp only [List.cons.injEq, true_and] at b4
      obtain ⟨c1, c2, c3⟩ := fieldLines_cancel vs ls ls' vs' more more' h.2 h'.2 (by simpa using hl) (by simpa using hl')
        (fun x hx => hn x (by simp [hx])) (fun x hx => hn' x (by simp [hx])) b4
      exact ⟨by rw [b1, c1], by rw [b3, c2], c3⟩
termination_by structural vs => vs
end

/-- Different values have different texts. -/
theorem text_inj {t t' : Dbg} (h : t.Wf) (h' : t'.Wf) (e : t.text = t'.text) : t = t' :=
  (text_cancel t t' (r := []) (r' := []) h h' trivial trivial (by rw [e])).1

theorem pretty_inj {t t' : Dbg} (h : t.Wf) (h' : t'.Wf) (e : t.pretty = t'.pretty) : t = t' :=
  (pretty_cancel t t' (r := []) (r' := []) h h' trivial trivial (by rw [e])).1

/-- One layer of a variant with one field, around anything. -/
theorem text_peel {n n' : String} {x x' : Dbg} (hn : Named n) (hn' : Named n') (e : text (.tuple n [x]) = text (.tuple n' [x'])) :
    n = n' ∧ x.text = x'.text := by
  simp only [text, entriesAfter, List.nil_append] at e
  obtain ⟨e1, e2⟩ := name_cancel hn hn' (cut_open (by decide)) (cut_open (by decide)) e
  simp only [List.cons.injEq, true_and] at e2
  exact ⟨e1, List.append_cancel_right e2⟩

theorem pretty_peel {n n' : String} {x x' : Dbg} (hn : Named n) (hn' : Named n')
    (e : pretty (.tuple n [x]) = pretty (.tuple n' [x'])) : n = n' ∧ x.pretty = x'.pretty := by
  simp only [pretty, prettyEntries, List.nil_append] at e
  obtain ⟨e1, e2⟩ := name_cancel hn hn' (cut_open (by decide)) (cut_open (by decide)) e
  simp only [List.cons.injEq, true_and] at e2
  exact ⟨e1, List.append_cancel_right (pad_inj (List.append_cancel_right e2))⟩

/-! ## The two texts of a value -/

theorem squeezed_append (a b : List Char) : squeezed (a ++ b) = squeezed a ++ squeezed b := List.filter_append ..

theorem squeezed_plain {a : List Char} (h : ∀ c ∈ a, Plain c) : squeezed a = a := by
  unfold squeezed
  rw [List.filter_eq_self]
  intro c hc
  have := h c hc
  rw [decide_eq_true_eq]
  exact ⟨fun e => by subst e; exact absurd this (by decide), fun e => by subst e; exact absurd this (by decide)⟩

theorem squeezed_pad (b : Bool) (s : List Char) : squeezed (pad b s) = squeezed s := by
  induction s generalizing b with
  | nil => rfl
  | cons c s ih =>
    simp only [pad]
    rw [squeezed_append, show squeezed (if b then [' ', ' ', ' ', ' '] else []) = [] by cases b <;> decide, List.nil_append]
    have := ih (c == '\n')
    unfold squeezed at this ⊢
    simp only [List.filter_cons, this]

theorem untrailed_append {a : List Char} (h : ',' ∉ a) (r : List Char) : untrailed (a ++ r) = a ++ untrailed r := by
  induction a with
  | nil => rfl
  | cons c a ih =>
    simp only [List.mem_cons, not_or] at h
    simp only [List.cons_append, untrailed]
    rw [if_neg (fun e => h.1 e.1.symm), ih h.2]

theorem plain_no_comma {a : List Char} (h : ∀ c ∈ a, Plain c) : ',' ∉ a := fun e => absurd (h _ e) (by decide)

theorem number_clean (n : Int) : squeezed (number n) = number n ∧ ',' ∉ number n := by
  have h := decimal_digits n.natAbs
  have hp : ∀ c ∈ Fmt.decimal n.natAbs, Plain c := fun c hc => plain_of_numeric (h.1 c hc).1 (h.1 c hc).2
  unfold number
  by_cases h0 : n < 0
  · rw [if_pos h0]
    refine ⟨?_, by simp [plain_no_comma hp]⟩
    have := squeezed_plain hp
    unfold squeezed at this ⊢
    rw [List.filter_cons, this]
    rfl
  · rw [if_neg h0]
    exact ⟨squeezed_plain hp, plain_no_comma hp⟩

/-- The first character of a value stays and is not a closing bracket. -/
theorem squeezed_head {t : Dbg} (h : t.Wf) : ∃ c s, squeezed t.pretty = c :: s ∧ c ≠ ')' ∧ c ≠ ']' ∧ c ≠ '}' := by
  obtain ⟨c, s, e1, e2⟩ := pretty_kind h
  have hk : kindOf c ≠ 5 := by
    rw [e2]
    cases t <;> simp [kind]
  have ne : ∀ d, kindOf d = 5 → c ≠ d := fun d hd e => hk (e ▸ hd)
  refine ⟨c, squeezed s, ?_, ne _ (by decide), ne _ (by decide), ne _ (by decide)⟩
  rw [e1]
  unfold squeezed
  rw [List.filter_cons, if_pos (decide_eq_true ⟨ne _ (by decide), ne _ (by decide)⟩)]

theorem untrailed_comma {c : Char} {s r : List Char} (h : c ≠ ')' ∧ c ≠ ']' ∧ c ≠ '}') (e : r = c :: s) :
    untrailed (',' :: r) = ',' :: untrailed r := by
  subst e
  rw [untrailed, if_neg]
  rintro ⟨-, h' | h' | h'⟩
  · simp only [List.head?_cons, Option.some.injEq] at h'; exact h.1 h'
  · simp only [List.head?_cons, Option.some.injEq] at h'; exact h.2.1 h'
  · simp only [List.head?_cons, Option.some.injEq] at h'; exact h.2.2 h'

theorem untrailed_close {c : Char} (h : c = ')' ∨ c = ']' ∨ c = '}') (r : List Char) :
    untrailed (',' :: c :: r) = c :: untrailed r := by
  rcases h with rfl | rfl | rfl <;> rw [untrailed, if_pos (by simp), untrailed, if_neg (by simp)]

theorem untrailed_other {c : Char} (h : c ≠ ',') (r : List Char) : untrailed (c :: r) = c :: untrailed r := by
  rw [untrailed, if_neg (fun e => h e.1)]

mutual
theorem layout : ∀ (t : Dbg) (r : List Char), t.Wf → untrailed (squeezed t.pretty ++ r) = squeezed t.text ++ untrailed r
  | .num n, r, h => by
    simp only [pretty, text, (number_clean n).1]
    exact untrailed_append (number_clean n).2 r
  | .raw _ _, _, h => by simp [Wf] at h
  | .unit, r, h => by
    simp only [pretty, text]
    exact untrailed_append (by decide) r
  | .list [], r, h => by
    simp only [pretty, text, entries]
    exact untrailed_append (by decide) r
  | .list (x :: xs), r, h => by
    simp only [Wf, WfAll] at h
    have e1 : squeezed (pretty (.list (x :: xs))) ++ r = '[' :: (squeezed (pretty x) ++ ',' :: (squeezed (lines xs) ++ ']' :: r)) := by
      rw [pretty_list, show ('[' :: '\n' :: (pad true (lines (x :: xs)) ++ [']'])) = ['[', '\n'] ++ (pad true (lines (x :: xs)) ++ [']']) from rfl,
        squeezed_append, squeezed_append, squeezed_pad]
      simp only [lines]
      rw [show pretty x ++ ',' :: '\n' :: lines xs = pretty x ++ ([',', '\n'] ++ lines xs) from rfl, squeezed_append, squeezed_append]
      simp [squeezed]
    rw [e1, untrailed_other (by decide), layout x _ h.1, layoutAfter xs r h.2 (.inr (.inl rfl))]
    simp only [text, entries]
    rw [show '[' :: (text x ++ entriesAfter xs ++ [']']) = ['['] ++ (text x ++ (entriesAfter xs ++ [']'])) by simp,
      squeezed_append, squeezed_append, squeezed_append]
    simp [squeezed]
  | .tuple name [], r, h => by
    simp only [Wf] at h
    simp only [pretty, text, squeezed_plain h.1.1]
    exact untrailed_append (plain_no_comma h.1.1) r
  | .tuple name (x :: xs), r, h => by
    simp only [Wf, WfAll] at h
    have e1 : squeezed (pretty (.tuple name (x :: xs))) ++ r =
        name.toList ++ '(' :: (squeezed (pretty x) ++ ',' :: (squeezed (lines xs) ++ ')' :: r)) := by
      rw [pretty_tuple, show (name.toList ++ '(' :: '\n' :: (pad true (lines (x :: xs)) ++ [')'])) =
        name.toList ++ (['(', '\n'] ++ (pad true (lines (x :: xs)) ++ [')'])) from rfl,
        squeezed_append, squeezed_append, squeezed_append, squeezed_pad, squeezed_plain h.1.1]
      simp only [lines]
      rw [show pretty x ++ ',' :: '\n' :: lines xs = pretty x ++ ([',', '\n'] ++ lines xs) from rfl, squeezed_append, squeezed_append]
      simp [squeezed]
    rw [e1, untrailed_append (plain_no_comma h.1.1), untrailed_other (by decide), layout x _ h.2.1,
      layoutAfter xs r h.2.2 (.inl rfl)]
    simp only [text]
    rw [show name.toList ++ '(' :: (text x ++ (entriesAfter xs ++ [')'])) = name.toList ++ (['('] ++ (text x ++ (entriesAfter xs ++ [')']))) from rfl,
      squeezed_append, squeezed_append, squeezed_append, squeezed_append, squeezed_plain h.1.1]
    simp [squeezed]
  | .record name [] [] more, r, h => by
    simp only [Wf] at h
    have hm := h.2.2.2.2 trivial
    subst hm
    rw [pretty_hidden]
    simp only [text, fields, if_true]
    rw [squeezed_append, squeezed_append, squeezed_plain h.1.1, List.append_assoc, untrailed_append (plain_no_comma h.1.1),
      untrailed_append (by decide)]
    simp [squeezed]
  | .record name (l :: ls) (v :: vs) more, r, h => by
    simp only [Wf, WfAll] at h
    have hl := h.2.2.1 l (by simp)
    have e1 : squeezed (pretty (.record name (l :: ls) (v :: vs) more)) ++ r =
        name.toList ++ '{' :: (l.toList ++ ':' :: (squeezed (pretty v) ++ ',' :: (squeezed (fieldLines ls vs more) ++ '}' :: r))) := by
      rw [pretty_record _ _ _ _ _ _ (by simpa using h.2.1), show (name.toList ++ ' ' :: '{' :: '\n' ::
        (pad true (fieldLines (l :: ls) (v :: vs) more) ++ ['}'])) =
        name.toList ++ ([' ', '{', '\n'] ++ (pad true (fieldLines (l :: ls) (v :: vs) more) ++ ['}'])) from rfl,
        squeezed_append, squeezed_append, squeezed_append, squeezed_pad, squeezed_plain h.1.1]
      simp only [fieldLines]
      rw [show l.toList ++ ':' :: ' ' :: (pretty v ++ ',' :: '\n' :: fieldLines ls vs more) =
        l.toList ++ ([':', ' '] ++ (pretty v ++ ([',', '\n'] ++ fieldLines ls vs more))) from rfl, squeezed_append, squeezed_append,
        squeezed_append, squeezed_append, squeezed_plain hl.1]
      simp [squeezed]
    rw [e1, untrailed_append (plain_no_comma h.1.1), untrailed_other (by decide), untrailed_append (plain_no_comma hl.1),
      untrailed_other (by decide), layout v _ h.2.2.2.1.1,
      layoutFields vs ls more r h.2.2.2.1.2 (by simpa using h.2.1) (fun x hx => h.2.2.1 x (by simp [hx]))]
    simp only [text, fields, if_true]
    rw [show name.toList ++ ([' ', '{', ' '] ++ (l.toList ++ ':' :: ' ' :: (text v ++ fields false ls vs more))) =
      name.toList ++ ([' ', '{', ' '] ++ (l.toList ++ ([':', ' '] ++ (text v ++ fields false ls vs more)))) from rfl,
      squeezed_append, squeezed_append, squeezed_append, squeezed_append, squeezed_append, squeezed_plain h.1.1, squeezed_plain hl.1]
    simp [squeezed]
  | .record name [] (_ :: _) _, _, h => by simp [Wf] at h
  | .record name (_ :: _) [] _, _, h => by simp [Wf] at h
termination_by structural t => t
theorem layoutAfter : ∀ (xs : List Dbg) (r : List Char) {c : Char}, WfAll xs → (c = ')' ∨ c = ']' ∨ c = '}') →
    untrailed (',' :: (squeezed (lines xs) ++ c :: r)) = squeezed (entriesAfter xs) ++ c :: untrailed r
  | [], r, c, h, hc => by
    simp only [lines, entriesAfter]
    exact untrailed_close hc r
  | x :: xs, r, c, h, hc => by
    simp only [WfAll] at h
    have e1 : squeezed (lines (x :: xs)) ++ c :: r = squeezed (pretty x) ++ ',' :: (squeezed (lines xs) ++ c :: r) := by
      simp only [lines]
      rw [show pretty x ++ ',' :: '\n' :: lines xs = pretty x ++ ([',', '\n'] ++ lines xs) from rfl, squeezed_append, squeezed_append]
      simp [squeezed]
    obtain ⟨d, s, hd, hne⟩ := squeezed_head h.1
    rw [e1, untrailed_comma hne (by rw [hd]; rfl), layout x _ h.1, layoutAfter xs r h.2 hc]
    simp only [entriesAfter]
    rw [show ',' :: ' ' :: (text x ++ entriesAfter xs) = [',', ' '] ++ (text x ++ entriesAfter xs) from rfl, squeezed_append,
      squeezed_append]
    simp [squeezed]
termination_by structural xs => xs
theorem layoutFields : ∀ (vs : List Dbg) (ls : List String) (more : Bool) (r : List Char), WfAll vs → ls.length = vs.length →
    (∀ l ∈ ls, Named l) →
    untrailed (',' :: (squeezed (fieldLines ls vs more) ++ '}' :: r)) = squeezed (fields false ls vs more) ++ untrailed r
  | [], ls, more, r, h, hl, hn => by
    match ls, more with
    | [], false =>
      simp only [fieldLines, fields]
      exact untrailed_close (.inr (.inr rfl)) r
    | [], true =>
      simp only [fieldLines, fields]
      show untrailed (',' :: '.' :: '.' :: '}' :: r) = ',' :: '.' :: '.' :: '}' :: untrailed r
      rw [untrailed_comma (c := '.') (by decide) rfl, untrailed_other (by decide), untrailed_other (by decide),
        untrailed_other (by decide)]
  | v :: vs, ls, more, r, h, hl, hn => by
    match ls with
    | l :: ls =>
      simp only [WfAll] at h
      have hl' := hn l (by simp)
      have e1 : squeezed (fieldLines (l :: ls) (v :: vs) more) ++ '}' :: r =
          l.toList ++ ':' :: (squeezed (pretty v) ++ ',' :: (squeezed (fieldLines ls vs more) ++ '}' :: r)) := by
        simp only [fieldLines]
        rw [show l.toList ++ ':' :: ' ' :: (pretty v ++ ',' :: '\n' :: fieldLines ls vs more) =
          l.toList ++ ([':', ' '] ++ (pretty v ++ ([',', '\n'] ++ fieldLines ls vs more))) from rfl, squeezed_append, squeezed_append,
          squeezed_append, squeezed_append, squeezed_plain hl'.1]
        simp [squeezed]
      have hd : ∃ c s, l.toList = c :: s ∧ c ≠ ')' ∧ c ≠ ']' ∧ c ≠ '}' := by
        cases hb : l.toList with
        | nil => exact absurd hl'.2 (by rw [hb]; simp)
        | cons c s =>
          have := hl'.1 c (by simp [hb])
          exact ⟨c, s, rfl, fun e => by subst e; exact absurd this (by decide), fun e => by subst e; exact absurd this (by decide),
            fun e => by subst e; exact absurd this (by decide)⟩
      obtain ⟨d, s, hd, hne⟩ := hd
      rw [e1, untrailed_comma hne (by rw [hd]; rfl), untrailed_append (plain_no_comma hl'.1), untrailed_other (by decide),
        layout v _ h.1, layoutFields vs ls more r h.2 (by simpa using hl) (fun x hx => hn x (by simp [hx]))]
      simp only [fields, Bool.false_eq_true, if_false]
      rw [show [',', ' '] ++ (l.toList ++ ':' :: ' ' :: (text v ++ fields false ls vs more)) =
        [',', ' '] ++ (l.toList ++ ([':', ' '] ++ (text v ++ fields false ls vs more))) from rfl,
        squeezed_append, squeezed_append, squeezed_append, squeezed_append, squeezed_plain hl'.1]
      simp [squeezed]
termination_by structural vs => vs
end

/-- The text for `{:#?}` is the text for `{:?}`, up to spaces, line breaks and trailing commas. -/
theorem layout_eq {t : Dbg} (h : t.Wf) : untrailed (squeezed t.pretty) = squeezed t.text := by
  have := layout t [] h
  simpa [untrailed] using this

end Dbg
end Dxl
