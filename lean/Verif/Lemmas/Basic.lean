import Verif.Model.Basic

/-! # Computation rules for outcomes and state passing -/

namespace Dxl

namespace Outcome
@[simp] theorem pure_eq {ε α : Type} (a : α) : (pure a : Outcome ε α) = .ok a := rfl
@[simp] theorem ok_bind {ε α β : Type} (a : α) (f : α → Outcome ε β) : (Outcome.ok a >>= f) = f a := rfl
@[simp] theorem err_bind {ε α β : Type} (e : ε) (f : α → Outcome ε β) : (Outcome.err e >>= f) = .err e := rfl
@[simp] theorem panic_bind {ε α β : Type} (f : α → Outcome ε β) : (Outcome.panic >>= f) = .panic := rfl
@[simp] theorem hang_bind {ε α β : Type} (f : α → Outcome ε β) : (Outcome.hang >>= f) = .hang := rfl
@[simp] theorem mapErr_ok {ε ε' α : Type} (f : ε → ε') (a : α) : (Outcome.ok a).mapErr f = .ok a := rfl
@[simp] theorem mapErr_err {ε ε' α : Type} (f : ε → ε') (e : ε) :
    (Outcome.err e : Outcome ε α).mapErr f = .err (f e) := rfl
@[simp] theorem mapErr_panic {ε ε' α : Type} (f : ε → ε') : (Outcome.panic : Outcome ε α).mapErr f = .panic := rfl
@[simp] theorem mapErr_hang {ε ε' α : Type} (f : ε → ε') : (Outcome.hang : Outcome ε α).mapErr f = .hang := rfl

theorem bind_eq_ok {ε α β : Type} {o : Outcome ε α} {f : α → Outcome ε β} {b : β} :
    (o >>= f) = .ok b ↔ ∃ a, o = .ok a ∧ f a = .ok b := by
  cases o <;> simp

theorem mapErr_eq_ok {ε ε' α : Type} {f : ε → ε'} {o : Outcome ε α} {a : α} :
    o.mapErr f = .ok a ↔ o = .ok a := by
  cases o <;> simp
end Outcome

namespace SO
variable {σ τ ε ε' α β : Type}

/-- The rest of the computation, given the result of the first part. -/
theorem bind_def (m : SO σ ε α) (f : α → SO σ ε β) (s : σ) :
    (m >>= f) s = match m s with
      | (s', .ok a) => f a s'
      | (s', .err e) => (s', .err e)
      | (s', .panic) => (s', .panic)
      | (s', .hang) => (s', .hang) := rfl

theorem bind_ok {m : SO σ ε α} {s s' : σ} {a : α} (h : m s = (s', .ok a)) (f : α → SO σ ε β) :
    (m >>= f) s = f a s' := by rw [bind_def, h]
theorem bind_err {m : SO σ ε α} {s s' : σ} {e : ε} (h : m s = (s', .err e)) (f : α → SO σ ε β) :
    (m >>= f) s = (s', .err e) := by rw [bind_def, h]
theorem bind_panic {m : SO σ ε α} {s s' : σ} (h : m s = (s', .panic)) (f : α → SO σ ε β) :
    (m >>= f) s = (s', .panic) := by rw [bind_def, h]
theorem bind_hang {m : SO σ ε α} {s s' : σ} (h : m s = (s', .hang)) (f : α → SO σ ε β) :
    (m >>= f) s = (s', .hang) := by rw [bind_def, h]

@[simp] theorem pure_apply (a : α) (s : σ) : (pure a : SO σ ε α) s = (s, .ok a) := rfl
@[simp] theorem lift_apply (o : Outcome ε α) (s : σ) : SO.lift o s = (s, o) := rfl
@[simp] theorem get_apply (s : σ) : (SO.get : SO σ ε σ) s = (s, .ok s) := rfl
@[simp] theorem modify_apply (f : σ → σ) (s : σ) : (SO.modify f : SO σ ε Unit) s = (f s, .ok ()) := rfl
@[simp] theorem throw_apply (e : ε) (s : σ) : (SO.throw e : SO σ ε α) s = (s, .err e) := rfl
@[simp] theorem panic_apply (s : σ) : (SO.panic : SO σ ε α) s = (s, .panic) := rfl
@[simp] theorem hang_apply (s : σ) : (SO.hang : SO σ ε α) s = (s, .hang) := rfl
@[simp] theorem mapErr_apply (f : ε → ε') (m : SO σ ε α) (s : σ) :
    m.mapErr f s = ((m s).1, (m s).2.mapErr f) := rfl
@[simp] theorem zoom_apply (g : σ → τ) (p : τ → σ → σ) (m : SO τ ε α) (s : σ) :
    SO.zoom g p m s = (p (m (g s)).1 s, (m (g s)).2) := rfl

@[simp] theorem get_bind (f : σ → SO σ ε β) (s : σ) : (SO.get >>= f) s = f s s := rfl
@[simp] theorem pure_bind' (a : α) (f : α → SO σ ε β) (s : σ) : ((pure a : SO σ ε α) >>= f) s = f a s := rfl
@[simp] theorem modify_bind (g : σ → σ) (f : Unit → SO σ ε β) (s : σ) :
    (SO.modify g >>= f) s = f () (g s) := rfl
@[simp] theorem lift_ok_bind (a : α) (f : α → SO σ ε β) (s : σ) :
    (SO.lift (.ok a) >>= f) s = f a s := rfl
@[simp] theorem lift_err_bind (e : ε) (f : α → SO σ ε β) (s : σ) :
    (SO.lift (.err e) >>= f) s = (s, .err e) := rfl
@[simp] theorem lift_panic_bind (f : α → SO σ ε β) (s : σ) :
    (SO.lift .panic >>= f) s = (s, .panic) := rfl
@[simp] theorem lift_hang_bind (f : α → SO σ ε β) (s : σ) :
    (SO.lift .hang >>= f) s = (s, .hang) := rfl
@[simp] theorem throw_bind (e : ε) (f : α → SO σ ε β) (s : σ) : ((SO.throw e : SO σ ε α) >>= f) s = (s, .err e) := rfl
@[simp] theorem panic_bind (f : α → SO σ ε β) (s : σ) : ((SO.panic : SO σ ε α) >>= f) s = (s, .panic) := rfl

@[simp] theorem assert_true : (SO.assert true : SO σ ε Unit) = pure () := rfl
@[simp] theorem assert_false : (SO.assert false : SO σ ε Unit) = SO.panic := rfl
end SO

section slices
variable {ε α : Type}

theorem idx_lt {l : List Byte} {i : Nat} (h : i < l.length) : idx (ε := ε) l i = .ok l[i] := by
  simp [idx, h]

theorem slice_ok {l : List Byte} {a b : Nat} (h : a ≤ b) (h' : b ≤ l.length) :
    slice (ε := ε) l a b = .ok ((l.take b).drop a) := by simp [slice, h, h']

theorem sliceFrom_ok {l : List Byte} {a : Nat} (h : a ≤ l.length) : sliceFrom (ε := ε) l a = .ok (l.drop a) := by
  simp [sliceFrom, slice, h]

theorem setIdx_ok {l : List Byte} {i : Nat} (v : Byte) (h : i < l.length) :
    setIdx (ε := ε) i v l = (l.set i v, .ok ()) := by simp [setIdx, h]

theorem onSlice_ok {l : List Byte} {a b : Nat} (m : SO (List Byte) ε α) (h : a ≤ b) (h' : b ≤ l.length) :
    onSlice a b m l = (l.take a ++ (m ((l.take b).drop a)).1 ++ l.drop b, (m ((l.take b).drop a)).2) := by
  simp [onSlice, h, h']

theorem onSliceFrom_ok {l : List Byte} {a : Nat} (m : SO (List Byte) ε α) (h : a ≤ l.length) :
    onSliceFrom a m l = (l.take a ++ (m (l.drop a)).1, (m (l.drop a)).2) := by
  simp [onSliceFrom, onSlice, h]

end slices
end Dxl
