import Verif.Model.Bus

/-! # Code that writes into a slice keeps its length

In Rust this is guaranteed by the type `&mut [u8]`; in the model it is a property of every piece of encoding code,
needed to build an `Encoder`. -/

namespace Dxl

/-- `m` never changes the length of the slice it works on: no code can, through a `&mut [u8]` (`src/bus/mod.rs:191`). -/
def KeepsLength {ε α : Type} (m : SO (List Byte) ε α) : Prop := ∀ s, (m s).1.length = s.length

namespace KeepsLength

theorem pure {ε α : Type} (a : α) : KeepsLength (Pure.pure a : SO (List Byte) ε α) := fun _ => rfl

theorem lift {ε α : Type} (o : Outcome ε α) : KeepsLength (SO.lift o : SO (List Byte) ε α) := fun _ => rfl

theorem panic {ε α : Type} : KeepsLength (SO.panic : SO (List Byte) ε α) := fun _ => rfl

theorem get {ε : Type} : KeepsLength (SO.get : SO (List Byte) ε (List Byte)) := fun _ => rfl

theorem bind {ε α β : Type} {m : SO (List Byte) ε α} {f : α → SO (List Byte) ε β} (hm : KeepsLength m)
    (hf : ∀ a, KeepsLength (f a)) : KeepsLength (m >>= f) := by
  intro s
  have h := hm s
  show (SO.bind m f s).1.length = s.length
  unfold SO.bind
  split
  all_goals rename_i hs; rw [hs] at h
  · rw [hf _ _]; exact h
  all_goals exact h

theorem setIdx {ε : Type} (i : Nat) (v : Byte) : KeepsLength (Dxl.setIdx (ε := ε) i v) := by
  intro s
  unfold Dxl.setIdx
  split <;> simp

theorem copyFromSlice {ε : Type} (src : List Byte) : KeepsLength (Dxl.copyFromSlice (ε := ε) src) := by
  intro s
  unfold Dxl.copyFromSlice
  split <;> simp_all

theorem onSlice {ε α : Type} (a b : Nat) {m : SO (List Byte) ε α} (hm : KeepsLength m) :
    KeepsLength (Dxl.onSlice a b m) := by
  intro s
  unfold Dxl.onSlice
  split
  · simp [hm _]; omega
  · rfl

theorem onSliceFrom {ε α : Type} (a : Nat) {m : SO (List Byte) ε α} (hm : KeepsLength m) :
    KeepsLength (Dxl.onSliceFrom a m) := fun s => onSlice a s.length hm s

theorem writeU16Le {ε : Type} (v : U16) : KeepsLength (Dxl.writeU16Le (ε := ε) v) :=
  bind (setIdx _ _) fun _ => setIdx _ _

theorem writeU8Le {ε : Type} (v : Byte) : KeepsLength (Dxl.writeU8Le (ε := ε) v) := setIdx _ _

theorem assert {ε : Type} (c : Bool) : KeepsLength (SO.assert (ε := ε) c) := by
  intro s
  unfold SO.assert
  split <;> rfl

end KeepsLength

/-- The encoder `|_| Ok(())`, for example in `src/instructions/action.rs:16`. -/
def Encoder.nothing : Encoder := ⟨Pure.pure (), KeepsLength.pure ()⟩

end Dxl
