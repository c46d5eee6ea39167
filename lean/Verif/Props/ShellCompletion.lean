import Verif.Model.ShellCompletion
import Verif.Lemmas.Basic

/-! # C73: shell completions -/

namespace Dxl.Props
open Dxl

/-- The script with a line break at its end. -/
def ScriptText (generated text : List Byte) : Prop :=
  (∃ lines, text = lines ++ [0x0A#8]) ∧ (text = generated ∨ text = generated ++ [0x0A#8] ∧ ¬ ∃ lines, generated = lines ++ [0x0A#8])

/-- The ways to write `-`: slashes may follow, and dots after slashes. -/
inductive NamesDash : List Byte → Prop
  | dash : NamesDash [0x2D#8]
  | slash {path : List Byte} (h : NamesDash path) : NamesDash (path ++ [0x2F#8])
  | dot {path : List Byte} (h : NamesDash path) : NamesDash (path ++ [0x2F#8, 0x2E#8])

theorem withNewline_script (generated : List Byte) : ScriptText generated (Cli.withNewline generated) := by
  unfold Cli.withNewline ScriptText
  split
  · rename_i h
    obtain ⟨lines, rfl⟩ := List.getLast?_eq_some_iff.mp h
    exact ⟨⟨lines, rfl⟩, .inl rfl⟩
  · rename_i h
    refine ⟨⟨generated, rfl⟩, .inr ⟨rfl, ?_⟩⟩
    rintro ⟨lines, rfl⟩
    exact h (List.getLast?_eq_some_iff.mpr ⟨lines, rfl⟩)

theorem pieces_ne_nil (p : List Byte) : Cli.pieces p ≠ [] := by
  cases p with
  | nil => simp [Cli.pieces]
  | cons c p =>
    unfold Cli.pieces
    split
    · simp
    · split <;> simp

theorem pieces_slash (p q : List Byte) : Cli.pieces (p ++ 0x2F#8 :: q) = Cli.pieces p ++ Cli.pieces q := by
  induction p with
  | nil => simp [Cli.pieces]
  | cons c p ih =>
    have hc : ∀ l, Cli.pieces (c :: l) = if c = 0x2F#8 then [] :: Cli.pieces l else match Cli.pieces l with
      | [] => [[c]]
      | piece :: rest => (c :: piece) :: rest := fun _ => rfl
    rw [List.cons_append, hc, hc, ih]
    split
    · rfl
    · obtain ⟨a, as, h⟩ := List.exists_cons_of_ne_nil (pieces_ne_nil p)
      rw [h]
      rfl

/-- The path that consists of these parts. -/
def joined : List (List Byte) → List Byte
  | [] => []
  | [a] => a
  | a :: b :: rest => a ++ 0x2F#8 :: joined (b :: rest)

theorem joined_pieces (p : List Byte) : joined (Cli.pieces p) = p := by
  induction p with
  | nil => rfl
  | cons c p ih =>
    obtain ⟨a, as, h⟩ := List.exists_cons_of_ne_nil (pieces_ne_nil p)
    unfold Cli.pieces
    rw [h] at ih ⊢
    split
    · rename_i hc
      subst hc
      show [] ++ 0x2F#8 :: joined (a :: as) = _
      rw [ih]; rfl
    · cases as with
      | nil => rw [← ih]; rfl
      | cons b bs => rw [← ih]; rfl

theorem joined_append (l : List (List Byte)) (hl : l ≠ []) (a : List Byte) : joined (l ++ [a]) = joined l ++ 0x2F#8 :: a := by
  induction l with
  | nil => exact absurd rfl hl
  | cons b bs ih =>
    cases bs with
    | nil => rfl
    | cons c cs =>
      show b ++ 0x2F#8 :: joined (c :: cs ++ [a]) = b ++ 0x2F#8 :: joined (c :: cs) ++ 0x2F#8 :: a
      rw [ih (by simp), List.append_assoc]
      rfl

theorem component_none {a : List Byte} : Cli.component a = none ↔ a = [] ∨ a = [0x2E#8] := by
  constructor
  · intro h
    unfold Cli.component at h
    split at h
    · exact .inl rfl
    · exact .inr rfl
    · cases h
    · cases h
  · rintro (rfl | rfl) <;> rfl

theorem dash_joined (rest : List (List Byte)) (h : ∀ a ∈ rest, a = [] ∨ a = [0x2E#8]) : NamesDash (joined ([0x2D#8] :: rest)) := by
  have : ∀ n : Nat, ∀ rest : List (List Byte), rest.length = n → (∀ a ∈ rest, a = [] ∨ a = [0x2E#8]) → NamesDash (joined ([0x2D#8] :: rest)) := by
    intro n
    induction n with
    | zero =>
      intro rest hn _
      obtain rfl := List.eq_nil_of_length_eq_zero hn
      exact .dash
    | succ n ih =>
      intro rest hn h
      have hne : rest ≠ [] := by intro h'; rw [h'] at hn; cases hn
      have hr := List.dropLast_concat_getLast hne
      have h0 := ih rest.dropLast (by rw [List.length_dropLast]; omega) fun a ha => h a (List.dropLast_subset _ ha)
      rw [← hr, ← List.cons_append, joined_append _ (by simp)]
      rcases h _ (List.getLast_mem hne) with h' | h' <;> rw [h']
      · exact .slash h0
      · exact .dot h0
  exact this _ rest rfl h

theorem samePath_dash (p : List Byte) : Cli.samePath p [0x2D#8] = true ↔ NamesDash p := by
  have hd : Cli.components [0x2D#8] = [.normal [0x2D#8]] := by decide
  unfold Cli.samePath
  rw [hd, beq_iff_eq]
  constructor
  · intro h
    unfold Cli.components at h
    split at h
    · cases h
    · rename_i first rest hp
      split at h
      · split at h
        · rename_i h1 h2
          subst h2
          simp [Cli.pieces] at hp
          obtain ⟨-, rfl⟩ := hp
          cases h
        · cases h
      · split at h
        · cases h
        · rename_i h1 h2
          have hc : Cli.component first ≠ none := fun h' => by
            rcases component_none.mp h' with h' | h'
            · exact h1 h'
            · exact h2 h'
          obtain ⟨c, hc'⟩ := Option.ne_none_iff_exists'.mp hc
          rw [hc'] at h
          obtain ⟨rfl, hrest⟩ := List.cons.inj h
          have hf : first = [0x2D#8] := by
            unfold Cli.component at hc'
            split at hc'
            · cases hc'
            · cases hc'
            · cases hc'
            · exact Cli.Component.normal.inj (Option.some.inj hc')
          subst hf
          rw [← joined_pieces p, hp]
          exact dash_joined rest fun a ha => component_none.mp (List.filterMap_eq_nil_iff.mp hrest a ha)
  · intro h
    have hp : ∃ rest, Cli.pieces p = [0x2D#8] :: rest ∧ ∀ a ∈ rest, Cli.component a = none := by
      induction h with
      | dash => exact ⟨[], by decide, by simp⟩
      | slash h ih =>
        obtain ⟨rest, h1, h2⟩ := ih
        refine ⟨rest ++ [[]], by rw [pieces_slash, h1]; rfl, fun a ha => ?_⟩
        rcases List.mem_append.mp ha with ha | ha
        · exact h2 a ha
        · rw [List.mem_singleton.mp ha]; rfl
      | dot h ih =>
        obtain ⟨rest, h1, h2⟩ := ih
        refine ⟨rest ++ [[0x2E#8]], by rw [pieces_slash, h1]; rfl, fun a ha => ?_⟩
        rcases List.mem_append.mp ha with ha | ha
        · exact h2 a ha
        · rw [List.mem_singleton.mp ha]; rfl
    obtain ⟨rest, h1, h2⟩ := hp
    unfold Cli.components
    rw [h1]
    show [Cli.Component.normal [0x2D#8]] ++ _ = _
    rw [List.filterMap_eq_nil_iff.mpr h2]
    rfl

theorem orGiveUp_ok {ε α : Type} {text : ε → List Char} {m : SO Cli.Outside ε α} {o o' : Cli.Outside} {a : α} (h : m o = (o', .ok a)) :
    Cli.orGiveUp text m o = (o', .ok a) := by
  unfold Cli.orGiveUp
  rw [SO.bind_ok (show m.attempt o = (o', .ok (.ok a)) by unfold SO.attempt; rw [h])]
  rfl

theorem orGiveUp_err {ε α : Type} {text : ε → List Char} {m : SO Cli.Outside ε α} {o o' : Cli.Outside} {e : ε} (h : m o = (o', .err e)) :
    Cli.orGiveUp text m o = ({ o' with records := o'.records ++ [⟨"dynamixel2".toList, .error, text e⟩] }, .err ()) := by
  unfold Cli.orGiveUp
  rw [SO.bind_ok (show m.attempt o = (o', .ok (.error e)) by unfold SO.attempt; rw [h])]
  rfl

/-- **C73** Without a name for the output, and with the name `-`, the script goes to standard output, with a line break at its end. The
exit code and the messages tell whether all of it was written; no file changes. -/
theorem c73_stdout (io : IoErr → List Char) (display : List Byte → List Char) (shell : List Char) (generated : List Byte)
    {path : Option (List Byte)} (hp : ∀ p, path = some p → NamesDash p) (o : Cli.Outside) :
    ∃ text, ScriptText generated text ∧ ∃ o', (Cli.completionMain io display shell generated path o).1 = o' ∧ o'.files = o.files ∧
      match o.stdoutFault with
      | none => (Cli.completionMain io display shell generated path o).2 = .ok 0 ∧ o'.stdout = o.stdout ++ text ∧
          o'.records = o.records ++ [⟨"dynamixel2".toList, .debug, "Writing shell completion for ".toList ++ shell ++ " to stdout".toList⟩]
      | some (n, e) => (Cli.completionMain io display shell generated path o).2 = .ok 1 ∧ o'.stdout = o.stdout ++ text.take n ∧
          o'.records = o.records ++ [⟨"dynamixel2".toList, .debug, "Writing shell completion for ".toList ++ shell ++ " to stdout".toList⟩,
            ⟨"dynamixel2".toList, .error, "Failed to write to stdout: ".toList ++ io e⟩] := by
  refine ⟨Cli.withNewline generated, withNewline_script generated, _, rfl, ?_⟩
  have hs : Cli.samePath (path.getD [0x2D#8]) [0x2D#8] = true := by
    rw [samePath_dash]
    cases path with
    | none => exact .dash
    | some p => exact hp p rfl
  unfold Cli.completionMain Cli.writeShellCompletion
  rw [if_pos hs]
  cases hf : o.stdoutFault with
  | none =>
    rw [SO.bind_ok (show Cli.noteDebug _ o = (_, .ok ()) from rfl), orGiveUp_ok (a := ()) (by
      show _ = (_, Outcome.ok ())
      unfold Cli.writeStdout Cli.faulty; dsimp only; rw [hf])]
    exact ⟨rfl, rfl, rfl, rfl⟩
  | some f =>
    rw [SO.bind_ok (show Cli.noteDebug _ o = (_, .ok ()) from rfl), orGiveUp_err (e := f.2) (by
      show _ = (_, Outcome.err f.2)
      unfold Cli.writeStdout Cli.faulty; dsimp only; rw [hf])]
    exact ⟨rfl, rfl, rfl, List.append_assoc _ _ _⟩

/-- **C73** With any other name, the script goes to that file, which then has the script and nothing else. If it can not be created it is as before;
if it can not be written, the start of the script is there, and what was there before is lost. Nothing goes to standard output, no
other file changes, and the exit code and the messages tell what happened. -/
theorem c73_file (io : IoErr → List Char) (display : List Byte → List Char) (shell : List Char) (generated : List Byte)
    {path : List Byte} (hp : ¬ NamesDash path) (o : Cli.Outside) :
    ∃ text, ScriptText generated text ∧ ∃ o', (Cli.completionMain io display shell generated (some path) o).1 = o' ∧ o'.stdout = o.stdout ∧
      (∀ p, p ≠ path → o'.files p = o.files p) ∧
      match o.createFault, o.fileFault with
      | some e, _ => (Cli.completionMain io display shell generated (some path) o).2 = .ok 1 ∧ o'.files path = o.files path ∧
          o'.records = o.records ++ [⟨"dynamixel2".toList, .debug, "Writing shell completion for ".toList ++ shell ++ " to ".toList ++ display path⟩,
            ⟨"dynamixel2".toList, .error, "Failed to create ".toList ++ display path ++ ": ".toList ++ io e⟩]
      | none, none => (Cli.completionMain io display shell generated (some path) o).2 = .ok 0 ∧ o'.files path = some text ∧
          o'.records = o.records ++ [⟨"dynamixel2".toList, .debug, "Writing shell completion for ".toList ++ shell ++ " to ".toList ++ display path⟩]
      | none, some (n, e) => (Cli.completionMain io display shell generated (some path) o).2 = .ok 1 ∧ o'.files path = some (text.take n) ∧
          o'.records = o.records ++ [⟨"dynamixel2".toList, .debug, "Writing shell completion for ".toList ++ shell ++ " to ".toList ++ display path⟩,
            ⟨"dynamixel2".toList, .error, "Failed to write to ".toList ++ display path ++ ": ".toList ++ io e⟩] := by
  refine ⟨Cli.withNewline generated, withNewline_script generated, _, rfl, ?_⟩
  have hs : ¬ Cli.samePath path [0x2D#8] = true := by rwa [samePath_dash]
  unfold Cli.completionMain Cli.writeShellCompletion
  dsimp only [Option.getD_some]
  rw [if_neg hs]
  cases hc : o.createFault with
  | some e =>
    rw [SO.bind_ok (show Cli.noteDebug _ o = (_, .ok ()) from rfl), SO.bind_err (orGiveUp_err (e := e) (by
      show _ = (_, Outcome.err e)
      unfold Cli.createFile; dsimp only; rw [hc]))]
    exact ⟨rfl, fun _ _ => rfl, rfl, rfl, List.append_assoc _ _ _⟩
  | none =>
    cases hf : o.fileFault with
    | none =>
      rw [SO.bind_ok (show Cli.noteDebug _ o = (_, .ok ()) from rfl), SO.bind_ok (orGiveUp_ok (a := ()) (by
        show _ = (_, Outcome.ok ())
        unfold Cli.createFile; dsimp only; rw [hc])), orGiveUp_ok (a := ()) (by
        show _ = (_, Outcome.ok ())
        unfold Cli.writeFile Cli.faulty; dsimp only; rw [hf])]
      exact ⟨rfl, fun p hp => by simp [hp], rfl, by simp, rfl⟩
    | some f =>
      rw [SO.bind_ok (show Cli.noteDebug _ o = (_, .ok ()) from rfl), SO.bind_ok (orGiveUp_ok (a := ()) (by
        show _ = (_, Outcome.ok ())
        unfold Cli.createFile; dsimp only; rw [hc])), orGiveUp_err (e := f.2) (by
        show _ = (_, Outcome.err f.2)
        unfold Cli.writeFile Cli.faulty; dsimp only; rw [hf])]
      exact ⟨rfl, fun p hp => by simp [hp], rfl, by simp, List.append_assoc _ _ _⟩

/-! ## Examples -/

/-- Slashes and dots after the dash make no difference, a dot before it does. -/
example : NamesDash [0x2D#8, 0x2F#8, 0x2F#8, 0x2E#8] ∧ ¬ NamesDash [0x2E#8, 0x2F#8, 0x2D#8] ∧ ¬ NamesDash [] :=
  ⟨.dot (.slash .dash), fun h => by have := (samePath_dash _).mpr h; revert this; decide,
    fun h => by have := (samePath_dash _).mpr h; revert this; decide⟩

/-- A script without a line break, to a file that was there. -/
example : (Cli.completionMain (fun _ => []) (fun _ => "f".toList) "bash".toList [0x61#8] (some [0x66#8])
    ⟨[], fun _ => some [1#8, 2#8, 3#8], [], none, none, none⟩).1.files [0x66#8] = some [0x61#8, 0x0A#8] := by decide

/-- Standard output is closed after three bytes. -/
example : ((Cli.completionMain (fun _ => "Broken pipe".toList) (fun _ => []) "bash".toList [0x61#8, 0x62#8, 0x63#8, 0x0A#8] none
    ⟨[], fun _ => none, [], some (3, .other 32), none, none⟩).1.stdout, (Cli.completionMain (fun _ => "Broken pipe".toList) (fun _ => [])
    "bash".toList [0x61#8, 0x62#8, 0x63#8, 0x0A#8] none ⟨[], fun _ => none, [], some (3, .other 32), none, none⟩).2) =
    ([0x61#8, 0x62#8, 0x63#8], .ok 1) := by decide

/-- C73: the hypothesis holds for a dash and a slash. -/
example := c73_stdout (fun _ => []) (fun _ => []) "bash".toList [0x61#8] (path := some [0x2D#8, 0x2F#8])
  (fun p h => by cases h; exact .slash .dash) ⟨[], fun _ => none, [], none, none, none⟩

end Dxl.Props
