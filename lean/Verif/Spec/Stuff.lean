/-! # Specification: byte stuffing of the DYNAMIXEL protocol 2.0

"If FF FF FD appears in the instruction or parameters, FD is inserted after it." No reference to the model. -/

namespace Dxl.Spec

/-- Insert `FD` after every `FF FF FD`. -/
def stuff : List (BitVec 8) → List (BitVec 8)
  | a :: b :: c :: rest =>
    if a = 0xFF#8 ∧ b = 0xFF#8 ∧ c = 0xFD#8 then a :: b :: c :: 0xFD#8 :: stuff rest
    else a :: stuff (b :: c :: rest)
  | [a, b] => [a, b]
  | [a] => [a]
  | [] => []

/-- Remove the `FD` following every `FF FF FD`. -/
def unstuff : List (BitVec 8) → List (BitVec 8)
  | a :: b :: c :: d :: rest =>
    if a = 0xFF#8 ∧ b = 0xFF#8 ∧ c = 0xFD#8 ∧ d = 0xFD#8 then a :: b :: c :: unstuff rest
    else a :: unstuff (b :: c :: d :: rest)
  | [a, b, c] => [a, b, c]
  | [a, b] => [a, b]
  | [a] => [a]
  | [] => []

/-- Number of occurrences of `FF FF FD`. -/
def occurrences : List (BitVec 8) → Nat
  | a :: b :: c :: rest =>
    (if a = 0xFF#8 ∧ b = 0xFF#8 ∧ c = 0xFD#8 then 1 else 0) + occurrences (b :: c :: rest)
  | _ => 0

/-- Every `FF FF FD` in `d` ends a run of `FF`s whose length is 2 modulo 3 (2, 5, 8, ...).
Data without `FF FF FF FD` has this property. -/
def RunsOk (d : List (BitVec 8)) : Prop :=
  ∀ pre n post, d = pre ++ List.replicate n 0xFF#8 ++ 0xFD#8 :: post → pre.getLast? ≠ some 0xFF#8 →
    n < 2 ∨ n % 3 = 2

/-- No `FD` in `d` ends a run of `FF`s whose length is 2 modulo 3. -/
def NoSuchRuns (d : List (BitVec 8)) : Prop :=
  ∀ pre n post, d = pre ++ List.replicate n 0xFF#8 ++ 0xFD#8 :: post → pre.getLast? ≠ some 0xFF#8 → n % 3 ≠ 2

/-- Runs of `FF`s of the given lengths, each with an `FD` behind it. -/
def links (ks : List Nat) : List (BitVec 8) := ks.flatMap fun k => List.replicate k 0xFF#8 ++ [0xFD#8]

/-- `d` consists of a part where no `FD` ends a run of 2, 5, 8, ... `FF`s; possibly one such run with its `FD`, directly
followed by any number of runs of 3, 6, 9, ... `FF`s with an `FD` each; and a part where every `FF FF FD` ends a run of 2, 5,
8, ... `FF`s. -/
def Survives (d : List (BitVec 8)) : Prop :=
  ∃ d₁ ks d₂, d = d₁ ++ links ks ++ d₂ ∧ d₁.getLast? ≠ some 0xFF#8 ∧ NoSuchRuns d₁ ∧
    (∀ k ∈ ks.head?, k % 3 = 2) ∧ (∀ k ∈ ks.tail, k ≠ 0 ∧ k % 3 = 0) ∧ RunsOk d₂

/-- Number of `FD`s in `d` that end a run of 2, 5, 8, ... `FF`s, where `r` `FF`s come before `d`. -/
def marked : Nat → List (BitVec 8) → Nat
  | _, [] => 0
  | r, b :: d =>
    if b = 0xFF#8 then marked (r + 1) d
    else if b = 0xFD#8 ∧ r % 3 = 2 then marked 0 d + 1
    else marked 0 d

/-- The form in which the crate sends `body` (for `RunsOk` data it is `stuff body`): a part up to the end of some run of
`FF`s is left as it is, and behind it every `FF FF FD` is stuffed. There are as many of these as there are `FD`s in `body`
that end a run of 2, 5, 8, ... `FF`s. -/
def StuffedForm (body wire : List (BitVec 8)) : Prop :=
  ∃ d₁ d₂, body = d₁ ++ d₂ ∧ wire = d₁ ++ stuff d₂ ∧ d₁.getLast? ≠ some 0xFF#8 ∧ occurrences d₂ = marked 0 body

/-- What the crate makes of the received body `wire` (for the `stuff body` of `RunsOk` data it is `body`). After a run of 2,
5, 8, ... `FF`s and an `FD`, another `FD` is removed, and any other byte is kept, without counting for the next run. -/
inductive Unstuffs : List (BitVec 8) → List (BitVec 8) → Prop
  | run (n : Nat) : Unstuffs (List.replicate n 0xFF#8) (List.replicate n 0xFF#8)
  | plain (n : Nat) {c : BitVec 8} {rest out : List (BitVec 8)} (hc : c ≠ 0xFF#8) (h : c = 0xFD#8 → n % 3 ≠ 2) :
    Unstuffs rest out → Unstuffs (List.replicate n 0xFF#8 ++ c :: rest) (List.replicate n 0xFF#8 ++ c :: out)
  | removed (n : Nat) {rest out : List (BitVec 8)} (h : n % 3 = 2) :
    Unstuffs rest out → Unstuffs (List.replicate n 0xFF#8 ++ 0xFD#8 :: 0xFD#8 :: rest) (List.replicate n 0xFF#8 ++ 0xFD#8 :: out)
  | kept (n : Nat) {x : BitVec 8} {rest out : List (BitVec 8)} (h : n % 3 = 2) (hx : x ≠ 0xFD#8) :
    Unstuffs rest out →
      Unstuffs (List.replicate n 0xFF#8 ++ 0xFD#8 :: x :: rest) (List.replicate n 0xFF#8 ++ 0xFD#8 :: x :: out)
  | last (n : Nat) (h : n % 3 = 2) :
    Unstuffs (List.replicate n 0xFF#8 ++ [0xFD#8]) (List.replicate n 0xFF#8 ++ [0xFD#8])

end Dxl.Spec
