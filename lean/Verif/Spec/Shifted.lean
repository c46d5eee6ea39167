import Verif.Spec.Late

/-! # Packets that are taken one after the other

Used by C96. No reference to the code of the crate. -/

namespace Dxl.Spec

/-- When someone who looks from `start` on, and takes one packet after the other, has taken these. -/
def takenAll (start : Nat) (packets : List LateAnswer) : Nat := packets.foldl (fun t a => a.complete t) start

/-- Each packet is complete before the wait for it is over. The waits follow each other; each begins when the packet before is
complete. -/
def InTurn : (now : Nat) → (waits : List Nat) → List LateAnswer → Prop
  | _, [], [] => True
  | now, wait :: waits, a :: packets => (∀ p ∈ a.pieces, p.1 ≤ now + wait) ∧ InTurn (a.complete now) waits packets
  | _, _, _ => False

/-- Rounds that follow each other: each begins at `now` with a write of the given duration, and in the turns after that these
packets come. Nothing that comes before `now` is left, and the next round begins when the last of the packets is complete. -/
def Polled (waits : List Nat) : (now : Nat) → (rounds : List (Nat × List LateAnswer)) → (left : List LateAnswer) → Prop
  | now, [], left => ∀ a ∈ left, ∀ p ∈ a.pieces, now < p.1
  | now, (writing, packets) :: rounds, left =>
    (∀ a ∈ packets, ∀ p ∈ a.pieces, now < p.1) ∧ InTurn (now + writing) waits packets ∧
      Polled waits (takenAll (now + writing) packets) rounds left

/-- When each of the rounds begins. -/
def begins : (now : Nat) → (rounds : List (Nat × List LateAnswer)) → List Nat
  | _, [] => []
  | now, (writing, packets) :: rounds => now :: begins (takenAll (now + writing) packets) rounds

/-- The packets of each round when `extra` comes first: everything is one place behind. -/
def behind (extra : LateAnswer) : List (List LateAnswer) → List (List LateAnswer)
  | [] => []
  | answers :: rounds => (extra :: answers).dropLast :: behind (answers.getLastD extra) rounds

/-- What is left in the end. -/
def behindLast (extra : LateAnswer) : List (List LateAnswer) → LateAnswer
  | [] => extra
  | answers :: rounds => behindLast (answers.getLastD extra) rounds

end Dxl.Spec
