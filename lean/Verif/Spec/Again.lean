import Verif.Spec.Servo

/-! # Specification: doing it again

What a memory is after it served the same request again. No reference to the model. -/

namespace Dxl.Spec

/-- The memory served the request `n` times, the last time with this answer. -/
inductive Repeated (r : Request) : Nat → Servo → Servo → ServoReply → Prop
  | once {s s' : Servo} {reply : ServoReply} (h : s.serve r = some (s', reply)) : Repeated r 1 s s' reply
  | again {n : Nat} {s s₁ s₂ : Servo} {reply reply' : ServoReply} (h : Repeated r n s s₁ reply) (h' : s₁.serve r = some (s₂, reply')) :
      Repeated r (n + 1) s s₂ reply'

/-- Three times the same write, and an action that is asked for twice. -/
example : Repeated (.write 1#16 [7#8]) 2 ⟨[0#8, 0#8], none⟩ ⟨[0#8, 7#8], none⟩ Servo.done ∧
    Repeated .action 2 ⟨[0#8, 0#8], some (1#16, [7#8])⟩ ⟨[0#8, 7#8], none⟩ Servo.outside :=
  ⟨.again (.once (s' := ⟨[0#8, 7#8], none⟩) (reply := Servo.done) (by decide)) (by decide),
   .again (.once (s' := ⟨[0#8, 7#8], none⟩) (reply := Servo.done) (by decide)) (by decide)⟩

end Dxl.Spec
