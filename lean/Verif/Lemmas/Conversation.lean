import Verif.Lemmas.LineThread

/-! # A conversation of the client and the motors, on whole packets -/

namespace Dxl.Props
open Dxl Spec Spec.Line

/-! ## Inversion of `Mot` -/

open Classical in
/-- The instructions for this motor among the messages. -/
noncomputable def owns (id : Byte) (ms : List Msg) : List (List Byte) :=
  (ms.filter fun m => decide (Own id m)).map (·.2)

theorem owns_append (id : Byte) (a b : List Msg) : owns id (a ++ b) = owns id a ++ owns id b := by simp [owns]

theorem owns_cons_own {id : Byte} {m : Msg} (h : Own id m) (p : List Msg) : owns id (m :: p) = m.2 :: owns id p := by
  simp [owns, h]

theorem owns_cons_not {id : Byte} {m : Msg} (h : ¬ Own id m) (p : List Msg) : owns id (m :: p) = owns id p := by
  simp [owns, h]

theorem owns_nil_of {id : Byte} {ms : List Msg} (h : ∀ m ∈ ms, ¬ Own id m) : owns id ms = [] := by
  simp only [owns, List.map_eq_nil_iff, List.filter_eq_nil_iff]
  intro m hm
  simpa using h m hm

/-- What `Mot` does in one event. -/
inductive MotStep (id : Byte) : Servo × List Msg → Event' → Servo × List Msg → Prop
  | get {s : Servo} {p ms : List Msg} : MotStep id (s, p) (.got ms) (s, p ++ ms)
  | late {st : Servo × List Msg} {e : IoErr} : MotStep id st (.failed e) st
  | answer {s s' : Servo} {m : Msg} {p : List Msg} {r : Request} {reply : ServoReply} (hm : m.2 = requestFrame id r)
      (hs : Survives r.body) (hr : s.serve r = some (s', reply)) (hl : (replyFrame id reply).length ≤ 128) :
      MotStep id (s, m :: p) (.wrote (replyFrame id reply)) (s', [])

theorem Mot.inv {id : Byte} {st₀ st : Servo × List Msg} {h : List Event'} (hm : Mot id st₀ h st) :
    (h = [] → st.1 = st₀.1 ∧ owns id st.2 = owns id st₀.2) ∧
    ∀ h' e, h = h' ++ [e] → ∃ st₁ st₂, Mot id st₀ h' st₁ ∧ MotStep id st₁ e st₂ ∧ st.1 = st₂.1 ∧ owns id st.2 = owns id st₂.2 := by
  induction hm with
  | nil => exact ⟨fun _ => ⟨rfl, rfl⟩, fun h' e he => by simp at he⟩
  | get hm _ =>
    refine ⟨fun he => by simp at he, fun h' e he => ?_⟩
    obtain ⟨rfl, hq⟩ := List.append_inj' he rfl
    obtain rfl := List.singleton_inj.mp hq
    exact ⟨_, _, hm, .get, rfl, rfl⟩
  | late hm _ =>
    refine ⟨fun he => by simp at he, fun h' e he => ?_⟩
    obtain ⟨rfl, hq⟩ := List.append_inj' he rfl
    obtain rfl := List.singleton_inj.mp hq
    exact ⟨_, _, hm, .late, rfl, rfl⟩
  | skip hm hn ih =>
    obtain ⟨ih₁, ih₂⟩ := ih
    refine ⟨fun he => ?_, fun h' e he => ?_⟩
    · have := ih₁ he
      dsimp only at this ⊢
      rw [owns_cons_not hn] at this
      exact this
    · obtain ⟨st₁, st₂, k1, k2, k3, k4⟩ := ih₂ h' e he
      dsimp only at k3 k4
      rw [owns_cons_not hn] at k4
      exact ⟨st₁, st₂, k1, k2, k3, k4⟩
  | answer hm k1 k2 k3 k4 _ =>
    refine ⟨fun he => by simp at he, fun h' e he => ?_⟩
    obtain ⟨rfl, hq⟩ := List.append_inj' he rfl
    obtain rfl := List.singleton_inj.mp hq
    exact ⟨_, _, hm, .answer k1 k2 k3 k4, rfl, rfl⟩

/-! ## The conversation -/

/-- A call: an instruction for a motor. -/
structure Ask where
  to : Byte
  request : Request

/-- The packet that is sent. -/
def Ask.frame (x : Ask) : List Byte := requestFrame x.to x.request

/-- The instructions that are part of the conversation. -/
structure Ask.Ok (x : Ask) : Prop where
  served : Served x.request
  to : x.to ≠ 254#8
  survives : Survives x.request.body
  length : x.frame.length ≤ 128

/-- One of the memories changes. -/
def update (σ : Byte → Servo) (id : Byte) (s : Servo) : Byte → Servo := fun i => if i = id then s else σ i

/-- A new motor. -/
def newServo : Servo := ⟨List.replicate 200 0#8, none⟩

/-- No packet of the conversation is damaged by byte stuffing (C04). -/
def Smooth : (Byte → Servo) → List Ask → Prop
  | _, [] => True
  | σ, x :: xs => Survives x.request.body ∧ ∀ s' reply, (σ x.to).serve x.request = some (s', reply) →
      Survives (0x55#8 :: reply.error :: reply.data) ∧ Smooth (update σ x.to s') xs

/-- The conversation has come to an answer for each of these calls: the memories then, all messages, and what the client saw. -/
inductive Done (ids : List Byte) : List Ask → (Byte → Servo) → List Msg → List Event' → Prop
  | nil : Done ids [] (fun _ => newServo) [] []
  | snoc {xs : List Ask} {x : Ask} {σ : Byte → Servo} {w : List Msg} {hs : List Event'} {k : Nat} {s' : Servo} {reply : ServoReply}
      (h : Done ids xs σ w hs) (hk : ids[k]? = some x.to) (hr : (σ x.to).serve x.request = some (s', reply))
      (hl : (replyFrame x.to reply).length ≤ 128) :
      Done ids (xs ++ [x]) (update σ x.to s') (w ++ [(0, x.frame), (k + 1, replyFrame x.to reply)])
        (hs ++ [.wrote x.frame, .got [(k + 1, replyFrame x.to reply)]])

namespace Done
variable {ids : List Byte} {xs : List Ask} {σ : Byte → Servo} {w : List Msg} {hs : List Event'}

theorem smooth (h : Done ids xs σ w hs) : ∀ {rest : List Ask}, Smooth (fun _ => newServo) (xs ++ rest) → Smooth σ rest := by
  induction h with
  | nil => intro rest h; exact h
  | snoc _ _ hr _ ih =>
    intro rest h
    rw [List.append_assoc] at h
    exact ((ih h).2 _ _ hr).2

theorem good (h : Done ids xs σ w hs) : ∀ {rest : List Ask}, Smooth (fun _ => newServo) (xs ++ rest) → (∀ x ∈ xs, x.Ok) →
    ∀ m ∈ w, Good m.2 := by
  induction h with
  | nil => intro _ _ _ m hm; cases hm
  | @snoc xs x σ w hs k s' reply h hk hr hl ih =>
    intro rest hsm hok m hm
    rw [List.append_assoc] at hsm
    rcases List.mem_append.mp hm with hm | hm
    · exact ih hsm (fun y hy => hok y (by simp [hy])) m hm
    · have hx := hok x (by simp)
      simp only [List.mem_cons, List.not_mem_nil, or_false] at hm
      rcases hm with rfl | rfl
      · exact .request ⟨hx.served, hx.to⟩ hx.survives hx.length
      · exact .reply ((h.smooth hsm).2 _ _ hr).1 hl

/-- What was said by whom. -/
theorem messages (h : Done ids xs σ w hs) :
    from_ 0 w = xs.map Ask.frame ∧ heard hs = w.filter (fun m => m.1 != 0) ∧ ∀ m ∈ w, m.1 ≠ 0 → IsReply m := by
  induction h with
  | nil => exact ⟨rfl, rfl, by simp⟩
  | @snoc xs x σ w hs k s' reply h hk hr hl ih =>
    obtain ⟨i1, i2, i3⟩ := ih
    refine ⟨?_, ?_, ?_⟩
    · rw [from_append, i1]; simp [from_]
    · rw [heard_append, i2]; simp [heard]
    · intro m hm h0
      rcases List.mem_append.mp hm with hm | hm
      · exact i3 m hm h0
      · simp only [List.mem_cons, List.not_mem_nil, or_false] at hm
        rcases hm with rfl | rfl
        · exact absurd rfl h0
        · exact ⟨_, _, rfl⟩

end Done

/-! ## What the client does -/

/-- The client asks and reads something, again and again. -/
inductive Talk : List Ask → List Seen → Prop
  | nil : Talk [] []
  | cons {x : Ask} {xs : List Ask} {g : List Byte} {gs : List (List Byte)} {t : List Seen} (h : Talk xs t) :
      Talk (x :: xs) (.wrote x.frame :: (g :: gs).map .got ++ t)

/-- Questions and answers. -/
def exchange (ps : List (Ask × List Byte)) : List Seen := ps.flatMap fun p => [.wrote p.1.frame, .got p.2]

theorem Done.exchange {ids : List Byte} {xs : List Ask} {σ : Byte → Servo} {w : List Msg} {hs : List Event'}
    (h : Done ids xs σ w hs) : ∃ ps, ps.map (·.1) = xs ∧ hs.map Event'.plain = Props.exchange ps := by
  induction h with
  | nil => exact ⟨[], rfl, rfl⟩
  | @snoc xs x σ w hs k s' reply h hk hr hl ih =>
    obtain ⟨ps, h1, h2⟩ := ih
    exact ⟨ps ++ [(x, replyFrame x.to reply)], by simp [h1], by simp [h2, Props.exchange, Event'.plain, bytes]⟩

theorem Talk.after {todo : List Ask} : ∀ {ps : List (Ask × List Byte)} {total : List Seen},
    Talk (ps.map (·.1) ++ todo) total → exchange ps <+: total →
    ∃ gs rest, total = exchange ps ++ (List.map .got gs ++ rest) ∧ Talk todo rest := by
  intro ps
  induction ps with
  | nil => intro total ht _; exact ⟨[], total, rfl, ht⟩
  | cons p ps ih =>
    intro total ht hp
    simp only [List.map_cons, List.cons_append] at ht
    cases ht with
    | @cons _ _ g gs t ht =>
      simp only [exchange, List.flatMap_cons, List.cons_append, List.nil_append, List.map_cons, List.cons_prefix_cons,
        Seen.got.injEq, true_and] at hp
      obtain ⟨hg, hp⟩ := hp
      cases ps with
      | nil =>
        refine ⟨gs, t, ?_, ht⟩
        simp [exchange, hg]
      | cons q ps =>
        cases gs with
        | nil =>
          obtain ⟨gs', rest, h1, h2⟩ := ih ht hp
          refine ⟨gs', rest, ?_, h2⟩
          rw [h1]
          simp [exchange, hg]
        | cons g' gs =>
          simp only [List.flatMap_cons, List.cons_append, List.map_cons, List.cons_prefix_cons] at hp
          simp at hp

/-- After an answer the client reads on or asks the next question. -/
theorem Talk.next {ids : List Byte} {xs todo : List Ask} {σ : Byte → Servo} {w : List Msg} {hs : List Event'} {total : List Seen}
    {e : Seen} (ht : Talk (xs ++ todo) total) (hd : Done ids xs σ w hs) (hp : hs.map Event'.plain ++ [e] <+: total) :
    (∃ g, e = .got g) ∨ ∃ x todo', todo = x :: todo' ∧ e = .wrote x.frame := by
  obtain ⟨ps, rfl, h2⟩ := hd.exchange
  rw [h2] at hp
  obtain ⟨gs, rest, rfl, h3⟩ := ht.after ((List.prefix_append _ _).trans hp)
  rw [List.prefix_append_right_inj] at hp
  match gs, hp with
  | g :: gs, hp =>
    simp only [List.map_cons, List.cons_append, List.cons_prefix_cons] at hp
    exact .inl ⟨g, hp.1⟩
  | [], hp =>
    rw [List.map_nil, List.nil_append] at hp
    cases h3 with
    | nil => simp at hp
    | cons h3 =>
      simp only [List.cons_append, List.cons_prefix_cons] at hp
      exact .inr ⟨_, _, rfl, hp.1⟩

/-- After a question the client reads. -/
theorem Talk.reads {ids : List Byte} {xs todo : List Ask} {x : Ask} {σ : Byte → Servo} {w : List Msg} {hs : List Event'}
    {total : List Seen} {e : Seen} (ht : Talk (xs ++ x :: todo) total) (hd : Done ids xs σ w hs)
    (hp : hs.map Event'.plain ++ [.wrote x.frame, e] <+: total) : ∃ g, e = .got g := by
  obtain ⟨ps, rfl, h2⟩ := hd.exchange
  rw [h2] at hp
  obtain ⟨gs, rest, rfl, h3⟩ := ht.after ((List.prefix_append _ _).trans hp)
  rw [List.prefix_append_right_inj] at hp
  match gs, hp with
  | g :: gs, hp => simp at hp
  | [], hp =>
    rw [List.map_nil, List.nil_append] at hp
    cases h3 with
    | cons h3 =>
      simp only [List.cons_append, List.map_cons, List.cons_prefix_cons] at hp
      exact ⟨_, hp.2.1⟩

/-! ## The invariant -/

open Classical in
/-- The instructions for this motor among the packets. -/
noncomputable def mine (id : Byte) (fs : List (List Byte)) : List (List Byte) :=
  fs.filter fun f => decide (∃ r, f = requestFrame id r)

theorem mine_append (id : Byte) (a b : List (List Byte)) : mine id (a ++ b) = mine id a ++ mine id b := by simp [mine]

theorem mine_prefix (id : Byte) {a b : List (List Byte)} (h : a <+: b) : mine id a <+: mine id b := h.filter _

theorem mine_own (x : Ask) : mine x.to [x.frame] = [x.frame] := by
  have h : ∃ r, x.frame = requestFrame x.to r := ⟨_, rfl⟩
  simp [mine, h]

theorem mine_other {x : Ask} {id : Byte} (h : x.to ≠ id) : mine id [x.frame] = [] := by
  have h : ¬ ∃ r, x.frame = requestFrame id r := other_not_own (k := 0) (r := x.request) h
  simp [mine, h]

theorem owns_mine {id : Byte} {ms : List Msg} (h : ∀ m ∈ ms, m.1 ≠ 0 → ¬ Own id m) : owns id ms = mine id (from_ 0 ms) := by
  induction ms with
  | nil => rfl
  | cons m ms ih =>
    have ih := ih fun x hx => h x (by simp [hx])
    by_cases h0 : m.1 = 0
    · have hf : from_ 0 (m :: ms) = m.2 :: from_ 0 ms := by simp [from_, h0]
      rw [hf]
      by_cases ho : Own id m
      · have hx : ∃ r, m.2 = requestFrame id r := ho
        rw [owns_cons_own ho, ih]
        simp [mine, hx]
      · have hx : ¬ ∃ r, m.2 = requestFrame id r := ho
        rw [owns_cons_not ho, ih]
        simp [mine, hx]
    · have hf : from_ 0 (m :: ms) = from_ 0 ms := by simp [from_, h0]
      rw [hf, owns_cons_not (h m (by simp) h0), ih]

theorem decoded_unique {r r' : Request} {s : Servo} {a : Servo × ServoReply} (d : decoded r = decoded r')
    (hs : s.serve r = some a) : r = r' := by
  cases r with
  | ping => cases r' with
    | ping => rfl
    | factoryReset k => cases k <;> cases d
    | _ => cases d
  | read => cases r' with
    | read => cases d; rfl
    | factoryReset k => cases k <;> cases d
    | _ => cases d
  | write => cases r' with
    | write => cases d; rfl
    | factoryReset k => cases k <;> cases d
    | _ => cases d
  | regWrite => cases r' with
    | regWrite => cases d; rfl
    | factoryReset k => cases k <;> cases d
    | _ => cases d
  | action => cases r' with
    | action => rfl
    | factoryReset k => cases k <;> cases d
    | _ => cases d
  | _ => cases hs

/-- The packet determines the instruction. -/
theorem request_unique {id to : Byte} {r r' : Request} {s s₁ : Servo} {reply : ServoReply} (h : requestFrame id r = requestFrame to r')
    (hr : Survives r.body) (hr' : Survives r'.body) (hs : s.serve r = some (s₁, reply)) : id = to ∧ r = r' := by
  obtain ⟨h1, h2⟩ := frame_inj h
  refine ⟨h1, ?_⟩
  have e1 := codeUnstuff_of (survives_unstuffs (stuffedForm_codeStuff r.body) hr)
  have e2 := codeUnstuff_of (survives_unstuffs (stuffedForm_codeStuff r'.body) hr')
  rw [h2, e2] at e1
  obtain ⟨e3, e4⟩ := List.cons.inj (show r'.number :: r'.parameters = r.number :: r.parameters from e1)
  have d := parseInstruction_request r
  rw [← e3, ← e4, parseInstruction_request r'] at d
  have d : decoded r' = decoded r := by simpa using d
  exact decoded_unique d.symm hs

/-- Where the conversation is: the calls that have been answered by a motor, and the memories. -/
inductive Phase (ids : List Byte) (all : List Ask) (l : Story) : List Ask → (Byte → Servo) → Prop
  | idle {xs todo : List Ask} {σ : Byte → Servo} {w : List Msg} {hs : List Event'} (hd : Done ids xs σ w hs) (ha : all = xs ++ todo)
      (hw : writes l = w) (hh : hist 0 l = hs) : Phase ids all l xs σ
  | asked {xs todo : List Ask} {x : Ask} {σ : Byte → Servo} {w : List Msg} {hs : List Event'} (hd : Done ids xs σ w hs)
      (ha : all = xs ++ x :: todo) (hw : writes l = w ++ [(0, x.frame)]) (hh : hist 0 l = hs ++ [.wrote x.frame]) :
      Phase ids all l xs σ
  | answered {xs todo : List Ask} {x : Ask} {σ : Byte → Servo} {w : List Msg} {hs : List Event'} {k : Nat} {s' : Servo}
      {reply : ServoReply} (hd : Done ids xs σ w hs) (hk : ids[k]? = some x.to)
      (hr : (σ x.to).serve x.request = some (s', reply)) (hl : (replyFrame x.to reply).length ≤ 128)
      (ha : all = xs ++ x :: todo) (hw : writes l = w ++ [(0, x.frame), (k + 1, replyFrame x.to reply)])
      (hh : hist 0 l = hs ++ [.wrote x.frame]) : Phase ids all l (xs ++ [x]) (update σ x.to s')

namespace Phase
variable {ids : List Byte} {all xs : List Ask} {l : Story} {σ : Byte → Servo}

theorem good (h : Phase ids all l xs σ) (hs : Smooth (fun _ => newServo) all) (hok : ∀ x ∈ all, x.Ok) :
    ∀ m ∈ writes l, Good m.2 := by
  cases h with
  | idle hd ha hw hh =>
    subst ha
    rw [hw]
    exact hd.good hs fun x hx => hok x (by simp [hx])
  | @asked xs todo x σ w hst hd ha hw hh =>
    subst ha
    rw [hw]
    intro m hm
    rcases List.mem_append.mp hm with hm | hm
    · exact hd.good hs (fun x hx => hok x (by simp [hx])) m hm
    · have hx := hok x (by simp)
      obtain rfl := List.mem_singleton.mp hm
      exact .request ⟨hx.served, hx.to⟩ hx.survives hx.length
  | @answered xs todo x σ w hst k s' reply hd hk hr hl ha hw hh =>
    subst ha
    rw [hw]
    exact (Done.snoc hd hk hr hl).good (rest := todo) (by simpa using hs) fun y hy => hok y (by
      rcases List.mem_append.mp hy with hy | hy
      · simp [hy]
      · simp [List.mem_singleton.mp hy])

theorem replies (h : Phase ids all l xs σ) : ∀ m ∈ writes l, m.1 ≠ 0 → IsReply m := by
  cases h with
  | idle hd ha hw hh => rw [hw]; exact hd.messages.2.2
  | asked hd ha hw hh =>
    rw [hw]
    intro m hm h0
    rcases List.mem_append.mp hm with hm | hm
    · exact hd.messages.2.2 m hm h0
    · rw [List.mem_singleton.mp hm] at h0
      exact absurd rfl h0
  | answered hd hk hr hl ha hw hh => rw [hw]; exact (Done.snoc hd hk hr hl).messages.2.2

end Phase

/-- What the motors have done. -/
def Motors' (ids : List Byte) (l : Story) (xs : List Ask) (σ : Byte → Servo) : Prop :=
  ∀ k id, ids[k]? = some id → ∀ st, Mot id (newServo, []) (hist (k + 1) l) st →
    st.1 = σ id ∧ owns id (heard (hist (k + 1) l)) = mine id (xs.map Ask.frame) ++ owns id st.2

theorem heard_mem {l : Story} (ho : InOrder l) {j : Nat} {m : Msg} (hm : m ∈ heard (hist j l)) : m ∈ writes l := by
  have h : m.2 ∈ from_ m.1 (heard (hist j l)) := List.mem_map.mpr ⟨m, by simp [hm], rfl⟩
  obtain ⟨m', h1, h2⟩ := List.mem_map.mp ((ho.order m.1 j).subset h)
  obtain ⟨h3, h4⟩ := List.mem_filter.mp h1
  have : m' = m := Prod.ext (by simpa using h4) h2
  exact this ▸ h3

theorem hist_mem {j : Nat} {l : Story} {e : Event'} (h : (j, e) ∈ l) : e ∈ hist j l :=
  List.mem_map.mpr ⟨(j, e), by simp [h], rfl⟩

/-- Only what is due can be received. -/
theorem due_of {a b ms w : List Msg} (hw : ∀ i, from_ i (a ++ ms) <+: from_ i w) (h0 : from_ 0 (a ++ ms) = [])
    (hf : a ++ b = w.filter fun m => m.1 != 0) : (∀ i, from_ i ms <+: from_ i b) := by
  intro i
  by_cases hi : i = 0
  · subst hi
    rw [from_append] at h0
    rw [(List.append_eq_nil_iff.mp h0).2]
    exact List.nil_prefix
  · have h1 : from_ i w = from_ i (a ++ b) := by
      rw [hf]
      simp only [from_, List.filter_filter]
      congr 2
      funext m
      by_cases hm : m.1 = i <;> simp [hm, hi]
    have := hw i
    rwa [h1, from_append, from_append, List.prefix_append_right_inj] at this

theorem due_nil {ms : List Msg} (h : ∀ i, from_ i ms <+: from_ i []) : ms = [] := by
  cases ms with
  | nil => rfl
  | cons m ms =>
    have := h m.1
    simp [from_] at this

theorem due_one {ms : List Msg} {x : Msg} (h : ∀ i, from_ i ms <+: from_ i [x]) (hne : ms ≠ []) : ms = [x] := by
  cases ms with
  | nil => exact absurd rfl hne
  | cons m ms =>
    have h1 := h m.1
    by_cases hm : x.1 = m.1
    · simp [from_, hm] at h1
      obtain rfl : m = x := Prod.ext hm.symm h1.1
      refine congrArg (m :: ·) (due_nil fun i => ?_)
      have h2 := h i
      by_cases hi : m.1 = i
      · simp [from_, hi] at h2
        rw [show from_ i ms = [] by simp [from_]; exact h2]
        exact List.nil_prefix
      · simpa [from_, hi] using h2
    · simp [from_, hm] at h1

theorem hist_snoc_same (j : Nat) (l : Story) (e : Event') : hist j (l ++ [(j, e)]) = hist j l ++ [e] := by
  rw [hist_append, hist_one, if_pos rfl]

theorem hist_snoc_other {i j : Nat} (h : j ≠ i) (l : Story) (e : Event') : hist i (l ++ [(j, e)]) = hist i l := by
  rw [hist_append, hist_one, if_neg h, List.append_nil]

theorem writes_snoc (j : Nat) (l : Story) (e : Event') : writes (l ++ [(j, e)]) = writes l ++ match e with
    | .wrote data => [(j, data)]
    | _ => [] := by
  rw [writes_append]
  cases e <;> rfl

theorem Motors'.client {ids : List Byte} {l : Story} {xs : List Ask} {σ : Byte → Servo} (h : Motors' ids l xs σ) (e : Event') :
    Motors' ids (l ++ [(0, e)]) xs σ := by
  intro k id hk st hm
  rw [hist_snoc_other (by omega)] at hm ⊢
  exact h k id hk st hm

/-- The client does something. -/
theorem client_step {ids : List Byte} {all xs : List Ask} {l : Story} {σ : Byte → Servo} {total : List Seen} {e : Event'}
    (hp : Phase ids all l xs σ) (ho : InOrder (l ++ [(0, e)])) (ht : Talk all total)
    (hc : (hist 0 (l ++ [(0, e)])).map Event'.plain <+: total) : Phase ids all (l ++ [(0, e)]) xs σ := by
  rw [hist_snoc_same, List.map_append, List.map_singleton] at hc
  have hw := writes_snoc 0 l e
  have hh := hist_snoc_same 0 l e
  have o1 := ho.order
  have o2 := ho.self
  cases hp with
  | @idle xs todo σ w hs hd ha hw' hh' =>
    subst ha hw' hh'
    rcases ht.next hd hc with ⟨g, hg⟩ | ⟨x, todo', rfl, hg⟩
    · cases e with
      | got ms =>
        exfalso
        refine ho.nonempty 0 ms (by simp) (due_nil (due_of (a := heard (hist 0 l)) (w := writes l) (fun i => ?_) ?_ ?_))
        · have := o1 i 0
          rw [hh, hw, heard_append] at this
          simpa [heard] using this
        · rw [hh, heard_append] at o2
          simpa [heard] using o2
        · rw [List.append_nil]; exact hd.messages.2.1
      | failed e => cases hg
      | wrote d => cases hg
    · cases e with
      | got ms => cases hg
      | failed e => cases hg
      | wrote d =>
        obtain rfl : d = x.frame := by simpa [Event'.plain] using hg
        exact .asked hd rfl hw hh
  | @asked xs todo x σ w hs hd ha hw' hh' =>
    subst ha
    rw [hh', List.map_append, List.append_assoc] at hc
    obtain ⟨g, hg⟩ := ht.reads hd hc
    cases e with
    | got ms =>
      exfalso
      refine ho.nonempty 0 ms (by simp) (due_nil (due_of (a := heard (hist 0 l)) (w := writes l) (fun i => ?_) ?_ ?_))
      · have := o1 i 0
        rw [hh, hw, heard_append] at this
        simpa [heard] using this
      · rw [hh, heard_append] at o2
        simpa [heard] using o2
      · rw [List.append_nil, hh', hw', heard_append, hd.messages.2.1]; simp [heard]
    | failed e => cases hg
    | wrote d => cases hg
  | @answered xs todo x σ w hs k s' reply hd hk hr hl ha hw' hh' =>
    subst ha
    rw [hh', List.map_append, List.append_assoc] at hc
    obtain ⟨g, hg⟩ := ht.reads hd hc
    cases e with
    | got ms =>
      obtain rfl : ms = [(k + 1, replyFrame x.to reply)] := by
        refine due_one (due_of (a := heard (hist 0 l)) (w := writes l) (fun i => ?_) ?_ ?_) (ho.nonempty 0 ms (by simp))
        · have := o1 i 0
          rw [hh, hw, heard_append] at this
          simpa [heard] using this
        · rw [hh, heard_append] at o2
          simpa [heard] using o2
        · rw [hh', hw', heard_append, hd.messages.2.1]; simp [heard]
      refine .idle (.snoc hd hk hr hl) (todo := todo) (by simp) ?_ ?_
      · rw [hw, hw']; simp
      · rw [hh, hh']; simp
    | failed e => cases hg
    | wrote d => cases hg

/-- A motor reads. -/
theorem motor_reads {ids : List Byte} {all xs : List Ask} {l : Story} {σ : Byte → Servo} {j : Nat} {e : Event'}
    (hp : Phase ids all l xs σ) (hm : Motors' ids l xs σ) (he : ∀ d, e ≠ .wrote d) :
    Phase ids all (l ++ [(j + 1, e)]) xs σ ∧ Motors' ids (l ++ [(j + 1, e)]) xs σ := by
  have hw := writes_snoc (j + 1) l e
  have hh := hist_snoc_other (i := 0) (j := j + 1) (by omega) l e
  have hw : writes (l ++ [(j + 1, e)]) = writes l := by
    rw [hw]
    cases e with
    | wrote d => exact absurd rfl (he d)
    | got _ => simp
    | failed _ => simp
  constructor
  · cases hp with
    | idle hd ha hw' hh' => exact .idle hd ha (hw.trans hw') (hh.trans hh')
    | asked hd ha hw' hh' => exact .asked hd ha (hw.trans hw') (hh.trans hh')
    | answered hd hk hr hl ha hw' hh' => exact .answered hd hk hr hl ha (hw.trans hw') (hh.trans hh')
  · intro k id hk st hst
    by_cases hj : j = k
    · subst hj
      rw [hist_snoc_same] at hst ⊢
      obtain ⟨st₁, st₂, h1, h2, h3, h4⟩ := hst.inv.2 _ _ rfl
      obtain ⟨h5, h6⟩ := hm j id hk st₁ h1
      rw [heard_append, owns_append, h6, h3, h4]
      cases h2 with
      | get => exact ⟨h5, by simp [owns_append, heard]⟩
      | late => exact ⟨h5, by simp [heard, owns]⟩
      | answer => exact absurd rfl (he _)
    · rw [hist_snoc_other (by omega)] at hst ⊢
      exact hm k id hk st hst

/-- A motor answers. -/
theorem motor_writes {ids : List Byte} {all xs : List Ask} {l : Story} {σ : Byte → Servo} {j : Nat} {id : Byte} {d : List Byte}
    (hn : ids.Nodup) (hp : Phase ids all l xs σ) (hm : Motors' ids l xs σ) (ho : InOrder l) (hok : ∀ x ∈ all, x.Ok)
    (hj : ids[j]? = some id) (hst : ∃ st, Mot id (newServo, []) (hist (j + 1) l ++ [.wrote d]) st) :
    ∃ xs' σ', Phase ids all (l ++ [(j + 1, .wrote d)]) xs' σ' ∧ Motors' ids (l ++ [(j + 1, .wrote d)]) xs' σ' := by
  have hw : writes (l ++ [(j + 1, .wrote d)]) = writes l ++ [(j + 1, d)] := writes_snoc (j + 1) l (.wrote d)
  have hh := hist_snoc_other (i := 0) (j := j + 1) (by omega) l (.wrote d)
  have hown : mine id (from_ 0 (heard (hist (j + 1) l))) <+: mine id (from_ 0 (writes l)) := mine_prefix id (ho.order 0 (j + 1))
  rw [← owns_mine fun m hm' h0 => (hp.replies m (heard_mem ho hm') h0).not_own id] at hown
  -- before the answer the motor has the instruction that is next
  have key : ∀ st, Mot id (newServo, []) (hist (j + 1) l ++ [.wrote d]) st →
      ∃ (m : Msg) (p : List Msg) (r : Request) (s' : Servo) (reply : ServoReply), m.2 = requestFrame id r ∧ Survives r.body ∧ (σ id).serve r = some (s', reply) ∧ d = replyFrame id reply ∧
        d.length ≤ 128 ∧ mine id (xs.map Ask.frame) ++ m.2 :: owns id p <+: mine id (from_ 0 (writes l)) ∧
        owns id (heard (hist (j + 1) l)) = mine id (xs.map Ask.frame) ++ m.2 :: owns id p ∧
        st.1 = s' ∧ owns id st.2 = [] := by
    intro st hst
    obtain ⟨st₁, st₂, h1, h2, h3, h4⟩ := hst.inv.2 _ _ rfl
    obtain ⟨h5, h6⟩ := hm j id hj st₁ h1
    cases h2 with
    | @answer s s' m p r reply k1 k2 k3 k4 =>
      dsimp only at h5 h6
      rw [owns_cons_own ⟨r, k1⟩] at h6
      rw [h6] at hown
      subst h5
      exact ⟨m, p, r, s', reply, k1, k2, k3, rfl, k4, hown, h6, h3, h4⟩
  cases hp with
  | @idle xs todo σ w hs hd ha hw' hh' =>
    obtain ⟨st, hst⟩ := hst
    obtain ⟨m, p, r, s', reply, -, -, -, -, -, h, -⟩ := key st hst
    rw [hw', hd.messages.1] at h
    have := h.length_le
    simp at this
    omega
  | @answered xs todo x σ w hs k s' reply hd hk hr hl ha hw' hh' =>
    obtain ⟨st, hst⟩ := hst
    obtain ⟨m, p, r, s', reply, -, -, -, -, -, h, -⟩ := key st hst
    rw [hw', (Done.snoc hd hk hr hl).messages.1] at h
    have := h.length_le
    simp at this
    omega
  | @asked xs todo x σ w hs hd ha hw' hh' =>
    have hx := hok x (by rw [ha]; simp)
    have hfrom : from_ 0 (writes l) = xs.map Ask.frame ++ [x.frame] := by
      rw [hw', from_append, hd.messages.1]; simp [from_]
    have key' : ∀ st, Mot id (newServo, []) (hist (j + 1) l ++ [.wrote d]) st →
        ∃ reply, id = x.to ∧ (σ x.to).serve x.request = some (st.1, reply) ∧ d = replyFrame x.to reply ∧ d.length ≤ 128 ∧
          owns id (heard (hist (j + 1) l)) = mine id (xs.map Ask.frame) ++ [x.frame] ∧ owns id st.2 = [] := by
      intro st hst
      obtain ⟨m, p, r, s', reply, k1, k2, k3, k4, k5, k6, k7, k8, k9⟩ := key st hst
      rw [hfrom, mine_append, List.prefix_append_right_inj] at k6
      have hto : x.to = id := by
        refine Classical.byContradiction fun hne => ?_
        rw [mine_other hne] at k6
        simp at k6
      have hto' := hto
      subst hto
      rw [mine_own] at k6
      obtain ⟨k10, k11⟩ := List.cons_prefix_cons.mp k6
      have k11 := List.prefix_nil.mp k11
      rw [k1] at k10
      obtain ⟨-, rfl⟩ := request_unique k10 k2 hx.survives k3
      refine ⟨reply, rfl, by rw [k8]; exact k3, k4, k5, ?_, k9⟩
      rw [k7, k11, k1]
      rfl
    obtain ⟨st, hst⟩ := hst
    obtain ⟨reply, rfl, k1, k2, k3, -, -⟩ := key' st hst
    refine ⟨xs ++ [x], update σ x.to st.1, ?_, ?_⟩
    · refine .answered hd hj k1 (k2 ▸ k3) ha ?_ (hh.trans hh')
      rw [hw, hw', k2]
      simp
    · intro k id hk st' hst'
      by_cases hjk : j = k
      · subst hjk
        obtain rfl : x.to = id := by rw [hj] at hk; exact Option.some.inj hk
        rw [hist_snoc_same] at hst' ⊢
        obtain ⟨reply', -, k1', -, -, k5, k6⟩ := key' st' hst'
        rw [k1] at k1'
        refine ⟨?_, ?_⟩
        · rw [update, if_pos rfl]
          exact (Prod.mk.inj (Option.some.inj k1')).1.symm
        · rw [heard_append, owns_append, k5, k6, List.map_append, mine_append, List.map_singleton, mine_own]
          simp [heard, owns]
      · have hne : x.to ≠ id := by
          rintro rfl
          obtain ⟨b1, e1⟩ := List.getElem?_eq_some_iff.mp hj
          obtain ⟨b2, e2⟩ := List.getElem?_eq_some_iff.mp hk
          exact hjk (List.getElem_inj hn |>.mp (e1.trans e2.symm))
        rw [hist_snoc_other (by omega)] at hst' ⊢
        obtain ⟨k5, k6⟩ := hm k id hk st' hst'
        refine ⟨?_, ?_⟩
        · rw [update, if_neg (Ne.symm hne)]; exact k5
        · rw [k6, List.map_append, mine_append, List.map_singleton, mine_other hne, List.append_nil]

/-- The conversation, in every interleaving. -/
theorem conversation {ids : List Byte} {all : List Ask} {total : List Seen} (hn : ids.Nodup) (hok : ∀ x ∈ all, x.Ok)
    (hsm : Smooth (fun _ => newServo) all) (ht : Talk all total) : ∀ l : Story, (∀ l', l' <+: l → InOrder l') →
    (∀ x ∈ l, x.1 ≤ ids.length) → (hist 0 l).map Event'.plain <+: total →
    (∀ l', l' <+: l → ∀ k id, ids[k]? = some id → (∀ m ∈ heard (hist (k + 1) l'), Good m.2) →
      ∃ st, Mot id (newServo, []) (hist (k + 1) l') st) →
    ∃ xs σ, Phase ids all l xs σ ∧ Motors' ids l xs σ := by
  have key : ∀ n, ∀ l : Story, l.length = n → (∀ l', l' <+: l → InOrder l') →
    (∀ x ∈ l, x.1 ≤ ids.length) → (hist 0 l).map Event'.plain <+: total →
    (∀ l', l' <+: l → ∀ k id, ids[k]? = some id → (∀ m ∈ heard (hist (k + 1) l'), Good m.2) →
      ∃ st, Mot id (newServo, []) (hist (k + 1) l') st) →
    ∃ xs σ, Phase ids all l xs σ ∧ Motors' ids l xs σ := by
    intro n
    induction n with
    | zero =>
      intro l hl _ _ _ _
      obtain rfl := List.length_eq_zero_iff.mp hl
      refine ⟨[], _, .idle .nil rfl rfl rfl, ?_⟩
      intro k id hk st hm
      obtain ⟨h1, h2⟩ := hm.inv.1 rfl
      exact ⟨h1, by rw [h2]; rfl⟩
    | succ n ih =>
      intro l hl hin hle hc hmot
      obtain ⟨l, ⟨j, e⟩, rfl⟩ : ∃ l' x, l = l' ++ [x] := by
        refine ⟨l.dropLast, l.getLast (by rintro rfl; simp at hl), (List.dropLast_concat_getLast _).symm⟩
      have hpre : l <+: l ++ [(j, e)] := List.prefix_append _ _
      obtain ⟨xs, σ, hp, hm⟩ := ih l (by simpa using hl) (fun l' h => hin l' (h.trans hpre)) (fun x hx => hle x (by simp [hx]))
        (List.IsPrefix.trans (by rw [hist_append, List.map_append]; exact List.prefix_append _ _) hc)
        (fun l' h => hmot l' (h.trans hpre))
      cases j with
      | zero => exact ⟨xs, σ, client_step hp (hin _ (List.prefix_refl _)) ht hc, hm.client e⟩
      | succ j =>
        have hj : j < ids.length := hle (j + 1, e) (by simp)
        cases e with
        | got ms => exact ⟨xs, σ, motor_reads hp hm (by simp)⟩
        | failed e => exact ⟨xs, σ, motor_reads hp hm (by simp)⟩
        | wrote d =>
          refine motor_writes hn hp hm (hin _ hpre) hok (List.getElem?_eq_getElem hj) ?_
          have := hmot _ (List.prefix_refl _) j ids[j] (List.getElem?_eq_getElem hj) fun m hm' => by
            rw [hist_snoc_same, heard_append] at hm'
            exact hp.good hsm hok m (heard_mem (hin _ hpre) (by simpa [heard] using hm'))
          rwa [hist_snoc_same] at this
  intro l
  exact key _ l rfl

end Dxl.Props
