import Verif.Spec.Standin
import Verif.Lemmas.Script
import Verif.Props.AnyPortMore

/-! # Every run with any port is a run with a script port -/

namespace Dxl
open Spec Props

theorem callsOf_append (t u : List Exchange) : callsOf (t ++ u) = callsOf t ++ callsOf u := by
  induction t with
  | nil => rfl
  | cons e t ih => cases e <;> simp [callsOf, ih]

theorem untimed_append (a b : List Call) : untimed (a ++ b) = untimed a ++ untimed b := by simp [untimed]

theorem scripted_read {q : Port} {es : List Exchange} {bs : List Byte} {cap E : Nat}
    (h : Scripted q (.read cap 0 (.ok bs) :: es)) (hb : bs.length ≤ cap) :
    ∃ q', Port.read cap E q = (q', .ok bs) ∧ Scripted q' es ∧ untimed q'.log = untimed q.log ++ [.read cap 0] := by
  refine ⟨_, by simp [Port.read, h.rx, Script.rx, h.now, hb]; rfl, ?_, ?_⟩
  · exact ⟨rfl, h.noop, rfl, h.writeRes, h.discardRes, h.baudRes⟩
  · simp [untimed]

theorem scripted_fail {q : Port} {es : List Exchange} {e : IoErr} {cap E : Nat}
    (h : Scripted q (.read cap 0 (.error e) :: es)) :
    ∃ q', Port.read cap E q = (q', .err e) ∧ Scripted q' es ∧ untimed q'.log = untimed q.log ++ [.read cap 0] := by
  refine ⟨_, by simp [Port.read, h.rx, Script.rx, h.now]; rfl, ?_, ?_⟩
  · exact ⟨rfl, h.noop, rfl, h.writeRes, h.discardRes, h.baudRes⟩
  · simp [untimed]

theorem scripted_discard {q : Port} {es : List Exchange} {a : Option IoErr} (h : Scripted q (.discard a :: es)) :
    ∃ q', Port.discardInputBuffer q = (q', Exchange.unitOutcome a) ∧ Scripted q' es ∧
      untimed q'.log = untimed q.log ++ [.discard a.isNone] := by
  cases a with
  | none =>
    refine ⟨_, by simp [Port.discardInputBuffer, h.discardRes, Script.discardRes, Exchange.unitOutcome]; rfl, ?_, ?_⟩
    · exact ⟨h.now, h.noop, by simp [Port.dropArrived, h.noop, h.rx, Script.rx], h.writeRes, rfl, h.baudRes⟩
    · simp [untimed]
  | some e =>
    refine ⟨_, by simp [Port.discardInputBuffer, h.discardRes, Script.discardRes, Exchange.unitOutcome]; rfl, ?_, ?_⟩
    · exact ⟨h.now, h.noop, h.rx, h.writeRes, rfl, h.baudRes⟩
    · simp [untimed]

theorem scripted_write {q : Port} {es : List Exchange} {bytes : List Byte} {a : Option IoErr}
    (h : Scripted q (.write bytes a :: es)) :
    ∃ q', Port.writeAll bytes q = (q', Exchange.unitOutcome a) ∧ Scripted q' es ∧
      untimed q'.log = untimed q.log ++ [.write bytes a.isNone] := by
  cases a with
  | none =>
    refine ⟨_, by simp [Port.writeAll, h.writeRes, Script.writeRes, Exchange.unitOutcome]; rfl, ?_, ?_⟩
    · exact ⟨h.now, h.noop, h.rx, rfl, h.discardRes, h.baudRes⟩
    · simp [untimed]
  | some e =>
    refine ⟨_, by simp [Port.writeAll, h.writeRes, Script.writeRes, Exchange.unitOutcome]; rfl, ?_, ?_⟩
    · exact ⟨h.now, h.noop, h.rx, rfl, h.discardRes, h.baudRes⟩
    · simp [untimed]

theorem scripted_baud {q : Port} {es : List Exchange} {rate : Nat} {a : Option IoErr} (h : Scripted q (.setBaud rate a :: es)) :
    ∃ q', Port.setBaudRate rate q = (q', Exchange.unitOutcome a) ∧ Scripted q' es ∧
      untimed q'.log = untimed q.log ++ [.setBaud rate a.isNone] := by
  cases a with
  | none =>
    refine ⟨_, by simp [Port.setBaudRate, h.baudRes, Script.baudRes, Exchange.unitOutcome]; rfl, ?_, ?_⟩
    · exact ⟨h.now, h.noop, h.rx, h.writeRes, h.discardRes, rfl⟩
    · simp [untimed]
  | some e =>
    refine ⟨_, by simp [Port.setBaudRate, h.baudRes, Script.baudRes, Exchange.unitOutcome]; rfl, ?_, ?_⟩
    · exact ⟨h.now, h.noop, h.rx, h.writeRes, h.discardRes, rfl⟩
    · simp [untimed]

/-- Two kinds of states, one of them with any port. -/
structure View (P : PortImpl) (L R : Type) where
  good : Nat → L → Prop
  rel : L → R → Prop
  leftPort : L → P.Port
  rightPort : R → Port

variable {P : PortImpl} {L R : Type}

/-- What the one does with any port, the other does with some script. -/
def Transfers (V : View P L R) (w : Nat) {ε ε' α α' : Type} (f : ε → ε') (g : α → α') (m : SO L ε α) (m' : SO R ε' α') :
    Prop :=
  ∀ s, V.good w s → (m s).2 ≠ .hang → V.good w (m s).1 ∧ ∃ t,
    (∀ rec, P.Records rec → rec (V.leftPort (m s).1) = rec (V.leftPort s) ++ t) ∧
    ∀ s' es, V.rel s s' → Scripted (V.rightPort s') (t ++ es) →
      (m' s').2 = (m s).2.both f g ∧ V.rel (m s).1 (m' s').1 ∧ Scripted (V.rightPort (m' s').1) es ∧
      untimed (V.rightPort (m' s').1).log = untimed (V.rightPort s').log ++ callsOf t

namespace Transfers

variable {V : View P L R} {w : Nat} {ε ε' ε₂ ε₂' α α' β β' : Type} {f : ε → ε'} {g : α → α'}

theorem bind {h : β → β'} {m : SO L ε α} {m' : SO R ε' α'} {k : α → SO L ε β} {k' : α' → SO R ε' β'}
    (hm : Transfers V w f g m m') (hk : ∀ a, Transfers V w f h (k a) (k' (g a))) : Transfers V w f h (m >>= k) (m' >>= k') := by
  intro s hs hh
  rw [SO.bind_def] at hh ⊢
  have h1 := hm s hs
  rcases e : m s with ⟨s1, o⟩
  rw [e] at hh h1
  simp only at h1
  cases o with
  | ok a =>
    simp only at hh ⊢
    obtain ⟨hg1, t, hr1, ht1⟩ := h1 (by simp)
    obtain ⟨hg2, t2, hr2, ht2⟩ := hk a s1 hg1 hh
    refine ⟨hg2, t ++ t2, ?_, ?_⟩
    · intro rec hrec
      rw [hr2 rec hrec, hr1 rec hrec, List.append_assoc]
    · intro s' es hrel hsc
      rw [List.append_assoc] at hsc
      obtain ⟨h3, h4, h5, h6⟩ := ht1 s' _ hrel hsc
      rw [SO.bind_def]
      rcases e' : m' s' with ⟨s1', o'⟩
      rw [e'] at h3 h4 h5 h6
      simp only [Outcome.both] at h3
      subst h3
      obtain ⟨h7, h8, h9, h10⟩ := ht2 s1' es h4 h5
      refine ⟨h7, h8, h9, ?_⟩
      rw [h10, h6, callsOf_append, List.append_assoc]
  | err x =>
    simp only at hh ⊢
    obtain ⟨hg1, t, hr1, ht1⟩ := h1 (by simp)
    refine ⟨hg1, t, hr1, fun s' es hrel hsc => ?_⟩
    obtain ⟨h3, h4, h5, h6⟩ := ht1 s' _ hrel hsc
    rw [SO.bind_def]
    rcases e' : m' s' with ⟨s1', o'⟩
    rw [e'] at h3 h4 h5 h6
    simp only [Outcome.both] at h3
    subst h3
    exact ⟨rfl, h4, h5, h6⟩
  | panic =>
    simp only at hh ⊢
    obtain ⟨hg1, t, hr1, ht1⟩ := h1 (by simp)
    refine ⟨hg1, t, hr1, fun s' es hrel hsc => ?_⟩
    obtain ⟨h3, h4, h5, h6⟩ := ht1 s' _ hrel hsc
    rw [SO.bind_def]
    rcases e' : m' s' with ⟨s1', o'⟩
    rw [e'] at h3 h4 h5 h6
    simp only [Outcome.both] at h3
    subst h3
    exact ⟨rfl, h4, h5, h6⟩
  | hang => exact absurd rfl hh

theorem lift {o : Outcome ε α} {o' : Outcome ε' α'} (h : o' = o.both f g) : Transfers V w f g (SO.lift o) (SO.lift o') :=
  fun _ hs _ => ⟨hs, [], fun _ _ => by simp [SO.lift], fun _ _ hrel hsc => ⟨h, hrel, hsc, by simp [callsOf, SO.lift]⟩⟩

theorem pure (a : α) : Transfers V w f g (Pure.pure a) (Pure.pure (g a)) := lift (o := .ok a) (o' := .ok (g a)) rfl

theorem hang {m' : SO R ε' α'} : Transfers V w f g SO.hang m' := fun _ _ h => absurd rfl h

theorem panic : Transfers V w f g SO.panic SO.panic := lift (o := .panic) (o' := .panic) rfl

theorem mapErr {f₂ : ε₂ → ε₂'} {h : ε → ε₂} {h' : ε' → ε₂'} {m : SO L ε α} {m' : SO R ε' α'}
    (hm : Transfers V w f g m m') (he : ∀ e, f₂ (h e) = h' (f e)) : Transfers V w f₂ g (m.mapErr h) (m'.mapErr h') := by
  intro s hs hh
  rw [SO.mapErr_apply] at hh ⊢
  obtain ⟨h1, t, h2, h3⟩ := hm s hs (fun hx => hh (by rw [hx]; rfl))
  refine ⟨h1, t, h2, fun s' es hrel hsc => ?_⟩
  obtain ⟨h4, h5, h6, h7⟩ := h3 s' es hrel hsc
  rw [SO.mapErr_apply]
  refine ⟨?_, h5, h6, h7⟩
  simp only
  rw [h4]
  cases (m s).2 with
  | err e => simp only [Outcome.both, Outcome.mapErr, he]
  | _ => rfl

theorem attempt {f₂ : ε₂ → ε₂'} {m : SO L ε α} {m' : SO R ε' α'} (hm : Transfers V w f g m m') :
    Transfers V w f₂ (fun r => match r with | .ok a => Except.ok (g a) | .error e => .error (f e)) m.attempt m'.attempt := by
  intro s hs hh
  unfold SO.attempt at hh ⊢
  have h1 := hm s hs
  rcases e : m s with ⟨s1, o⟩
  rw [e] at hh h1
  have hne : o ≠ .hang := by
    intro hx
    subst hx
    exact hh rfl
  obtain ⟨h1, t, h2, h3⟩ := h1 hne
  have key : ∀ s' es, V.rel s s' → Scripted (V.rightPort s') (t ++ es) → _ := h3
  cases o with
  | hang => exact absurd rfl hne
  | _ =>
    refine ⟨h1, t, h2, fun s' es hrel hsc => ?_⟩
    obtain ⟨h4, h5, h6, h7⟩ := h3 s' es hrel hsc
    rcases e' : m' s' with ⟨s1', o'⟩
    rw [e'] at h4 h5 h6 h7
    simp only [Outcome.both] at h4
    subst h4
    exact ⟨rfl, h5, h6, h7⟩

/-- Code that depends on something that both states have in common. -/
theorem get {γ : Type} (c : L → γ) (c' : R → γ) (hc : ∀ s s', V.rel s s' → c' s' = c s)
    {k : γ → SO L ε α} {k' : γ → SO R ε' α'} (hk : ∀ x, Transfers V w f g (k x) (k' x)) :
    Transfers V w f g (SO.get >>= fun s => k (c s)) (SO.get >>= fun s => k' (c' s)) := by
  intro s hs hh
  rw [SO.get_bind] at hh ⊢
  obtain ⟨h1, t, h2, h3⟩ := hk (c s) s hs hh
  refine ⟨h1, t, h2, fun s' es hrel hsc => ?_⟩
  rw [SO.get_bind, hc s s' hrel]
  exact h3 s' es hrel hsc

/-- Another way to say the same for script ports. -/
theorem congr {m : SO L ε α} {m' m'' : SO R ε' α'} (hm : Transfers V w f g m m')
    (h : ∀ s s' es, V.rel s s' → Scripted (V.rightPort s') es → (m' s').2 ≠ .hang → m'' s' = m' s') :
    Transfers V w f g m m'' := by
  intro s hs hh
  obtain ⟨h1, t, h2, h3⟩ := hm s hs hh
  refine ⟨h1, t, h2, fun s' es hrel hsc => ?_⟩
  have h4 := h3 s' es hrel hsc
  rw [h s s' _ hrel hsc (by
    rw [h4.1]
    cases ho : (m s).2 with
    | hang => exact absurd ho hh
    | _ => simp [Outcome.both])]
  exact h4

end Transfers

/-- A bus with any port, and one with a script port. -/
def busView (P : PortImpl) : View P (BusOf P) Bus where
  good := fun w b => b.rest.RInv ∧ b.rest.readBuffer.length < 2 ^ w
  rel := fun b c => Bus.Alike b.rest c
  leftPort := BusOf.port
  rightPort := Bus.serialPort

theorem Bus.Alike.of_holds {b c d e : Bus} {p q : Port} {u : List Byte} (h : Bus.Alike b d) (h1 : Bus.After b p u c)
    (h2 : Bus.After d q u e) : Bus.Alike c e :=
  ⟨h2.rInv, by rw [h2.pending, h1.pending], by
    have a := h1.like
    have b := h2.like
    have c := h.like
    exact ⟨by rw [b.1, c.1, a.1], by rw [b.2, c.2, a.2], by rw [b.3, c.3, a.3], by rw [b.4, c.4, a.4]⟩⟩

namespace BusOf

/-- The loop in both models. -/
theorem loop_sim (hP : P.Polite) (w : Nat) (D : P.Instant) (E : Nat) (fuel : Nat) : ∀ b : BusOf P, b.rest.RInv →
    10 ≤ b.rest.readBuffer.length → b.rest.readBuffer.length < 2 ^ w → (readLoop w D fuel b).2 ≠ .hang →
    ∃ t u, (∀ rec, P.Records rec → rec (readLoop w D fuel b).1.port = rec b.port ++ t) ∧
      Has b.rest u (readLoop w D fuel b).1.rest ∧
      ∀ d es, Bus.Alike b.rest d → Scripted d.serialPort (t ++ es) → ∃ d',
        Bus.readLoop E fuel d = (d', (readLoop w D fuel b).2.both P.readErr id) ∧
        Bus.Holds d d'.serialPort u d' ∧ Scripted d'.serialPort es ∧
        untimed d'.serialPort.log = untimed d.serialPort.log ++ callsOf t := by
  induction fuel with
  | zero => intro b _ _ _ h; exact absurd rfl h
  | succ fuel ih =>
    intro b hr hN hw hne
    obtain ⟨p, r⟩ := b
    simp only at hr hN hw
    have hlen : (skip r.pending).length ≤ r.readBuffer.length :=
      Nat.le_trans (skip_suffix _).length_le (Bus.pending_length_le hr)
    have hmr := Bus.messageReady_eq r (skip r.pending) hlen (skip_skip _)
    rw [parse_skip] at hmr
    have hhold := Bus.holds_withPending r r.serialPort hlen
    rw [show r.onto r.serialPort = r from rfl] at hhold
    -- the first steps with the script port
    have hscript : ∀ d, Bus.Alike r d → d.pending = r.pending ∧ d.readBuffer.length = r.readBuffer.length ∧
        (skip r.pending).length ≤ d.readBuffer.length ∧
        Bus.Holds d d.serialPort (skip r.pending) (d.withPending (skip r.pending)) ∧
        Bus.readLoop E (fuel + 1) d =
          (match parse r.readBuffer.length r.pending with
          | .more => (Bus.readMore E >>= fun _ => Bus.readLoop E fuel) (d.withPending (skip r.pending))
          | .tooBig req rest => ((d.withPending (skip r.pending)).withPending rest, .err (.bufferFull ⟨req, r.readBuffer.length⟩))
          | .packet f _ => (d.withPending (skip r.pending), .ok f.length)) := by
      intro d hd
      have h1 : d.pending = r.pending := hd.pending
      have h2 : d.readBuffer.length = r.readBuffer.length := hd.like.readSize
      have h3 : (skip r.pending).length ≤ d.readBuffer.length := by rw [h2]; exact hlen
      have h4 := Bus.holds_withPending d d.serialPort h3
      rw [show d.onto d.serialPort = d from rfl] at h4
      refine ⟨h1, h2, h3, h4, ?_⟩
      have h5 := Bus.messageReady_eq d (skip r.pending) h3 (skip_skip _)
      rw [parse_skip, h2] at h5
      have h6 := Bus.removeGarbage_eq (ε := ReadError) hd.rInv
      rw [h1] at h6
      rw [Bus.readLoop, SO.bind_ok h6]
      cases hp : parse r.readBuffer.length r.pending with
      | more => rw [hp] at h5; rw [SO.bind_ok h5]
      | tooBig req rest => rw [hp] at h5; rw [SO.bind_err h5]
      | packet f rest => rw [hp] at h5; rw [SO.bind_ok h5]; rfl
    unfold readLoop at hne ⊢
    rw [SO.bind_ok (onRest_eq (Bus.removeGarbage_eq hr))] at hne ⊢
    cases hp : parse r.readBuffer.length r.pending with
    | packet f rest =>
      rw [hp] at hmr
      rw [SO.bind_ok (Bus.mapErr_eq _ (onRest_eq hmr))]
      refine ⟨[], skip r.pending, fun _ _ => by simp, hhold, fun d es hd hsc => ?_⟩
      obtain ⟨h1, h2, h3, h4, h5⟩ := hscript d hd
      rw [hp] at h5
      exact ⟨_, h5, h4, hsc, by simp [callsOf, Bus.withPending]⟩
    | tooBig req rest =>
      rw [hp] at hmr
      rw [SO.bind_err (Bus.mapErr_eq readError (onRest_eq hmr))]
      obtain ⟨hd', hq, _⟩ := parse_tooBig hp
      have hrl : rest.length ≤ r.readBuffer.length := by
        rw [hq] at hlen
        simp at hlen
        omega
      refine ⟨[], rest, fun _ _ => by simp, ?_, fun d es hd hsc => ?_⟩
      · exact Bus.Holds.of_like hhold.like (Bus.holds_withPending _ _ (by rw [hhold.like.readSize]; exact hrl))
      · obtain ⟨h1, h2, h3, h4, h5⟩ := hscript d hd
        rw [hp] at h5
        refine ⟨_, h5, ?_, hsc, by simp [callsOf, Bus.withPending]⟩
        exact Bus.Holds.of_like h4.like (Bus.holds_withPending _ _ (by rw [h4.like.readSize, h2]; exact hrl))
    | more =>
      rw [hp] at hmr
      rw [SO.bind_ok (Bus.mapErr_eq _ (onRest_eq hmr))] at hne ⊢
      simp only at hne ⊢
      have hroom := parse_more_room hN hp
      generalize hc : r.withPending (skip r.pending) = c at hhold hne ⊢
      have hcl : c.readBuffer.length = r.readBuffer.length := hhold.like.readSize
      have hrm := readMore_eq w D (p := p) hhold
      have hnl := P.read_length D (c.readBuffer.drop (skip r.pending).length) p
      have hpol := hP.read D (c.readBuffer.drop (skip r.pending).length) p
      have hcapl : (c.readBuffer.drop (skip r.pending).length).length = r.readBuffer.length - (skip r.pending).length := by
        rw [List.length_drop, hcl]
      have hrecOk : ∀ rec, P.Records rec → _ := fun rec h => h.read_ok D (c.readBuffer.drop (skip r.pending).length) p
      have hrecErr : ∀ rec, P.Records rec → _ := fun rec h => h.read_err D (c.readBuffer.drop (skip r.pending).length) p
      rcases hread : P.read D (c.readBuffer.drop (skip r.pending).length) p with ⟨p1, new, o⟩
      rw [hread] at hrm hnl hpol hrecOk hrecErr
      simp only at hnl hpol hrecOk hrecErr
      rw [hcapl] at hrecOk hrecErr
      cases o with
      | err e =>
        simp only at hrm
        rw [SO.bind_err hrm]
        refine ⟨[.read (r.readBuffer.length - (skip r.pending).length) 0 (.error (P.ioErr e))], skip r.pending,
          fun rec h => hrecErr rec h e rfl, has_read hhold hnl, fun d es hd hsc => ?_⟩
        obtain ⟨h1, h2, h3, h4, h5⟩ := hscript d hd
        rw [hp] at h5
        obtain ⟨q', hq1, hq2, hq3⟩ := scripted_fail (E := E) hsc
        have h6 := Bus.readMore_eq d (skip r.pending) E h3
        rw [h2, hq1] at h6
        simp only at h5 h6
        rw [SO.bind_err h6] at h5
        exact ⟨_, h5, Bus.holds_withPending d q' h3, hq2, hq3⟩
      | panic => exact absurd rfl hpol.1
      | hang =>
        simp only at hrm
        rw [SO.bind_def, hrm] at hne
        exact absurd rfl hne
      | ok n =>
        simp only at hrm
        have hn : n ≤ new.length := by rw [hnl]; exact hpol.2 n rfl
        have hle : (skip r.pending).length + n < 2 ^ w := by
          rw [hnl, List.length_drop, hcl] at hn
          omega
        rw [show usizeAdd (ε := ReadErrorOf P.Error) w c.debug (skip r.pending).length n
          = .ok ((skip r.pending).length + n) from if_pos hle] at hrm
        rw [SO.bind_ok hrm] at hne ⊢
        have hh := has_more hhold hnl hn
        generalize ({ c with readBuffer := skip r.pending ++ new, readLen := (skip r.pending).length + n } : Bus) = c1 at hh hne ⊢
        obtain ⟨t, u, i1, i3, i4⟩ := ih ⟨p1, c1⟩ hh.rInv (by simp only; rw [hh.like.readSize]; exact hN)
          (by simp only; rw [hh.like.readSize]; exact hw) hne
        refine ⟨.read (r.readBuffer.length - (skip r.pending).length) 0 (.ok (new.take n)) :: t, u,
          fun rec h => by rw [i1 rec h, hrecOk rec h n rfl]; simp, ?_,
          fun d es hd hsc => ?_⟩
        · have := i3.of_like hh.like
          simp only [hh.port] at this
          exact this
        · obtain ⟨h1, h2, h3, h4, h5⟩ := hscript d hd
          rw [hp] at h5
          have hcap : (new.take n).length ≤ r.readBuffer.length - (skip r.pending).length := by
            rw [List.length_take]
            rw [hnl, List.length_drop, hcl] at hn
            omega
          obtain ⟨q', hq1, hq2, hq3⟩ := scripted_read (E := E) hsc hcap
          have h6 := Bus.readMore_eq d (skip r.pending) E h3
          rw [h2, hq1] at h6
          simp only at h5 h6
          rw [SO.bind_ok h6] at h5
          have hlen' : (skip r.pending ++ new.take n).length ≤ d.readBuffer.length := by
            rw [List.length_append]; omega
          have h7 := Bus.holds_withPending d q' hlen'
          obtain ⟨d', j1, j2, j3, j4⟩ := i4 ((d.onto q').withPending (skip r.pending ++ new.take n)) es
            (Bus.Alike.of_holds hd hh.after h7.after) (by rw [h7.port]; exact hq2)
          rw [j1] at h5
          refine ⟨d', h5, j2.of_like h7.like, j3, ?_⟩
          rw [j4, h7.port, hq3]
          simp [callsOf]

theorem busLoop_mono_step (E : Nat) (fuel : Nat) : ∀ b : Bus,
    (Bus.readLoop E fuel b).2 ≠ .hang → Bus.readLoop E (fuel + 1) b = Bus.readLoop E fuel b := by
  induction fuel with
  | zero => intro b h; exact absurd rfl h
  | succ fuel ih =>
    intro b h
    rw [Bus.readLoop] at h
    rw [Bus.readLoop, Bus.readLoop]
    rw [SO.bind_def] at h
    rw [SO.bind_def, SO.bind_def]
    rcases hg : Bus.removeGarbage (ε := ReadError) b with ⟨b1, o1⟩
    rw [hg] at h
    cases o1 with
    | ok _ =>
      simp only at h ⊢
      rw [SO.bind_def] at h
      rw [SO.bind_def, SO.bind_def]
      rcases hr : Bus.messageReady b1 with ⟨b2, o2⟩
      rw [hr] at h
      cases o2 with
      | ok o =>
        cases o with
        | some n => rfl
        | none =>
          simp only at h ⊢
          rw [SO.bind_def] at h
          rw [SO.bind_def, SO.bind_def]
          rcases hm : Bus.readMore E b2 with ⟨b3, o3⟩
          rw [hm] at h
          cases o3 with
          | ok _ => exact ih b3 h
          | _ => rfl
      | _ => rfl
    | _ => rfl

theorem busLoop_mono (E : Nat) {n m : Nat} (hnm : n ≤ m) {b : Bus} (h : (Bus.readLoop E n b).2 ≠ .hang) :
    Bus.readLoop E m b = Bus.readLoop E n b := by
  obtain ⟨k, rfl⟩ := Nat.le.dest hnm
  induction k with
  | zero => rfl
  | succ k ih =>
    have hk := ih (by omega)
    rw [show n + (k + 1) = n + k + 1 from rfl, busLoop_mono_step E _ b (by rw [hk]; exact h), hk]

theorem busLoop_any (E : Nat) {n m : Nat} {b : Bus} (hn : (Bus.readLoop E n b).2 ≠ .hang) (hm : (Bus.readLoop E m b).2 ≠ .hang) :
    Bus.readLoop E m b = Bus.readLoop E n b := by
  by_cases h : n ≤ m
  · exact busLoop_mono E h hn
  · exact (busLoop_mono E (by omega) hm).symm

/-- Reading a packet. -/
theorem transfers_read (hP : P.Polite) (w : Nat) (D : P.Instant) (E fuel : Nat) :
    Transfers (busView P) w P.readErr id (readPacketDeadline w D fuel) (Bus.readPacketDeadline E) := by
  intro b hg hh
  obtain ⟨hr, hw⟩ := hg
  by_cases hN : 10 ≤ b.rest.readBuffer.length
  · have hc : ∀ n, n = b.rest.readBuffer.length → BufferTooSmall.check (headerSize + 3) n = .ok () := fun n h => if_pos (by rw [h]; exact hN)
    have hl : readPacketDeadline w D fuel b = (readLoop w D fuel >>= fun n => (onRest (Bus.finishPacket n)).mapErr readError) b := by
      unfold readPacketDeadline
      rw [SO.get_bind, hc _ rfl, Outcome.mapErr_ok, SO.lift_ok_bind]
    have hs : ∀ d : Bus, Bus.Alike b.rest d → (Bus.readPacketDeadline E d) =
        (Bus.readLoop E (d.serialPort.measure + 1) >>= fun n => Bus.finishPacket n) d := by
      intro d hd
      unfold Bus.readPacketDeadline
      rw [SO.get_bind, hc _ hd.like.readSize, Outcome.mapErr_ok, SO.lift_ok_bind]
    have hne : (readLoop w D fuel b).2 ≠ .hang := by
      intro hx
      rw [hl, SO.bind_def] at hh
      rcases e : readLoop w D fuel b with ⟨b1, o⟩
      rw [e] at hx hh
      simp only at hx
      subst hx
      exact hh rfl
    have hend : ∀ d : Bus, Bus.Alike b.rest d → (Bus.readLoop E (d.serialPort.measure + 1) d).2 ≠ .hang := by
      intro d hd hx
      have := c19_terminates E hd.rInv
      rw [hs d hd, SO.bind_def] at this
      rcases e : Bus.readLoop E (d.serialPort.measure + 1) d with ⟨d1, o⟩
      rw [e] at hx this
      simp only at hx
      subst hx
      simp at this
    obtain ⟨t, u, i1, i3, i4⟩ := loop_sim hP w D E fuel b hr hN hw hne
    have hi : ∀ d es, Bus.Alike b.rest d → Scripted d.serialPort (t ++ es) → ∃ d',
        Bus.readLoop E (d.serialPort.measure + 1) d = (d', (readLoop w D fuel b).2.both P.readErr id) ∧
        Bus.Holds d d'.serialPort u d' ∧ Scripted d'.serialPort es ∧
        untimed d'.serialPort.log = untimed d.serialPort.log ++ callsOf t := by
      intro d es hd hsc
      obtain ⟨d', j1, j2⟩ := i4 d es hd hsc
      refine ⟨d', ?_, j2⟩
      rw [← j1]
      refine busLoop_any E ?_ (hend d hd)
      rw [j1]
      simp only
      cases ho : (readLoop w D fuel b).2 with
      | hang => exact absurd ho hne
      | _ => simp [Outcome.both]
    have hres := readLoop_result w D fuel b hr hN hw (.inr fun old p p' new n h1 h2 => by
      have := (hP.read D old p).2 n (by rw [h1])
      omega)
    rw [hl]
    rw [SO.bind_def]
    generalize readLoop w D fuel b = res at *
    have hsimple : ∀ p c o, (res = ((⟨p, c⟩ : BusOf P), .err o)) →
        (busView P).good w res.1 ∧ ∃ t, (∀ rec, P.Records rec → rec ((busView P).leftPort res.1) = rec ((busView P).leftPort b) ++ t) ∧
        ∀ s' es, (busView P).rel b s' → Scripted ((busView P).rightPort s') (t ++ es) →
          (Bus.readPacketDeadline E s').2 = .err (P.readErr o) ∧ (busView P).rel res.1 (Bus.readPacketDeadline E s').1 ∧
          Scripted ((busView P).rightPort (Bus.readPacketDeadline E s').1) es ∧
          untimed ((busView P).rightPort (Bus.readPacketDeadline E s').1).log = untimed ((busView P).rightPort s').log ++ callsOf t := by
      intro p c o ho
      subst ho
      refine ⟨⟨i3.rInv, ?_⟩, t, fun rec h => ?_, fun d es hd hsc => ?_⟩
      · rw [i3.like.readSize]; exact hw
      · exact i1 rec h
      · obtain ⟨d', j1, j2, j3, j4⟩ := hi d es hd hsc
        rw [hs d hd, SO.bind_err j1]
        refine ⟨rfl, Bus.Alike.of_holds hd i3.after j2.after, j3, ?_⟩
        exact j4
    cases hres with
    | packet h0 h1 h2 h3 =>
      rename_i k bs f rest p c
      have hu : u = f ++ rest := by
        have := i3.pending
        rw [h3.pending] at this
        exact this.symm
      subst hu
      obtain ⟨c', hf, ha⟩ := Bus.finishPacket_eq h3 (parse_packet h2).2.1 (parse_packet h2).2.2.1
      simp only
      rw [Bus.mapErr_eq readError (onRest_eq hf)]
      refine ⟨⟨ha.rInv, ?_⟩, t, fun rec h => ?_, fun d es hd hsc => ?_⟩
      · simp only; rw [ha.like.readSize]; exact hw
      · exact i1 rec h
      · obtain ⟨d', j1, j2, j3, j4⟩ := hi d es hd hsc
        obtain ⟨e', kf, ka⟩ := Bus.finishPacket_eq j2 (parse_packet h2).2.1 (parse_packet h2).2.2.1
        rw [hs d hd, SO.bind_ok j1]
        simp only [id]
        rw [kf]
        refine ⟨?_, Bus.Alike.of_holds hd ha ka, ?_, ?_⟩
        · have hio := noIo_finish f.length c
          rw [hf] at hio
          simp only at hio ⊢
          cases ho : Bus.frameOutcome f with
          | err e =>
            rw [ho] at hio
            cases e with
            | io e => exact absurd rfl (hio e)
            | _ => rfl
          | _ => rfl
        · change Scripted e'.serialPort es
          rw [ka.port]
          exact j3
        · change untimed e'.serialPort.log = _
          rw [ka.port]
          exact j4
    | tooBig h0 h1 h2 h3 => exact hsimple _ _ _ rfl
    | failed h0 h1 h2 h3 h4 h5 => exact hsimple _ _ _ rfl
    | crashed h0 h1 h2 h3 h4 h5 =>
      exact absurd (congrArg (fun x => x.2.2) h4) (hP.read D _ _).1
    | stuck h0 h1 h2 h3 h4 => exact absurd rfl hne
    | tooMany h0 h1 h2 h3 h4 h5 h6 h7 h8 =>
      have := (hP.read D _ _).2 _ (congrArg (fun x => x.2.2) h4)
      omega
    | waiting h1 => exact absurd rfl hne
  · have hc : ∀ n, n = b.rest.readBuffer.length → BufferTooSmall.check (headerSize + 3) n = .err ⟨10, n⟩ :=
      fun n h => if_neg (by rw [h]; exact hN)
    rw [c83_small w D fuel (by omega)]
    refine ⟨⟨hr, hw⟩, [], fun _ _ => by simp, fun d es hd hsc => ?_⟩
    have := Bus.readPacketDeadline_small E (b := d) (by rw [hd.like.readSize]; omega)
    rw [this]
    refine ⟨?_, hd, hsc, by simp [callsOf]⟩
    rw [hd.like.readSize]
    rfl

/-- Code that does not use the port, and does the same with two buses that are alike. -/
def KeepsAlike {ε α : Type} (m : SO Bus ε α) : Prop :=
  ∀ c d, c.RInv → Bus.Alike c d → (m c).1.RInv ∧ (m d).2 = (m c).2 ∧ Bus.Alike (m c).1 (m d).1 ∧
    (m c).1.readBuffer.length = c.readBuffer.length

variable {ε α β : Type}

theorem KeepsAlike.bind {m : SO Bus ε α} {k : α → SO Bus ε β} (hm : KeepsAlike m) (hk : ∀ a, KeepsAlike (k a)) :
    KeepsAlike (m >>= k) := by
  intro c d hc hd
  obtain ⟨h1, h2, h3, h4⟩ := hm c d hc hd
  rw [SO.bind_def, SO.bind_def]
  rcases e : m c with ⟨c1, o⟩
  rcases e' : m d with ⟨d1, o'⟩
  rw [e] at h1 h2 h3 h4
  rw [e'] at h2 h3
  simp only at h1 h2 h3 h4
  subst h2
  cases o' with
  | ok a =>
    obtain ⟨i1, i2, i3, i4⟩ := hk a c1 d1 h1 h3
    exact ⟨i1, i2, i3, i4.trans h4⟩
  | _ => exact ⟨h1, rfl, h3, h4⟩

theorem KeepsAlike.lift (o : Outcome ε α) : KeepsAlike (SO.lift o) := fun _ _ hc hd => ⟨hc, rfl, hd, rfl⟩

theorem KeepsAlike.pure (a : α) : KeepsAlike (ε := ε) (Pure.pure a) := fun _ _ hc hd => ⟨hc, rfl, hd, rfl⟩

theorem KeepsAlike.get {k : Bus → SO Bus ε α} (h : ∀ c d, Bus.Alike c d → k d = k c) (hk : ∀ c, KeepsAlike (k c)) :
    KeepsAlike (SO.get >>= k) := by
  intro c d hc hd
  rw [SO.get_bind, SO.get_bind, h c d hd]
  exact hk c c d hc hd

theorem KeepsAlike.onWriteBuffer (m : SO (List Byte) ε α) : KeepsAlike (Bus.onWriteBuffer m) := by
  intro c d hc hd
  have hw : d.writeBuffer = c.writeBuffer := hd.like.writeBuffer
  change ({ c with writeBuffer := (m c.writeBuffer).1 } : Bus).RInv ∧ (m d.writeBuffer).2 = (m c.writeBuffer).2 ∧
    Bus.Alike { c with writeBuffer := (m c.writeBuffer).1 } { d with writeBuffer := (m d.writeBuffer).1 } ∧ _
  rw [hw]
  exact ⟨⟨hc.1, hc.2⟩, rfl, ⟨⟨hd.rInv.1, hd.rInv.2⟩, hd.pending, ⟨hd.like.1, rfl, hd.like.3, hd.like.4⟩⟩, rfl⟩

theorem keepsAlike_prepare (id instr : Byte) (n : Nat) (enc : Encoder) : KeepsAlike (preparePacket id instr n enc) := by
  unfold preparePacket
  refine .get (fun c d h => ?_) fun b => ?_
  · simp only [h.like.writeBuffer, h.like.debug]
  · refine .bind (.lift _) fun _ => .bind (.onWriteBuffer _) fun _ => .bind (.onWriteBuffer _) fun _ => .bind (.onWriteBuffer _)
      fun _ => .bind (.onWriteBuffer _) fun _ => .bind (.onWriteBuffer _) fun _ => .bind (.onWriteBuffer _) fun _ =>
      .bind (.lift _) fun _ => .bind (.onWriteBuffer _) fun _ => .get (fun c d h => ?_) fun b => ?_
    · simp only [h.like.writeBuffer]
    · refine .bind (.lift _) fun _ => .bind (.lift _) fun _ => .bind (.onWriteBuffer _) fun _ => .bind ?_ fun _ => .pure _
      intro c d hc hd
      refine ⟨⟨Nat.le_refl _, Nat.zero_le _⟩, rfl, ⟨⟨Nat.le_refl _, Nat.zero_le _⟩, ?_, ⟨hd.like.1, hd.like.2, hd.like.3, hd.like.4⟩⟩, rfl⟩
      simp [Bus.pending, SO.modify]

theorem transfers_write_fails {w : Nat} {id instr : Byte} {n : Nat} {enc : Encoder} {p : P.Port} {r r' : Bus}
    {o : Outcome BufferTooSmall Nat} {o1 : Outcome (WriteErrorOf P.Error) Unit} {o2 : Outcome WriteError Unit}
    (hr : r.RInv) (hw : r.readBuffer.length < 2 ^ w) (hp : preparePacket id instr n enc r = (r', o))
    (hk : ∀ d, r.RInv → Bus.Alike r d → (preparePacket id instr n enc r).1.RInv ∧
      (preparePacket id instr n enc d).2 = (preparePacket id instr n enc r).2 ∧
      Bus.Alike (preparePacket id instr n enc r).1 (preparePacket id instr n enc d).1 ∧
      (preparePacket id instr n enc r).1.readBuffer.length = r.readBuffer.length)
    (hno : ∀ m, o ≠ .ok m)
    (h1 : o1 = (match o with | .ok _ => .ok () | .err e => .err (.bufferTooSmall e) | .panic => .panic | .hang => .hang))
    (h2 : o2 = (match o with | .ok _ => .ok () | .err e => .err (.bufferTooSmall e) | .panic => .panic | .hang => .hang)) :
    (busView P).good w (writePacket id instr n enc (⟨p, r⟩ : BusOf P)).1 ∧ ∃ t,
      (∀ rec, P.Records rec → rec ((busView P).leftPort (writePacket id instr n enc (⟨p, r⟩ : BusOf P)).1) =
        rec ((busView P).leftPort ⟨p, r⟩) ++ t) ∧
      ∀ s' es, (busView P).rel ⟨p, r⟩ s' → Scripted ((busView P).rightPort s') (t ++ es) →
        (Bus.writePacket id instr n enc s').2 = (writePacket id instr n enc (⟨p, r⟩ : BusOf P)).2.both P.writeErr (fun x => x) ∧
        (busView P).rel (writePacket id instr n enc (⟨p, r⟩ : BusOf P)).1 (Bus.writePacket id instr n enc s').1 ∧
        Scripted ((busView P).rightPort (Bus.writePacket id instr n enc s').1) es ∧
        untimed ((busView P).rightPort (Bus.writePacket id instr n enc s').1).log =
          untimed ((busView P).rightPort s').log ++ callsOf t := by
  rw [hp] at hk
  have e1 : writePacket id instr n enc (⟨p, r⟩ : BusOf P) = (⟨p, r'⟩, o1) := by
    unfold writePacket
    rw [SO.bind_def, SO.mapErr_apply, onRest_apply, hp, h1]
    cases o with
    | ok m => exact absurd rfl (hno m)
    | _ => rfl
  have e2 : ∀ d, Bus.Alike r d → Bus.writePacket id instr n enc d = ((preparePacket id instr n enc d).1, o2) := by
    intro d hd
    rw [writePacket_split, SO.bind_def, SO.mapErr_apply, h2]
    rw [show preparePacket id instr n enc d = ((preparePacket id instr n enc d).1, o) from Prod.ext rfl (hk d hr hd).2.1]
    cases o with
    | ok m => exact absurd rfl (hno m)
    | _ => rfl
  rw [e1]
  refine ⟨?_, [], fun _ _ => by simp [busView], fun d es hd hsc => ?_⟩
  · have := hk r hr ⟨hr, rfl, Bus.Like.refl r⟩
    exact ⟨this.1, by simp only; rw [this.2.2.2]; exact hw⟩
  · obtain ⟨k1, k2, k3, k4⟩ := hk d hr hd
    have hpf := portFree_preparePacket id instr n enc d d.serialPort
    rw [show d.onto d.serialPort = d from rfl] at hpf
    have hport : (preparePacket id instr n enc d).1.serialPort = d.serialPort := by
      rw [hpf]; rfl
    rw [e2 d hd]
    refine ⟨?_, k3, ?_, ?_⟩
    · rw [h1, h2]
      cases o with
      | ok m => exact absurd rfl (hno m)
      | _ => rfl
    · change Scripted (preparePacket id instr n enc d).1.serialPort es
      rw [hport]; exact hsc
    · change untimed (preparePacket id instr n enc d).1.serialPort.log = _
      rw [hport]; simp [callsOf, busView]

theorem transfers_write (hP : P.Polite) (w : Nat) (id instr : Byte) (n : Nat) (enc : Encoder) :
    Transfers (busView P) w P.writeErr (fun x => x) (writePacket id instr n enc) (Bus.writePacket id instr n enc) := by
  intro b hg hh
  obtain ⟨p, r⟩ := b
  obtain ⟨hr, hw⟩ := hg
  simp only at hr hw
  have hk := keepsAlike_prepare id instr n enc r
  rcases hp : preparePacket id instr n enc r with ⟨r', o⟩
  cases o with
  | ok m =>
    rw [hp] at hk
    rw [writePacket_prepared p hp] at hh ⊢
    have hk' : ∀ d, Bus.Alike r d → ∃ d', preparePacket id instr n enc d = (d', .ok m) ∧ Bus.Alike r' d' := by
      intro d hd
      obtain ⟨-, h2, h3, -⟩ := hk d hr hd
      exact ⟨_, Prod.ext rfl h2, h3⟩
    have hr' : r'.RInv ∧ r'.readBuffer.length < 2 ^ w := by
      have := hk r hr ⟨hr, rfl, Bus.Like.refl r⟩
      exact ⟨this.1, by rw [this.2.2.2]; exact hw⟩
    unfold sendingTo at hh ⊢
    have hd1 := hP.discard p
    rcases e1 : P.discardInputBuffer p with ⟨p1, o1⟩
    rw [e1] at hd1 hh
    cases o1 with
    | ok _ =>
      simp only at hh ⊢
      have hd2 := hP.write (r'.writeBuffer.take m) p1
      rcases e2 : P.writeAll (r'.writeBuffer.take m) p1 with ⟨p2, o2⟩
      rw [e2] at hd2 hh
      have hfin : ∀ a, (∀ rec, P.Records rec → rec p2 = rec p1 ++ [.write (r'.writeBuffer.take m) a]) → (o2.mapErr WriteErrorOf.write).both P.writeErr (fun x => x) =
          (Exchange.unitOutcome a).mapErr WriteError.write →
          (busView P).good w ((⟨p2, r'⟩ : BusOf P)) ∧ ∃ t,
          (∀ rec, P.Records rec → rec p2 = rec p ++ t) ∧
          ∀ s' es, (busView P).rel ⟨p, r⟩ s' → Scripted ((busView P).rightPort s') (t ++ es) →
            (Bus.writePacket id instr n enc s').2 = (o2.mapErr WriteErrorOf.write).both P.writeErr (fun x => x) ∧
            (busView P).rel ⟨p2, r'⟩ (Bus.writePacket id instr n enc s').1 ∧
            Scripted ((busView P).rightPort (Bus.writePacket id instr n enc s').1) es ∧
            untimed ((busView P).rightPort (Bus.writePacket id instr n enc s').1).log =
              untimed ((busView P).rightPort s').log ++ callsOf t := by
        intro a ha1 ha2
        refine ⟨hr', [.discard none, .write (r'.writeBuffer.take m) a], fun rec hrec => ?_, fun d es hd hsc => ?_⟩
        · have h1 := hrec.discard_ok p
          rw [e1] at h1
          rw [ha1 rec hrec, h1 rfl]
          simp
        · obtain ⟨d', j1, j2⟩ := hk' d hd
          have hs := script_prepared d.serialPort j1
          rw [show d.onto d.serialPort = d from rfl] at hs
          obtain ⟨q1, k1, k2, k3⟩ := scripted_discard hsc
          obtain ⟨q2, l1, l2, l3⟩ := scripted_write k2
          change Port.discardInputBuffer d.serialPort = _ at k1
          rw [k1] at hs
          simp only [Exchange.unitOutcome] at hs
          rw [j2.like.writeBuffer] at hs
          rw [l1] at hs
          rw [hs]
          refine ⟨ha2.symm, ⟨⟨j2.rInv.1, j2.rInv.2⟩, j2.pending, ⟨j2.like.1, j2.like.2, j2.like.3, j2.like.4⟩⟩, l2, ?_⟩
          change untimed q2.log = _
          rw [l3, k3]
          simp [callsOf, busView]
      cases o2 with
      | ok _ =>
        refine hfin none (fun rec hrec => ?_) rfl
        have h2 := hrec.write_ok (r'.writeBuffer.take m) p1
        rw [e2] at h2
        exact h2 rfl
      | err e =>
        refine hfin (some (P.ioErr e)) (fun rec hrec => ?_) rfl
        have h2 := hrec.write_err (r'.writeBuffer.take m) p1 e
        rw [e2] at h2
        exact h2 rfl
      | panic => exact absurd rfl hd2
      | hang => exact absurd rfl hh
    | err e =>
      refine ⟨hr', [.discard (some (P.ioErr e))], fun rec hrec => ?_, fun d es hd hsc => ?_⟩
      · have h1 := hrec.discard_err p e
        rw [e1] at h1
        exact h1 rfl
      · obtain ⟨d', j1, j2⟩ := hk' d hd
        have hs := script_prepared d.serialPort j1
        rw [show d.onto d.serialPort = d from rfl] at hs
        obtain ⟨q1, k1, k2, k3⟩ := scripted_discard hsc
        change Port.discardInputBuffer d.serialPort = _ at k1
        rw [k1] at hs
        simp only [Exchange.unitOutcome] at hs
        rw [hs]
        refine ⟨rfl, ⟨⟨j2.rInv.1, j2.rInv.2⟩, j2.pending, ⟨j2.like.1, j2.like.2, j2.like.3, j2.like.4⟩⟩, k2, ?_⟩
        change untimed q1.log = _
        rw [k3]
        simp [callsOf, busView]
    | panic => exact absurd rfl hd1
    | hang => exact absurd rfl hh
  | err x => exact transfers_write_fails hr hw hp hk (fun _ h => by simp at h) rfl rfl
  | panic => exact transfers_write_fails hr hw hp hk (fun _ h => by simp at h) rfl rfl
  | hang =>
    unfold writePacket at hh
    rw [SO.bind_def, SO.mapErr_apply, onRest_apply, hp] at hh
    exact absurd rfl hh

end BusOf
end Dxl
