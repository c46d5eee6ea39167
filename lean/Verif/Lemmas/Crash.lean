import Verif.Lemmas.Room
import Verif.Lemmas.Saw
import Verif.Lemmas.LineThread

/-! # When a read of the simulated line panics -/

namespace Dxl

/-! ## Traces of a port -/

/-- Without the reads that are asked for. -/
def PortAct.plain : PortAct → Option Seen
  | .asked _ => none
  | .got bytes => some (.got bytes)
  | .failed e => some (.failed e)
  | .wrote bytes => some (.wrote bytes)

theorem Traced.saw {p q : Port} {es : List PortAct} (h : Traced p es q) : Saw p (es.filterMap PortAct.plain) q := by
  induction h with
  | nil => exact .nil _
  | got h _ ih => exact .got h ih
  | failed h _ ih => exact .failed h ih
  | wrote h _ ih => exact .wrote h ih
  | discarded h _ ih => exact .discarded h ih
  | baud h _ ih => exact .baud h ih

/-- The same call again, as a trace. -/
def Port.retrace (p : Port) (c : Call) : Port × List PortAct :=
  match c with
  | .read cap deadline => match Port.read cap deadline p with
    | (q, .ok bs) => (q, [.asked cap, .got bs])
    | (q, .err e) => (q, [.asked cap, .failed e])
    | (q, _) => (q, [])
  | .write bs _ => ((Port.writeAll bs p).1, [.wrote bs])
  | .discard _ => ((Port.discardInputBuffer p).1, [])
  | .setBaud rate _ => ((Port.setBaudRate rate p).1, [])

/-- The same for several calls. -/
def Port.retraceAll : Port → List Call → Port × List PortAct
  | p, [] => (p, [])
  | p, c :: cs => (((p.retrace c).1.retraceAll cs).1, (p.retrace c).2 ++ ((p.retrace c).1.retraceAll cs).2)

theorem Traced.redo {p q : Port} {es : List PortAct} (h : Traced p es q) : ∃ cs, q.log = p.log ++ cs ∧ p.retraceAll cs = (q, es) := by
  have key : ∀ {p p₁ q : Port} {c : Call} {e es : List PortAct}, p₁.log = p.log ++ [c] → p.retrace c = (p₁, e) →
      (∃ cs, q.log = p₁.log ++ cs ∧ p₁.retraceAll cs = (q, es)) → ∃ cs, q.log = p.log ++ cs ∧ p.retraceAll cs = (q, e ++ es) := by
    rintro p p₁ q c e es h1 h2 ⟨cs, h3, h4⟩
    refine ⟨c :: cs, by rw [h3, h1]; simp, ?_⟩
    simp only [Port.retraceAll, h2, h4]
  induction h with
  | nil => exact ⟨[], by simp, rfl⟩
  | @got p p₁ _ cap D bs es h _ ih =>
    have := Port.read_log cap D p
    rw [h] at this
    exact key (e := [.asked cap, .got bs]) this (by simp only [Port.retrace, h]) ih
  | @failed p p₁ _ cap D e es h _ ih =>
    have := Port.read_log cap D p
    rw [h] at this
    exact key (e := [.asked cap, .failed e]) this (by simp only [Port.retrace, h]) ih
  | @wrote p p₁ _ bs _ _ h _ ih =>
    obtain ⟨ok, this⟩ := Port.writeAll_log bs p
    rw [h] at this
    exact key (e := [.wrote bs]) this (by simp only [Port.retrace, h]) ih
  | @discarded p p₁ _ _ _ h _ ih =>
    obtain ⟨ok, this⟩ := Port.discard_log p
    rw [h] at this
    exact key (e := []) this (by simp only [Port.retrace, h]) ih
  | @baud p p₁ _ r _ _ h _ ih =>
    obtain ⟨ok, this⟩ := Port.setBaud_log r p
    rw [h] at this
    exact key (e := []) this (by simp only [Port.retrace, h]) ih

/-- What was done between two states of a port is unique. -/
theorem traced_unique {p q : Port} {es es' : List PortAct} (h : Traced p es q) (h' : Traced p es' q) : es = es' := by
  obtain ⟨cs, h1, h2⟩ := h.redo
  obtain ⟨cs', h3, h4⟩ := h'.redo
  rw [h1] at h3
  rw [List.append_cancel_left h3] at h2
  rw [h2] at h4
  exact (Prod.mk.inj h4).2

/-- The bytes that were read. -/
def gotBytes (es : List PortAct) : List Byte :=
  es.flatMap fun e => match e with
    | .got bytes => bytes
    | _ => []

theorem gotBytes_append (a b : List PortAct) : gotBytes (a ++ b) = gotBytes a ++ gotBytes b := by simp [gotBytes]

/-- What a read asks for, by what was read before. -/
theorem Fits.asked {N : Nat} {es b : List PortAct} {cap : Nat} : ∀ {a : List PortAct} {n m : Nat}, Fits N n es m →
    es = a ++ .asked cap :: b → N ≤ cap + n + (gotBytes a).length := by
  intro a
  induction a generalizing es with
  | nil => rintro n m h rfl; exact h.1
  | cons e a ih =>
    rintro n m h rfl
    cases e with
    | asked c => exact ih h.2 rfl
    | got bytes =>
      have := ih (n := n + bytes.length) h rfl
      simp only [gotBytes, List.flatMap_cons, List.length_append] at this ⊢
      omega
    | failed e => exact ih (es := a ++ .asked cap :: b) (n := n) h rfl
    | wrote bytes => exact ih (es := a ++ .asked cap :: b) (n := n) h rfl

/-- A thread whose reads ask for all that fits into a buffer for `N` bytes that was empty at first. -/
def Spacious (N : Nat) (t : List PortAct) : Prop := ∃ es m, Fits N 0 es m ∧ t <+: es

theorem Spacious.asked {N cap : Nat} {a : List PortAct} (h : Spacious N (a ++ [.asked cap])) : N ≤ cap + (gotBytes a).length := by
  obtain ⟨es, m, h1, t, ht⟩ := h
  exact h1.asked (b := t) (by rw [← ht]; simp)

theorem Spacious.prefix {N : Nat} {s t : List PortAct} (h : Spacious N t) (hs : s <+: t) : Spacious N s := by
  obtain ⟨es, m, h1, h2⟩ := h
  exact ⟨es, m, h1, hs.trans h2⟩

end Dxl

namespace Dxl.Props
open Dxl.MockSerial Spec.Line

/-! ## Executions of the line -/

theorem trace_append (i : Nat) (a b : List Act) : trace i (a ++ b) = trace i a ++ trace i b := by simp [trace, List.filterMap_append]

theorem trace_history (i : Nat) (as : List Act) : (trace i as).filterMap PortAct.plain = MockSerial.history i as := by
  unfold trace MockSerial.history
  rw [List.filterMap_filterMap]
  congr 1
  funext a
  cases a <;> simp only [Act.traceFor, Act.for] <;> try rfl
  all_goals split <;> rfl

theorem gotBytes_reads (i : Nat) (as : List Act) : gotBytes (trace i as) = (reads i (as.filterMap seen)).flatten := by
  induction as with
  | nil => rfl
  | cons a as ih =>
    rw [show a :: as = [a] ++ as from rfl, trace_append, gotBytes_append, ih, List.filterMap_append, reads_append, List.flatten_append]
    congr 1
    cases a with
    | take j bs => by_cases h : j = i <;> simp [trace, Act.traceFor, gotBytes, seen, reads, h]
    | startRead j c d => by_cases h : j = i <;> simp [trace, Act.traceFor, gotBytes, seen, reads, h]
    | expire j => by_cases h : j = i <;> simp [trace, Act.traceFor, gotBytes, seen, reads, h]
    | startWrite j c => by_cases h : j = i <;> simp [trace, Act.traceFor, gotBytes, seen, reads, h]
    | _ => rfl

/-- A thread that is in a read has asked for it last. -/
theorem reading_trace {others : Nat → List Nat} {s : State} {as : List Act} (h : Run others init as s) (i cap deadline : Nat)
    (c : Bool) (ht : s.threads i = .reading cap deadline c) : ∃ t, trace i as = t ++ [.asked cap] := by
  have other : ∀ (as : List Act) (a : Act), a.traceFor i = none → trace i (as ++ [a]) = trace i as := by
    intro as a ha; rw [trace_append]; simp [trace, ha]
  generalize hi : init = s0 at h
  induction h generalizing cap deadline c with
  | nil => subst hi; simp [init] at ht
  | @snoc s' s'' as a _ hst ih =>
    cases hst with
    | tick => rw [other _ _ rfl]; exact ih _ _ _ ht
    | @startRead k cap' deadline' hk =>
      simp only [State.thread] at ht
      by_cases hik : i = k
      · subst hik
        simp only [if_true, Thread.reading.injEq] at ht
        obtain ⟨rfl, rfl, -⟩ := ht
        exact ⟨trace i as, by rw [trace_append]; simp [trace, Act.traceFor]⟩
      · rw [if_neg hik] at ht
        rw [other _ _ (by simp [Act.traceFor, Ne.symm hik])]
        exact ih _ _ _ ht
    | @check k cap' deadline' hk hd | @miss k cap' deadline' hk =>
      rw [other _ _ rfl]
      simp only [State.thread] at ht
      by_cases hik : i = k
      · subst hik
        simp only [if_true, Thread.reading.injEq] at ht
        obtain ⟨rfl, rfl, -⟩ := ht
        exact ih _ _ _ hk
      · rw [if_neg hik] at ht
        exact ih _ _ _ ht
    | @expire k _ _ hk | @take k _ _ hk | @crash k _ _ hk | @startWrite k _ hk | @append k _ _ _ hk | @fail k _ _ _ hk | @finish k _ hk =>
      simp only [State.thread, State.buffer] at ht
      by_cases hik : i = k
      · subst hik; simp at ht
      · rw [if_neg hik] at ht
        rw [other _ _ (by simp [Act.traceFor, Ne.symm hik])]
        exact ih _ _ _ ht

/-- What arrived is no longer than what was written. -/
theorem from_bytes_le : ∀ {ms w : List Msg}, (∀ i, from_ i ms <+: from_ i w) → (bytes ms).length ≤ (bytes w).length := by
  intro ms
  induction ms with
  | nil => intro w _; simp [bytes]
  | cons m ms ih =>
    intro w h
    obtain ⟨j, d⟩ := m
    obtain ⟨t, ht⟩ := h j
    obtain ⟨u, v, hw, hu⟩ : ∃ u v, w = u ++ (j, d) :: v ∧ from_ j u = [] := by
      have : from_ j w = d :: (from_ j ms ++ t) := by rw [← ht]; simp [from_]
      clear h ht
      induction w with
      | nil => simp [from_] at this
      | cons x w ihw =>
        obtain ⟨k, e⟩ := x
        by_cases hk : k = j
        · subst hk
          have h1 : from_ k ((k, e) :: w) = e :: from_ k w := by simp [from_]
          rw [h1] at this
          obtain ⟨rfl, -⟩ := List.cons.inj this
          exact ⟨[], w, rfl, rfl⟩
        · have h1 : from_ j ((k, e) :: w) = from_ j w := by simp [from_, hk]
          rw [h1] at this
          obtain ⟨u, v, h2, h3⟩ := ihw this
          exact ⟨(k, e) :: u, v, by rw [h2]; rfl, by rw [← h3]; simp [from_, hk]⟩
    have key := ih (w := u ++ v) (by
      intro i
      have hi := h i
      rw [hw, from_append] at hi
      by_cases hij : j = i
      · subst hij
        have e1 : from_ j ((j, d) :: ms) = d :: from_ j ms := by simp [from_]
        have e2 : from_ j ((j, d) :: v) = d :: from_ j v := by simp [from_]
        rw [e1, e2, hu, List.nil_append, List.cons_prefix_cons] at hi
        rw [from_append, hu]
        exact hi.2
      · have e1 : from_ i ((j, d) :: ms) = from_ i ms := by simp [from_, hij]
        have e2 : from_ i ((j, d) :: v) = from_ i v := by simp [from_, hij]
        rw [e1, e2] at hi
        rw [from_append]
        exact hi)
    rw [hw, show (j, d) :: ms = [(j, d)] ++ ms from rfl, show u ++ (j, d) :: v = u ++ ([(j, d)] ++ v) from rfl]
    rw [bytes_append', List.length_append] at key ⊢
    rw [bytes_append', bytes_append', List.length_append, List.length_append]
    omega

theorem said_written {n i : Nat} (hi : i ≤ n) (as : List Act) : from_ i (said n as) = written i (as.filterMap seen) := by
  induction as with
  | nil => rfl
  | cons a as ih =>
    rw [show a :: as = [a] ++ as from rfl, List.filterMap_append, written_append, ← ih, said, List.filterMap_append, from_append]
    congr 1
    cases a with
    | startWrite k data =>
      by_cases hk : k = i
      · subst hk; simp [hi, from_, seen, written]
      · by_cases hk' : k ≤ n <;> simp [hk', from_, seen, written, hk]
    | _ => simp [from_, seen, written]

/-- The messages that were not sent by port `j`. -/
def others_ (j : Nat) (ms : List Msg) : List Msg := ms.filter fun m => m.1 != j

theorem no_crash {ids : List Byte} {N : Nat → Nat} {s : State} {as : List Act} (h : Run (newClientDevice ids) init as s)
    (hthreads : ∀ i, i ≤ ids.length → Spacious (N i) (trace i as))
    (hsaid : ∀ i, i ≤ ids.length → (bytes (others_ i (said ids.length as))).length ≤ N i) : ∀ i, .crash i ∉ as := by
  generalize hi : init = s0 at h
  induction h with
  | nil => simp
  | @snoc s' s'' as a hrun hst ih =>
    subst hi
    have hpre : ∀ i, i ≤ ids.length → (bytes (others_ i (said ids.length as))).length ≤ N i := by
      intro i hi
      refine Nat.le_trans ?_ (hsaid i hi)
      rw [said, said, List.filterMap_append, others_, others_, List.filter_append, bytes_append', List.length_append]
      omega
    have hold := ih (fun i hi => (hthreads i hi).prefix (by rw [trace_append]; exact List.prefix_append _ _)) hpre
    intro i hm
    rcases List.mem_append.mp hm with hm | hm
    · exact hold i hm
    · obtain rfl := List.mem_singleton.mp hm
      cases hst with
      | @crash _ cap deadline ht _ hc =>
        obtain ⟨groups, rest, h1, h2, h3⟩ := c56_stream_partial (c56_connected_once ids) hrun i
        have hone : i ≤ ids.length := by
          refine Classical.byContradiction fun hi => ?_
          have : rest = [] := by
            refine List.eq_nil_iff_forall_not_mem.mpr fun m hm => ?_
            have h4 := (h3 m.1).1 (fun h => hi ((c56_connections ids m.1 i).mp h).2.1)
            have h5 : m.2 ∈ from_ m.1 (groups.flatten ++ rest) :=
              List.mem_map.mpr ⟨m, List.mem_filter.mpr ⟨List.mem_append.mpr (.inr hm), by simp⟩, rfl⟩
            rw [h4] at h5
            cases h5
          rw [h2, this] at hc
          cases hc
        obtain ⟨t, ht'⟩ := reading_trace hrun i cap deadline true ht
        have hsp := (hthreads i hone).prefix (s := trace i as) (by rw [trace_append]; exact List.prefix_append _ _)
        rw [ht'] at hsp
        have hcap := hsp.asked
        have hgot : gotBytes (trace i as) = gotBytes t := by rw [ht', gotBytes_append]; simp [gotBytes]
        rw [gotBytes_reads, h1] at hgot
        have hall : gotBytes t ++ (s'.buffers i).data = bytes (groups.flatten ++ rest) := by
          rw [← hgot, h2, bytes_append']
          congr 1
          clear h1 h2 h3 hgot
          induction groups with
          | nil => rfl
          | cons g gs ih => rw [List.map_cons, List.flatten_cons, List.flatten_cons, bytes_append', ih]
        have hle : (bytes (groups.flatten ++ rest)).length ≤ (bytes (others_ i (said ids.length as))).length := by
          refine from_bytes_le fun k => ?_
          by_cases hk : i ∈ newClientDevice ids k
          · obtain ⟨hk1, -, hk2, -⟩ := (c56_connections ids k i).mp hk
            have e : from_ k (others_ i (said ids.length as)) = written k (as.filterMap seen) := by
              rw [← said_written hk1, from_, from_, others_, List.filter_filter]
              congr 1
              refine List.filter_congr fun m _ => ?_
              by_cases hm : m.1 = k
              · simp [hm, hk2]
              · simp [hm]
            rw [e]
            by_cases hp : i ∈ pending (s'.threads k)
            · rw [(h3 k).2.2 hk hp]; exact List.dropLast_prefix _
            · rw [(h3 k).2.1 hk hp]; exact List.prefix_refl _
          · rw [(h3 k).1 hk]; exact List.nil_prefix
        have := hpre i hone
        have hl := congrArg List.length hall
        rw [List.length_append] at hl
        omega

end Dxl.Props
