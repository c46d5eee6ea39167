import Verif.Model.MockSerial
import Verif.Spec.Line

/-! # C56: the simulated line of the integration tests -/

namespace Dxl.Props
open Dxl.MockSerial Dxl.Spec.Line

/-- What can be seen of a step. -/
def seen : Act → Option Event
  | .startWrite i data => some (.wrote i data)
  | .take j bytes => some (.got j bytes)
  | _ => none

/-- The buffers a thread has yet to write the data of its present write to. -/
def pending : Thread → List Nat
  | .writing _ p => p
  | .panicked p => p
  | _ => []

/-- The messages of `i` that have been put in a buffer: all but the last one, if the thread of `i` has not come to it yet. -/
def due (i j : Nat) (others : Nat → List Nat) (es : List Event) (t : Thread) : List (List Byte) :=
  if j ∈ others i then if j ∈ pending t then (written i es).dropLast else written i es else []

/-- The state of buffer `j` after these events: `groups` have been read, `rest` is there. -/
def Holds (others : Nat → List Nat) (j : Nat) (es : List Event) (s : State) (groups : List (List Msg)) (rest : List Msg) : Prop :=
  reads j es = groups.map bytes ∧ (s.buffers j).data = bytes rest ∧
    ∀ i, from_ i (groups.flatten ++ rest) = due i j others es (s.threads i)

/-- A thread that is writing writes what was asked for last, and has some last part of its list before it. -/
def Busy (others : Nat → List Nat) (es : List Event) (s : State) : Prop :=
  ∀ i data p, s.threads i = .writing data p → (written i es).getLast? = some data ∧ p <:+ others i

theorem from_append (i : Nat) (a b : List Msg) : from_ i (a ++ b) = from_ i a ++ from_ i b := by
  simp [from_]

theorem written_append (i : Nat) (a b : List Event) : written i (a ++ b) = written i a ++ written i b := by
  simp [written, List.filterMap_append]

theorem reads_append (j : Nat) (a b : List Event) : reads j (a ++ b) = reads j a ++ reads j b := by
  simp [reads, List.filterMap_append]

theorem bytes_append (a b : List Msg) : bytes (a ++ b) = bytes a ++ bytes b := by simp [bytes]

/-- Nothing that matters for buffer `j` changes. -/
theorem Holds.same {others : Nat → List Nat} {j : Nat} {es : List Event} {s s' : State} {groups : List (List Msg)}
    {rest : List Msg} (h : Holds others j es s groups rest) (hb : (s'.buffers j).data = (s.buffers j).data)
    (ht : ∀ i, pending (s'.threads i) = pending (s.threads i)) : Holds others j es s' groups rest :=
  ⟨h.1, hb ▸ h.2.1, fun i => by rw [h.2.2 i]; simp only [due, ht]⟩

theorem thread_same {s : State} {i : Nat} {t : Thread} (h : pending t = pending (s.threads i)) (k : Nat) :
    pending ((s.thread i t).threads k) = pending (s.threads k) := by
  simp only [State.thread]
  split
  · rename_i hk; rw [hk, h]
  · rfl

theorem busy_same {others : Nat → List Nat} {es : List Event} {s s' : State} (h : Busy others es s)
    (ht : ∀ i data p, s'.threads i = .writing data p → s.threads i = .writing data p) : Busy others es s' :=
  fun i data p hi => h i data p (ht i data p hi)

theorem thread_busy {s : State} {i : Nat} {t : Thread} (h : ∀ data p, t ≠ .writing data p) (k : Nat) (data : List Byte)
    (p : List Nat) (hk : (s.thread i t).threads k = .writing data p) : s.threads k = .writing data p := by
  simp only [State.thread] at hk
  split at hk
  · exact absurd hk (h _ _)
  · exact hk

/-- What the step adds to what was read from buffer `j`, where `rest` is in it. -/
def taken (j : Nat) (rest : List Msg) : Act → List (List Msg)
  | .take i _ => if i = j then [rest] else []
  | _ => []

theorem step_holds {others : Nat → List Nat} (hn : ∀ i, (others i).Nodup) {s s' : State} {a : Act} {j : Nat} {es : List Event}
    {groups : List (List Msg)} {rest : List Msg} (hst : Step others s a s') (h : Holds others j es s groups rest)
    (hb : Busy others es s) :
    (∃ rest', Holds others j (es ++ (seen a).toList) s' (groups ++ taken j rest a) rest') ∧
      Busy others (es ++ (seen a).toList) s' := by
  cases hst with
  | tick => simp only [seen, taken, Option.toList, List.append_nil]; exact ⟨⟨_, h.same rfl fun _ => rfl⟩, hb⟩
  | startRead ht =>
    simp only [seen, taken, Option.toList, List.append_nil]
    exact ⟨⟨_, h.same rfl (thread_same (by rw [ht]; rfl))⟩, busy_same hb (thread_busy (by simp))⟩
  | check ht hd =>
    simp only [seen, taken, Option.toList, List.append_nil]
    exact ⟨⟨_, h.same rfl (thread_same (by rw [ht]; rfl))⟩, busy_same hb (thread_busy (by simp))⟩
  | expire ht hd =>
    simp only [seen, taken, Option.toList, List.append_nil]
    exact ⟨⟨_, h.same rfl (thread_same (by rw [ht]; rfl))⟩, busy_same hb (thread_busy (by simp))⟩
  | miss ht =>
    simp only [seen, taken, Option.toList, List.append_nil]
    exact ⟨⟨_, h.same rfl (thread_same (by rw [ht]; rfl))⟩, busy_same hb (thread_busy (by simp))⟩
  | @take i cap deadline ht hp hne hl =>
    have hw : ∀ k, written k (es ++ [.got i (s.buffers i).data]) = written k es := by
      intro k; rw [written_append]; simp [written]
    simp only [seen, Option.toList]
    refine ⟨?_, ?_⟩
    · by_cases hij : i = j
      · subst hij
        refine ⟨[], ?_⟩
        rw [taken, if_pos rfl]
        refine ⟨?_, ?_, ?_⟩
        · rw [reads_append, h.1, List.map_append, h.2.1]; simp [reads]
        · simp [State.buffer, bytes]
        · intro k
          have hk := h.2.2 k
          have htk : pending (((s.thread i .idle).buffer i ⟨[], false⟩).threads k) = pending (s.threads k) :=
            thread_same (by rw [ht]; rfl) k
          simp only [due, htk, hw]
          simpa [due] using hk
      · refine ⟨rest, ?_⟩
        rw [taken, if_neg hij, List.append_nil]
        refine ⟨?_, ?_, ?_⟩
        · rw [reads_append, h.1]; simp [reads, hij]
        · simp [State.buffer, Ne.symm hij, State.thread, h.2.1]
        · intro k
          have htk : pending (((s.thread i .idle).buffer i ⟨[], false⟩).threads k) = pending (s.threads k) :=
            thread_same (by rw [ht]; rfl) k
          rw [h.2.2 k]
          simp only [due, htk, hw]
    · intro k data p hk
      rw [hw]
      exact hb k data p (thread_busy (by simp) k data p hk)
  | @crash i cap deadline ht hp hl =>
    simp only [seen, taken, Option.toList, List.append_nil]
    refine ⟨⟨_, h.same ?_ (thread_same (t := .panicked []) (by rw [ht]; rfl))⟩, busy_same hb (thread_busy (by simp))⟩
    simp only [State.buffer, State.thread]
    split
    · rename_i hj; rw [hj]
    · rfl
  | @startWrite i data ht =>
    have hw : ∀ k, written k (es ++ [.wrote i data]) = if k = i then written k es ++ [data] else written k es := by
      intro k; rw [written_append]; split
      · rename_i hk; simp [written, hk]
      · rename_i hk; simp [written, Ne.symm hk]
    simp only [seen, Option.toList]
    simp only [taken, List.append_nil]
    refine ⟨⟨rest, ?_, h.2.1, ?_⟩, ?_⟩
    · rw [reads_append, h.1]; simp [reads]
    · intro k
      rw [h.2.2 k]
      simp only [due, hw, State.thread]
      by_cases hk : k = i
      · subst hk
        simp only [if_true, ht, pending, List.not_mem_nil, if_false]
        split
        · simp
        · rfl
      · simp only [if_neg hk]
    · intro k data' p hk
      rw [hw]
      simp only [State.thread] at hk
      by_cases hki : k = i
      · subst hki
        simp only [if_true, Thread.writing.injEq] at hk ⊢
        obtain ⟨rfl, rfl⟩ := hk
        exact ⟨by simp, List.suffix_refl _⟩
      · simp only [if_neg hki] at hk ⊢
        exact hb k data' p hk
  | @append i j' data p ht hp =>
    obtain ⟨hlast, hsuf⟩ := hb i data (j' :: p) ht
    have hnd : (j' :: p).Nodup := (hn i).sublist hsuf.sublist
    have hj'p : j' ∉ p := (List.nodup_cons.mp hnd).1
    have hj'o : j' ∈ others i := hsuf.subset (by simp)
    simp only [seen, taken, Option.toList, List.append_nil]
    refine ⟨?_, ?_⟩
    · by_cases hj : j' = j
      · subst hj
        refine ⟨rest ++ [(i, data)], h.1, ?_, ?_⟩
        · simp [State.buffer, h.2.1, bytes]
        · intro k
          rw [← List.append_assoc, from_append, h.2.2 k]
          by_cases hk : k = i
          · subst hk
            have hin : j' ∈ pending (s.threads k) := by rw [ht]; simp [pending]
            have hne : written k es ≠ [] := by intro h0; simp [h0] at hlast
            have hgl : (written k es).getLast hne = data := by
              rw [List.getLast?_eq_some_getLast hne] at hlast; exact Option.some.inj hlast
            rw [due, due, if_pos hj'o, if_pos hin, if_pos hj'o, if_neg (by simpa [State.buffer, State.thread, pending] using hj'p)]
            simp only [from_, List.filter_cons, beq_self_eq_true, if_true, List.filter_nil, List.map_cons, List.map_nil]
            rw [← hgl]
            exact List.dropLast_concat_getLast hne
          · have hd : (((s.thread i (.writing data p)).buffer j' ⟨(s.buffers j').data ++ data, false⟩).threads k) = s.threads k := by
              simp [State.buffer, State.thread, hk]
            simp [due, hd, from_, Ne.symm hk]
      · refine ⟨rest, h.1, ?_, ?_⟩
        · simp [State.buffer, State.thread, Ne.symm hj, h.2.1]
        · intro k
          rw [h.2.2 k]
          by_cases hk : k = i
          · subst hk
            simp [due, State.buffer, State.thread, ht, pending, Ne.symm hj]
          · have hd : (((s.thread i (.writing data p)).buffer j' ⟨(s.buffers j').data ++ data, false⟩).threads k) = s.threads k := by
              simp [State.buffer, State.thread, hk]
            simp [due, hd]
    · intro k data' p' hk
      by_cases hki : k = i
      · subst hki
        simp only [State.buffer, State.thread, if_true, Thread.writing.injEq] at hk
        obtain ⟨rfl, rfl⟩ := hk
        exact ⟨hlast, (List.suffix_cons j' p).trans hsuf⟩
      · simp only [State.buffer, State.thread, if_neg hki] at hk
        exact hb k data' p' hk
  | @fail i j' data p ht hp =>
    simp only [seen, taken, Option.toList, List.append_nil]
    exact ⟨⟨_, h.same rfl (thread_same (by rw [ht]; rfl))⟩, busy_same hb (thread_busy (by simp))⟩
  | @finish i data ht =>
    simp only [seen, taken, Option.toList, List.append_nil]
    exact ⟨⟨_, h.same rfl (thread_same (by rw [ht]; rfl))⟩, busy_same hb (thread_busy (by simp))⟩

theorem run_holds {others : Nat → List Nat} (hn : ∀ i, (others i).Nodup) {s : State} {as : List Act} (j : Nat)
    (h : Run others init as s) :
    (∃ groups rest, Holds others j (as.filterMap seen) s groups rest) ∧ Busy others (as.filterMap seen) s := by
  generalize hi : init = s0 at h
  induction h with
  | nil =>
    subst hi
    refine ⟨⟨[], [], rfl, rfl, fun i => ?_⟩, fun i data p h => by simp [init] at h⟩
    simp [due, from_, written, pending, init]
  | @snoc s' s'' as a _ hst ih =>
    obtain ⟨⟨groups, rest, hh⟩, hb⟩ := ih
    obtain ⟨⟨rest', hh'⟩, hb'⟩ := step_holds hn hst hh hb
    have he : (as ++ [a]).filterMap seen = as.filterMap seen ++ (seen a).toList := by
      rw [List.filterMap_append]; cases h : seen a <;> simp [h]
    rw [he]
    exact ⟨⟨_, _, hh'⟩, hb'⟩


/-- **C56**: whatever the threads do, in whatever order their steps happen: the reads of port `j` return whole messages in groups, and
the messages still in its buffer are whole, too; together they are, for every port `i` connected to it, exactly what `i` wrote,
in order, nothing lost, repeated, or torn apart (except the last message while `i` is still about to put it there), and nothing
from ports that are not connected. -/
theorem c56_stream_partial {others : Nat → List Nat} (hn : ∀ i, (others i).Nodup) {s : State} {as : List Act}
    (h : Run others init as s) (j : Nat) :
    ∃ (groups : List (List Msg)) (rest : List Msg),
      reads j (as.filterMap seen) = groups.map bytes ∧ (s.buffers j).data = bytes rest ∧
      ∀ i, (j ∉ others i → from_ i (groups.flatten ++ rest) = []) ∧
        (j ∈ others i → j ∉ pending (s.threads i) →
          from_ i (groups.flatten ++ rest) = written i (as.filterMap seen)) ∧
        (j ∈ others i → j ∈ pending (s.threads i) →
          from_ i (groups.flatten ++ rest) = (written i (as.filterMap seen)).dropLast) := by
  obtain ⟨⟨groups, rest, h1, h2, h3⟩, -⟩ := run_holds hn j h
  refine ⟨groups, rest, h1, h2, fun i => ⟨fun ho => ?_, fun ho hp => ?_, fun ho hp => ?_⟩⟩
  · rw [h3, due, if_neg ho]
  · rw [h3, due, if_pos ho, if_neg hp]
  · rw [h3, due, if_pos ho, if_pos hp]

/-- **C56**: who hears whom on the line made by `new_client_device`: everybody hears everybody else, except that devices given the
same ID do not hear each other. Nobody hears itself. -/
theorem c56_connections (ids : List Byte) (i j : Nat) :
    j ∈ newClientDevice ids i ↔
      i ≤ ids.length ∧ j ≤ ids.length ∧ i ≠ j ∧ ¬ (∃ id, 0 < i ∧ 0 < j ∧ ids[i - 1]? = some id ∧ ids[j - 1]? = some id) := by
  cases i with
  | zero =>
    simp only [newClientDevice, List.mem_map, List.mem_range]
    constructor
    · rintro ⟨k, hk, rfl⟩
      exact ⟨by omega, by omega, by omega, by simp⟩
    · rintro ⟨-, h2, h3, -⟩
      exact ⟨j - 1, by omega, by omega⟩
  | succ k =>
    simp only [newClientDevice]
    by_cases hk : k < ids.length
    · rw [if_pos hk]
      simp only [List.mem_cons, List.mem_map, List.mem_filter, List.mem_range, bne_iff_ne, ne_eq, Nat.add_sub_cancel]
      constructor
      · rintro (rfl | ⟨m, ⟨hm, hne⟩, rfl⟩)
        · exact ⟨by omega, by omega, by omega, by simp⟩
        · refine ⟨by omega, by omega, ?_, ?_⟩
          · intro he
            have : k = m := by omega
            subst this
            exact hne rfl
          · rintro ⟨id, -, -, h1, h2⟩
            rw [Nat.add_sub_cancel] at h2
            exact hne (h1.trans h2.symm)
      · rintro ⟨-, h2, h3, h4⟩
        by_cases hj : j = 0
        · exact .inl hj
        · refine .inr ⟨j - 1, ⟨by omega, ?_⟩, by omega⟩
          intro he
          exact h4 ⟨ids[k], by omega, by omega, List.getElem?_eq_getElem hk, by rw [← he]; exact List.getElem?_eq_getElem hk⟩
    · rw [if_neg hk]
      simp only [List.not_mem_nil, false_iff]
      rintro ⟨h, -⟩
      omega

/-- **C56**: and everybody is connected only once, so that nothing is heard twice. -/
theorem c56_connected_once (ids : List Byte) (i : Nat) : (newClientDevice ids i).Nodup := by
  have hmap : ∀ l : List Nat, l.Nodup → (l.map (· + 1)).Nodup := fun l hl =>
    List.Pairwise.map _ (fun a b (h : a ≠ b) => by omega) hl
  cases i with
  | zero => exact hmap _ List.nodup_range
  | succ k =>
    simp only [newClientDevice]
    split
    · refine List.nodup_cons.mpr ⟨?_, hmap _ (List.nodup_range.filter _)⟩
      simp
    · exact List.nodup_nil

/-- **C56**: on a line with devices of different IDs, once all writes are done and port `j` has read all there is, its reads have
returned exactly what all the other ports wrote, each port's messages whole and in order. -/
theorem c56_bus_partial (ids : List Byte) (hd : ids.Nodup) {s : State} {as : List Act}
    (h : Run (newClientDevice ids) init as s) (j : Nat) (hj : j ≤ ids.length)
    (hw : ∀ i, pending (s.threads i) = []) (hb : (s.buffers j).data = []) :
    ∃ ms : List Msg, (reads j (as.filterMap seen)).flatten = bytes ms ∧
      ∀ i, from_ i ms = if i ≤ ids.length ∧ i ≠ j then written i (as.filterMap seen) else [] := by
  obtain ⟨groups, rest, h1, h2, h3⟩ := c56_stream_partial (c56_connected_once ids) h j
  refine ⟨groups.flatten ++ rest, ?_, fun i => ?_⟩
  · rw [bytes_append, ← h2, hb, List.append_nil, h1]
    simp only [bytes, List.map_flatten, List.flatten_flatten, List.map_map]
    rfl
  · obtain ⟨h4, h5, -⟩ := h3 i
    have hm := c56_connections ids i j
    split
    · rename_i hi
      refine h5 (hm.mpr ⟨hi.1, hj, hi.2, ?_⟩) (by rw [hw i]; simp)
      rintro ⟨id, hi0, hj0, hx, hy⟩
      have hi1 : i - 1 < ids.length := by omega
      have hj1 : j - 1 < ids.length := by omega
      have := (List.getElem?_inj hi1 hd).mp (hx.trans hy.symm)
      exact hi.2 (by omega)
    · rename_i hi
      refine h4 fun hc => hi ?_
      have := hm.mp hc
      exact ⟨this.1, this.2.2.1⟩

/-- The arguments of the last call of `read` of port `i`. -/
def asked (i : Nat) (as : List Act) : Option (Nat × Nat) :=
  (as.filterMap fun a => match a with
    | .startRead k cap deadline => if k = i then some (cap, deadline) else none
    | _ => none).getLast?

theorem asked_snoc (i : Nat) (as : List Act) (a : Act) (h : ∀ cap deadline, a ≠ .startRead i cap deadline) :
    asked i (as ++ [a]) = asked i as := by
  cases a with
  | startRead k cap deadline =>
    have : k ≠ i := fun hk => h cap deadline (by rw [hk])
    simp [asked, List.filterMap_append, this]
  | _ => simp [asked, List.filterMap_append]

theorem reading_asked {others : Nat → List Nat} {s : State} {as : List Act} (h : Run others init as s) (i cap deadline : Nat)
    (c : Bool) (ht : s.threads i = .reading cap deadline c) : asked i as = some (cap, deadline) := by
  generalize hi : init = s0 at h
  induction h generalizing cap deadline c with
  | nil => subst hi; simp [init] at ht
  | @snoc s' s'' as a _ hst ih =>
    cases hst with
    | tick => rw [asked_snoc _ _ _ (by simp)]; exact ih _ _ _ ht
    | @startRead k cap' deadline' hk =>
      simp only [State.thread] at ht
      by_cases hik : i = k
      · subst hik
        simp only [if_true, Thread.reading.injEq] at ht
        obtain ⟨rfl, rfl, -⟩ := ht
        simp [asked, List.filterMap_append]
      · rw [if_neg hik] at ht
        rw [asked_snoc _ _ _ (by simp [Ne.symm hik])]
        exact ih _ _ _ ht
    | @check k cap' deadline' hk hd | @miss k cap' deadline' hk =>
      rw [asked_snoc _ _ _ (by simp)]
      simp only [State.thread] at ht
      by_cases hik : i = k
      · subst hik
        simp only [if_true, Thread.reading.injEq] at ht
        obtain ⟨rfl, rfl, -⟩ := ht
        exact ih _ _ _ hk
      · rw [if_neg hik] at ht
        exact ih _ _ _ ht
    | expire hk | take hk | crash hk | startWrite hk | append hk | fail hk | finish hk =>
      rw [asked_snoc _ _ _ (by simp)]
      simp only [State.thread, State.buffer] at ht
      split at ht
      · simp at ht
      · exact ih _ _ _ ht

/-- **C56**: what a read returns: at least one byte and no more than asked for; or a timeout, but only after its deadline. -/
theorem c56_read_result_partial {others : Nat → List Nat} {s s' : State} {as : List Act} (h : Run others init as s) (i : Nat) :
    (∀ bytes, Step others s (.take i bytes) s' →
      ∃ cap deadline, asked i as = some (cap, deadline) ∧ bytes ≠ [] ∧ bytes.length ≤ cap) ∧
    (Step others s (.expire i) s' → ∃ cap deadline, asked i as = some (cap, deadline) ∧ deadline < s.now) := by
  refine ⟨fun bytes hst => ?_, fun hst => ?_⟩
  · cases hst with
    | take ht hp hne hl => exact ⟨_, _, reading_asked h i _ _ _ ht, hne, hl⟩
  · cases hst with
    | expire ht hd => exact ⟨_, _, reading_asked h i _ _ _ ht, hd⟩

/-- **C56**: a thread in a read is never stuck: past the deadline it can return, and before it, it can return what is there or try
again. -/
theorem c56_read_progress {others : Nat → List Nat} {s : State} {i cap deadline : Nat} {c : Bool}
    (ht : s.threads i = .reading cap deadline c) :
    ∃ as s', Run others s as s' ∧ as.length ≤ 2 ∧
      (deadline < s.now → s'.threads i = .idle) ∧
      (s.now ≤ deadline → (s.buffers i).poisoned = false → (s.buffers i).data ≠ [] → (s.buffers i).data.length ≤ cap →
        s'.threads i = .idle ∧ ∃ as', as = as' ++ [.take i (s.buffers i).data]) := by
  have self : ∀ (s : State) (t : Thread), (s.thread i t).threads i = t := fun s t => by simp [State.thread]
  by_cases hd : deadline < s.now
  · have hexp : Step others (s.thread i (.reading cap deadline false)) (.expire i)
        ((s.thread i (.reading cap deadline false)).thread i .idle) := .expire (self _ _) hd
    cases c with
    | true => exact ⟨_, _, .snoc (.snoc (.nil s) (.miss ht)) hexp, by simp, fun _ => self _ _, fun h => by omega⟩
    | false => exact ⟨_, _, .snoc (.nil s) (.expire ht hd), by simp, fun _ => self _ _, fun h => by omega⟩
  · by_cases hall : (s.buffers i).poisoned = false ∧ (s.buffers i).data ≠ [] ∧ (s.buffers i).data.length ≤ cap
    · obtain ⟨hp, hne, hl⟩ := hall
      cases c with
      | true =>
        exact ⟨_, _, .snoc (.nil s) (.take ht hp hne hl), by simp, fun h => absurd h hd, fun _ _ _ _ => ⟨self s _, _, rfl⟩⟩
      | false =>
        have hck : Step others s (.check i) (s.thread i (.reading cap deadline true)) := .check ht (by omega)
        exact ⟨_, _, .snoc (.snoc (.nil s) hck) (.take (self _ _) hp hne hl), by simp, fun h => absurd h hd,
          fun _ _ _ _ => ⟨self (s.thread i (.reading cap deadline true)) _, _, rfl⟩⟩
    · exact ⟨[], s, .nil s, by simp, fun h => absurd h hd, fun _ h1 h2 h3 => absurd ⟨h1, h2, h3⟩ hall⟩

/-- A step, computed. -/
def execute (others : Nat → List Nat) (s : State) : Act → Option State
  | .tick => some { s with now := s.now + 1 }
  | .startRead i cap deadline =>
    if s.threads i = .idle then some (s.thread i (.reading cap deadline false)) else none
  | .check i => match s.threads i with
    | .reading cap deadline false => if s.now ≤ deadline then some (s.thread i (.reading cap deadline true)) else none
    | _ => none
  | .expire i => match s.threads i with
    | .reading _ deadline false => if deadline < s.now then some (s.thread i .idle) else none
    | _ => none
  | .take i bytes => match s.threads i with
    | .reading cap _ true =>
      if (s.buffers i).poisoned = false ∧ (s.buffers i).data ≠ [] ∧ (s.buffers i).data.length ≤ cap ∧ bytes = (s.buffers i).data then
        some ((s.thread i .idle).buffer i ⟨[], false⟩) else none
    | _ => none
  | .crash i => match s.threads i with
    | .reading cap _ true =>
      if (s.buffers i).poisoned = false ∧ cap < (s.buffers i).data.length then
        some ((s.thread i (.panicked [])).buffer i ⟨(s.buffers i).data, true⟩) else none
    | _ => none
  | .startWrite i data => if s.threads i = .idle then some (s.thread i (.writing data (others i))) else none
  | .append i => match s.threads i with
    | .writing data (j :: pending) =>
      if (s.buffers j).poisoned = false then
        some ((s.thread i (.writing data pending)).buffer j ⟨(s.buffers j).data ++ data, false⟩) else none
    | _ => none
  | .fail i => match s.threads i with
    | .writing _ (j :: pending) =>
      if (s.buffers j).poisoned = true then some (s.thread i (.panicked (j :: pending))) else none
    | _ => none
  | .finish i => match s.threads i with
    | .writing _ [] => some (s.thread i .idle)
    | _ => none
  | _ => none

theorem execute_step {others : Nat → List Nat} {s s' : State} {a : Act} (h : execute others s a = some s') : Step others s a s' := by
  unfold execute at h
  split at h
  · cases h; exact .tick
  · split at h
    · rename_i ht; cases h; exact .startRead ht
    · cases h
  · split at h
    · rename_i ht
      split at h
      · rename_i hd; cases h; exact .check ht hd
      · cases h
    · cases h
  · split at h
    · rename_i ht
      split at h
      · rename_i hd; cases h; exact .expire ht hd
      · cases h
    · cases h
  · split at h
    · rename_i ht
      split at h
      · rename_i hc; obtain ⟨h1, h2, h3, rfl⟩ := hc; cases h; exact .take ht h1 h2 h3
      · cases h
    · cases h
  · split at h
    · rename_i ht
      split at h
      · rename_i hc; cases h; exact .crash ht hc.1 hc.2
      · cases h
    · cases h
  · split at h
    · rename_i ht; cases h; exact .startWrite ht
    · cases h
  · split at h
    · rename_i ht
      split at h
      · rename_i hc; cases h; exact .append ht hc
      · cases h
    · cases h
  · split at h
    · rename_i ht
      split at h
      · rename_i hc; cases h; exact .fail ht hc
      · cases h
    · cases h
  · split at h
    · rename_i ht; cases h; exact .finish ht
    · cases h
  · cases h

/-- Steps, computed. -/
def executeAll (others : Nat → List Nat) (s : State) (as : List Act) : Option State := as.foldlM (execute others) s

theorem executeAll_run {others : Nat → List Nat} {s s₁ s₂ : State} {as bs : List Act} (hr : Run others s bs s₁)
    (h : executeAll others s₁ as = some s₂) : Run others s (bs ++ as) s₂ := by
  induction as generalizing s₁ bs with
  | nil => cases h; simpa using hr
  | cons a as ih =>
    simp only [executeAll, List.foldlM_cons] at h
    cases he : execute others s₁ a with
    | none => rw [he] at h; cases h
    | some s' =>
      rw [he] at h
      have := ih (.snoc hr (execute_step he)) h
      simpa using this

theorem executes {others : Nat → List Nat} {as : List Act} {α : Type} {f : State → α} {x : α}
    (h : (executeAll others init as).map f = some x) : ∃ s, Run others init as s ∧ f s = x := by
  cases hs : executeAll others init as with
  | none => rw [hs] at h; cases h
  | some s =>
    rw [hs] at h
    exact ⟨s, by simpa using executeAll_run (.nil init) hs, by simpa using h⟩

/-- In full, C56 also says that no thread panics. -/
def C56_statement : Prop :=
  ∀ (ids : List Byte) (as : List Act) (s : State), ids.Nodup → Run (newClientDevice ids) init as s →
    ∀ i p, s.threads i ≠ .panicked p

/-- The client writes two bytes, which is more than the device can take; then it writes again. -/
def crashRun : List Act :=
  [.startRead 1 1 100, .startWrite 0 [1#8, 2#8], .append 0, .finish 0, .check 1, .crash 1, .startWrite 0 [3#8], .fail 0]

/-- **C56 is false in full**: `read` panics if more bytes wait than fit in its slice, instead of returning some of them; and as this
happens with the mutex locked, every later write to this port panics, too. -/
theorem c56_refuted : ¬ C56_statement := by
  intro h
  obtain ⟨s, hr, hs⟩ := executes (others := newClientDevice [1#8]) (as := crashRun) (f := fun s => (s.threads 1, s.threads 0))
    (x := (.panicked [], .panicked [1])) (by decide)
  exact h [1#8] _ s (by simp) hr 1 _ (Prod.mk.inj hs).1

/-- **C56**, exactly: if no read finds more bytes than fit in its slice, nothing ever panics. -/
theorem c56_no_panic_partial {others : Nat → List Nat} {s : State} {as : List Act} (h : Run others init as s)
    (hc : ∀ i, .crash i ∉ as) : (∀ i p, s.threads i ≠ .panicked p) ∧ ∀ j, (s.buffers j).poisoned = false := by
  generalize hi : init = s0 at h
  induction h with
  | nil => subst hi; simp [init]
  | @snoc s' s'' as a _ hst ih =>
    obtain ⟨h1, h2⟩ := ih (fun i hm => hc i (by simp [hm]))
    cases hst with
    | tick => exact ⟨h1, h2⟩
    | @crash k => exact absurd (List.mem_append_right _ (List.mem_singleton_self _)) (hc k)
    | fail ht hp => rw [h2] at hp; exact absurd hp (by simp)
    | take | append =>
      refine ⟨fun i p hp => ?_, fun j => ?_⟩
      · simp only [State.thread, State.buffer] at hp
        split at hp
        · simp at hp
        · exact h1 i p hp
      · simp only [State.buffer, State.thread]
        split
        · rfl
        · exact h2 j
    | _ =>
      refine ⟨fun i p hp => ?_, h2⟩
      simp only [State.thread] at hp
      split at hp
      · simp at hp
      · exact h1 i p hp

/-- A client and two devices: the client writes, device 1 answers, device 2 hears both. -/
def goodRun : List Act :=
  [.startWrite 0 [1#8, 2#8], .append 0, .startRead 2 10 5, .append 0, .startRead 1 10 5, .check 1, .take 1 [1#8, 2#8], .finish 0,
    .startWrite 1 [9#8], .append 1, .append 1, .check 2, .take 2 [1#8, 2#8, 9#8], .finish 1]

example : ∃ s, Run (newClientDevice [1#8, 2#8]) init goodRun s ∧ ((s.buffers 0).data, (s.buffers 2).data, s.threads 0) = ([9#8], [], .idle) :=
  executes (f := fun s => ((s.buffers 0).data, (s.buffers 2).data, s.threads 0)) (by decide)

example : reads 2 (goodRun.filterMap seen) = [bytes [(0, [1#8, 2#8]), (1, [9#8])]] := by decide
example : newClientDevice [1#8, 2#8] 0 = [1, 2] := by decide
example : newClientDevice [1#8, 2#8] 2 = [0, 1] := by decide
example : newClientDevice [1#8, 1#8] 2 = [0] := by decide

/-! ## The theorems on these runs -/

/-- The state after the run. -/
def goodState : State := ((executeAll (newClientDevice [1#8, 2#8]) init goodRun).getD init)

theorem goodRun_run : Run (newClientDevice [1#8, 2#8]) init goodRun goodState := by
  have h : executeAll (newClientDevice [1#8, 2#8]) init goodRun = some goodState := by
    unfold goodState
    cases h : executeAll (newClientDevice [1#8, 2#8]) init goodRun with
    | none => exact absurd h (by rw [← Option.isNone_iff_eq_none]; decide)
    | some s => rfl
  simpa using executeAll_run (.nil init) h

theorem goodState_idle (i : Nat) : goodState.threads i = .idle := by
  match i with
  | 0 => rfl
  | 1 => rfl
  | 2 => rfl
  | i + 3 => rfl

example := c56_stream_partial (c56_connected_once _) goodRun_run 2
example := c56_bus_partial [1#8, 2#8] (by decide) goodRun_run 2 (by decide) (fun i => by rw [goodState_idle]; rfl) (by decide)

/-- The state in which the thread of port 2 is about to take what was written to it by both others. -/
def takingState : State := ((executeAll (newClientDevice [1#8, 2#8]) init (goodRun.take 12)).getD init)

theorem takingState_run : Run (newClientDevice [1#8, 2#8]) init (goodRun.take 12) takingState := by
  have h : executeAll (newClientDevice [1#8, 2#8]) init (goodRun.take 12) = some takingState := by
    unfold takingState
    cases h : executeAll (newClientDevice [1#8, 2#8]) init (goodRun.take 12) with
    | none => exact absurd h (by rw [← Option.isNone_iff_eq_none]; decide)
    | some s => rfl
  simpa using executeAll_run (.nil init) h

example := (c56_read_result_partial takingState_run 2).1 [1#8, 2#8, 9#8]
  (.take (deadline := 5) (cap := 10) (by decide) (by decide) (by decide) (by decide) : Step _ _ (.take 2 [1#8, 2#8, 9#8]) _)
example := c56_read_progress (others := newClientDevice [1#8, 2#8]) (s := takingState) (i := 2) (cap := 10) (deadline := 5) (c := true) (by decide)

end Dxl.Props
