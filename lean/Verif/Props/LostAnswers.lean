import Verif.Props.GroupReads
import Verif.Props.StopAnywhere

/-! # C90: a lost answer to a group read -/

namespace Dxl.Props
open Dxl Spec

/-- `next` does nothing with the client but wait for a packet. -/
def OnlyReads {σ ε ι : Type} (next : SO σ ε (Option ι)) (client : σ → Bus) (todo : σ → List (Byte × Nat)) : Prop :=
  ∀ s s' q rest x, todo s = q :: rest → (client s).baudRate ≠ 0 → (client s).baudRate < 2 ^ 32 → next s = (s', .ok (some x)) →
    client s' = (Bus.readPacketDeadline ((client s).serialPort.now + responseWait (client s).baudRate q.2) (client s)).1

theorem readStatusResponse_client {b : Bus} (h0 : b.baudRate ≠ 0) (hb : b.baudRate < 2 ^ 32) (count : U16) :
    (Client.readStatusResponse count b).1 =
      (Bus.readPacketDeadline (b.serialPort.now + responseWait b.baudRate count.toNat) b).1 := by
  obtain ⟨ns, hns, heq⟩ := readStatusResponse_eq h0 hb count
  have := leastTime_unique hns (leastTime_transferNs _ h0)
  subst this
  rw [heq, readStatusResponseTimeout_state]
  rfl

theorem syncBytes_onlyReads (ε : Type) : OnlyReads (SyncIter.nextBytes (ε := ε)) SyncIter.client syncTodo := by
  intro s s' q rest x ht h0 hb hn
  have hi : s.index < s.motorIds.length := by
    have := congrArg List.length ht
    simp [syncTodo] at this
    omega
  have hq : q.2 = s.count.toNat := by
    unfold syncTodo at ht
    rw [List.drop_eq_getElem_cons hi] at ht
    cases ht
    rfl
  obtain ⟨rfl, -, -⟩ := syncNextBytes_state hi hn
  rw [hq]
  exact readStatusResponse_client h0 hb _

theorem syncData_onlyReads {α : Type} (d : DataTy α) (ε : Type) : OnlyReads (SyncIter.next d (ε := ε)) SyncIter.client
    (fun s => (s.motorIds.drop s.index).map fun id => (id, d.size.toNat)) := by
  intro s s' q rest x ht h0 hb hn
  have hi : s.index < s.motorIds.length := by
    have := congrArg List.length ht
    simp at this
    omega
  have hq : q.2 = d.size.toNat := by
    dsimp only at ht
    rw [List.drop_eq_getElem_cons hi] at ht
    cases ht
    rfl
  obtain ⟨rfl, -⟩ := syncNext_state hi hn
  rw [hq]
  exact readStatusResponse_client h0 hb _

theorem bulk_onlyReads (ε : Type) : OnlyReads (BulkIter.next (ε := ε)) BulkIter.client bulkTodo := by
  intro s s' q rest x ht h0 hb hn
  have hi : s.index < s.reads.length := by
    have := congrArg List.length ht
    simp [bulkTodo] at this
    omega
  have hq : q.2 = (s.reads[s.index]).count.toNat := by
    unfold bulkTodo at ht
    rw [List.drop_eq_getElem_cons hi] at ht
    cases ht
    rfl
  obtain ⟨rfl, -⟩ := bulkNext_state hi hn
  rw [hq]
  exact readStatusResponse_client h0 hb _

section
variable {σ ε α : Type} {next : SO σ ε (Option (Except ReadError (Response α)))} {client : σ → Bus}
  {todo : σ → List (Byte × Nat)} {Value : α → List Byte → Prop}

/-- Reading nothing from a line on which nothing will come. -/
theorem drained_read {b : Bus} (h : Drained b) (hN : 10 ≤ b.readBuffer.length) (D : Nat) :
    Drained (Bus.readPacketDeadline D b).1 := by
  obtain ⟨c, o, h1, h2, h3, h4, h5⟩ := Bus.readPacketDeadline_stream D h.rinv hN
  have hk := Bus.read_kept Port.kept_calm D h.rinv h.calm
  rw [h1] at hk ⊢
  refine ⟨h3, hk, ?_⟩
  have : c.pending ++ allBytes c.serialPort.rx <:+ b.pending ++ allBytes b.serialPort.rx := by
    split at h5
    · exact h5.2.2.2
    · exact h5.2.2.2
    · exact h5.2.2
  rw [h.empty] at this
  exact List.suffix_nil.mp this

theorem drained_stream {b : Bus} (h : Drained b) {T : Nat} (hT : b.serialPort.now ≤ T) : stream T b = [] := by
  rw [stream_eq hT]
  have h2 := Port.arriving_prefix T b.serialPort.rx
  obtain ⟨e1, e2⟩ := List.append_eq_nil_iff.mp h.empty
  rw [e2] at h2
  rw [e1, List.prefix_nil.mp h2]
  rfl

/-- All remaining items are time-outs. -/
theorem drained_items (h : IsIterator next client todo Value) (ho : OnlyReads next client todo) :
    ∀ (l : List (Byte × Nat)) (s : σ), todo s = l → Drained (client s) → (client s).baudRate < 2 ^ 32 → (client s).baudRate ≠ 0 →
      10 ≤ (client s).readBuffer.length →
      ∃ s', callTimes next l.length s = (s', .ok (List.replicate l.length (some (.error (.io .timedOut))))) ∧ todo s' = [] := by
  intro l
  induction l with
  | nil => intro s ht _ _ _ _; exact ⟨s, rfl, ht⟩
  | cons q l ih =>
    intro s ht hd hb h0 hN
    have hst := drained_stream hd (T := (client s).serialPort.now + responseWait (client s).baudRate q.2) (Nat.le_add_right _ _)
    rcases h.step s q.1 q.2 l ht hd.rinv hb with ⟨hh, -⟩ | ⟨-, s', x, h1, h2, h3⟩
    · rcases hh with hh | ⟨-, g, id, rest, -, hh⟩
      · exact absurd hh h0
      · rw [hst] at hh
        rcases hh with hh | hh <;> (have := congrArg List.length hh; simp [Bus.frame_length] at this; omega)
    · have hx : x = .error (.io .timedOut) := by
        refine (h3.io hN .timedOut).mpr ⟨?_, (Port.calm_readEnd hd.calm _).symm⟩
        rw [hst]
        exact parse_garbage (by decide) _
      subst hx
      have hc := ho s s' q l _ ht h0 hb h1
      have hd' : Drained (client s') := by rw [hc]; exact drained_read hd hN _
      obtain ⟨s2, k1, k2⟩ := ih s' h2 hd' (by rw [h3.like.baudRate]; exact hb) (by rw [h3.like.baudRate]; exact h0)
        (by rw [h3.like.readSize]; exact hN)
      refine ⟨s2, ?_, k2⟩
      rw [List.length_cons, callTimes_succ_ok h1, k1]
      rfl

/-- The client after some items. -/
theorem calm_items (h : IsIterator next client todo Value) (ho : OnlyReads next client todo) :
    ∀ (k : Nat) (s s' : σ) (xs : List (Option (Except ReadError (Response α)))), callTimes next k s = (s', .ok xs) →
      (client s).RInv → (client s).baudRate < 2 ^ 32 → (client s).baudRate ≠ 0 → Port.Calm (client s).serialPort →
      (client s').RInv ∧ Bus.Like (client s) (client s') ∧ Port.Calm (client s').serialPort := by
  intro k
  induction k with
  | zero => intro s s' xs hc hr _ _ hcalm; cases hc; exact ⟨hr, .refl _, hcalm⟩
  | succ k ih =>
    intro s s' xs hc hr hb h0 hcalm
    match ht : todo s with
    | [] =>
      rw [callTimes_none (h.finished s ht)] at hc
      cases hc
      exact ⟨hr, .refl _, hcalm⟩
    | (id, count) :: rest =>
      rcases h.step s id count rest ht hr hb with ⟨-, s1, h1⟩ | ⟨-, s1, x, h1, h2, h3⟩
      · rw [callTimes, SO.bind_panic h1] at hc
        cases hc
      · obtain ⟨t, y, ys, e1, e2, -⟩ := callTimes_succ_inv hc
        rw [h1] at e1
        cases e1
        obtain ⟨k1, k2, k3⟩ := ih s1 s' ys e2 h3.rinv (by rw [h3.like.baudRate]; exact hb) (by rw [h3.like.baudRate]; exact h0)
          (by rw [ho s s1 (id, count) rest x ht h0 hb h1]; exact Bus.read_kept Port.kept_calm _ hr hcalm)
        exact ⟨k1, h3.like.trans k2, k3⟩

theorem callTimes_append {σ ε β : Type} {m : SO σ ε β} {j k : Nat} {s s' s'' : σ} {xs ys : List β}
    (h1 : callTimes m j s = (s', .ok xs)) (h2 : callTimes m k s' = (s'', .ok ys)) : callTimes m (j + k) s = (s'', .ok (xs ++ ys)) := by
  induction j generalizing s xs with
  | zero => cases h1; rw [Nat.zero_add]; exact h2
  | succ j ih =>
    obtain ⟨t, y, zs, e1, e2, rfl⟩ := callTimes_succ_inv h1
    rw [Nat.add_right_comm, callTimes_succ_ok e1, ih e2]
    rfl

/-- Some replies come in time, of whatever motors, and then nothing: one item for each reply, judged as if it were from the motor whose
turn it is, and then time-outs. -/
theorem replies_then_silence (h : IsIterator next client todo Value) (ho : OnlyReads next client todo)
    (rounds : List Round) (later : List (Byte × Nat)) {s : σ} (ht : todo s = rounds.map (·.1) ++ later)
    (hr : (client s).RInv) (hb : (client s).baudRate < 2 ^ 32) (h0 : (client s).baudRate ≠ 0)
    (hN : 10 ≤ (client s).readBuffer.length)
    (hok : ∀ r ∈ rounds, r.2.Ok (client s).readBuffer.length)
    (hon : OnTime (client s) [] (rounds.map fun r => (responseWait (client s).baudRate r.1.2, r.2.bytes)))
    (hcalm : Port.Calm (client s).serialPort)
    (hall : (client s).pending ++ allBytes (client s).serialPort.rx = rounds.flatMap fun r => r.2.bytes) :
    ∃ s' xs, callTimes next (todo s).length s =
        (s', .ok (xs.map some ++ List.replicate later.length (some (.error (.io .timedOut))))) ∧ todo s' = [] ∧
      Pairwise₂ (fun (r : Round) x => Judged (some r.1.1) r.1.2 Value r.2.id r.2.error r.2.params x) rounds xs := by
  obtain ⟨s1, xs, k1, k2, k3, k4, k5⟩ := h.delivers rounds later s ht hr hb h0 hok hon
  obtain ⟨c1, c2, c3⟩ := calm_items h ho _ _ _ _ k1 hr hb h0 hcalm
  have hd : Drained (client s1) := by
    refine ⟨c1, c3, ?_⟩
    obtain ⟨T₁, e1⟩ := arriving_finally hcalm.2
    obtain ⟨T₂, e2⟩ := arriving_finally c3.2
    have e := k5 (max (max T₁ T₂) (client s1).serialPort.now) (by omega)
    rw [stream_eq (by omega), stream_eq (by omega), e1 _ (by omega), e2 _ (by omega), hall] at e
    have := congrArg List.length e
    rw [List.length_append] at this
    exact List.eq_nil_of_length_eq_zero (by omega)
  obtain ⟨s2, l1, l2⟩ := drained_items h ho later s1 k2 hd (by rw [c2.baudRate]; exact hb) (by rw [c2.baudRate]; exact h0)
    (by rw [c2.readSize]; exact hN)
  refine ⟨s2, xs, ?_, l2, k3⟩
  rw [ht, List.length_append, List.length_map]
  exact callTimes_append k1 l1

end

/-- What is returned for the motor `want` when the answer of another one comes. -/
def misplaced {α β : Type} (want : Byte) (a : DeviceAnswer β) : Except ReadError (Response α) :=
  if a.error.toNat % 128 ≠ 0 then .error (.motorError ⟨a.error⟩) else .error (.invalidMessage (.packetId a.id want))

/-- An answer that is lost, and those after it that come: never the answer of the motor whose turn it is. -/
theorem shifted {α : Type} {a : DeviceAnswer α} {post came : List (DeviceAnswer α)} (hs : came.Sublist post)
    (hd : ((a :: post).map (·.id)).Nodup) : ∀ p ∈ (a :: post).zip came, p.1.id ≠ p.2.id := by
  induction post generalizing a came with
  | nil => cases hs; simp
  | cons b post ih =>
    rw [List.map_cons, List.nodup_cons] at hd
    cases hs with
    | cons _ hs' =>
      -- `b` is lost, too
      intro p hp
      cases came with
      | nil => simp at hp
      | cons c came =>
        rw [List.zip_cons_cons, List.mem_cons] at hp
        rcases hp with rfl | hp
        · intro he
          apply hd.1
          rw [List.mem_map]
          exact ⟨c, List.mem_cons_of_mem _ (hs'.subset (List.mem_cons_self ..)), he.symm⟩
        · exact ih (List.Sublist.trans (List.sublist_cons_self ..) hs') hd.2 p hp
    | cons_cons _ hs' =>
      rename_i came
      intro p hp
      rw [List.zip_cons_cons, List.mem_cons] at hp
      rcases hp with rfl | hp
      · intro he
        apply hd.1
        rw [List.mem_map]
        exact ⟨b, List.mem_cons_self .., he.symm⟩
      · exact ih hs' hd.2 p hp

/-- Who is asked for how many bytes, and the answer that comes then. -/
abbrev Met (α : Type) := (Byte × Nat) × DeviceAnswer α

/-- What is returned. -/
def Met.item {α : Type} (m : Met α) : Except ReadError (Response α) :=
  if m.1.1 = m.2.id then m.2.item else misplaced m.1.1 m.2

theorem met_rounds {α : Type} {size : Nat} {mets : List (Met α)} (hs : ∀ m ∈ mets, m.2.IsSent size) :
    ∃ rounds : List Round, rounds.map (·.1) = mets.map (·.1) ∧ (∀ r ∈ rounds, r.2.Ok size) ∧
      (∀ wait : Nat → Nat, rounds.map (fun r => (wait r.1.2, r.2.bytes)) =
        mets.map (fun m => (wait m.1.2, m.2.garbage ++ m.2.packet))) ∧
      rounds.flatMap (fun r => r.2.bytes) = mets.flatMap (fun m => m.2.garbage ++ m.2.packet) ∧
      Pairwise₂ (fun (r : Round) m => r.1 = m.1 ∧ r.2.id = m.2.id ∧ r.2.error = m.2.error ∧ r.2.params = m.2.params)
        rounds mets := by
  induction mets with
  | nil => exact ⟨[], rfl, by simp, fun _ => rfl, rfl, .nil⟩
  | cons m l ih =>
    obtain ⟨rounds, h1, h2, h3, h4, h5⟩ := ih fun a ha => hs a (by simp [ha])
    obtain ⟨r, k1, k2, k3, k4, k5⟩ := (hs m (by simp)).reply
    refine ⟨(m.1, r) :: rounds, by simp [h1], ?_, fun wait => by simp [h3 wait, k2], by simp [h4, k2], .cons ⟨rfl, k3, k4, k5⟩ h5⟩
    intro x hx
    rcases List.mem_cons.mp hx with rfl | hx
    · exact k1
    · exact h2 x hx

theorem met_items {α : Type} {Value : α → List Byte → Prop} {rounds : List Round} {mets : List (Met α)}
    {xs : List (Except ReadError (Response α))}
    (h : Pairwise₂ (fun (r : Round) m => r.1 = m.1 ∧ r.2.id = m.2.id ∧ r.2.error = m.2.error ∧ r.2.params = m.2.params) rounds mets)
    (hv : ∀ m ∈ mets, m.1.1 = m.2.id → m.2.error.toNat % 128 = 0 →
      m.2.params.length = m.1.2 ∧ ∀ v, Value v m.2.params → v = m.2.value)
    (hj : Pairwise₂ (fun (r : Round) x => Judged (some r.1.1) r.1.2 Value r.2.id r.2.error r.2.params x) rounds xs) :
    xs = mets.map Met.item := by
  induction h generalizing xs with
  | nil => cases hj; rfl
  | @cons r m rs ms hm _ ih =>
    cases hj with
    | @cons _ x _ ys hj hjs =>
      rw [List.map_cons, ih (fun a ha => hv a (by simp [ha])) hjs]
      congr 1
      obtain ⟨e1, e2, e3, e4⟩ := hm
      rw [e1, e2, e3, e4] at hj
      unfold Judged at hj
      unfold Met.item DeviceAnswer.item misplaced
      by_cases he : m.2.error.toNat % 128 = 0
      · rw [if_neg (by simpa using he)] at hj
        by_cases hi : m.1.1 = m.2.id
        · obtain ⟨l1, l2⟩ := hv m (by simp) hi he
          rw [if_neg (by simpa using hi), if_neg (by simpa using l1)] at hj
          obtain ⟨v, hv1, hv2⟩ := hj
          rw [if_pos hi, if_neg (by simpa using he), hv2, l2 v hv1]
        · rw [if_pos (by simpa using hi)] at hj
          rw [if_neg hi, if_neg (by simpa using he), hj]
          rfl
      · rw [if_pos he] at hj
        rw [hj]
        split <;> rfl

theorem zip_fst_drop {β γ δ : Type} (f : β → δ) : ∀ (l : List β) (m : List γ),
    (l.zip m).map (fun p => f p.1) ++ (l.drop m.length).map f = l.map f
  | [], _ => by simp
  | x :: l, [] => by simp
  | x :: l, y :: m => by
    have := zip_fst_drop f l m
    simp only [List.zip_cons_cons, List.map_cons, List.length_cons, List.drop_succ_cons, List.cons_append, this]

theorem zip_snd_of_le {β γ : Type} : ∀ (l : List β) (m : List γ), m.length ≤ l.length → (l.zip m).map (·.2) = m
  | [], [], _ => rfl
  | _ :: _, [], _ => by simp
  | x :: l, y :: m, h => by simp [zip_snd_of_le l m (by simpa using h)]

/-- The items of a group read when the answer `a` is the first one that is lost. -/
def withoutAnswer {α : Type} (pre : List (DeviceAnswer α)) (a : DeviceAnswer α) (post came : List (DeviceAnswer α)) :
    List (Except ReadError (Response α)) :=
  pre.map DeviceAnswer.item ++ ((a :: post).zip came).map (fun p => misplaced p.1.id p.2) ++
    List.replicate (post.length + 1 - came.length) (.error (.io .timedOut))

theorem lost_delivered {σ α : Type} {next : SO σ ReadError (Option (Except ReadError (Response α)))} {client : σ → Bus}
    {todo : σ → List (Byte × Nat)} {Value : α → List Byte → Prop} (h : IsIterator next client todo Value)
    (ho : OnlyReads next client todo)
    {pre post came : List (DeviceAnswer α)} {a : DeviceAnswer α} {count : DeviceAnswer α → Nat} {s : σ}
    (ht : todo s = (pre ++ a :: post).map fun a => (a.id, count a)) (hr : (client s).RInv) (hb : (client s).baudRate < 2 ^ 32)
    (h0 : (client s).baudRate ≠ 0) (hN : 10 ≤ (client s).readBuffer.length)
    (hcame : came.Sublist post) (hd : ((a :: post).map (·.id)).Nodup)
    (hs : ∀ a ∈ pre ++ came, a.IsSent (client s).readBuffer.length)
    (hv : ∀ a ∈ pre, a.error.toNat % 128 = 0 → a.params.length = count a ∧ ∀ v, Value v a.params → v = a.value)
    (hon : OnTime (client s) [] (((pre ++ a :: post).zip (pre ++ came)).map fun p =>
      (responseWait (client s).baudRate (count p.1), p.2.garbage ++ p.2.packet)))
    (hcalm : Port.Calm (client s).serialPort)
    (hall : (client s).pending ++ allBytes (client s).serialPort.rx = (pre ++ came).flatMap fun a => a.garbage ++ a.packet) :
    ∃ s', callTimes next (pre.length + post.length + 2) s = (s', .ok ((withoutAnswer pre a post came).map some ++ [none])) := by
  have hle : came.length ≤ post.length := hcame.length_le
  have hzip : (pre ++ a :: post).zip (pre ++ came) = pre.zip pre ++ (a :: post).zip came := List.zip_append rfl
  have hself : pre.zip pre = pre.map fun a => (a, a) := by
    clear ht hs hv hon hall hzip
    induction pre with
    | nil => rfl
    | cons x l ih => simp [ih]
  generalize hm : ((pre ++ a :: post).zip (pre ++ came)).map (fun p => ((p.1.id, count p.1), p.2)) = mets
  have hsnd : mets.map (·.2) = pre ++ came := by
    rw [← hm, List.map_map]
    exact zip_snd_of_le _ _ (by simp; omega)
  obtain ⟨rounds, r1, r2, r3, r4, r5⟩ := met_rounds (size := (client s).readBuffer.length) (mets := mets) (fun m hmem => hs _ (by
    rw [← hsnd]; exact List.mem_map_of_mem hmem))
  have hfst : mets.map (·.1) ++ ((a :: post).drop came.length).map (fun a => (a.id, count a)) =
      (pre ++ a :: post).map fun a => (a.id, count a) := by
    rw [← zip_fst_drop (fun a => (a.id, count a)) (pre ++ a :: post) (pre ++ came), ← hm, List.map_map, List.length_append,
      List.drop_append (l₁ := pre), List.drop_eq_nil_of_le (as := pre) (by omega), List.nil_append, Nat.add_sub_cancel_left]
    rfl
  obtain ⟨s1, xs, k1, k2, k3⟩ := replies_then_silence h ho rounds (((a :: post).drop came.length).map fun a => (a.id, count a))
    (s := s) (by rw [ht, r1, hfst]) hr hb h0 hN r2 (by
      rw [r3 (responseWait (client s).baudRate), ← hm, List.map_map]
      exact hon) hcalm (by
      rw [hall, r4, ← hsnd, List.flatMap_map])
  have hxs := met_items r5 (fun m hmem hi he => by
    rw [← hm, hzip, List.map_append, List.mem_append] at hmem
    rcases hmem with hmem | hmem
    · rw [hself, List.map_map, List.mem_map] at hmem
      obtain ⟨x, hx, rfl⟩ := hmem
      exact hv x hx he
    · rw [List.mem_map] at hmem
      obtain ⟨p, hp, rfl⟩ := hmem
      exact absurd hi (shifted hcame hd p hp)) k3
  have hitems : xs = pre.map DeviceAnswer.item ++ ((a :: post).zip came).map fun p => misplaced p.1.id p.2 := by
    rw [hxs, ← hm, hzip, hself, List.map_append, List.map_append, List.map_map, List.map_map, List.map_map]
    congr 1
    · apply List.map_congr_left
      intro x _
      simp [Met.item]
    · apply List.map_congr_left
      intro p hp
      simp only [Function.comp_apply, Met.item]
      rw [if_neg (shifted hcame hd p hp)]
  refine ⟨s1, ?_⟩
  have hlen : (todo s).length = pre.length + post.length + 1 := by
    rw [ht]
    simp
    omega
  rw [hlen] at k1
  rw [callTimes_snoc _ k1 (h.finished s1 k2), hitems]
  unfold withoutAnswer
  simp only [List.map_append, List.map_replicate, List.length_map, List.length_drop, List.length_cons]

/-- Of the answers after the lost one, none is returned; and at least one turn ends with a time-out. -/
theorem withoutAnswer_errors {α : Type} {pre post came : List (DeviceAnswer α)} {a : DeviceAnswer α} (h : came.Sublist post) :
    (withoutAnswer pre a post came).length = pre.length + post.length + 1 ∧
      (∀ x ∈ (withoutAnswer pre a post came).drop pre.length, ∃ e, x = .error e) ∧
      (withoutAnswer pre a post came).getLast? = some (.error (.io .timedOut)) := by
  have hle := h.length_le
  obtain ⟨k, hk⟩ : ∃ k, post.length + 1 - came.length = k + 1 := ⟨post.length - came.length, by omega⟩
  unfold withoutAnswer
  refine ⟨by simp; omega, fun x hx => ?_, by rw [hk, List.replicate_succ']; simp⟩
  rw [List.append_assoc, List.drop_append, List.length_map, Nat.sub_self, List.drop_zero, List.drop_eq_nil_of_le (by simp),
    List.nil_append, List.mem_append] at hx
  rcases hx with hx | hx
  · obtain ⟨p, -, rfl⟩ := List.mem_map.mp hx
    unfold misplaced
    split
    · exact ⟨_, rfl⟩
    · exact ⟨_, rfl⟩
  · exact ⟨_, (List.mem_replicate.mp hx).2⟩

theorem sent_input {b b' : Bus} {params : Nat} {enc : Encoder} {id ins : Byte} (hb : b.WInv)
    (h : Client.writeInstruction id ins params enc b = (b', .ok ())) :
    b'.pending ++ allBytes b'.serialPort.rx = allBytes (newInput b.serialPort) := by
  obtain ⟨_, -, -, -, -, hb'⟩ := Bus.writeInstruction_ok hb h
  rw [hb', newInput_eq]
  simp [Bus.pending, Port.wrote, Port.discarded]

/-- **C90** `sync_read` when the answer `a` is lost and those in `came` of the later ones arrive: the turns up to that of `a` are
as if nothing was lost (C59). From then on each turn gets the answer of a later motor, and returns its error, or that the ID is
wrong; when no more answers come, the turns that are left end with a time-out. For every type of data. -/
theorem c90_sync_read {α : Type} {d : DataTy α} {valid : α → Prop} {f : α → List Byte} (hd : ImplData d valid f)
    {pre post came : List (DeviceAnswer α)} {a : DeviceAnswer α} {address : U16} {b b' : Bus} (hb : b.Inv)
    (hbaud : b.baudRate < 2 ^ 32) (h0 : b.baudRate ≠ 0) (hN : 10 ≤ b.readBuffer.length)
    (h : Client.syncRead d ((pre ++ a :: post).map (·.id)) address b = (b', .ok ()))
    (hcame : came.Sublist post) (hids : ((a :: post).map (·.id)).Nodup)
    (hs : ∀ a ∈ pre ++ came, a.IsSent b.readBuffer.length)
    (hv : ∀ a ∈ pre, a.error.toNat % 128 = 0 → valid a.value ∧ a.params = f a.value)
    (hon : OnTime b' [] ((pre ++ came).map fun a => (responseWait b.baudRate d.size.toNat, a.garbage ++ a.packet)))
    (hcalm : Port.Calm b'.serialPort)
    (hall : allBytes (newInput b.serialPort) = (pre ++ came).flatMap fun a => a.garbage ++ a.packet) :
    ∃ s', callTimes (SyncIter.next d (ε := ReadError)) (pre.length + post.length + 2) ⟨b', d.size, (pre ++ a :: post).map (·.id), 0⟩ =
      (s', .ok ((withoutAnswer pre a post came).map some ++ [none])) := by
  obtain ⟨params, wire, -, -, -, k⟩ := afterSend hb.wInv h
  have hc := c28_round_trip_partial d valid f hd
  refine lost_delivered (syncData_iterator hd ReadError) (syncData_onlyReads d ReadError) (count := fun _ => d.size.toNat)
    (s := ⟨b', d.size, (pre ++ a :: post).map (·.id), 0⟩)
    (by simp [Function.comp_def]) k.rinv (by rw [k.baudRate]; exact hbaud) (by rw [k.baudRate]; exact h0)
    (by rw [k.readBuffer]; exact hN) hcame hids
    (by rw [k.readBuffer]; exact hs) (fun a ha he => ?_) ?_ hcalm ((sent_input hb.wInv h).trans hall)
  · obtain ⟨h1, h2⟩ := hv a ha he
    refine ⟨by rw [h2, hc.length _ h1], fun v hv' => ?_⟩
    have hdec := hc.decode v hv'.1
    rw [hv'.2, h2, hc.decode _ h1] at hdec
    exact (Outcome.ok.inj hdec).symm
  · rw [k.baudRate]
    rw [← zip_snd_of_le (pre ++ a :: post) (pre ++ came) (by have := hcame.length_le; simp; omega), List.map_map] at hon
    exact hon

/-- **C90** `sync_read_bytes` when an answer is lost. -/
theorem c90_sync_read_bytes {pre post came : List (DeviceAnswer (List Byte))} {a : DeviceAnswer (List Byte)} {address count : U16}
    {b b' : Bus} (hb : b.Inv) (hbaud : b.baudRate < 2 ^ 32) (h0 : b.baudRate ≠ 0) (hN : 10 ≤ b.readBuffer.length)
    (h : Client.syncReadBytes ((pre ++ a :: post).map (·.id)) address count b = (b', .ok ()))
    (hcame : came.Sublist post) (hids : ((a :: post).map (·.id)).Nodup)
    (hs : ∀ a ∈ pre ++ came, a.IsSent b.readBuffer.length)
    (hv : ∀ a ∈ pre, a.error.toNat % 128 = 0 → a.value.length = count.toNat ∧ a.params = a.value)
    (hon : OnTime b' [] ((pre ++ came).map fun a => (responseWait b.baudRate count.toNat, a.garbage ++ a.packet)))
    (hcalm : Port.Calm b'.serialPort)
    (hall : allBytes (newInput b.serialPort) = (pre ++ came).flatMap fun a => a.garbage ++ a.packet) :
    ∃ s', callTimes (SyncIter.nextBytes (ε := ReadError)) (pre.length + post.length + 2) ⟨b', count, (pre ++ a :: post).map (·.id), 0⟩ =
      (s', .ok ((withoutAnswer pre a post came).map some ++ [none])) := by
  obtain ⟨params, wire, -, -, -, k⟩ := afterSend hb.wInv h
  refine lost_delivered (syncBytes_iterator ReadError) (syncBytes_onlyReads ReadError) (count := fun _ => count.toNat)
    (s := ⟨b', count, (pre ++ a :: post).map (·.id), 0⟩)
    (by simp [syncTodo, Function.comp_def]) k.rinv (by rw [k.baudRate]; exact hbaud) (by rw [k.baudRate]; exact h0)
    (by rw [k.readBuffer]; exact hN) hcame hids
    (by rw [k.readBuffer]; exact hs) (fun a ha he => ?_) ?_ hcalm ((sent_input hb.wInv h).trans hall)
  · obtain ⟨h1, h2⟩ := hv a ha he
    exact ⟨by rw [h2, h1], fun v hv' => by rw [show v = a.params from hv', h2]⟩
  · rw [k.baudRate]
    rw [← zip_snd_of_le (pre ++ a :: post) (pre ++ came) (by have := hcame.length_le; simp; omega), List.map_map] at hon
    exact hon

/-- **C90** `bulk_read_bytes` when an answer is lost. The answers may have different lengths here; the time that counts is that of
the motor whose turn it is. -/
theorem c90_bulk_read_bytes {pre post came : List (DeviceAnswer (List Byte))} {a : DeviceAnswer (List Byte)}
    {reads : List BulkReadData} {b b' : Bus} (hb : b.Inv) (hbaud : b.baudRate < 2 ^ 32) (h0 : b.baudRate ≠ 0)
    (hN : 10 ≤ b.readBuffer.length) (h : Client.bulkReadBytes reads b = (b', .ok ()))
    (hreads : reads.map (fun r => (r.motorId, r.count.toNat)) = (pre ++ a :: post).map fun a => (a.id, a.value.length))
    (hcame : came.Sublist post)
    (hs : ∀ a ∈ pre ++ came, a.IsSent b.readBuffer.length) (hv : ∀ a ∈ pre, a.error.toNat % 128 = 0 → a.params = a.value)
    (hon : OnTime b' [] (((pre ++ a :: post).zip (pre ++ came)).map fun p =>
      (responseWait b.baudRate p.1.value.length, p.2.garbage ++ p.2.packet)))
    (hcalm : Port.Calm b'.serialPort)
    (hall : allBytes (newInput b.serialPort) = (pre ++ came).flatMap fun a => a.garbage ++ a.packet) :
    ∃ s', callTimes (BulkIter.next (ε := ReadError)) (pre.length + post.length + 2) ⟨b', reads, 0⟩ =
      (s', .ok ((withoutAnswer pre a post came).map some ++ [none])) := by
  unfold Client.bulkReadBytes at h
  split at h
  · cases h
  · rename_i hdup
    obtain ⟨params, wire, -, -, -, k⟩ := afterSend hb.wInv h
    refine lost_delivered (bulk_iterator ReadError) (bulk_onlyReads ReadError) (count := fun a => a.value.length) (s := ⟨b', reads, 0⟩)
      (by simpa [bulkTodo] using hreads) k.rinv (by rw [k.baudRate]; exact hbaud) (by rw [k.baudRate]; exact h0)
      (by rw [k.readBuffer]; exact hN) hcame ?_
      (by rw [k.readBuffer]; exact hs) (fun a ha he => ?_) (by rw [k.baudRate]; exact hon) hcalm ((sent_input hb.wInv h).trans hall)
    · have hn : (reads.map (·.motorId)).Nodup := Decidable.not_not.mp fun hn => hdup ((hasDuplicateId_iff _).mpr hn)
      have hm : reads.map (·.motorId) = (pre ++ a :: post).map (·.id) := by
        have := congrArg (List.map Prod.fst) hreads
        simpa [Function.comp_def] using this
      rw [hm, List.map_append] at hn
      exact (List.nodup_append.mp hn).2.1
    · exact ⟨by rw [hv a ha he], fun v hv' => by rw [show v = a.params from hv', hv a ha he]⟩

/-! ## A concrete case: the devices of C59, of which the first is not heard -/

def silentFirst : Bus :=
  { lineBus [] with
    serialPort :=
      { quietPort with
        rx := .data 0 [1#8, 2#8] ::
          ((byteAnswers.drop 1).zip [30000000, 60000000]).map fun a => .data a.2 (a.1.garbage ++ a.1.packet) } }

example : (callTimes (SyncIter.nextBytes (ε := ReadError)) 4
      ⟨(Client.syncReadBytes [1#8, 2#8, 9#8] 132#16 4#16 silentFirst).1, 4#16, [1#8, 2#8, 9#8], 0⟩).2 =
      .ok [some (.error (.invalidMessage (.packetId 2#8 1#8))), some (.error (.motorError ⟨0x07#8⟩)), some (.error (.io .timedOut)),
        none] := by
  decide +kernel

theorem calm_of_data {p : Port} {chunks : List (Nat × List Byte)} (h : p.tail = .silent)
    (hrx : p.rx = chunks.map fun c => .data c.1 c.2) : Port.Calm p := by
  refine ⟨h, fun e he => ?_⟩
  rw [hrx] at he
  obtain ⟨c, -, rfl⟩ := List.mem_map.mp he
  exact ⟨_, _, rfl⟩

theorem silentFirst_inv : silentFirst.Inv := by
  refine ⟨?_, ?_⟩
  · constructor <;> simp [silentFirst, lineBus]
  · constructor <;> simp [silentFirst, lineBus, headerPrefix]

theorem silentFirst_sent : ∀ a ∈ [] ++ byteAnswers.drop 1, a.IsSent silentFirst.readBuffer.length := fun a ha =>
  byteAnswers_sent a (List.mem_of_mem_drop ha)

def chunksHeard : List (Nat × List Byte) := ((byteAnswers.drop 1).zip [30000000, 60000000]).map fun a => (a.2, a.1.garbage ++ a.1.packet)

/-- What the theorem says about it. -/
example : withoutAnswer [] (byteAnswers.head (by decide)) (byteAnswers.drop 1) (byteAnswers.drop 1) =
    [.error (.invalidMessage (.packetId 2#8 1#8)), .error (.motorError ⟨0x07#8⟩), .error (.io .timedOut)] := by
  decide +kernel

example := withoutAnswer_errors (pre := []) (a := byteAnswers.head (by decide)) (List.drop_sublist 1 byteAnswers)

set_option maxRecDepth 10000 in
example := c90_sync_read_bytes (pre := []) (a := byteAnswers.head (by decide)) (post := byteAnswers.drop 1) (came := byteAnswers.drop 1)
  (address := 132#16) (count := 4#16) silentFirst_inv (by decide) (by decide) (by decide) (pair_eq (by decide +kernel))
  (List.Sublist.refl _) (by decide +kernel) silentFirst_sent (by simp)
  (by
    have := onTime_of_spaced (b := (Client.syncReadBytes (byteAnswers.map (·.id)) 132#16 4#16 silentFirst).1) (by decide +kernel)
      (chunksHeard.map fun c => (c.1, responseWait 57600 4, c.2)) []
      (by decide +kernel) (by refine ⟨?_, ?_, ?_, ?_, ?_, ?_, trivial⟩ <;> decide +kernel)
    exact this)
  (calm_of_data (chunks := chunksHeard) (by decide +kernel) (by decide +kernel)) (by decide +kernel)

set_option maxRecDepth 10000 in
example := c90_bulk_read_bytes (pre := []) (a := byteAnswers.head (by decide)) (post := byteAnswers.drop 1) (came := byteAnswers.drop 1)
  (reads := [⟨1#8, 7#16, 4#16⟩, ⟨2#8, 9#16, 4#16⟩, ⟨9#8, 3#16, 0#16⟩]) silentFirst_inv (by decide) (by decide) (by decide)
  (pair_eq (by decide +kernel)) (by decide +kernel) (List.Sublist.refl _) silentFirst_sent (by simp)
  (by
    have := onTime_of_spaced
      (b := (Client.bulkReadBytes [⟨1#8, 7#16, 4#16⟩, ⟨2#8, 9#16, 4#16⟩, ⟨9#8, 3#16, 0#16⟩] silentFirst).1) (by decide +kernel)
      (chunksHeard.map fun c => (c.1, responseWait 57600 4, c.2)) []
      (by decide +kernel) (by refine ⟨?_, ?_, ?_, ?_, ?_, ?_, trivial⟩ <;> decide +kernel)
    exact this)
  (calm_of_data (chunks := chunksHeard) (by decide +kernel) (by decide +kernel)) (by decide +kernel)

/-- A `sync_read` of values whose second answer is lost: the value of the first motor is returned. -/
def silentSecond : Bus :=
  { lineBus [] with
    serialPort :=
      { quietPort with
        rx := ((groupAnswers.eraseIdx 1).zip [3000000, 37000000]).map fun a => .data a.2 (a.1.garbage ++ a.1.packet) } }

example : (callTimes (SyncIter.next (DataTy.unsigned 4) (ε := ReadError)) 4
      ⟨(Client.syncRead (DataTy.unsigned 4) [1#8, 2#8, 9#8] 132#16 silentSecond).1, 4#16, [1#8, 2#8, 9#8], 0⟩).2 =
      .ok [some (.ok ⟨1#8, false, 0x12345678#32⟩), some (.error (.motorError ⟨0x07#8⟩)), some (.error (.io .timedOut)), none] := by
  decide +kernel

theorem groupAnswers_sent : ∀ a ∈ groupAnswers, a.IsSent 128 := fun a ha => by
  have := byteAnswers_sent _ (List.mem_map_of_mem (f := fun a : DeviceAnswer (BitVec (8 * 4)) =>
    (⟨a.id, a.error, a.params, a.params, a.device, a.device', a.garbage, a.packet⟩ : DeviceAnswer (List Byte))) ha)
  exact ⟨this.inv, this.write, this.sent, this.garbage, this.length, this.fits, this.body⟩

set_option maxRecDepth 10000 in
example := c90_sync_read (d := DataTy.unsigned 4) (valid := fun _ => True) (f := fun v => toLeBytes 4 v.toNat)
  (.unsigned (by decide) _ fun v => littleEndian_iff.mpr rfl)
  (pre := groupAnswers.take 1) (a := groupAnswers[1]) (post := groupAnswers.drop 2) (came := groupAnswers.drop 2)
  (address := 132#16) (b := silentSecond) (by
    refine ⟨?_, ?_⟩
    · constructor <;> simp [silentSecond, lineBus]
    · constructor <;> simp [silentSecond, lineBus, headerPrefix])
  (by decide) (by decide) (by decide) (pair_eq (by decide +kernel))
  (List.Sublist.refl _) (by decide +kernel) (fun a ha => groupAnswers_sent a (by
    rcases List.mem_append.mp ha with h | h
    · exact List.mem_of_mem_take h
    · exact List.mem_of_mem_drop h))
  (by
    intro a ha
    simp only [groupAnswers, List.take_succ_cons, List.take_zero, List.mem_cons, List.not_mem_nil, or_false] at ha
    subst ha
    simp [groupAnswer]
    decide +kernel)
  (by
    have := onTime_of_spaced (b := (Client.syncRead (DataTy.unsigned 4) (groupAnswers.map (·.id)) 132#16 silentSecond).1)
      (by decide +kernel)
      (((groupAnswers.eraseIdx 1).zip [3000000, 37000000]).map fun a => (a.2, responseWait 57600 4, a.1.garbage ++ a.1.packet)) []
      (by decide +kernel) (by refine ⟨?_, ?_, ?_, ?_, ?_, ?_, trivial⟩ <;> decide +kernel)
    exact this)
  (calm_of_data (chunks := ((groupAnswers.eraseIdx 1).zip [3000000, 37000000]).map fun a => (a.2, a.1.garbage ++ a.1.packet))
    (by decide +kernel) (by decide +kernel)) (by decide +kernel)

end Dxl.Props
