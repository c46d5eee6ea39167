import Verif.Lemmas.GroupThread

/-! # The line, with one instruction for several motors -/

namespace Dxl.Props
open Dxl Spec Spec.Line

/-- The answer of motor `k`, as a packet. -/
def answerOf (ids : List Byte) (ans : Nat → Option ServoReply) (k : Nat) : Msg :=
  (k + 1, replyFrame (ids.getD k 0#8) ((ans k).getD Servo.done))

/-- Motor `k` exists and has an answer. -/
structure HasAnswer (ids : List Byte) (ans : Nat → Option ServoReply) (k : Nat) : Prop where
  exists_ : k < ids.length
  some : (ans k).isSome
  length : (answerOf ids ans k).2.length ≤ 128

/-- What has been written: nothing; or the instruction, and then the answers of some motors. -/
def Once (ids : List Byte) (W : List Byte) (ans : Nat → Option ServoReply) (l : Story) : Prop :=
  writes l = [] ∨ ∃ ks : List Nat, ks.Nodup ∧ (∀ k ∈ ks, HasAnswer ids ans k) ∧ writes l = (0, W) :: ks.map (answerOf ids ans)

theorem mem_writes {l : Story} {m : Msg} (h : m ∈ writes l) : Event'.wrote m.2 ∈ hist m.1 l := by
  obtain ⟨⟨j, e⟩, h1, h2⟩ := List.mem_filterMap.mp h
  cases e with
  | wrote d =>
    obtain rfl := Option.some.inj h2
    exact hist_mem h1
  | _ => cases h2

/-- How many messages port `i` wrote. -/
theorem from_length (i : Nat) (ms : List Msg) : (from_ i ms).length = ms.countP fun m => m.1 == i := by
  rw [from_, List.length_map, List.countP_eq_length_filter]

theorem reply_ne_request {id i : Byte} {reply : ServoReply} {r : Request} : replyFrame i reply ≠ requestFrame id r :=
  fun h => reply_not_own (id := id) (k := 0) (i := i) (reply := reply) ⟨r, h⟩

section
variable {ids : List Byte} {r₀ : Request} {ans : Nat → Option ServoReply} {l : Story}

theorem Once.good (h : Once ids (requestFrame 254#8 r₀) ans l) (hs : Survives r₀.body) (hl : (requestFrame 254#8 r₀).length ≤ 128)
    (hans : ∀ k reply, ans k = some reply → Survives (0x55#8 :: reply.error :: reply.data)) :
    ∀ m ∈ writes l, GoodOf (ForAll r₀) m.2 := by
  intro m hm
  rcases h with h | ⟨ks, -, h1, h2⟩
  · rw [h] at hm; cases hm
  · rw [h2] at hm
    rcases List.mem_cons.mp hm with rfl | hm
    · exact .request ⟨rfl, rfl⟩ hs hl
    · obtain ⟨k, hk, rfl⟩ := List.mem_map.mp hm
      obtain ⟨reply, hr⟩ := Option.isSome_iff_exists.mp (h1 k hk).some
      have := (h1 k hk).length
      refine .reply (hans k _ ?_) this
      rw [hr]
      rfl

/-- Nobody hears the instruction twice. -/
theorem Once.times (h : Once ids (requestFrame 254#8 r₀) ans l) (ho : InOrder l) (j : Nat) :
    Roll.times (requestFrame 254#8 r₀) (heard (hist j l)) ≤ 1 := by
  have h1 : Roll.times (requestFrame 254#8 r₀) (heard (hist j l)) ≤ (from_ 0 (heard (hist j l))).length := by
    rw [from_length]
    refine List.countP_mono_left fun m hm he => ?_
    have hw := heard_mem ho hm
    rcases h with h | ⟨ks, -, -, h2⟩
    · rw [h] at hw; cases hw
    · rw [h2] at hw
      rcases List.mem_cons.mp hw with rfl | hw
      · simp
      · obtain ⟨k, hk, rfl⟩ := List.mem_map.mp hw
        exact absurd (beq_iff_eq.mp he) (reply_ne_request (i := ids.getD k 0#8) (reply := (ans k).getD Servo.done))
  refine Nat.le_trans h1 (Nat.le_trans (ho.order 0 j).length_le ?_)
  rw [from_length]
  rcases h with h | ⟨ks, -, -, h2⟩
  · rw [h]; simp
  · rw [h2, List.countP_cons, List.countP_map]
    have : List.countP ((fun m : Msg => m.1 == 0) ∘ answerOf ids ans) ks = 0 := by
      rw [List.countP_eq_zero]
      intro k _
      simp [answerOf]
    rw [this]
    simp

/-- In every interleaving: the instruction, and then at most one answer of each motor that has one. -/
theorem group_story {total : List Seen} (hs : Survives r₀.body) (hlen : (requestFrame 254#8 r₀).length ≤ 128)
    (hans : ∀ k reply, ans k = some reply → Survives (0x55#8 :: reply.error :: reply.data))
    (ht : ∃ rest, total = .wrote (requestFrame 254#8 r₀) :: rest ∧ ∀ d, Seen.wrote d ∉ rest) : ∀ l : Story, (∀ l', l' <+: l → InOrder l') →
    (∀ x ∈ l, x.1 ≤ ids.length) → (hist 0 l).map Event'.plain <+: total →
    (∀ l', l' <+: l → ∀ k id, ids[k]? = some id → (∀ m ∈ heard (hist (k + 1) l'), GoodOf (ForAll r₀) m.2) →
      ∃ st, Roll (requestFrame 254#8 r₀) id (ans k) [] (hist (k + 1) l') st) →
    Once ids (requestFrame 254#8 r₀) ans l := by
  have key : ∀ n, ∀ l : Story, l.length = n → (∀ l', l' <+: l → InOrder l') →
    (∀ x ∈ l, x.1 ≤ ids.length) → (hist 0 l).map Event'.plain <+: total →
    (∀ l', l' <+: l → ∀ k id, ids[k]? = some id → (∀ m ∈ heard (hist (k + 1) l'), GoodOf (ForAll r₀) m.2) →
      ∃ st, Roll (requestFrame 254#8 r₀) id (ans k) [] (hist (k + 1) l') st) →
    Once ids (requestFrame 254#8 r₀) ans l := by
    intro n
    induction n with
    | zero =>
      intro l hl _ _ _ _
      obtain rfl := List.length_eq_zero_iff.mp hl
      exact .inl rfl
    | succ n ih =>
      intro l hl hin hle hc hmot
      obtain ⟨l, ⟨j, e⟩, rfl⟩ : ∃ l' x, l = l' ++ [x] := by
        refine ⟨l.dropLast, l.getLast (by rintro rfl; simp at hl), (List.dropLast_concat_getLast _).symm⟩
      have hpre : l <+: l ++ [(j, e)] := List.prefix_append _ _
      have ih' := ih l (by simpa using hl) (fun l' h => hin l' (h.trans hpre)) (fun x hx => hle x (by simp [hx]))
        (List.IsPrefix.trans (by rw [hist_append, List.map_append]; exact List.prefix_append _ _) hc)
        (fun l' h => hmot l' (h.trans hpre))
      have same : (∀ d, e ≠ .wrote d) → Once ids (requestFrame 254#8 r₀) ans (l ++ [(j, e)]) := by
        intro hne
        have : writes (l ++ [(j, e)]) = writes l := by
          rw [writes_snoc]
          cases e with
          | wrote d => exact absurd rfl (hne d)
          | _ => simp
        unfold Once
        rw [this]
        exact ih'
      cases e with
      | got ms => exact same (by simp)
      | failed e => exact same (by simp)
      | wrote d =>
        cases j with
        | zero =>
          obtain ⟨rest, rfl, hrest⟩ := ht
          rw [hist_snoc_same, List.map_append] at hc
          have hnil : hist 0 l = [] := by
            cases hh : hist 0 l with
            | nil => rfl
            | cons a t =>
              rw [hh] at hc
              simp only [List.map_cons, List.cons_append, List.cons_prefix_cons] at hc
              exact absurd (hc.2.subset (by simp [Event'.plain])) (hrest d)
          rw [hnil] at hc
          simp only [List.map_nil, List.nil_append, List.map_cons, List.cons_prefix_cons, Event'.plain, Seen.wrote.injEq] at hc
          rcases ih' with ih | ⟨ks, -, -, ih⟩
          · refine .inr ⟨[], .nil, by simp, ?_⟩
            rw [writes_snoc, ih, hc.1]
            rfl
          · have := mem_writes (l := l) (m := (0, requestFrame 254#8 r₀)) (by rw [ih]; simp)
            rw [hnil] at this
            cases this
        | succ j =>
          have hj : j < ids.length := hle (j + 1, .wrote d) (by simp)
          have ho := hin l hpre
          have hheard : heard (hist (j + 1) (l ++ [(j + 1, .wrote d)])) = heard (hist (j + 1) l) := by
            rw [hist_snoc_same, heard_append]
            simp [heard]
          obtain ⟨st, hroll⟩ := hmot _ (List.prefix_refl _) j ids[j] (List.getElem?_eq_getElem hj) fun m hm' => by
            rw [hheard] at hm'
            exact ih'.good hs hlen hans m (heard_mem ho hm')
          have hcount := hroll.sent_le
          rw [hheard] at hcount
          have htimes := ih'.times ho (j + 1)
          rw [hist_snoc_same] at hroll hcount
          obtain ⟨reply, hr, hd, hdl⟩ := hroll.wrote (data := d) (by simp)
          have hsent : Roll.sent (hist (j + 1) l ++ [.wrote d]) = Roll.sent (hist (j + 1) l) + 1 := by simp [Roll.sent]
          have hd' : (j + 1, d) = answerOf ids ans j := by
            unfold answerOf
            rw [hr, hd, List.getD_eq_getElem?_getD, List.getElem?_eq_getElem hj]
            rfl
          rcases ih' with ih | ⟨ks, h1, h2, h3⟩
          · exfalso
            have : heard (hist (j + 1) l) = [] := by
              refine List.eq_nil_iff_forall_not_mem.mpr fun m hm => ?_
              have := heard_mem ho hm
              rw [ih] at this
              cases this
            rw [this] at hcount
            simp only [Roll.times, List.countP_nil] at hcount
            omega
          · refine .inr ⟨ks ++ [j], ?_, ?_, ?_⟩
            · refine List.nodup_append.mpr ⟨h1, by simp, fun a ha b hb => ?_⟩
              obtain rfl := List.mem_singleton.mp hb
              rintro rfl
              have := mem_writes (l := l) (m := answerOf ids ans a) (by rw [h3]; exact List.mem_cons_of_mem _ (List.mem_map.mpr ⟨a, ha, rfl⟩))
              have : 0 < Roll.sent (hist (a + 1) l) := List.countP_pos_iff.mpr ⟨_, this, rfl⟩
              simp only [Roll.times, List.countP_nil] at hcount htimes
              omega
            · intro k hk
              rcases List.mem_append.mp hk with hk | hk
              · exact h2 k hk
              · obtain rfl := List.mem_singleton.mp hk
                exact ⟨hj, by rw [hr]; rfl, by rw [← hd', hd]; exact hdl⟩
            · rw [writes_snoc, h3, List.map_append, List.map_singleton, ← hd']
              simp
  intro l
  exact key _ l rfl

/-- What the client hears: the answers of some motors. -/
theorem Once.client (h : Once ids (requestFrame 254#8 r₀) ans l) (ho : InOrder l) :
    ∃ js : List Nat, js.Nodup ∧ (∀ k ∈ js, HasAnswer ids ans k) ∧ heard (hist 0 l) = js.map (answerOf ids ans) := by
  rcases h with h | ⟨ks, h1, h2, h3⟩
  · refine ⟨[], .nil, by simp, List.eq_nil_iff_forall_not_mem.mpr fun m hm => ?_⟩
    have := heard_mem ho hm
    rw [h] at this
    cases this
  · have hmem : ∀ m ∈ heard (hist 0 l), ∃ k ∈ ks, m = answerOf ids ans k := by
      intro m hm
      have := heard_mem ho hm
      rw [h3] at this
      rcases List.mem_cons.mp this with rfl | this
      · have h0 : requestFrame 254#8 r₀ ∈ from_ 0 (heard (hist 0 l)) := List.mem_map.mpr ⟨_, List.mem_filter.mpr ⟨hm, by simp⟩, rfl⟩
        rw [ho.self] at h0
        cases h0
      · obtain ⟨k, hk, rfl⟩ := List.mem_map.mp this
        exact ⟨k, hk, rfl⟩
    refine ⟨(heard (hist 0 l)).map fun m => m.1 - 1, ?_, ?_, ?_⟩
    · rw [List.nodup_iff_count]
      intro k
      have e1 : List.count k ((heard (hist 0 l)).map fun m => m.1 - 1) ≤ (from_ (k + 1) (heard (hist 0 l))).length := by
        rw [from_length, List.count_eq_countP, List.countP_map]
        refine List.countP_mono_left fun m hm he => ?_
        obtain ⟨k', -, rfl⟩ := hmem m hm
        simpa [answerOf] using he
      refine Nat.le_trans e1 (Nat.le_trans (ho.order (k + 1) 0).length_le ?_)
      rw [from_length, h3, List.countP_cons, List.countP_map]
      have e2 : List.countP ((fun m : Msg => m.1 == k + 1) ∘ answerOf ids ans) ks = List.count k ks := by
        rw [List.count_eq_countP]
        congr 1
        funext x
        simp [answerOf]
      rw [e2]
      have := (List.nodup_iff_count.mp h1) k
      simpa using this
    · intro k hk
      obtain ⟨m, hm, rfl⟩ := List.mem_map.mp hk
      obtain ⟨k', hk', rfl⟩ := hmem m hm
      exact h2 k' hk'
    · rw [List.map_map]
      conv => lhs; rw [← List.map_id (heard (hist 0 l))]
      refine List.map_congr_left fun m hm => ?_
      obtain ⟨k', hk', rfl⟩ := hmem m hm
      rfl

end
end Dxl.Props
