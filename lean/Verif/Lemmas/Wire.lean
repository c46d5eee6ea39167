import Verif.Spec.Wire
import Verif.Props.Calls
import Verif.Props.GroupReads

/-! # Lemmas about time on a serial line -/

namespace Dxl.Props
open Spec Spec.Wire

theorem duration_eq (baud n : Nat) : duration baud n = transferNs n baud := rfl

theorem leastTime_duration (n : Nat) {baud : Nat} (h : baud ≠ 0) : LeastTime n baud (duration baud n) := leastTime_transferNs n h

theorem duration_mono (baud : Nat) {n m : Nat} (h : n ≤ m) : duration baud n ≤ duration baud m := by
  unfold duration
  exact Nat.div_le_div_right (by omega)

/-- Rounding up once or twice. -/
theorem duration_add {baud : Nat} (h : baud ≠ 0) (n m : Nat) : duration baud (n + m) ≤ duration baud n + duration baud m := by
  have h1 := (leastTime_duration n h).1
  have h2 := (leastTime_duration m h).1
  refine (leastTime_duration (n + m) h).2 _ ?_
  unfold LongEnough at *
  rw [Nat.add_mul (duration baud n) (duration baud m) baud, Nat.add_mul n m 10, Nat.add_mul (n * 10) (m * 10) 1000000000]
  exact Nat.add_le_add h1 h2

/-- A faster line takes less time. -/
theorem duration_anti {baud baud' : Nat} (h : baud' ≠ 0) (hb : baud' ≤ baud) (n : Nat) : duration baud n ≤ duration baud' n := by
  have h1 := (leastTime_duration n h).1
  refine (leastTime_duration n (by omega)).2 _ ?_
  unfold LongEnough at *
  exact Nat.le_trans h1 (Nat.mul_le_mul_left _ hb)

theorem duration_zero {baud : Nat} (h : baud ≠ 0) : duration baud 0 = 0 := by
  unfold duration
  simp only [Nat.zero_mul, Nat.zero_add]
  exact Nat.div_eq_of_lt (by omega)

theorem duration_pos {baud : Nat} (h : baud ≠ 0) {n : Nat} (hn : n ≠ 0) : 0 < duration baud n := by
  have h1 := (leastTime_duration n h).1
  unfold LongEnough at h1
  apply Nat.pos_of_ne_zero
  intro h0
  rw [h0] at h1
  omega

theorem due_bytes (baud latency start : Nat) : ∀ (bytes : List Byte) (sent : Nat),
    (due baud latency start sent bytes).map (·.byte) = bytes := by
  intro bytes
  induction bytes with
  | nil => intro _; rfl
  | cons x rest ih => intro sent; rw [due, List.map_cons, ih]

theorem due_latest {baud latency start : Nat} : ∀ (bytes : List Byte) (sent : Nat) (d : Due),
    d ∈ due baud latency start sent bytes → d.latest ≤ start + duration baud (sent + bytes.length) + latency := by
  intro bytes
  induction bytes with
  | nil => intro _ d hd; simp [due] at hd
  | cons x rest ih =>
    intro sent d hd
    rcases List.mem_cons.mp hd with rfl | hd
    · have := duration_mono baud (n := sent + 1) (m := sent + (x :: rest).length) (by simp)
      dsimp only
      omega
    · have := ih _ _ hd
      rw [List.length_cons, show sent + (rest.length + 1) = sent + 1 + rest.length by omega]
      exact this

/-- The last byte of a transmission. -/
theorem due_last {baud latency start : Nat} : ∀ (bytes : List Byte) (sent : Nat), bytes ≠ [] →
    ∃ front d, due baud latency start sent bytes = front ++ [d] ∧ d.earliest = start + duration baud (sent + bytes.length) := by
  intro bytes
  induction bytes with
  | nil => intro _ h; exact absurd rfl h
  | cons x rest ih =>
    intro sent _
    by_cases hr : rest = []
    · subst hr
      exact ⟨[], _, rfl, rfl⟩
    · obtain ⟨front, d, h1, h2⟩ := ih (sent + 1) hr
      refine ⟨_ :: front, d, by rw [due, h1]; rfl, ?_⟩
      rw [h2, List.length_cons, show sent + (rest.length + 1) = sent + 1 + rest.length by omega]

/-- What is due until `D` arrives until `D`. -/
theorem received_prefix {D : Nat} {events : List RxEvent} {ds : List Due} (h : Received events ds) (rest : List RxEvent) :
    ∀ first more, ds = first ++ more → (∀ d ∈ first, d.latest ≤ D) → first.map (·.byte) <+: arriving D (events ++ rest) := by
  induction h with
  | nil =>
    intro first more h _
    have : first = [] := by
      have := congrArg List.length h
      simp at this
      exact List.eq_nil_of_length_eq_zero (by omega)
    subst this
    exact List.nil_prefix
  | @data t now later events hne hnow hrec ih =>
    intro first more h hd
    by_cases hf : first = []
    · subst hf; exact List.nil_prefix
    rw [List.cons_append, arriving]
    have ht : t ≤ D := by
      match first, now, hne, hf with
      | a :: first', b :: now', _, _ =>
        have hab : b = a := by simpa using (List.cons.inj h).1
        have h1 := (hnow b (by simp)).2
        have h2 := hd a (by simp)
        rw [hab] at h1
        omega
    rw [if_pos ht]
    rcases List.append_eq_append_iff.mp h with ⟨as, h1, h2⟩ | ⟨bs, h1, h2⟩
    · subst h1
      rw [List.map_append]
      refine (List.prefix_append_right_inj _).mpr (ih as more h2 fun d hd' => hd d (by simp [hd']))
    · rw [h1, List.map_append, List.append_assoc]
      exact List.prefix_append _ _

/-- What is only due after `D` does not arrive until `D`, nor does what comes after it, and the reader times out. -/
theorem received_late {D : Nat} {events : List RxEvent} {ds : List Due} (h : Received events ds) (rest : List RxEvent) (tail : Tail) :
    ∀ first x more, ds = first ++ x :: more → D < x.earliest →
      arriving D (events ++ rest) <+: first.map (·.byte) ∧ obstacle D (events ++ rest) tail = .timedOut := by
  induction h with
  | nil => intro first x more h; simp at h
  | @data t now later events hne hnow hrec ih =>
    intro first x more h hx
    rw [List.cons_append, arriving, obstacle]
    by_cases ht : t ≤ D
    · rw [if_pos ht, if_pos ht]
      rcases List.append_eq_append_iff.mp h with ⟨as, h1, h2⟩ | ⟨bs, h1, h2⟩
      · obtain ⟨k1, k2⟩ := ih as x more h2 hx
        refine ⟨?_, k2⟩
        rw [h1, List.map_append]
        exact (List.prefix_append_right_inj _).mpr k1
      · cases bs with
        | nil =>
          obtain ⟨k1, k2⟩ := ih [] x more (by simpa using h2.symm) hx
          refine ⟨?_, k2⟩
          rw [List.map_nil, List.prefix_nil] at k1
          rw [k1, h1]
          simp
        | cons y bs =>
          have hxy : x = y := (List.cons.inj h2).1
          have := (hnow y (by rw [h1]; simp)).1
          rw [hxy] at hx
          omega
    · rw [if_neg ht, if_neg ht]
      exact ⟨List.nil_prefix, rfl⟩

/-- Every byte on its own, as late as it may come. -/
def singly (ds : List Due) : List RxEvent := ds.map fun d => .data d.latest [d.byte]

theorem received_singly : ∀ ds : List Due, (∀ d ∈ ds, d.earliest ≤ d.latest) → Received (singly ds) ds := by
  intro ds
  induction ds with
  | nil => intro _; exact .nil
  | cons d ds ih =>
    intro h
    exact Received.data (now := [d]) (by simp) (by simpa using h d (by simp)) (ih fun x hx => h x (by simp [hx]))

theorem due_singly (baud latency start : Nat) : ∀ (bytes : List Byte) (sent : Nat),
    ∀ d ∈ due baud latency start sent bytes, d.earliest ≤ d.latest := by
  intro bytes
  induction bytes with
  | nil => intro _ d hd; simp [due] at hd
  | cons x rest ih =>
    intro sent d hd
    rcases List.mem_cons.mp hd with rfl | hd
    · dsimp only; omega
    · exact ih _ d hd

theorem received_append {e₁ e₂ : List RxEvent} {d₁ d₂ : List Due} (h₁ : Received e₁ d₁) (h₂ : Received e₂ d₂) :
    Received (e₁ ++ e₂) (d₁ ++ d₂) := by
  induction h₁ with
  | nil => exact h₂
  | data a b _ ih => rw [List.append_assoc]; exact .data a b ih

theorem received_data {events : List RxEvent} {ds : List Due} (h : Received events ds) : ∀ e ∈ events, ∃ t bs, e = .data t bs := by
  induction h with
  | nil => simp
  | data _ _ _ ih =>
    intro e he
    rcases List.mem_cons.mp he with rfl | he
    · exact ⟨_, _, rfl⟩
    · exact ih e he

theorem received_all {events : List RxEvent} {ds : List Due} (h : Received events ds) : allBytes events = ds.map (·.byte) := by
  induction h with
  | nil => rfl
  | data _ _ _ ih => rw [allBytes, ih, List.map_append]

/-- A part of a packet is no packet. -/
theorem parse_part {cap : Nat} {id : Byte} {wire s : List Byte} (hlen : wire.length + 2 < 2 ^ 16) (hfit : (frame id wire).length ≤ cap)
    (hs : s <+: frame id wire) (hne : s.length < (frame id wire).length) : parse cap s = .more := by
  obtain ⟨t, ht⟩ := hs
  have hfull := parse_good_frame (cap := cap) (g := []) (rest := []) id (by decide) hlen hfit
  rw [List.nil_append, List.append_nil, ← ht] at hfull
  cases hp : parse cap s with
  | more => rfl
  | tooBig req rest =>
    rw [parse_tooBig_append hp] at hfull
    cases hfull
  | packet f rest =>
    rw [parse_packet_append hp] at hfull
    have h1 := Bus.parse_length hp
    simp only [Parsed.packet.injEq] at hfull
    rw [hfull.1] at h1
    have h2 := congrArg List.length ht
    simp only [List.length_append] at h1 h2
    omega

/-- At most one byte in four is removed. -/
theorem unstuffs_removed {wire body : List Byte} (h : Unstuffs wire body) : 4 * wire.length ≤ wire.length + 4 * body.length := by
  induction h with
  | run n => simp
  | plain n hc h _ ih => simp; omega
  | removed n h _ ih => simp; omega
  | kept n h hx _ ih => simp; omega
  | last n h => simp

end Dxl.Props
