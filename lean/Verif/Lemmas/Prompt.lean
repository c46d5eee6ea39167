import Verif.Spec.Prompt
import Verif.Lemmas.Read

/-! # When the reader returns, for C85 -/

namespace Dxl
open Spec

theorem Port.read_ok_when {cap D : Nat} {p p' : Port} {bs : List Byte} (h : Port.read cap D p = (p', .ok bs)) :
    ∃ t, t ≤ D ∧ p'.now = max p.now t ∧ p'.tail = p.tail ∧
      (∀ T, t ≤ T → arriving T p.rx = bs ++ arriving T p'.rx ∧ (failsBy T p.rx p.tail ↔ failsBy T p'.rx p.tail)) ∧
      (∀ T, T < t → arriving T p.rx = [] ∧ ¬ failsBy T p.rx p.tail) := by
  unfold Port.read at h
  dsimp only at h
  split at h
  · simp at h
  · rcases hrx : p.rx with _ | ⟨e, rest⟩
    · rw [hrx] at h
      dsimp only at h
      split at h <;> simp at h
    · rw [hrx] at h
      cases e with
      | fail t e => 
        dsimp only at h
        split at h <;> simp at h
      | data t d =>
        dsimp only at h
        split at h
        · rename_i htD
          refine ⟨t, htD, ?_⟩
          split at h
          · simp only [Prod.mk.injEq, Outcome.ok.injEq] at h
            obtain ⟨rfl, rfl⟩ := h
            refine ⟨rfl, rfl, fun T hT => ?_, fun T hT => ?_⟩
            · simp [arriving, failsBy, hT]
            · have : ¬ t ≤ T := by omega
              simp [arriving, failsBy, this]
          · simp only [Prod.mk.injEq, Outcome.ok.injEq] at h
            obtain ⟨rfl, rfl⟩ := h
            refine ⟨rfl, rfl, fun T hT => ?_, fun T hT => ?_⟩
            · simp only [arriving, failsBy, hT, if_true, true_and, and_true]
              rw [← List.append_assoc, List.take_append_drop]
            · have : ¬ t ≤ T := by omega
              simp [arriving, failsBy, this]
        · simp at h

theorem Port.read_err_when {cap D : Nat} {p p' : Port} {e : IoErr} (hD : p.now ≤ D) (h : Port.read cap D p = (p', .err e)) :
    (∀ T, T ≤ D → arriving T p.rx = []) ∧ EndsWhen (fun T => failsBy T p.rx p.tail) p.now D p'.now := by
  unfold Port.read at h
  dsimp only at h
  rw [if_neg (by omega)] at h
  rcases hrx : p.rx with _ | ⟨ev, rest⟩
  · rw [hrx] at h
    refine ⟨fun T _ => rfl, ?_⟩
    dsimp only at h
    rcases ht : p.tail with _ | e'
    · rw [ht] at h
      simp only [Prod.mk.injEq] at h
      obtain ⟨rfl, -⟩ := h
      exact .timeout fun T _ _ h => h
    · rw [ht] at h
      simp only [Prod.mk.injEq] at h
      obtain ⟨rfl, -⟩ := h
      exact .settled (Nat.le_refl _) hD trivial fun T hT _ => hT
  · rw [hrx] at h
    cases ev with
    | data t d =>
      dsimp only at h
      split at h
      · split at h <;> simp at h
      · rename_i ht
        simp only [Prod.mk.injEq] at h
        obtain ⟨rfl, -⟩ := h
        refine ⟨fun T hT => ?_, .timeout fun T _ hT h => ?_⟩
        · have : ¬ t ≤ T := by omega
          simp [arriving, this]
        · have := h.1
          omega
    | fail t e' =>
      refine ⟨fun T _ => rfl, ?_⟩
      dsimp only at h
      split at h
      · rename_i ht
        simp only [Prod.mk.injEq] at h
        obtain ⟨rfl, -⟩ := h
        refine .settled (by dsimp only; omega) (by dsimp only; omega) (show t ≤ _ by dsimp only; omega) fun T hT h => ?_
        have : t ≤ T := h
        dsimp only
        omega
      · rename_i ht
        simp only [Prod.mk.injEq] at h
        obtain ⟨rfl, -⟩ := h
        exact .timeout fun T _ hT h => by
          have : t ≤ T := h
          omega

namespace Bus

theorem readLoop_when (D : Nat) (fuel : Nat) : ∀ b : Bus, b.RInv → 10 ≤ b.readBuffer.length →
    b.serialPort.measure < fuel → b.serialPort.now ≤ D →
    EndsWhen (Settled b.readBuffer.length b.pending b.serialPort.rx b.serialPort.tail) b.serialPort.now D
      (readLoop D fuel b).1.serialPort.now := by
  induction fuel with
  | zero => intro b _ _ h; omega
  | succ fuel ih =>
    intro b hr hN hm hD
    have hlen : (skip b.pending).length ≤ b.readBuffer.length :=
      Nat.le_trans (skip_suffix _).length_le (pending_length_le hr)
    have hmr := messageReady_eq b (skip b.pending) hlen (skip_skip _)
    rw [parse_skip] at hmr
    rw [readLoop, SO.bind_ok (removeGarbage_eq hr)]
    cases hp : parse b.readBuffer.length b.pending with
    | packet f rest =>
      rw [hp] at hmr
      rw [SO.bind_ok hmr]
      exact .settled (Nat.le_refl _) hD (.inl (by rw [parse_packet_append hp]; simp)) fun T hT _ => hT
    | tooBig req rest =>
      rw [hp] at hmr
      rw [SO.bind_err hmr]
      exact .settled (Nat.le_refl _) hD (.inl (by rw [parse_tooBig_append hp]; simp)) fun T hT _ => hT
    | more =>
      rw [hp] at hmr
      rw [SO.bind_ok hmr]
      have hroom := parse_more_room hN hp
      simp only
      have hrm := readMore_eq b (skip b.pending) D hlen
      rcases Port.read_cases (b.readBuffer.length - (skip b.pending).length) D b.serialPort with
        ⟨p1, bs, hread⟩ | ⟨p1, e, hread⟩
      · rw [hread] at hrm
        rw [SO.bind_ok hrm]
        have hbs := Port.read_length hread
        have hh := holds_withPending b p1 (t := skip b.pending ++ bs) (by simp; omega)
        obtain ⟨t, ht, hnow, htail, hlate, hearly⟩ := Port.read_ok_when hread
        have hstep := ih _ hh.rInv (by rw [hh.like.readSize]; exact hN)
          (by
            rw [hh.port]
            have := Port.read_measure (by omega) hread
            omega) (by rw [hh.port, hnow]; omega)
        generalize (b.onto p1).withPending (skip b.pending ++ bs) = b1 at hh hstep
        have hiff : ∀ T, t ≤ T → (Settled b1.readBuffer.length b1.pending b1.serialPort.rx b1.serialPort.tail T ↔
            Settled b.readBuffer.length b.pending b.serialPort.rx b.serialPort.tail T) := by
          intro T hT
          obtain ⟨h1, h2⟩ := hlate T hT
          unfold Settled
          rw [hh.pending, hh.like.readSize, hh.port, htail, ← h2, h1, List.append_assoc, ← parse_more_append]
        have hno : ∀ T, T < t → ¬ Settled b.readBuffer.length b.pending b.serialPort.rx b.serialPort.tail T := by
          intro T hT h
          obtain ⟨h1, h2⟩ := hearly T hT
          rcases h with h | h
          · rw [h1, List.append_nil] at h
            exact h hp
          · exact h2 h
        have hn1 : b1.serialPort.now = max b.serialPort.now t := by rw [hh.port, hnow]
        rw [hn1] at hstep
        generalize (readLoop D fuel b1).1.serialPort.now = r at hstep
        cases hstep with
        | settled h1 h2 h3 h4 =>
          refine .settled (by omega) h2 ((hiff _ (by omega)).mp h3) fun T hT hs => ?_
          by_cases hTt : T < t
          · exact absurd hs (hno T hTt)
          · exact h4 T (by omega) ((hiff T (by omega)).mpr hs)
        | timeout h1 =>
          refine .timeout fun T hT hTD hs => ?_
          by_cases hTt : T < t
          · exact absurd hs (hno T hTt)
          · exact h1 T (by omega) hTD ((hiff T (by omega)).mpr hs)
      · rw [hread] at hrm
        rw [SO.bind_err hrm]
        obtain ⟨h1, h2⟩ := Port.read_err_when hD hread
        have hiff : ∀ T, T ≤ D → (Settled b.readBuffer.length b.pending b.serialPort.rx b.serialPort.tail T ↔
            failsBy T b.serialPort.rx b.serialPort.tail) := by
          intro T hT
          unfold Settled
          rw [h1 T hT, List.append_nil, hp]
          simp
        show EndsWhen _ _ _ p1.now
        generalize p1.now = r at h2
        cases h2 with
        | settled k1 k2 k3 k4 =>
          refine .settled k1 k2 ((hiff _ k2).mpr k3) fun T hT hs => ?_
          by_cases hTD : T ≤ D
          · exact k4 T hT ((hiff T hTD).mp hs)
          · omega
        | timeout k1 => exact .timeout fun T hT hTD hs => k1 T hT hTD ((hiff T hTD).mp hs)

theorem readPacketDeadline_when {D : Nat} {b : Bus} (hr : b.RInv) (hN : 10 ≤ b.readBuffer.length) (hD : b.serialPort.now ≤ D) :
    EndsWhen (Settled b.readBuffer.length b.pending b.serialPort.rx b.serialPort.tail) b.serialPort.now D
      (readPacketDeadline D b).1.serialPort.now := by
  unfold readPacketDeadline
  rw [SO.get_bind]
  have hc : BufferTooSmall.check (headerSize + 3) b.readBuffer.length = .ok () := by
    exact if_pos hN
  rw [hc, Outcome.mapErr_ok, SO.lift_ok_bind]
  have hres := readLoop_result D (b.serialPort.measure + 1) b hr hN (by omega)
  have hwhen := readLoop_when D (b.serialPort.measure + 1) b hr hN (by omega) hD
  rw [SO.bind_def]
  generalize readLoop D (b.serialPort.measure + 1) b = r at hres hwhen
  cases hres with
  | packet h1 h2 h3 =>
    obtain ⟨c', hf, ha⟩ := finishPacket_eq h3 (parse_packet h2).2.1 (parse_packet h2).2.2.1
    simp only [hf]
    rw [ha.port]
    rw [h3.port] at hwhen
    exact hwhen
  | tooBig h1 h2 h3 => exact hwhen
  | ended h1 h2 h3 h4 h5 => exact hwhen

end Bus
end Dxl
