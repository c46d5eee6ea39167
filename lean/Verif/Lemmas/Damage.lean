import Verif.Props.Calls
import Verif.Spec.Damage

/-! # Packets with one wrong bit -/

namespace Dxl.Props
open Dxl Spec

/-! ## Unstuffing in parts -/

theorem unstuffGo_parts (a : List Byte) : ∀ s, ∃ s', ∀ d, unstuffGo s (a ++ d) = unstuffGo s a ++ unstuffGo s' d := by
  induction a with
  | nil => intro s; exact ⟨s, fun d => rfl⟩
  | cons b a ih =>
    intro s
    by_cases h : ustep s b = 4
    · obtain ⟨s', hs⟩ := ih 0
      refine ⟨s', fun d => ?_⟩
      rw [List.cons_append, unstuffGo, unstuffGo, if_pos h, if_pos h, hs]
    · obtain ⟨s', hs⟩ := ih (ustep s b)
      refine ⟨s', fun d => ?_⟩
      rw [List.cons_append, unstuffGo, unstuffGo, if_neg h, if_neg h, hs]
      rfl

theorem unstuffGo_55 (s : Nat) (d : List Byte) : unstuffGo s (0x55#8 :: d) = 0x55#8 :: unstuffGo 0 d := by
  have h : ustep s 0x55#8 = 0 := by
    unfold ustep
    rw [if_neg (by simp), if_neg (by simp)]
  rw [unstuffGo, h, if_neg (by decide)]

theorem unstuff_prefix {w wire : List Byte} (h : w <+: wire) : codeUnstuff w <+: codeUnstuff wire := by
  obtain ⟨t, rfl⟩ := h
  obtain ⟨s', hs⟩ := unstuffGo_parts w 0
  exact ⟨unstuffGo s' t, (hs t).symm⟩

/-- If bytes are appended to stuffed bytes and the unstuffed bytes stay the same then the sequence `FF FF FD` comes last, and one
`FD` is appended. -/
theorem unstuffGo_same {t : List Byte} (ht : t ≠ []) (a : List Byte) : ∀ s, unstuffGo s (a ++ t) = unstuffGo s a →
    t = [0xFD#8] ∧ [0xFF#8, 0xFF#8, 0xFD#8] <:+ [0xFF#8, 0xFF#8, 0xFD#8].take s ++ unstuffGo s a ∧
      3 * a.length + 3 ≤ 4 * (unstuffGo s a).length + s := by
  have hstep : ∀ s b, ustep s b = 4 ∨ ustep s b ≠ 4 ∧ ustep s b ≤ s + 1 ∧
      [0xFF#8, 0xFF#8, 0xFD#8].take (ustep s b) <:+ [0xFF#8, 0xFF#8, 0xFD#8].take s ++ [b] := by
    intro s b
    unfold ustep
    split
    · rename_i h
      obtain ⟨rfl | rfl, rfl⟩ := h <;> exact .inr ⟨by decide, by decide, by decide⟩
    · split
      · rename_i h
        obtain ⟨rfl | rfl, rfl⟩ := h
        · exact .inr ⟨by decide, by decide, by decide⟩
        · exact .inl rfl
      · exact .inr ⟨by decide, by omega, List.nil_suffix⟩
  have h4 : ∀ s b, ustep s b = 4 → s = 3 ∧ b = 0xFD#8 := by
    intro s b h
    unfold ustep at h
    split at h
    · omega
    · split at h
      · rename_i h'
        exact ⟨by omega, h'.2⟩
      · cases h
  induction a with
  | nil =>
    intro s h
    match t, ht with
    | b :: d, _ =>
      simp only [List.nil_append, unstuffGo] at h
      split at h
      · rename_i hb
        obtain ⟨rfl, rfl⟩ := h4 _ _ hb
        cases d with
        | nil => exact ⟨rfl, by simp [unstuffGo], by simp [unstuffGo]⟩
        | cons c d =>
          rw [unstuffGo, if_neg (fun h0 => by have := (h4 _ _ h0).1; omega)] at h
          cases h
      · cases h
  | cons b a ih =>
    intro s h
    rw [List.cons_append, unstuffGo, unstuffGo] at h
    rw [unstuffGo, List.length_cons]
    rcases hstep s b with hb | ⟨hb, hle, hsuf⟩
    · rw [if_pos hb, if_pos hb] at h
      rw [if_pos hb]
      obtain ⟨i1, i2, i3⟩ := ih 0 h
      have := (h4 _ _ hb).1
      exact ⟨i1, i2.trans (by simpa using List.suffix_append _ _), by omega⟩
    · rw [if_neg hb, if_neg hb] at h
      rw [if_neg hb, List.length_cons]
      obtain ⟨i1, i2, i3⟩ := ih _ (List.cons.inj h).2
      refine ⟨i1, i2.trans ?_, by omega⟩
      obtain ⟨u, hu⟩ := hsuf
      refine ⟨u, ?_⟩
      rw [← List.append_assoc, hu]
      simp

/-- A status inside of another. -/
theorem unstuff_inside {a w c t : List Byte} (ht : codeUnstuff w = 0x55#8 :: t) (ha : a.head? = some 0x55#8) :
    (codeUnstuff w).length < (codeUnstuff (a ++ w ++ c)).length := by
  have hw : ∃ w', w = 0x55#8 :: w' := by
    cases w with
    | nil => simp [codeUnstuff, unstuffGo] at ht
    | cons b w =>
      have h4 : ustep 0 b ≠ 4 := by unfold ustep; split <;> (try split) <;> simp
      rw [codeUnstuff, unstuffGo, if_neg h4] at ht
      exact ⟨w, by rw [(List.cons.inj ht).1]⟩
  obtain ⟨w', rfl⟩ := hw
  obtain ⟨s₁, h1⟩ := unstuffGo_parts a 0
  obtain ⟨s₂, h2⟩ := unstuffGo_parts (0x55#8 :: w') s₁
  rw [List.append_assoc, codeUnstuff, codeUnstuff, h1, h2, unstuffGo_55, unstuffGo_55]
  cases a with
  | nil => simp at ha
  | cons b a =>
    simp only [List.head?_cons, Option.some.injEq] at ha
    subst ha
    rw [unstuffGo_55]
    simp
    omega

/-! ## The bit -/

theorem flip_ne (x : Byte) (k : Fin 8) : x ^^^ (1#8 <<< k.val) ≠ x := by
  revert x k; decide +kernel

theorem flip_even (x : Byte) (k : Fin 8) (h : x.toNat % 2 = 0) : (x ^^^ (1#8 <<< k.val)).toNat ≠ (x.toNat + 255) % 256 := by
  revert x k; decide +kernel

theorem flip_zero (k : Fin 8) : 0x00#8 ^^^ (1#8 <<< k.val) ≠ 0xFF#8 := by
  revert k; decide +kernel

theorem flip_bits (x : Byte) (k : Fin 8) : (diff (byteBits x) (byteBits (x ^^^ (1#8 <<< k.val)))).count true = 1 := by
  revert x k; decide +kernel

theorem diff_self (l : List Bool) : (diff l l).count true = 0 := by
  induction l with
  | nil => rfl
  | cons b l ih => simpa [diff] using ih

theorem diff_parts {a b c d : List Bool} (h : a.length = c.length) : diff (a ++ b) (c ++ d) = diff a c ++ diff b d := by
  unfold diff
  rw [List.zipWith_append h]

theorem flip_diff (p q : List Byte) (x : Byte) (k : Fin 8) :
    (diff (bits (p ++ x :: q)) (bits (p ++ (x ^^^ (1#8 <<< k.val)) :: q))).count true = 1 := by
  have e : ∀ y, bits (p ++ y :: q) = bits p ++ (byteBits y ++ bits q) := by intro y; simp [bits]
  rw [e, e, diff_parts rfl, diff_parts (a := byteBits x) (c := byteBits (x ^^^ (1#8 <<< k.val))) rfl, List.count_append, List.count_append, flip_bits, diff_self, diff_self]

/-! ## The packet -/

theorem frame_cons (id : Byte) (wire : List Byte) : ∃ lo hi body, frame id wire = 0xFF#8 :: 0xFF#8 :: 0xFD#8 :: 0x00#8 :: id :: lo :: hi :: body ∧
    body = wire ++ le16 (crc 0#16 (frameHead id wire)) ∧ [lo, hi] = le16 (BitVec.ofNat 16 (wire.length + 2)) :=
  ⟨_, _, _, rfl, rfl, rfl⟩

theorem split_le16 {l : List Byte} {n : Nat} (h : l.length = n + 2) : ∃ m v, l = m ++ le16 v ∧ m.length = n := by
  have hd : (l.drop n).length = 2 := by rw [List.length_drop]; omega
  match hx : l.drop n, hd with
  | [x, y], _ =>
    refine ⟨l.take n, mk16 x y, ?_, by rw [List.length_take]; omega⟩
    rw [le16_mk16, ← hx, List.take_append_drop]

theorem le16_low {lo hi : Byte} {n : Nat} (h : [lo, hi] = le16 (BitVec.ofNat 16 n)) : lo.toNat = n % 256 := by
  simp only [le16, List.cons.injEq, and_true] at h
  rw [h.1, BitVec.toNat_setWidth, BitVec.toNat_ofNat]
  omega

/-- What can be taken for a packet if one bit of a packet is wrong: a part of its body, with a part of the body as its CRC
(if the bit is in the length field), or a packet inside of the packet (if the bit is in the header prefix). -/
theorem one_bit_off {cap i : Nat} {id id' : Byte} {wire w F rest : List Byte} (hlen : wire.length + 2 < 2 ^ 16)
    (hoff : OneBitOff i (frame id wire) F) (hp : parse cap F = .packet (frame id' w) rest) :
    ((i = 5 ∨ i = 6) ∧ id' = id ∧ w <+: wire ∧ w ≠ wire ∧ (wire.length = w.length + 1 → wire.length % 2 = 1)) ∨
      (i < 4 ∧ ∃ a, 4 ≤ a.length ∧ frame id wire = a ++ frame id' w ++ rest) := by
  obtain ⟨p, x, q, k, hsent, rfl, rfl⟩ := hoff
  obtain ⟨hskip, -, hl, -, -⟩ := parse_packet hp
  by_cases hi : p.length < 4
  · refine .inr ⟨hi, ?_⟩
    obtain ⟨g, hg⟩ := skip_suffix (p ++ (x ^^^ (1#8 <<< k.val)) :: q)
    rw [hskip] at hg
    obtain ⟨lo, hi', body, hF, -, -⟩ := frame_cons id wire
    obtain ⟨lo', hi'', body', hf', -, -⟩ := frame_cons id' w
    rw [hF] at hsent
    rw [hf'] at hg
    have key : ∀ y0 y1 y2 y3 T, y0 :: y1 :: y2 :: y3 :: T = p ++ (x ^^^ (1#8 <<< k.val)) :: q → T = id :: lo :: hi' :: body →
        (y0 = 0xFF#8 → y1 = 0xFF#8 → y2 = 0xFD#8 → y3 ≠ 0x00#8) → (y2 = 0xFF#8 → y3 ≠ 0xFD#8) → y3 ≠ 0xFF#8 →
        ∃ a, 4 ≤ a.length ∧ frame id wire = a ++ frame id' w ++ rest := by
      intro y0 y1 y2 y3 T h0 hT h1 h2 h3
      rw [← h0] at hg
      match g, hg with
      | [], hg => simp at hg; exact absurd hg.2.2.2.1.symm (h1 hg.1.symm hg.2.1.symm hg.2.2.1.symm)
      | [_], hg => simp at hg; exact absurd hg.2.2.2.1.symm (h2 hg.2.2.1.symm)
      | [_, _], hg => simp at hg; exact absurd hg.2.2.2.1.symm h3
      | [_, _, _], hg => simp at hg; exact absurd hg.2.2.2.1.symm h3
      | _ :: _ :: _ :: _ :: g', hg =>
        simp only [List.cons_append, List.cons.injEq] at hg
        refine ⟨0xFF#8 :: 0xFF#8 :: 0xFD#8 :: 0x00#8 :: g', by simp, ?_⟩
        rw [hF, hf', ← hT, ← hg.2.2.2.2]
        simp
    match p, hi, hsent, key with
    | [], _, hsent, key =>
      simp at hsent
      obtain ⟨rfl, rfl⟩ := hsent
      exact key _ _ _ _ _ rfl rfl (fun h => absurd h (flip_ne _ _)) (by simp) (by simp)
    | [_], _, hsent, key =>
      simp at hsent
      obtain ⟨rfl, rfl, rfl⟩ := hsent
      exact key _ _ _ _ _ rfl rfl (fun _ h => absurd h (flip_ne _ _)) (by simp) (by simp)
    | [_, _], _, hsent, key =>
      simp at hsent
      obtain ⟨rfl, rfl, rfl, rfl⟩ := hsent
      exact key _ _ _ _ _ rfl rfl (fun _ _ h => absurd h (flip_ne _ _)) (by simp) (by simp)
    | [_, _, _], _, hsent, key =>
      simp at hsent
      obtain ⟨rfl, rfl, rfl, rfl, rfl⟩ := hsent
      exact key _ _ _ _ _ rfl rfl (fun _ _ _ => flip_ne _ _) (by simp) (flip_zero k)
  · refine .inl ?_
    have hhead : header <+: p := by
      refine List.prefix_of_prefix_length_le (l₃ := frame id wire) ⟨_, rfl⟩ ⟨_, hsent.symm⟩ (by simp [header]; omega)
    rw [skip_of_header (hhead.trans (List.prefix_append _ _))] at hskip
    by_cases h56 : p.length = 5 ∨ p.length = 6
    · refine ⟨h56, ?_⟩
      obtain ⟨lo, hi', body, hF, hb, hlo⟩ := frame_cons id wire
      obtain ⟨lo', hi'', body', hf', hb', hlo'⟩ := frame_cons id' w
      rw [hF] at hsent
      rw [hf'] at hskip
      have key : ∀ z z', ¬ (z = lo ∧ z' = hi') → (z = lo ∨ z = lo ^^^ (1#8 <<< k.val)) → p ++ (x ^^^ (1#8 <<< k.val)) :: q = 0xFF#8 :: 0xFF#8 :: 0xFD#8 :: 0x00#8 :: id :: z :: z' :: body →
          id' = id ∧ w <+: wire ∧ w ≠ wire ∧ (wire.length = w.length + 1 → wire.length % 2 = 1) := by
        intro z z' hz hbit h
        rw [h] at hskip
        simp only [List.cons_append, List.cons.injEq, true_and] at hskip
        obtain ⟨rfl, rfl, rfl, h1⟩ := hskip
        rw [hb, hb'] at h1
        refine ⟨rfl, List.prefix_of_prefix_length_le (l₃ := wire ++ le16 (crc 0#16 (frameHead id wire)))
          ⟨_, by rw [h1, List.append_assoc]⟩ (List.prefix_append _ _) ?_, ?_, ?_⟩
        · have := congrArg List.length h1
          simp [le16_length] at this
          omega
        · rintro rfl
          rw [← hlo'] at hlo
          simp only [List.cons.injEq, and_true] at hlo
          exact hz ⟨hlo.1.symm, hlo.2.symm⟩
        · intro hl1
          have l1 := le16_low hlo
          have l2 := le16_low hlo'
          rcases hbit with rfl | rfl
          · omega
          · by_cases hodd : wire.length % 2 = 1
            · exact hodd
            · exact absurd (show (lo ^^^ (1#8 <<< k.val)).toNat = (lo.toNat + 255) % 256 by omega) (flip_even lo k (by omega))
      match p, h56, hsent, key with
      | [_, _, _, _, _], _, hsent, key =>
        simp at hsent
        obtain ⟨rfl, rfl, rfl, rfl, rfl, rfl, rfl⟩ := hsent
        exact key _ _ (fun h => flip_ne _ _ h.1) (.inr rfl) rfl
      | [_, _, _, _, _, _], _, hsent, key =>
        simp at hsent
        obtain ⟨rfl, rfl, rfl, rfl, rfl, rfl, rfl, rfl⟩ := hsent
        exact key _ _ (fun h => flip_ne _ _ h.2) (.inl rfl) rfl
    · exfalso
      have hlF : (p ++ (x ^^^ (1#8 <<< k.val)) :: q).length = (7 + wire.length) + 2 := by
        have := congrArg List.length hsent
        rw [Bus.frame_length] at this
        simp at this ⊢
        omega
      obtain ⟨m, v, hm, hml⟩ := split_le16 hlF
      have h1 : Corrupted (frameHead id wire) (crc 0#16 (frameHead id wire)) m v := by
        refine .odd ?_
        rw [← hm, ← frame, hsent, flip_diff]
      have e7 : ∀ j ≤ 7, (frame id wire).take j = (frameHead id wire).take j := by
        intro j hj
        rw [frame, List.take_append_of_le_length (by rw [Bus.frameHead_length]; omega)]
      have e7' : ∀ j ≤ 7, (m ++ le16 v).take j = m.take j := by
        intro j hj
        rw [List.take_append_of_le_length (by omega)]
      have hsame : SameHeader (frameHead id wire) m := by
        unfold SameHeader
        rw [← e7 4 (by omega), ← e7 7 (by omega), ← e7' 4 (by omega), ← e7' 7 (by omega), ← hm, hsent]
        refine ⟨?_, ?_⟩
        · rw [List.take_append_of_le_length (by omega), List.take_append_of_le_length (by omega)]
        · by_cases h7 : 7 ≤ p.length
          · rw [List.take_append_of_le_length h7, List.take_append_of_le_length h7]
          · have h4 : p.length = 4 := by omega
            match p, h4 with
            | [_, _, _, _], _ => rfl
      obtain ⟨k1, k2, k3⟩ := sameHeader_spec (by rw [hml, Bus.frameHead_length]) hlen hsame
      have h7 : 7 ≤ (frame id' w).length := by rw [Bus.frame_length]; omega
      have hlf : Spec.lengthField (frame id' w) = Spec.lengthField m := by
        rw [← lengthField_append (u := rest) h7, ← hskip, hm, lengthField_append k3]
      rw [hm] at hskip
      have hlen' : (m ++ le16 v).length = (frame id' w).length := by
        rw [hl, hlf, List.length_append, le16_length]
        omega
      obtain ⟨e1, -⟩ := List.append_inj (hskip.symm.trans (List.append_nil _).symm) hlen'.symm
      rw [frame] at e1
      obtain ⟨e2, e3⟩ := List.append_inj' e1 rfl
      have := le16_inj e3
      rw [e2] at this
      exact corrupted_crc (by rw [hml, Bus.frameHead_length]) h1 this.symm

/-- What a status packet with one wrong bit can be taken for. -/
theorem status_one_bit_off {cap i : Nat} {id rid error error' : Byte} {wire data ps F left : List Byte} {e : IoErr}
    (hlen : wire.length + 2 < 2 ^ 16) (hu : Unstuffs wire (0x55#8 :: error :: data)) (hoff : OneBitOff i (frame id wire) F)
    (hv : Verdict cap F e (.ok (rid, error', ps)) left) :
    ps.length < data.length ∨ (rid = id ∧ error' = error ∧ ps = data ∧ wire.length % 2 = 1 ∧ data.length + 3 ≤ wire.length ∧ 3 * wire.length ≤ 4 * data.length + 8 ∧
      [0xFF#8, 0xFF#8, 0xFD#8] <:+ 0x55#8 :: error :: data) := by
  cases hv with
  | @status _ _ w _ _ hcap hp hu' he =>
    rw [unstuffs_iff] at hu hu'
    rcases one_bit_off hlen hoff hp with ⟨-, rfl, hpre, hne, hodd⟩ | ⟨-, a, ha, hin⟩
    · have := unstuff_prefix hpre
      rw [hu, hu', List.cons_prefix_cons, List.cons_prefix_cons] at this
      by_cases h : ps.length < data.length
      · exact .inl h
      · obtain rfl := this.2.1
        obtain rfl := this.2.2.eq_of_length_le (by omega)
        obtain ⟨t, rfl⟩ := hpre
        have ht : t ≠ [] := by rintro rfl; simp at hne
        obtain ⟨rfl, h2, h3⟩ := unstuffGo_same ht w 0 (hu.trans hu'.symm)
        rw [← codeUnstuff, hu'] at h2 h3
        have h4 := unstuffGo_length w 0
        rw [← codeUnstuff, hu'] at h4
        simp at h2 h3 h4 hodd
        refine .inr ⟨rfl, rfl, rfl, ?_, ?_, ?_, h2⟩
        · simpa using hodd
        · simpa using h4
        · simp; omega
    · refine .inl ?_
      have hwire : ∃ wt, wire = 0x55#8 :: wt := by
        cases wire with
        | nil => simp [codeUnstuff, unstuffGo] at hu
        | cons b wt =>
          have h4 : ustep 0 b ≠ 4 := by unfold ustep; split <;> (try split) <;> simp
          rw [codeUnstuff, unstuffGo, if_neg h4] at hu
          exact ⟨wt, by rw [(List.cons.inj hu).1]⟩
      obtain ⟨wt, rfl⟩ := hwire
      obtain ⟨lo, hi', body, hF, hb, hlo⟩ := frame_cons id (0x55#8 :: wt)
      obtain ⟨lo', hi'', body', hf', hb', hlo'⟩ := frame_cons rid w
      rw [hF, hf', hb, hb'] at hin
      match a, ha, hin with
      | [_, _, _, _], _, hin => simp at hin
      | [_, _, _, _, _], _, hin => simp at hin
      | [_, _, _, _, _, _], _, hin => simp at hin
      | [_, _, _, _, _, _, _], _, hin => simp at hin
      | _ :: _ :: _ :: _ :: _ :: _ :: _ :: y :: a, _, hin =>
        simp only [List.cons_append, List.cons.injEq] at hin
        obtain ⟨-, -, -, -, -, -, -, rfl, hin⟩ := hin
        have hpre : 0x55#8 :: (a ++ [0xFF#8, 0xFF#8, 0xFD#8, 0x00#8, rid, lo', hi'']) ++ w <+: 0x55#8 :: wt := by
          refine List.prefix_of_prefix_length_le (l₃ := 0x55#8 :: (wt ++ le16 (crc 0#16 (frameHead id (0x55#8 :: wt)))))
            ⟨le16 (crc 0#16 (frameHead rid w)) ++ left, ?_⟩ ⟨_, rfl⟩ ?_
          · rw [hin]
            simp
          · have := congrArg List.length hin
            simp [le16_length] at this ⊢
            omega
        obtain ⟨c, hc⟩ := hpre
        have := unstuff_inside (c := c) hu' (a := 0x55#8 :: (a ++ [0xFF#8, 0xFF#8, 0xFD#8, 0x00#8, rid, lo', hi''])) rfl
        rw [hc, hu, hu'] at this
        simpa using this

end Dxl.Props
