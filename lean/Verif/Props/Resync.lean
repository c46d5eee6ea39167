import Verif.Props.Receive

/-! # C57: back in step after any noise -/

namespace Dxl.Props
open Dxl.Spec

/-- The header prefix occurs in the packet only at its start. -/
def Item.Plain (i : Item) : Prop := i.garbage = [] ∧ ¬ header <:+: (frame i.id i.wire).drop 1

theorem skip_of_infix {g : List Byte} (h : header <:+: g) : header <+: skip g := by
  induction g with
  | nil => simp [header] at h
  | cons b rest ih =>
    rw [skip]
    split
    · rename_i hc
      rcases hc with hc | hc
      · have h1 := hc.length_le
        have h2 := h.length_le
        rw [hc.eq_of_length (by omega)]
        exact List.prefix_rfl
      · exact hc
    · rename_i hc
      rcases List.infix_cons_iff.mp h with h | h
      · exact absurd (.inr h) hc
      · exact ih h

/-- If all the packets, after garbage without header, are to be received in time, they are returned in order. -/
theorem deliver (D : Nat) (items : List Item) (rest : List Byte) :
    ∀ (g : List Byte) (b : Bus), ¬ header <:+: g → b.RInv → (∀ i ∈ items, i.Ok b.readBuffer.length ∧ i.garbage = []) →
      stream D b = g ++ itemBytes items ++ rest →
      Delivered (readAll (List.replicate items.length D) b).2 items ∧
        (items ≠ [] → stream D (readAll (List.replicate items.length D) b).1 = rest) := by
  induction items with
  | nil => intro g b _ _ _ _; exact ⟨trivial, fun h => absurd rfl h⟩
  | cons i items ih =>
    intro g b hg hb hok hs
    obtain ⟨hi, hi0⟩ := hok i (List.mem_cons_self ..)
    have hl := Bus.frame_length i.id i.wire
    have : 0 < i.wire.length := List.length_pos_iff.mpr (unstuffs_ne_nil hi.body)
    have hN : 10 ≤ b.readBuffer.length := by have := hi.fits; omega
    obtain ⟨c, o, h, hlike, hrinv, -, -⟩ := Bus.readPacketDeadline_stream D hb hN
    have hs' : stream D b = g ++ frame i.id i.wire ++ (itemBytes items ++ rest) := by
      rw [hs]; simp [itemBytes, hi0]
    obtain ⟨pkt, rfl, hp, hr⟩ := c14_packet_after_garbage hb hg hi.length hi.fits hi.body hs' h
    have hnil : ¬ header <:+: ([] : List Byte) := by simp [header]
    obtain ⟨h1, h2⟩ := ih [] c hnil hrinv
      (fun j hj => by rw [hlike.readSize]; exact hok j (List.mem_cons_of_mem _ hj)) (by simpa using hr)
    simp only [List.length_cons, List.replicate_succ, readAll, h]
    refine ⟨⟨⟨pkt, rfl, hp⟩, h1⟩, fun _ => ?_⟩
    cases items with
    | nil => simpa [readAll, itemBytes] using hr
    | cons j js => exact h2 (by simp)

/-- Cutting bytes off the front of a sequence of packets leaves the end of one of them, and the following ones. -/
theorem cut (items : List Item) (hp : ∀ i ∈ items, i.Plain) (m : Nat) (hm : m ≤ (itemBytes items).length) :
    ∃ k r, k ≤ items.length ∧ (itemBytes items).drop m = r ++ itemBytes (items.drop k) ∧ ¬ header <:+: r ∧
      (k = 0 ∨ (itemBytes (items.take (k - 1))).length < m) := by
  induction items generalizing m with
  | nil =>
    refine ⟨0, [], by simp, ?_, by simp [header], .inl rfl⟩
    simp [itemBytes]
  | cons i items ih =>
    obtain ⟨hi0, hi⟩ := hp i (List.mem_cons_self ..)
    have hb : itemBytes (i :: items) = frame i.id i.wire ++ itemBytes items := by simp [itemBytes, hi0]
    by_cases h0 : m = 0
    · subst h0
      exact ⟨0, [], by simp, by simp, by simp [header], .inl rfl⟩
    · by_cases hlt : m ≤ (frame i.id i.wire).length
      · refine ⟨1, (frame i.id i.wire).drop m, by simp, ?_, ?_, .inr (by simp [itemBytes]; omega)⟩
        · rw [hb, List.drop_append_of_le_length hlt]; rfl
        · intro hh
          refine hi (hh.trans ?_)
          have : (frame i.id i.wire).drop m = ((frame i.id i.wire).drop 1).drop (m - 1) := by
            rw [List.drop_drop]; congr 1; omega
          rw [this]
          exact (List.drop_suffix _ _).isInfix
      · obtain ⟨k, r, h1, h2, h3, h4⟩ := ih (fun j hj => hp j (List.mem_cons_of_mem _ hj)) (m - (frame i.id i.wire).length)
          (by rw [hb, List.length_append] at hm; omega)
        refine ⟨k + 1, r, by simpa using h1, ?_, h3, .inr ?_⟩
        · rw [hb, List.drop_append, List.drop_of_length_le (by omega), List.nil_append, h2]; rfl
        · rw [Nat.add_sub_cancel]
          rcases h4 with rfl | h4
          · simp [itemBytes]; omega
          · cases k with
            | zero => simp [itemBytes]; omega
            | succ k =>
              rw [List.take_succ_cons]
              rw [Nat.add_sub_cancel] at h4
              have : itemBytes (i :: items.take k) = frame i.id i.wire ++ itemBytes (items.take k) := by simp [itemBytes, hi0]
              rw [this, List.length_append]
              omega

/-- **C57** Whatever bytes come before them: of a sequence of packets, only such can be lost that start within as many bytes
after the noise as the read buffer holds; all later ones are returned, in order, once each. The noise costs at most one call
for every four bytes of it. -/
theorem c57_resync (D : Nat) (items : List Item) (rest : List Byte) (hp : ∀ i ∈ items, i.Plain) :
    ∀ (noise : List Byte) (b : Bus), b.RInv → 10 ≤ b.readBuffer.length → (∀ i ∈ items, i.Ok b.readBuffer.length) →
      stream D b = noise ++ itemBytes items ++ rest →
      ∃ n k, 4 * n ≤ noise.length ∧ k ≤ items.length ∧
        (k = 0 ∨ (itemBytes (items.take (k - 1))).length < b.readBuffer.length) ∧
        let r := readAll (List.replicate (n + (items.length - k)) D) b
        Delivered (r.2.drop n) (items.drop k) ∧ (k < items.length → stream D r.1 = rest) := by
  intro noise
  generalize hlen : noise.length = len
  induction len using Nat.strongRecOn generalizing noise with
  | ind len ih =>
    intro b hb hN hok hs
    by_cases hh : header <:+: noise
    · obtain ⟨c, o, h, hlike, hrinv, -, hm⟩ := Bus.readPacketDeadline_stream D hb hN
      have hsk := skip_of_infix hh
      have h4 : 4 ≤ (skip noise).length := hsk.length_le
      have hsuf := skip_suffix noise
      have hskip : skip (noise ++ itemBytes items ++ rest) = skip noise ++ (itemBytes items ++ rest) := by
        rw [List.append_assoc, skip_append_long h4]
      have hshort := hsuf.length_le
      have hok' : ∀ i ∈ items, i.Ok c.readBuffer.length := by rw [hlike.readSize]; exact hok
      -- what is left after a call that consumes `m ≥ 4` bytes from the header on
      have next : ∀ (m : Nat) (s' : List Byte), 4 ≤ m → m ≤ (skip noise).length ∨ m - (skip noise).length < b.readBuffer.length →
          m ≤ (skip noise ++ (itemBytes items ++ rest)).length →
          (skip noise ++ (itemBytes items ++ rest)).drop m = s' → stream D c = s' →
          ∃ n k, 4 * n ≤ len ∧ k ≤ items.length ∧
            (k = 0 ∨ (itemBytes (items.take (k - 1))).length < b.readBuffer.length) ∧
            Delivered ((readAll (List.replicate (n + (items.length - k)) D) b).2.drop n) (items.drop k) ∧
              (k < items.length → stream D (readAll (List.replicate (n + (items.length - k)) D) b).1 = rest) := by
        intro m s' hm4 hmc hmle hs' hc
        by_cases hmn : m ≤ (skip noise).length
        · -- the call stays within the noise
          have : s' = (skip noise).drop m ++ itemBytes items ++ rest := by
            rw [← hs', List.drop_append_of_le_length hmn, List.append_assoc]
          rw [this] at hc
          have hl : ((skip noise).drop m).length < len := by rw [List.length_drop]; omega
          obtain ⟨n, k, h1, h2, h3, h4, h5⟩ := ih _ hl _ rfl c hrinv (by rw [hlike.readSize]; exact hN) hok' hc
          rw [List.length_drop] at h1
          refine ⟨n + 1, k, by omega, h2, by rw [← hlike.readSize]; exact h3, ?_⟩
          rw [show n + 1 + (items.length - k) = (n + (items.length - k)) + 1 by omega, List.replicate_succ]
          simp only [readAll, h, List.drop_succ_cons]
          exact ⟨h4, h5⟩
        · -- it takes some of the packets with it
          have hmc := hmc.resolve_left hmn
          have hdrop : s' = (itemBytes items ++ rest).drop (m - (skip noise).length) := by
            rw [← hs', List.drop_append, List.drop_of_length_le (by omega), List.nil_append]
          by_cases hmi : m - (skip noise).length ≤ (itemBytes items).length
          · obtain ⟨k, r, h1, h2, h3, h4⟩ := cut items hp _ hmi
            rw [List.drop_append_of_le_length hmi, h2] at hdrop
            rw [hdrop] at hc
            obtain ⟨h5, h6⟩ := deliver D (items.drop k) rest r c h3 hrinv
              (fun i hi => ⟨hok' i (List.mem_of_mem_drop hi), (hp i (List.mem_of_mem_drop hi)).1⟩) hc
            rw [List.length_drop] at h5 h6
            refine ⟨1, k, by omega, h1, ?_, ?_⟩
            · rcases h4 with h4 | h4
              · exact .inl h4
              · exact .inr (by omega)
            · rw [Nat.add_comm 1, List.replicate_succ]
              simp only [readAll, h, List.drop_succ_cons, List.drop_zero]
              refine ⟨h5, fun hk => h6 ?_⟩
              intro h0
              have := congrArg List.length h0
              simp at this
              omega
          · refine ⟨0, items.length, by omega, Nat.le_refl _, .inr ?_, ?_⟩
            · have : itemBytes items = itemBytes (items.take (items.length - 1)) ++ itemBytes (items.drop (items.length - 1)) := by
                rw [itemBytes, itemBytes, itemBytes, ← List.flatMap_append, List.take_append_drop]
              rw [this, List.length_append] at hmi
              omega
            · simp [readAll, Delivered]
      change match parse b.readBuffer.length (stream D b) with
        | .packet f rest => _ | .tooBig req rest => _ | .more => _ at hm
      rw [hs] at hm
      cases hpa : parse b.readBuffer.length (noise ++ itemBytes items ++ rest) with
      | packet f r =>
        rw [hpa] at hm
        obtain ⟨h1, h2, h3, h4', h5⟩ := parse_packet hpa
        rw [hskip] at h1
        have hf4 : 4 ≤ f.length := h2.length_le
        refine next f.length r hf4 (.inr (by omega)) (by rw [h1, List.length_append]; omega) ?_ hm.2.1
        rw [h1, List.drop_append_of_le_length (Nat.le_refl _), List.drop_length, List.nil_append]
      | tooBig req r =>
        rw [hpa] at hm
        obtain ⟨hd, h1, h2, h3, h4', h5⟩ := parse_tooBig hpa
        rw [hskip] at h1
        refine next hd.length r (by omega) (.inr (by omega)) (by rw [h1, List.length_append]; omega) ?_ hm.2.1
        rw [h1, List.drop_append_of_le_length (Nat.le_refl _), List.drop_length, List.nil_append]
      | more =>
        have hroom := parse_more_room hN hpa
        rw [hskip] at hroom
        simp only [List.length_append] at hroom
        refine ⟨0, items.length, by omega, Nat.le_refl _, .inr ?_, ?_⟩
        · have : itemBytes items = itemBytes (items.take (items.length - 1)) ++ itemBytes (items.drop (items.length - 1)) := by
            rw [itemBytes, itemBytes, itemBytes, ← List.flatMap_append, List.take_append_drop]
          rw [this, List.length_append] at hroom
          omega
        · simp [readAll, Delivered]
    · obtain ⟨h1, h2⟩ := deliver D items rest noise b hh hb (fun i hi => ⟨hok i hi, (hp i hi).1⟩) hs
      refine ⟨0, 0, by omega, by omega, .inl rfl, ?_⟩
      simp only [Nat.zero_add, Nat.sub_zero, List.drop_zero]
      exact ⟨h1, fun hk => h2 (by intro h0; simp [h0] at hk)⟩

/-- What looks like the start of a packet of 17 bytes. -/
def falseStart : List Byte := [0x12#8, 0xFF#8, 0xFF#8, 0xFD#8, 0x00#8, 0x01#8, 0x0A#8, 0x00#8]

/-- `sampleFrame` as an item. -/
def sampleItem : Item := ⟨[], 1#8, [0x55#8, 0x00#8, 0xA6#8, 0x00#8, 0x00#8, 0x00#8], 0x55#8, [0x00#8, 0xA6#8, 0x00#8, 0x00#8, 0x00#8]⟩

/-- The false start costs the first packet, as C57 allows, and not the others. -/
example : (readAll [10, 10, 10] (busWith (falseStart ++ sampleFrame ++ sampleFrame ++ sampleFrame))).2 =
    [.err (.invalidMessage (.checksum 0xA600#16 0x4D3D#16)), .ok (samplePacket sampleFrame),
      .ok (samplePacket sampleFrame)] := by
  decide +kernel

/-- The conditions of C57 hold for these packets. -/
example : (∀ i ∈ List.replicate 3 sampleItem, i.Plain) ∧ stream 10 (busWith (falseStart ++ sampleFrame ++ sampleFrame ++ sampleFrame)) =
    falseStart ++ itemBytes (List.replicate 3 sampleItem) ++ [] := by
  refine ⟨fun i hi => ?_, by decide +kernel⟩
  rw [(List.mem_replicate.mp hi).2]
  exact ⟨rfl, by decide +kernel⟩

end Dxl.Props
