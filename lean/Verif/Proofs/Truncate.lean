import Verif.Proofs.Frame

/-! # Truncated and altered frames -/

namespace Egts

theorem byteAt_take {b : Bytes} {n i : Nat} (h : i < n) : byteAt (b.take n) i = byteAt b i := by
  unfold byteAt
  rw [List.getD_eq_getElem?_getD, List.getD_eq_getElem?_getD, List.getElem?_take, if_pos h]

theorem hcsPos_bounds (b : Bytes) : 10 ≤ Frame.hcsPos b ∧ Frame.hcsPos b ≤ 15 := by
  unfold Frame.hcsPos; split <;> omega

/-- The header fields only depend on the header bytes. -/
theorem fields_congr {a b : Bytes} (h : ∀ i, i < 10 → byteAt a i = byteAt b i) :
    Frame.hcsPos a = Frame.hcsPos b ∧ Frame.hl a = Frame.hl b ∧ Frame.fdl a = Frame.fdl b ∧ Frame.pid a = Frame.pid b ∧
    Frame.pt a = Frame.pt b ∧ (Frame.Routed a ↔ Frame.Routed b) ∧ (Frame.Encrypted a ↔ Frame.Encrypted b) ∧
    Frame.headEnd a = Frame.headEnd b ∧ Frame.bodyEnd a = Frame.bodyEnd b := by
  have h2 := h 2 (by omega)
  have h3 := h 3 (by omega)
  have hhl : Frame.hl a = Frame.hl b := h3
  have hfdl : Frame.fdl a = Frame.fdl b := by unfold Frame.fdl; rw [h 5 (by omega), h 6 (by omega)]
  have hR : Frame.Routed a ↔ Frame.Routed b := by unfold Frame.Routed; rw [h2]
  refine ⟨?_, hhl, hfdl, ?_, h 9 (by omega), hR, ?_, ?_, ?_⟩
  · unfold Frame.hcsPos
    simp only [hR]
  · unfold Frame.pid; rw [h 7 (by omega), h 8 (by omega)]
  · unfold Frame.Encrypted; rw [h2]
  · unfold Frame.headEnd; rw [hhl]
  · unfold Frame.bodyEnd; rw [hhl, hfdl]

theorem take_all {b sp : Bytes} {n : Nat} (h : n ≤ b.length) : (Slice.all ⟨b, sp⟩).take n = b.take n := by
  unfold Slice.all
  exact List.take_append_of_le_length h

theorem outcome_short (env key) (c : Slice) (h : c.data.length ≤ Frame.hcsPos c.data + 1 + Frame.fdl c.data) :
    Frame.outcome env key c ≠ .code 0 := by
  have ha : Frame.after c.data = [] := by
    unfold Frame.after Frame.rest
    rw [List.drop_drop]
    exact List.drop_eq_nil_of_le h
  unfold Frame.outcome
  simp only
  rw [if_pos ha]
  repeat' split
  all_goals simp

/-- What is known of an accepted frame. -/
theorem outcome_ok {env key} {c : Slice} (h : Frame.outcome env key c = .code 0) :
    Frame.hcsPos c.data < c.data.length ∧ Frame.headEnd c.data ≤ c.all.length ∧
    byteAt c.data (Frame.hcsPos c.data) = (crc8 (c.all.take (Frame.headEnd c.data))).toNat ∧
    Frame.rest c.data ≠ [] ∧ (Frame.pt c.data = 0 ∨ Frame.pt c.data = 1) ∧ (Frame.content env key c.data).isOk = true ∧
    Frame.after c.data ≠ [] ∧ Frame.hl c.data ≤ Frame.bodyEnd c.data ∧ Frame.bodyEnd c.data ≤ c.all.length ∧
    Frame.sfrcs c.data = (crc16 ((c.all.take (Frame.bodyEnd c.data)).drop (Frame.hl c.data))).toNat := by
  unfold Frame.outcome at h
  simp only at h
  by_cases h1 : c.data.length ≤ Frame.hcsPos c.data
  · rw [if_pos h1] at h; simp at h
  rw [if_neg h1] at h
  by_cases h2 : c.all.length < Frame.headEnd c.data
  · rw [if_pos h2] at h; simp at h
  rw [if_neg h2] at h
  by_cases h3 : byteAt c.data (Frame.hcsPos c.data) ≠ (crc8 (c.all.take (Frame.headEnd c.data))).toNat
  · rw [if_pos h3] at h; simp at h
  rw [if_neg h3] at h
  by_cases h4 : Frame.rest c.data = []
  · rw [if_pos h4] at h; simp at h
  rw [if_neg h4] at h
  by_cases h5 : Frame.pt c.data ≠ 0 ∧ Frame.pt c.data ≠ 1
  · rw [if_pos h5] at h; simp at h
  rw [if_neg h5] at h
  by_cases h6 : (Frame.content env key c.data).isOk = false
  · rw [if_pos h6] at h; simp at h
  rw [if_neg h6] at h
  by_cases h7 : Frame.after c.data = []
  · rw [if_pos h7] at h; simp at h
  rw [if_neg h7] at h
  by_cases h8 : Frame.bodyEnd c.data < Frame.hl c.data ∨ c.all.length < Frame.bodyEnd c.data
  · rw [if_pos h8] at h; simp at h
  rw [if_neg h8] at h
  by_cases h9 : Frame.sfrcs c.data ≠ (crc16 ((c.all.take (Frame.bodyEnd c.data)).drop (Frame.hl c.data))).toNat
  · rw [if_pos h9] at h; simp at h
  refine ⟨by omega, by omega, by omega, h4, by omega, by simpa using h6, h7, by omega, by omega, by omega⟩

theorem outcome_ok_iff {env key} {c : Slice} : Frame.outcome env key c = .code 0 ↔
    Frame.hcsPos c.data < c.data.length ∧ Frame.headEnd c.data ≤ c.all.length ∧
    byteAt c.data (Frame.hcsPos c.data) = (crc8 (c.all.take (Frame.headEnd c.data))).toNat ∧
    Frame.rest c.data ≠ [] ∧ (Frame.pt c.data = 0 ∨ Frame.pt c.data = 1) ∧ (Frame.content env key c.data).isOk = true ∧
    Frame.after c.data ≠ [] ∧ Frame.hl c.data ≤ Frame.bodyEnd c.data ∧ Frame.bodyEnd c.data ≤ c.all.length ∧
    Frame.sfrcs c.data = (crc16 ((c.all.take (Frame.bodyEnd c.data)).drop (Frame.hl c.data))).toNat := by
  refine ⟨outcome_ok, ?_⟩
  rintro ⟨h1, h2, h3, h4, h5, h6, h7, h8, h9, h10⟩
  unfold Frame.outcome
  simp only
  rw [if_neg (by omega), if_neg (by omega), if_neg (by omega), if_neg h4, if_neg (by omega), if_neg (by simp [h6]), if_neg h7,
    if_neg (by omega), if_neg (by omega)]

/-- The result on every strict prefix of an accepted, complete, honest frame. -/
theorem outcome_prefix {env key} {b sp : Bytes} (h : Frame.outcome env key ⟨b, sp⟩ = .code 0) (hh : Frame.Honest b)
    (hb : b.length = Frame.total b) {n : Nat} (hn : n < b.length) (sp' : Bytes) :
    Frame.outcome env key ⟨b.take n, sp'⟩ =
      .code (if n ≤ Frame.hcsPos b then 131
             else if n = Frame.hcsPos b + 1 then 132
             else if n ≤ Frame.hcsPos b + 1 + Frame.fdl b then 129
             else if byteAt b (b.length - 1) = 0 then 0 else 137) := by
  obtain ⟨h1, h2, h3, h4, h5, h6, h7, h8, h9, h10⟩ := outcome_ok h
  have hpos := hcsPos_bounds b
  have hpos' := hcsPos_bounds (b.take n)
  have hlen : (b.take n).length = n := by rw [List.length_take]; omega
  simp only at h1 h2 h3 h4 h5 h6 h7 h8 h9 h10
  unfold Frame.total at hb
  obtain ⟨hh1, hh2⟩ := hh
  by_cases c1 : n ≤ Frame.hcsPos b
  · rw [if_pos c1]
    unfold Frame.outcome
    simp only
    rw [if_pos]
    rw [hlen]
    by_cases hn10 : n ≤ 10
    · omega
    · have := (fields_congr (a := b.take n) (b := b) (fun i hi => byteAt_take (by omega))).1
      omega
  · rw [if_neg c1]
    obtain ⟨e1, e2, e3, _, e5, _, e7, e8, e9⟩ := fields_congr (a := b.take n) (b := b) (fun i hi => byteAt_take (by omega))
    have hend : Frame.headEnd b = Frame.hcsPos b := by
      unfold Frame.headEnd; rw [hh1]; simp
    have hbe : Frame.bodyEnd b = Frame.hcsPos b + 1 + Frame.fdl b := by
      unfold Frame.bodyEnd; rw [hh1] at hh2 ⊢; exact Nat.mod_eq_of_lt hh2
    have hall : (Slice.all ⟨b.take n, sp'⟩).length = n + sp'.length := by simp [Slice.all, List.length_take]; omega
    have hrest : Frame.rest (b.take n) = (Frame.rest b).take (n - (Frame.hcsPos b + 1)) := by
      unfold Frame.rest; rw [e1, List.drop_take]
    have hrl : (Frame.rest b).length = Frame.fdl b + 2 := by
      unfold Frame.rest; rw [List.length_drop]; omega
    unfold Frame.outcome
    simp only
    rw [if_neg (by rw [hlen, e1]; omega), if_neg (by rw [hall, e8, hend]; omega), if_neg (by
      rw [e1, e8, hend, take_all (by omega), byteAt_take (by omega), h3, hend, take_all (by omega), List.take_take,
        Nat.min_eq_left (by omega)]
      exact fun h => h rfl)]
    by_cases c2 : n = Frame.hcsPos b + 1
    · rw [if_pos c2, if_pos (by rw [hrest, c2]; simp)]
    rw [if_neg c2, if_neg (by
      intro h0
      have := congrArg List.length (hrest ▸ h0)
      rw [List.length_take, hrl, List.length_nil] at this
      omega), if_neg (by rw [e5]; omega)]
    by_cases c3 : n ≤ Frame.hcsPos b + 1 + Frame.fdl b
    · rw [if_pos c3]
      have : Frame.after (b.take n) = [] := by
        unfold Frame.after
        apply List.drop_eq_nil_of_le
        rw [hrest, List.length_take, e3]; omega
      rw [if_pos this]
      split <;> rfl
    · rw [if_neg c3]
      have hnl : n = Frame.hcsPos b + 1 + Frame.fdl b + 1 := by omega
      have hbody : Frame.body (b.take n) = Frame.body b := by
        unfold Frame.body
        rw [e3, hrest, List.take_take, List.length_take, hrl, show Frame.fdl b - min (n - (Frame.hcsPos b + 1)) (Frame.fdl b + 2) = 0 by omega,
          show Frame.fdl b - (Frame.fdl b + 2) = 0 by omega, Nat.min_eq_left (by omega)]
      have hafter : Frame.after (b.take n) = (Frame.after b).take 1 := by
        unfold Frame.after
        rw [hrest, e3, List.drop_take, show n - (Frame.hcsPos b + 1) - Frame.fdl b = 1 by omega]
      have hcontent : Frame.content env key (b.take n) = Frame.content env key b := by
        unfold Frame.content Frame.clear
        rw [hbody, e5]
        simp only [e7]
      have hal : (Frame.after b).length = 2 := by
        unfold Frame.after; rw [List.length_drop, hrl]; omega
      rw [hcontent, if_neg (by simp [h6]), if_neg (by
        intro h0
        rw [hafter] at h0
        have := congrArg List.length h0
        rw [List.length_take, hal] at this
        simp at this)]
      rw [if_neg (by rw [e9, e2, hbe, hall, hh1]; omega)]
      have hs : Frame.sfrcs (b.take n) = byteAt (Frame.after b) 0 := by
        unfold Frame.sfrcs
        rw [hafter, byteAt_take (by omega), byteAt_short (i := 1) (by rw [List.length_take]; omega)]; omega
      have hlast : byteAt b (b.length - 1) = byteAt (Frame.after b) 1 := by
        unfold Frame.after Frame.rest
        rw [byteAt_drop, byteAt_drop, hb]
        congr 1
      have hcrc : ((Slice.all ⟨b.take n, sp'⟩).take (Frame.bodyEnd (b.take n))).drop (Frame.hl (b.take n)) =
          ((Slice.all ⟨b, sp⟩).take (Frame.bodyEnd b)).drop (Frame.hl b) := by
        rw [e9, e2, hbe, take_all (by rw [hlen]; omega), take_all (by omega), List.take_take, Nat.min_eq_left (by omega)]
      rw [hcrc, hs, hlast, ← h10]
      unfold Frame.sfrcs
      by_cases c4 : byteAt (Frame.after b) 1 = 0
      · rw [if_pos c4, if_neg (by rw [c4]; omega)]
      · rw [if_neg c4, if_pos (by omega)]

end Egts
