import Verif.Proofs.Frame

/-! # What `Package.Decode` looks at (C77, C78) -/

namespace Egts

theorem sub_spare {b : Bytes} {lo hi : Nat} {x : Bytes} (sp : Bytes) (h : (Slice.mk b []).sub? lo hi = some x) :
    (Slice.mk b sp).sub? lo hi = some x := by
  unfold Slice.sub? at h ⊢
  simp only [List.append_nil, List.length_nil, Nat.add_zero] at h
  by_cases hc : lo ≤ hi ∧ hi ≤ b.length
  · rw [if_pos hc] at h
    rw [if_pos ⟨hc.1, by simp only; omega⟩, ← h, List.take_append_of_le_length hc.2]
  · rw [if_neg hc] at h
    cases h

theorem decodeBody_spare (env key) (p : Package) (b r sp : Bytes) (h : p.decodeBody env key ⟨b, []⟩ r ≠ .panic) :
    p.decodeBody env key ⟨b, sp⟩ r = p.decodeBody env key ⟨b, []⟩ r := by
  unfold Package.decodeBody at h ⊢
  cases h1 : readerRead (zeros p.frameDataLength.toNat) r with
  | error e => rfl
  | ok x =>
    simp only [h1] at h ⊢
    by_cases h2 : p.packetType ≠ 1 ∧ p.packetType ≠ 0
    · simp only [if_pos h2]
    · simp only [if_neg h2] at h ⊢
      generalize Package.decrypt key _ x.1 = y at h ⊢
      cases y with
      | error e => rfl
      | ok y =>
        simp only at h ⊢
        generalize (if p.packetType = 1 then (ServiceDataSet.decode env [] y).map FrameData.sds
          else (PtResponse.decode env {} y).map FrameData.resp) = z at h ⊢
        cases z with
        | error e => rfl
        | ok z =>
          simp only at h ⊢
          cases h5 : readerRead (zeros 2) x.2 with
          | error e => rfl
          | ok w =>
            simp only [h5] at h ⊢
            cases h6 : (Slice.mk b []).sub? p.headerLength.toNat (p.headerLength.toUInt16 + p.frameDataLength).toNat with
            | none => simp only [h6] at h; exact absurd rfl h
            | some u => simp only [sub_spare sp h6]

theorem decodeTail_spare (env key) (p : Package) (b r sp : Bytes) (h : p.decodeTail env key ⟨b, []⟩ r ≠ .panic) :
    p.decodeTail env key ⟨b, sp⟩ r = p.decodeTail env key ⟨b, []⟩ r := by
  unfold Package.decodeTail at h ⊢
  cases h1 : readByte r with
  | error e => rfl
  | ok x =>
    simp only [h1] at h ⊢
    cases h6 : (Slice.mk b []).sub? 0 (p.headerLength - 1).toNat with
    | none => simp only [h6] at h; exact absurd rfl h
    | some u =>
      simp only [sub_spare sp h6, h6] at h ⊢
      by_cases h2 : x.1 ≠ crc8 u
      · simp only [if_pos h2]
      · simp only [if_neg h2] at h ⊢
        exact decodeBody_spare env key _ b _ sp h

theorem decodeRoute_spare (env key) (p : Package) (b tmp r sp : Bytes) (h : p.decodeRoute env key ⟨b, []⟩ tmp r ≠ .panic) :
    p.decodeRoute env key ⟨b, sp⟩ tmp r = p.decodeRoute env key ⟨b, []⟩ tmp r := by
  unfold Package.decodeRoute at h ⊢
  by_cases h0 : p.route = one
  · simp only [if_pos h0] at h ⊢
    cases h1 : readerRead tmp r with
    | error e => rfl
    | ok x =>
      simp only [h1] at h ⊢
      cases h2 : readerRead x.1 x.2 with
      | error e => rfl
      | ok y =>
        simp only [h2] at h ⊢
        cases h3 : readByte y.2 with
        | error e => rfl
        | ok z =>
          simp only [h3] at h ⊢
          exact decodeTail_spare env key _ b _ sp h
  · simp only [if_neg h0] at h ⊢
    exact decodeTail_spare env key _ b _ sp h

theorem decode_spare (env key) (p : Package) (b sp : Bytes) (h : Package.decode env key p ⟨b, []⟩ ≠ .panic) :
    Package.decode env key p ⟨b, sp⟩ = Package.decode env key p ⟨b, []⟩ := by
  unfold Package.decode at h ⊢
  rcases h0 : readByte b with e | x0
  · rfl
  simp only [h0] at h ⊢
  rcases h1 : readByte x0.2 with e | x1
  · rfl
  simp only [h1] at h ⊢
  rcases h2 : readByte x1.2 with e | x2
  · rfl
  simp only [h2] at h ⊢
  rcases h3 : readByte x2.2 with e | x3
  · rfl
  simp only [h3] at h ⊢
  rcases h4 : readByte x3.2 with e | x4
  · rfl
  simp only [h4] at h ⊢
  rcases h5 : readerRead (zeros 2) x4.2 with e | x5
  · rfl
  simp only [h5] at h ⊢
  rcases h6 : readerRead x5.1 x5.2 with e | x6
  · rfl
  simp only [h6] at h ⊢
  rcases h7 : readByte x6.2 with e | x7
  · rfl
  simp only [h7] at h ⊢
  exact decodeRoute_spare env key _ b _ _ sp h

theorem byteAt_append {b : Bytes} (t : Bytes) {i : Nat} (h : i < b.length) : byteAt (b ++ t) i = byteAt b i := by
  simp [byteAt, List.getD_eq_getElem?_getD, List.getElem?_append_left h]

/-- With all of the frame there, what follows it might as well lie behind the slice. -/
theorem decode_append (env key) (p : Package) (b t sp : Bytes) (h : Frame.total b ≤ b.length) :
    Package.decode env key p ⟨b ++ t, sp⟩ = Package.decode env key p ⟨b, t ++ sp⟩ := by
  have h10 : 10 ≤ Frame.hcsPos b := by unfold Frame.hcsPos; split <;> omega
  have hT : Frame.total b = Frame.hcsPos b + 1 + Frame.fdl b + 2 := rfl
  have hb : ∀ i, i ≤ Frame.hcsPos b → byteAt (b ++ t) i = byteAt b i := fun i hi => byteAt_append t (by omega)
  have e2 := hb 2 (by omega)
  have ehcs : Frame.hcsPos (b ++ t) = Frame.hcsPos b := by unfold Frame.hcsPos Frame.Routed; rw [e2]
  have ehl : Frame.hl (b ++ t) = Frame.hl b := hb 3 (by omega)
  have efdl : Frame.fdl (b ++ t) = Frame.fdl b := by unfold Frame.fdl; rw [hb 5 (by omega), hb 6 (by omega)]
  have ept : Frame.pt (b ++ t) = Frame.pt b := hb 9 (by omega)
  have epid : Frame.pid (b ++ t) = Frame.pid b := by unfold Frame.pid; rw [hb 7 (by omega), hb 8 (by omega)]
  have eenc : Frame.Encrypted (b ++ t) = Frame.Encrypted b := by unfold Frame.Encrypted; rw [e2]
  have erest : Frame.rest (b ++ t) = Frame.rest b ++ t := by
    unfold Frame.rest
    rw [ehcs, List.drop_append_of_le_length (by omega)]
  have hlen : (Frame.rest b).length = b.length - (Frame.hcsPos b + 1) := by unfold Frame.rest; rw [List.length_drop]
  have ebody : Frame.body (b ++ t) = Frame.body b := by
    unfold Frame.body
    rw [erest, efdl, List.take_append_of_le_length (by omega), List.length_append]
    congr 2
    omega
  have eafter : Frame.after (b ++ t) = Frame.after b ++ t := by
    unfold Frame.after
    rw [erest, efdl, List.drop_append_of_le_length (by omega)]
  have hafter : 2 ≤ (Frame.after b).length := by unfold Frame.after; rw [List.length_drop]; omega
  have esum : Frame.sfrcs (b ++ t) = Frame.sfrcs b := by
    unfold Frame.sfrcs
    rw [eafter, byteAt_append t (by omega), byteAt_append t (by omega)]
  have econt : Frame.content env key (b ++ t) = Frame.content env key b := by
    unfold Frame.content Frame.clear
    simp only [ebody, eenc, ept]
  have eleft : Frame.leftover env key (b ++ t) = Frame.leftover env key b := by
    unfold Frame.leftover Frame.clear
    simp only [ebody, eenc, ept]
  have ehead : headSum p (b ++ t) = headSum p b := by
    have er : Frame.Routed (b ++ t) = Frame.Routed b := by unfold Frame.Routed; rw [e2]
    by_cases hr : Frame.Routed b
    · have h15 : Frame.hcsPos b = 15 := by unfold Frame.hcsPos; rw [if_pos hr]
      have hr' : Frame.Routed (b ++ t) := er ▸ hr
      unfold headSum headAll head10
      simp only [if_pos hr, if_pos hr', ehcs, ehl, efdl, ept, epid, hb _ (Nat.le_refl _), hb 0 (by omega), hb 1 (by omega), e2, hb 4 (by omega),
        hb 10 (by omega), hb 11 (by omega), hb 12 (by omega), hb 13 (by omega), hb 14 (by omega)]
    · have hr' : ¬ Frame.Routed (b ++ t) := er ▸ hr
      unfold headSum headAll head10
      simp only [if_neg hr, if_neg hr', ehcs, ehl, efdl, ept, epid, hb _ (Nat.le_refl _), hb 0 (by omega), hb 1 (by omega), e2, hb 4 (by omega)]
  have epack : ∀ d, Frame.package p (b ++ t) d = Frame.package p b d := by
    intro d
    have er : Frame.Routed (b ++ t) = Frame.Routed b := by unfold Frame.Routed; rw [e2]
    by_cases hr : Frame.Routed b
    · have h15 : Frame.hcsPos b = 15 := by unfold Frame.hcsPos; rw [if_pos hr]
      have hr' : Frame.Routed (b ++ t) := er ▸ hr
      unfold Frame.package
      simp only [if_pos hr, if_pos hr', ehcs, ehl, efdl, ept, epid, esum, hb _ (Nat.le_refl _), hb 0 (by omega), hb 1 (by omega), e2, hb 4 (by omega),
        hb 10 (by omega), hb 11 (by omega), hb 12 (by omega), hb 13 (by omega), hb 14 (by omega)]
    · have hr' : ¬ Frame.Routed (b ++ t) := er ▸ hr
      unfold Frame.package
      simp only [if_neg hr, if_neg hr', ehcs, ehl, efdl, ept, epid, esum, hb _ (Nat.le_refl _), hb 0 (by omega), hb 1 (by omega), e2, hb 4 (by omega)]
  have ehe : Frame.headEnd (b ++ t) = Frame.headEnd b := by unfold Frame.headEnd; rw [ehl]
  have ebe : Frame.bodyEnd (b ++ t) = Frame.bodyEnd b := by unfold Frame.bodyEnd; rw [ehl, efdl]
  have eall : Slice.all ⟨b ++ t, sp⟩ = Slice.all ⟨b, t ++ sp⟩ := by simp [Slice.all]
  have hrest : Frame.rest b ≠ [] := by intro h0; rw [h0] at hlen; simp at hlen; omega
  have hrest' : Frame.rest (b ++ t) ≠ [] := by rw [erest]; simp [hrest]
  have hafter0 : Frame.after b ≠ [] := by intro h0; rw [h0] at hafter; simp at hafter
  have hafter' : Frame.after (b ++ t) ≠ [] := by rw [eafter]; simp [hafter0]
  rw [decode_tail env key p ⟨b ++ t, sp⟩ (by simp only [ehcs, List.length_append]; omega), decode_tail env key p ⟨b, t ++ sp⟩ (by simp only; omega),
    decode_body env key p ⟨b ++ t, sp⟩, decode_body env key p ⟨b, t ++ sp⟩]
  simp only [eall, ehcs, ehe, ehead, if_neg hrest, if_neg hrest', if_neg hafter0, if_neg hafter', ept, econt, eleft, ebe, ehl, esum, epack,
    hb _ (Nat.le_refl _)]

end Egts
