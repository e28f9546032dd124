import Verif.Spec.Damage
import Verif.Props.Noise
import Verif.Props.Resend
import Verif.Props.Ignored

/-! # One damaged packet among others (C104) -/

namespace Egts

theorem without_from (env : Env) (ce : ConnEnv) (n : Nat) (e : End) (fuel i : Nat) (c : UInt32) (input : Bytes) (h : n ≤ i) :
    connLoop env (ce.without n) e fuel i c input = connLoop env ce e fuel (i + 1) c input := by
  induction fuel generalizing i c input with
  | zero => rfl
  | succ fuel ih =>
    simp only [connLoop]
    have h1 : (ce.without n).clock i = ce.clock (i + 1) := by simp only [ConnEnv.without]; rw [if_neg (by omega)]
    have h2 : (ce.without n).spare i = ce.spare (i + 1) := by simp only [ConnEnv.without]; rw [if_neg (by omega)]
    rw [h1, h2]
    cases readPacket input e with
    | stop effs => rfl
    | packet b rest =>
      simp only
      cases (handlePacket env (ce.clock (i + 1)) c ⟨b, ce.spare (i + 1)⟩).client with
      | none => rfl
      | some c' => simp only [ih (i + 1) c' rest (by omega)]

theorem without_before (env : Env) (ce : ConnEnv) (n : Nat) (frames : List Bytes) (i : Nat) (c : UInt32) (h : i + frames.length ≤ n) :
    processAll env (ce.without n) i c frames = processAll env ce i c frames := by
  induction frames generalizing i c with
  | nil => rfl
  | cons f frames ih =>
    rw [List.length_cons] at h
    simp only [processAll]
    have h1 : (ce.without n).clock i = ce.clock i := by simp only [ConnEnv.without]; rw [if_pos (by omega)]
    have h2 : (ce.without n).spare i = ce.spare i := by simp only [ConnEnv.without]; rw [if_pos (by omega)]
    rw [h1, h2]
    cases (handlePacket env (ce.clock i) c ⟨f, ce.spare i⟩).client with
    | none => rfl
    | some c' => simp only [ih (i + 1) c' (by omega)]

/-- The beginning of a packet that claims to be longer than all that has come. -/
theorem claims_more {b : Bytes} (h10 : 10 ≤ b.length) (h0 : byteAt b 0 = 1) (hl : b.length < Frame.declared b) (hd : Frame.declared b < 65536) :
    ∃ f, WellFramed f ∧ b <+: f ∧ b ≠ f := by
  have hb : ∀ i, i < 10 → byteAt (b ++ zeros (Frame.declared b - b.length)) i = byteAt b i := by
    intro i hi
    unfold byteAt
    rw [List.getD_eq_getElem?_getD, List.getD_eq_getElem?_getD, List.getElem?_append_left (by omega)]
  have hlen : (b ++ zeros (Frame.declared b - b.length)).length = Frame.declared b := by
    rw [List.length_append, zeros, List.length_replicate]; omega
  have hdec : Frame.declared (b ++ zeros (Frame.declared b - b.length)) = Frame.declared b := by
    revert hb
    generalize zeros (Frame.declared b - b.length) = z
    intro hb
    unfold Frame.declared Frame.fdl Frame.hl
    rw [hb 3 (by omega), hb 5 (by omega), hb 6 (by omega)]
  refine ⟨b ++ zeros (Frame.declared b - b.length), ⟨?_, ?_, ?_, ?_⟩, List.prefix_append _ _, fun h => ?_⟩
  · rw [hb 0 (by omega)]; exact h0
  · omega
  · omega
  · rw [hlen, hdec]
  · have := congrArg List.length h
    omega

/-! ## C104 -/

/-- What is true: if a damaged packet is still as long as it says and is refused (C90, C03 and C04 say when), there is an answer that says so,
and everything before and after is handled as if the packet had not been sent, whatever follows. Missing: damage to the lengths
(`C104_false_lengths`), and what later packets owe to it (`C104_false_identity`). -/
theorem C104_contained_partial (env : Env) (ce : ConnEnv) (frames : List Bytes) (f : Bytes) (code : UInt8) (hf : ∀ f ∈ frames, WellFramed f)
    (hn : NoPanic env ce frames) (hw : WellFramed f) (h : Frame.outcome env none ⟨f, ce.spare frames.length⟩ = .code code) (hc : code ≠ 0)
    (tail : Bytes) (e : End) :
    ∃ before resp after, IsResponse env resp (UInt16.ofNat (Frame.pid f))
        { responsePacketID := UInt16.ofNat (Frame.pid f), processingResult := code, sdr := none } ∧
      handleConn env ce (frames.flatten ++ f ++ tail) e = before ++ .write resp :: after ∧
      handleConn env (ce.without frames.length) (frames.flatten ++ tail) e = before ++ after ∧
      before = handleConn env ce frames.flatten .blocked := by
  obtain ⟨resp, h1, h2⟩ := C45_survives env ce frames f code hf hn hw h hc tail e
  refine ⟨_, resp, _, h1, h2, ?_, (C42_pipelined env ce frames hf hn).1.symm⟩
  have hcl := (processAll_effs env ce frames hn).2
  have hh := handleFrom_frames env (ce.without frames.length) e 0 0 frames tail hf
  rw [without_before env ce frames.length frames 0 0 (by omega), hcl] at hh
  rw [handleConn_eq, hh]
  simp only [Nat.zero_add]
  unfold handleFrom
  rw [without_from env ce _ e _ _ _ _ (Nat.le_refl _)]

/-- So it is for up to three wrong bits in an acceptable packet, outside the first byte, the lengths and the routing flag. -/
theorem C104_noise_partial (env : Env) (ce : ConnEnv) (frames : List Bytes) (f f' : Bytes) (q : Package) (hf : ∀ f ∈ frames, WellFramed f)
    (hn : NoPanic env ce frames) (hw : WellFramed f) (hh : Frame.Honest f) (hfd : Frame.fdl f ≤ 4093)
    (ha : Package.decode env none {} ⟨f, []⟩ = .ret q 0 none)
    (hlen : f'.length = f.length) (h0 : byteAt f' 0 = byteAt f 0) (h3 : byteAt f' 3 = byteAt f 3) (h5 : byteAt f' 5 = byteAt f 5)
    (h6 : byteAt f' 6 = byteAt f 6) (hr : Frame.Routed f' ↔ Frame.Routed f) (hd : 1 ≤ Crc.dist f f' ∧ Crc.dist f f' ≤ 3) (tail : Bytes) (e : End) :
    ∃ before resp after, handleConn env ce (frames.flatten ++ f' ++ tail) e = before ++ .write resp :: after ∧
      handleConn env (ce.without frames.length) (frames.flatten ++ tail) e = before ++ after := by
  have hdec : Frame.declared f' = Frame.declared f := by
    unfold Frame.declared Frame.fdl Frame.hl
    rw [h3, h5, h6]
  have hw' : WellFramed f' := ⟨by rw [h0]; exact hw.1, by rw [hlen]; exact hw.2.1, by rw [hlen]; exact hw.2.2.1, by rw [hlen, hdec]; exact hw.2.2.2⟩
  have htot : f.length = Frame.total f := by
    have h1 := success_outcome ha
    have hne : Frame.fdl f ≠ 0 := by
      intro h00
      obtain ⟨_, _, w3, w4⟩ := hw
      have hd0 : Frame.declared f = Frame.hcsPos f + 1 := by unfold Frame.declared; rw [if_pos h00]; exact hh.1
      have hcp : Frame.hcsPos f ≤ 15 := by unfold Frame.hcsPos; split <;> omega
      have hcp' : 10 ≤ Frame.hcsPos f := by unfold Frame.hcsPos; split <;> omega
      have hl : f.length = Frame.hcsPos f + 1 := by omega
      have hrest : Frame.rest f = [] := by unfold Frame.rest; exact List.drop_eq_nil_iff.mpr (by omega)
      unfold Frame.outcome at h1
      simp only [hrest, if_true] at h1
      repeat' (split at h1)
      all_goals cases h1
    obtain ⟨_, _, w3, w4⟩ := hw
    have hd0 : Frame.declared f = Frame.total f := by
      unfold Frame.declared Frame.total; rw [if_neg hne, hh.1]
    have hcp : Frame.hcsPos f ≤ 15 := by unfold Frame.hcsPos; split <;> omega
    have hcp' : 10 ≤ Frame.hcsPos f := by unfold Frame.hcsPos; split <;> omega
    have : Frame.total f = Frame.hcsPos f + 1 + Frame.fdl f + 2 := rfl
    omega
  obtain ⟨q', code, e', h1, h2⟩ := C90_three_bits_partial env none {} {} q f f' [] (ce.spare frames.length) hh htot hfd ha hlen h3 hr hd.1 hd.2
    (fun hx => by rw [h0] at hx; exact hx.2.2.1 rfl)
  have ho : Frame.outcome env none ⟨f', ce.spare frames.length⟩ = .code code := by
    rw [← (decode_frame env none {} ⟨f', ce.spare frames.length⟩).1, h1]; rfl
  obtain ⟨b, resp, a, _, h3, h4, _⟩ := C104_contained_partial env ce frames f' code hf hn hw' ho h2 tail e
  exact ⟨b, resp, a, h3, h4⟩

/-- Three wrong bits in a packet with positions. -/
example : Crc.dist Ex.good ((Ex.good.set 30 3).set 90 128) = 3 := by decide +kernel

/-- Full statement of C104 (not provable): if one packet is damaged, the others are handled as if it had not been sent. One wrong bit in the
length of a packet: none of the next 314 packets is looked at. Nothing is stored, nothing is answered. -/
theorem C104_false_lengths (env : Env) : ∃ f f' : Bytes, WellFramed f ∧ f'.length = f.length ∧ Crc.dist f f' = 1 ∧ ∀ ce k, k ≤ 314 →
    handleConn env ce (f' ++ (List.replicate k f).flatten) .blocked = [] ∧
    handleConn env ce (f' ++ (List.replicate k f).flatten) .eof = [.close] ∧
    (saves (handleConn env ce (List.replicate k f).flatten .blocked)).length = 2 * k := by
  have hlen : (Ex.good.set 6 128).length = 104 := by decide
  refine ⟨Ex.good, Ex.good.set 6 128, by decide, by decide, by decide +kernel, fun ce k hk => ?_⟩
  have hl : (Ex.good.set 6 128 ++ (List.replicate k Ex.good).flatten).length = 104 + k * 104 := by
    rw [List.length_append, hlen, List.length_flatten, List.map_replicate, List.sum_replicate]
    rfl
  have hb : ∀ i, i < 10 → byteAt (Ex.good.set 6 128 ++ (List.replicate k Ex.good).flatten) i = byteAt (Ex.good.set 6 128) i := by
    intro i hi
    unfold byteAt
    rw [List.getD_eq_getElem?_getD, List.getD_eq_getElem?_getD, List.getElem?_append_left (by omega)]
  have hdec : Frame.declared (Ex.good.set 6 128 ++ (List.replicate k Ex.good).flatten) = 32872 := by
    unfold Frame.declared Frame.fdl Frame.hl
    rw [hb 3 (by omega), hb 5 (by omega), hb 6 (by omega)]
    decide
  obtain ⟨g, g1, g2, g3⟩ := claims_more (b := Ex.good.set 6 128 ++ (List.replicate k Ex.good).flatten) (by omega)
    (by rw [hb 0 (by omega)]; decide) (by omega) (by omega)
  have hc := C43_cut_frame env ce [] g _ (by simp) (fun i f h => by simp at h) g1 g2 (by intro h; rw [h] at hl; simp at hl; omega) g3
  refine ⟨hc.2.2, hc.1, ?_⟩
  have hs := C99_every_time env ce (List.replicate k Ex.good) (fun f hf => by rw [List.eq_of_mem_replicate hf]; exact good_independent env) .blocked
  have := congrArg List.length hs
  rw [List.length_map] at this
  rw [this]
  have hg : (content env Ex.good).length = 2 := by rw [good_content]; decide +kernel
  simp [List.length_flatMap, hg, Nat.mul_comm]

set_option maxRecDepth 40000 in
theorem damagedLogin_outcome (env : Env) (sp : Bytes) : Frame.outcome env none ⟨Ex.good.set 30 1, sp⟩ = .code 137 := by
  rw [← (decode_frame env none {} ⟨Ex.good.set 30 1, sp⟩).1, C77_honest env none {} (Ex.good.set 30 1) sp [] (.inl (by decide)),
    (decode_frame env none {} ⟨Ex.good.set 30 1, []⟩).1]
  with_unfolding_all rfl

/-- And a packet can owe to an earlier one whose positions it carries: if the login of client 9 is damaged, by one bit, what it sends afterwards
is stored as that of client 0, and confirmed. -/
theorem C104_false_identity (env : Env) : ∃ f f' g : Bytes, WellFramed f ∧ WellFramed f' ∧ WellFramed g ∧ Crc.dist f f' = 1 ∧ ∀ ce,
    (∃ a b n, saves (handleConn env ce (f ++ g) .blocked) = [a, b, n] ∧ n.client = 9) ∧
    ∃ w n w', handleConn env ce (f' ++ g) .blocked = [.write w, .save n, .write w'] ∧ n.client = 0 ∧
      ∃ r, IsResponse env w' (UInt16.ofNat (Frame.pid g)) r ∧ r.processingResult = 0 := by
  refine ⟨Ex.good, Ex.good.set 30 1, anonymous, by decide, by decide, by decide, by decide +kernel, fun ce => ⟨?_, ?_⟩⟩
  · have hf : ∀ f ∈ [Ex.good, anonymous], WellFramed f := by decide
    have hh : ∀ f ∈ [Ex.good, anonymous], Frame.Honest f := by decide
    have hn : NoPanic env ce [Ex.good, anonymous] := fun i f hi => C11_no_panic_partial env none {} _ (.inl (hh f (List.mem_of_getElem? hi)))
    have h1 := C49_all_saved env ce _ hf hn
    simp only [List.flatten_cons, List.flatten_nil, List.append_nil, List.zipIdx_cons, List.zipIdx_nil, List.flatMap_cons, List.flatMap_nil,
      accepted_of (Ex.good_accepts env _), accepted_of (anonymous_accepts env _), Nat.zero_add] at h1
    have hi : idsBefore env ce [Ex.good, anonymous] 1 = [5, 9] := by
      unfold idsBefore packetIds
      simp only [List.take_succ_cons, List.take_zero, List.zipIdx_cons, List.zipIdx_nil, List.flatMap_cons, List.flatMap_nil, List.append_nil,
        accepted_of (Ex.good_accepts env _)]
      rfl
    rw [hi] at h1
    exact ⟨_, _, _, h1, rfl⟩
  · obtain ⟨w, _, h⟩ := C45_survives env ce [] (Ex.good.set 30 1) 137 (by simp) (fun i f h => by simp at h) (by decide)
      (damagedLogin_outcome env _) (by decide) anonymous .blocked
    simp only [List.flatten_nil, List.nil_append] at h
    obtain ⟨ack, ⟨r1, _, _⟩, r2⟩ := handlePacket_app env (ce.clock 1) (lastOr (idsBefore env ce [] ([] : List Bytes).length) 0)
      (anonymous_accepts env (ce.spare 1)) (by decide)
    have hl := handleFrom_frames env ce .blocked 1 (lastOr (idsBefore env ce [] ([] : List Bytes).length) 0) [anonymous] [] (by decide)
    simp only [List.flatten_cons, List.flatten_nil, List.append_nil, processAll, r2, handleFrom_nothing] at hl
    rw [h]
    simp only [List.length_nil, Nat.zero_add] at hl ⊢
    rw [hl]
    refine ⟨w, _, ack, rfl, rfl, _, r1, rfl⟩

end Egts
