import Verif.Spec.Conn
import Verif.Proofs.Server

/-! # The connection loop -/

namespace Egts

theorem handlePacket_client (env : Env) (now : Int) (c : UInt32) (pkt : Slice) :
    (handlePacket env now c pkt).client = none ↔ Package.decode env none {} pkt = .panic := by
  rcases packet_cases env pkt with h | ⟨p, code, e, h⟩ | ⟨p, h, hp⟩ | ⟨p, recs, h⟩
  · rw [handlePacket_panic env now c h, h]; simp
  · obtain ⟨r, _, h2⟩ := handlePacket_rejected env now c h
    rw [h2, h]; simp
  · rw [handlePacket_response env now c h hp, h]; simp
  · rw [h.1]
    by_cases hr : ∃ r ∈ recs, r.hasResp = true
    · obtain ⟨r, subs, _, _, h2⟩ := handlePacket_appResp env now c h hr
      rw [h2]; simp
    · obtain ⟨ack, _, h2⟩ := handlePacket_app env now c h (fun r hr' => by
        cases hh : r.hasResp with
        | false => rfl
        | true => exact absurd ⟨r, hr', hh⟩ hr)
      rw [h2]; simp

/-! ## Reading one packet -/

theorem le16_pair (a b : UInt8) : (le16 [a, b]).toNat = a.toNat + 256 * b.toNat := by
  have h1 := UInt8.toNat_lt a
  have h2 := UInt8.toNat_lt b
  simp only [le16]
  rw [UInt16.toNat_ofNat']
  exact Nat.mod_eq_of_lt (by omega)

theorem take_fields {f : Bytes} (h : 10 ≤ f.length) :
    ((f.take 10).take 7).drop 5 = [f.getD 5 0, f.getD 6 0] ∧ (f.take 10).getD 3 0 = f.getD 3 0 ∧ (f.take 10).headD 0 = f.getD 0 0 := by
  rcases f with _ | ⟨b0, _ | ⟨b1, _ | ⟨b2, _ | ⟨b3, _ | ⟨b4, _ | ⟨b5, _ | ⟨b6, _ | ⟨b7, _ | ⟨b8, _ | ⟨b9, b⟩⟩⟩⟩⟩⟩⟩⟩⟩⟩
  case cons.cons.cons.cons.cons.cons.cons.cons.cons.cons => exact ⟨rfl, rfl, rfl⟩
  all_goals (exfalso; simp at h)

theorem bodyReadLen_eq {f : Bytes} (h : 10 ≤ f.length) : bodyReadLen (f.take 10) = (Frame.declared f + 65526) % 65536 := by
  obtain ⟨h1, h2, _⟩ := take_fields h
  have h5 := UInt8.toNat_lt (f.getD 5 0)
  have h6 := UInt8.toNat_lt (f.getD 6 0)
  have h3 := UInt8.toNat_lt (f.getD 3 0)
  unfold bodyReadLen Frame.declared Frame.hl Frame.fdl byteAt
  simp only [h1, h2]
  have hb : (le16 [f.getD 5 0, f.getD 6 0]).toNat = (f.getD 5 0).toNat + 256 * (f.getD 6 0).toNat := le16_pair _ _
  by_cases h0 : (f.getD 5 0).toNat + 256 * (f.getD 6 0).toNat = 0
  · rw [if_pos h0, if_neg (by show ¬ (0 : UInt16) < _; rw [UInt16.lt_iff_toNat_lt, hb, h0]; simp)]
    rw [UInt16.toNat_sub, UInt8.toNat_toUInt16]
    simp only [UInt16.reduceToNat]
    omega
  · rw [if_neg h0, if_pos (by show (0 : UInt16) < _; rw [UInt16.lt_iff_toNat_lt, hb]; exact Nat.pos_of_ne_zero h0)]
    rw [UInt16.toNat_sub, UInt16.toNat_add, UInt16.toNat_add, UInt8.toNat_toUInt16, hb]
    simp only [UInt16.reduceToNat]
    omega

theorem wellFramed_iff {f : Bytes} (h : 10 ≤ f.length) :
    WellFramed f ↔ byteAt f 0 = 1 ∧ f.length = 10 + bodyReadLen (f.take 10) := by
  rw [bodyReadLen_eq h]
  unfold WellFramed
  omega

theorem bodyReadLen_append {f t : Bytes} (h : 10 ≤ f.length) : bodyReadLen ((f ++ t).take 10) = bodyReadLen (f.take 10) := by
  rw [List.take_append_of_le_length h]

theorem headD_eq {f : Bytes} (h : 10 ≤ f.length) : (f.take 10).headD 0 ≠ 1 ↔ byteAt f 0 ≠ 1 := by
  rw [(take_fields h).2.2, byteAt]
  constructor
  · intro h1 h2; exact h1 (UInt8.toNat_inj.mp h2)
  · intro h1 h2; exact h1 (by rw [h2]; rfl)

/-- A complete frame at the front is what is read. -/
theorem readPacket_framed {f t : Bytes} (e : End) (h : WellFramed f) : readPacket (f ++ t) e = .packet f t := by
  have h10 := h.2.1
  obtain ⟨h1, h2⟩ := (wellFramed_iff h10).mp h
  unfold readPacket headerLen
  rw [if_neg (by simp; omega)]
  have hh : (f ++ t).take 10 = f.take 10 := List.take_append_of_le_length h10
  have hd : (f ++ t).drop 10 = f.drop 10 ++ t := List.drop_append_of_le_length h10
  simp only [hh, hd]
  rw [if_neg (by rw [headD_eq h10]; exact fun h => h h1)]
  rw [if_neg (by simp; omega)]
  have hl : (f.drop 10).length = bodyReadLen (f.take 10) := by rw [List.length_drop]; omega
  rw [List.take_append_of_le_length (by omega), List.drop_append_of_le_length (by omega), ← hl, List.take_length, List.drop_length,
    List.nil_append, List.take_append_drop]

theorem readPacket_packet {input b rest : Bytes} {e : End} (h : readPacket input e = .packet b rest) :
    WellFramed b ∧ input = b ++ rest := by
  unfold readPacket headerLen at h
  by_cases h10 : input.length < 10
  · rw [if_pos h10] at h
    cases e <;> simp only at h
    · split at h <;> cases h
    · cases h
    · cases h
  · rw [if_neg h10] at h
    simp only at h
    split at h
    · cases h
    · rename_i hd
      split at h
      · cases e <;> cases h
      · rename_i hn
        injection h with h1 h2
        have hb : input = b ++ rest := by
          rw [← h1, ← h2, List.append_assoc, List.take_append_drop, List.take_append_drop]
        refine ⟨?_, hb⟩
        have hl : b.length = 10 + bodyReadLen (input.take 10) := by
          rw [← h1, List.length_append, List.length_take, List.length_take]
          omega
        have hb10 : 10 ≤ b.length := by omega
        rw [wellFramed_iff hb10]
        have ht : input.take 10 = b.take 10 := by rw [hb, List.take_append_of_le_length hb10]
        rw [ht] at hl hd
        exact ⟨by rw [ne_eq, not_not] at hd; rw [byteAt, ← (take_fields hb10).2.2, hd]; rfl, hl⟩

/-- The loop does not depend on the fuel, if there is enough. -/
theorem connLoop_fuel (env : Env) (ce : ConnEnv) (e : End) (fuel fuel' i : Nat) (c : UInt32) (input : Bytes)
    (h : input.length < fuel) (h' : input.length < fuel') :
    connLoop env ce e fuel i c input = connLoop env ce e fuel' i c input := by
  induction fuel generalizing fuel' i c input with
  | zero => omega
  | succ fuel ih =>
    cases fuel' with
    | zero => omega
    | succ fuel' =>
      simp only [connLoop]
      cases hr : readPacket input e with
      | stop effs => rfl
      | packet b rest =>
        simp only
        obtain ⟨hw, rfl⟩ := readPacket_packet hr
        have := hw.2.1
        rw [List.length_append] at h h'
        cases (handlePacket env (ce.clock i) c ⟨b, ce.spare i⟩).client with
        | none => rfl
        | some c' => simp only; rw [ih fuel' (i + 1) c' rest (by omega) (by omega)]

theorem handleFrom_eq (env : Env) (ce : ConnEnv) (e : End) (i : Nat) (c : UInt32) (input : Bytes) :
    handleFrom env ce e i c input =
      match readPacket input e with
      | .stop effs => effs
      | .packet b rest =>
        match (handlePacket env (ce.clock i) c ⟨b, ce.spare i⟩).client with
        | none => (handlePacket env (ce.clock i) c ⟨b, ce.spare i⟩).effs
        | some c' => (handlePacket env (ce.clock i) c ⟨b, ce.spare i⟩).effs ++ handleFrom env ce e (i + 1) c' rest := by
  unfold handleFrom
  rw [connLoop]
  cases hr : readPacket input e with
  | stop effs => rfl
  | packet b rest =>
    simp only
    obtain ⟨hw, rfl⟩ := readPacket_packet hr
    have := hw.2.1
    cases (handlePacket env (ce.clock i) c ⟨b, ce.spare i⟩).client with
    | none => rfl
    | some c' => simp only; rw [connLoop_fuel env ce e _ (rest.length + 1) (i + 1) c' rest (by rw [List.length_append]; omega) (by omega)]

theorem handleConn_eq (env : Env) (ce : ConnEnv) (input : Bytes) (e : End) : handleConn env ce input e = handleFrom env ce e 0 0 input := rfl

theorem handleFrom_frames (env : Env) (ce : ConnEnv) (e : End) (i : Nat) (c : UInt32) (frames : List Bytes) (tail : Bytes)
    (h : ∀ f ∈ frames, WellFramed f) :
    handleFrom env ce e i c (frames.flatten ++ tail) =
      match (processAll env ce i c frames).client with
      | none => (processAll env ce i c frames).effs
      | some c' => (processAll env ce i c frames).effs ++ handleFrom env ce e (i + frames.length) c' tail := by
  induction frames generalizing i c with
  | nil => rfl
  | cons f frames ih =>
    rw [List.flatten_cons, List.append_assoc, handleFrom_eq, readPacket_framed e (h f List.mem_cons_self)]
    simp only [processAll]
    cases hc : (handlePacket env (ce.clock i) c ⟨f, ce.spare i⟩).client with
    | none => simp only [hc]
    | some c' =>
      simp only
      rw [ih (i + 1) c' (fun x hx => h x (List.mem_cons_of_mem _ hx))]
      cases (processAll env ce (i + 1) c' frames).client with
      | none => rfl
      | some c'' => simp only [List.append_assoc, List.length_cons, Nat.add_assoc, Nat.add_comm 1]

/-- Decomposition of any input into frames and a tail that is not a packet. -/
theorem frames_tail (e : End) (n : Nat) (input : Bytes) (h : input.length < n) :
    ∃ (frames : List Bytes) (tail : Bytes) (effs : List Effect), input = frames.flatten ++ tail ∧ (∀ f ∈ frames, WellFramed f) ∧ readPacket tail e = .stop effs := by
  induction n generalizing input with
  | zero => omega
  | succ n ih =>
    cases hr : readPacket input e with
    | stop effs => exact ⟨[], input, effs, rfl, fun _ h => (by cases h), hr⟩
    | packet b rest =>
      obtain ⟨hw, rfl⟩ := readPacket_packet hr
      rw [List.length_append] at h
      have := hw.2.1
      obtain ⟨fs, t, effs, h1, h2, h3⟩ := ih rest (by omega)
      refine ⟨b :: fs, t, effs, by rw [h1]; simp, ?_, h3⟩
      intro f hf
      rcases List.mem_cons.mp hf with rfl | hf
      · exact hw
      · exact h2 f hf

/-! ## Segments -/

theorem readFull_eq (n : Nat) (cs : List Bytes) :
    (readFull n cs).1 = cs.flatten.take n ∧ (readFull n cs).2.flatten = cs.flatten.drop n := by
  induction cs generalizing n with
  | nil => cases n <;> simp [readFull]
  | cons c cs ih =>
    cases n with
    | zero => simp [readFull]
    | succ n =>
      rw [readFull]
      split
      · rename_i h
        obtain ⟨h1, h2⟩ := ih (n + 1 - c.length)
        refine ⟨?_, ?_⟩
        · simp only [h1, List.flatten_cons]
          rw [List.take_append, List.take_of_length_le h]
        · simp only [h2, List.flatten_cons]
          rw [List.drop_append, List.drop_of_length_le h, List.nil_append]
      · rename_i h
        refine ⟨?_, ?_⟩
        · simp only [List.flatten_cons]
          rw [List.take_append_of_le_length (by omega)]
        · simp only [List.flatten_cons]
          rw [List.drop_append_of_le_length (by omega)]

theorem readPacketS_eq (cs : List Bytes) (e : End) :
    match readPacketS cs e with
    | .stop effs => readPacket cs.flatten e = .stop effs
    | .packet b rest => readPacket cs.flatten e = .packet b rest.flatten := by
  unfold readPacketS readPacket headerLen
  obtain ⟨h1, h2⟩ := readFull_eq 10 cs
  generalize readFull 10 cs = x at *
  obtain ⟨h, cs'⟩ := x
  simp only at h1 h2 ⊢
  have hlen : h.length < 10 ↔ cs.flatten.length < 10 := by rw [h1, List.length_take]; omega
  by_cases hs : cs.flatten.length < 10
  · rw [if_pos (hlen.mpr hs), if_pos hs]
    have hh : h = [] ↔ cs.flatten = [] := by rw [h1, List.take_of_length_le (by omega)]
    cases e with
    | blocked => simp
    | error => simp
    | eof =>
      simp only [hh]
      by_cases h0 : cs.flatten = []
      · rw [if_pos h0, if_pos h0]
      · rw [if_neg h0, if_neg h0]
  · rw [if_neg (fun x => hs (hlen.mp x)), if_neg hs, ← h1]
    by_cases h3 : h.headD 0 ≠ 1
    · rw [if_pos h3, if_pos h3]
    · rw [if_neg h3, if_neg h3]
      obtain ⟨g1, g2⟩ := readFull_eq (bodyReadLen h) cs'
      generalize readFull (bodyReadLen h) cs' = y at *
      obtain ⟨buf, cs''⟩ := y
      simp only at g1 g2 ⊢
      rw [h2] at g1 g2
      have hlen2 : buf.length < bodyReadLen h ↔ (cs.flatten.drop 10).length < bodyReadLen h := by rw [g1, List.length_take]; omega
      by_cases h4 : (cs.flatten.drop 10).length < bodyReadLen h
      · rw [if_pos (hlen2.mpr h4), if_pos h4]
        cases e <;> simp
      · rw [if_neg (fun x => h4 (hlen2.mp x)), if_neg h4]
        simp only [g1, g2]

theorem connLoopS_eq (env : Env) (ce : ConnEnv) (e : End) (fuel i : Nat) (c : UInt32) (cs : List Bytes) :
    connLoopS env ce e fuel i c cs = connLoop env ce e fuel i c cs.flatten := by
  induction fuel generalizing i c cs with
  | zero => rfl
  | succ fuel ih =>
    simp only [connLoopS, connLoop]
    have := readPacketS_eq cs e
    cases hr : readPacketS cs e with
    | stop effs => rw [hr] at this; simp only at this; rw [this]
    | packet b rest =>
      rw [hr] at this; simp only at this; rw [this]
      simp only
      cases (handlePacket env (ce.clock i) c ⟨b, ce.spare i⟩).client with
      | none => rfl
      | some c' => simp only; rw [ih]

/-! ## Spare capacity -/

/-- What is accepted without spare capacity is accepted, with the same result, whatever lies behind. -/
theorem accept_spare (env key p) {b sp : Bytes} {q : Package} (h : Package.decode env key p ⟨b, []⟩ = .ret q 0 none) :
    Package.decode env key p ⟨b, sp⟩ = .ret q 0 none := by
  obtain ⟨h1, h2⟩ := decode_frame env key p ⟨b, []⟩
  obtain ⟨g1, g2⟩ := decode_frame env key p ⟨b, sp⟩
  rw [h] at h1
  have ho : Frame.outcome env key ⟨b, []⟩ = .code 0 := h1.symm
  have ho2 : Frame.outcome env key ⟨b, sp⟩ = .code 0 := by
    rw [← ho]
    have hl : (Slice.all ⟨b, []⟩).length = b.length := by simp [Slice.all]
    have hl2 : (Slice.all ⟨b, sp⟩).length = b.length + sp.length := by simp [Slice.all]
    have ht : ∀ n, n ≤ b.length → (Slice.all ⟨b, sp⟩).take n = (Slice.all ⟨b, []⟩).take n := by
      intro n hn
      simp only [Slice.all, List.append_nil]
      exact List.take_append_of_le_length hn
    have hH : ¬ b.length ≤ Frame.hcsPos b → ¬ b.length < Frame.headEnd b := by
      intro a1 a2
      unfold Frame.outcome at ho
      simp only [hl] at ho
      rw [if_neg a1, if_pos a2] at ho
      cases ho
    unfold Frame.outcome
    simp only [hl, hl2]
    by_cases a1 : b.length ≤ Frame.hcsPos b
    · rw [if_pos a1, if_pos a1]
    · have a2 := hH a1
      rw [if_neg a1, if_neg a1, if_neg a2, if_neg (by omega), ht _ (by omega)]
      by_cases a3 : byteAt b (Frame.hcsPos b) ≠ (crc8 ((Slice.all ⟨b, []⟩).take (Frame.headEnd b))).toNat
      · rw [if_pos a3, if_pos a3]
      · rw [if_neg a3, if_neg a3]
        by_cases a4 : Frame.rest b = []
        · rw [if_pos a4, if_pos a4]
        · rw [if_neg a4, if_neg a4]
          by_cases a5 : Frame.pt b ≠ 0 ∧ Frame.pt b ≠ 1
          · rw [if_pos a5, if_pos a5]
          · rw [if_neg a5, if_neg a5]
            by_cases a6 : (Frame.content env key b).isOk = false
            · rw [if_pos a6, if_pos a6]
            · rw [if_neg a6, if_neg a6]
              by_cases a7 : Frame.after b = []
              · rw [if_pos a7, if_pos a7]
              · rw [if_neg a7, if_neg a7]
                by_cases a8 : Frame.bodyEnd b < Frame.hl b ∨ b.length < Frame.bodyEnd b
                · exfalso
                  unfold Frame.outcome at ho
                  simp only [hl] at ho
                  rw [if_neg a1, if_neg a2, if_neg a3, if_neg a4, if_neg a5, if_neg a6, if_neg a7, if_pos a8] at ho
                  cases ho
                · rw [if_neg a8, if_neg (by omega), ht _ (by omega)]
  rw [ho2] at g1
  obtain ⟨_, _, h5⟩ := h2 _ _ _ h
  obtain ⟨d, e1, e2⟩ := h5 rfl
  cases hd : Package.decode env key p ⟨b, sp⟩ with
  | panic => rw [hd] at g1; cases g1
  | ret q' c' e' =>
    rw [hd] at g1
    cases g1
    obtain ⟨i1, _, i3⟩ := g2 _ _ _ hd
    obtain ⟨d', f1, f2⟩ := i3 rfl
    simp only at e1 f1 e2 f2
    rw [e1] at f1
    injection f1 with f1
    rw [i1.mpr rfl, f2, e2, f1]

end Egts
