import Verif.Proofs.KeptMore
import Verif.Proofs.LayoutRec
import Verif.Proofs.Record

/-! # What is encoded again of what was decoded: records -/

namespace Egts
open Layout

theorem kept_known {env : Env} {t : Nat} {b : Bytes} (h : Kept env t b) : t ∈ knownTypes := by
  unfold Kept at h
  split at h <;> first | decide | exact h.elim

theorem subrecord_zero {len : Nat} {b : Bytes} {d : SubData} (h : IsSubrecord 0 len b d) : ∃ y, d = .resp y := by
  cases h with
  | plain t len b d h =>
    rcases h with h | h | h | h | h | h | h | h | h | h | h | h | h | h
    all_goals obtain ⟨h, _⟩ := h; omega
  | response len b rs _ _ => exact ⟨_, rfl⟩

theorem num_u16_zero {b : Bytes} {o : Nat} (h : UInt16.ofNat (num b o 2) = 0) : num b o 2 = 0 := by
  have := congrArg UInt16.toNat h
  rwa [UInt16.toNat_ofNat', Nat.mod_eq_of_lt (num2_lt b o)] at this

/-- The encoding of a subrecord that was decoded: its type and length are kept. -/
theorem rd_again (env : Env) {b : Bytes} {d : SubData} {w : Bytes} (hb : 3 + num b 1 2 ≤ b.length)
    (h : IsSubrecord (byteAt b 0) (num b 1 2) (seg b 3 (num b 1 2)) d) (he : d.encode env = .ok w) (hl : w.length ≤ num b 1 2) :
    RecordData.encode env ⟨UInt8.ofNat (byteAt b 0), UInt16.ofNat (num b 1 2), some d⟩ = .ok (seg b 0 3 ++ w) := by
  have ht : (if UInt8.ofNat (byteAt b 0) = 0 then liftErr (inferType (some d)) else pure (UInt8.ofNat (byteAt b 0))) =
      (.ok (UInt8.ofNat (byteAt b 0)) : Except Fault UInt8) := by
    split
    · rename_i h0
      have h0' : byteAt b 0 = 0 := (u8_inj (n := 0) (byteAt_lt b 0) (by omega)).mp h0
      rw [h0'] at h
      obtain ⟨y, rfl⟩ := subrecord_zero h
      rw [h0]; rfl
    · rfl
  have hn : (if UInt16.ofNat (num b 1 2) = 0 then d.length env else UInt16.ofNat (num b 1 2)) = UInt16.ofNat (num b 1 2) := by
    split
    · rename_i h0
      have h0' := num_u16_zero h0
      rw [length_eq env d w he, show w.length = 0 by omega, h0']
    · rfl
  unfold RecordData.encode
  dsimp only
  rw [ht, ok_bind, hn, he, show liftErr (.ok w : Except Err Bytes) = .ok w from rfl, ok_bind, pure_eq_ok, ← leBytes2, seg_num2 (by omega), seg_one (by omega), show (1 : Nat) = 0 + 1 from rfl, seg_append]

theorem again_subs (env : Env) {b : Bytes} (hc : EachSub Complete b) : ∀ {rds}, IsSubrecords b rds →
    ∃ w, RecordDataSet.encode env rds = .ok w ∧ w.length ≤ b.length ∧ (w = b ↔ EachSub (Kept env) b) := by
  induction hc with
  | nil =>
    intro rds h
    cases h with
    | nil => exact ⟨[], rfl, Nat.le_refl _, fun _ => .nil, fun _ => rfl⟩
    | known _ _ _ h2 => simp at h2
    | unknown _ _ h2 => simp at h2
  | cons b hl hp hrest ih =>
    intro rds h
    have hdec : b = seg b 0 3 ++ (seg b 3 (num b 1 2) ++ b.drop (3 + num b 1 2)) := by
      rw [← List.append_assoc, seg0_append]; exact (List.take_append_drop _ b).symm
    have hld : (seg b 3 (num b 1 2)).length = num b 1 2 := seg_length hl
    have hlr : b.length = 3 + (num b 1 2 + (b.drop (3 + num b 1 2)).length) := by rw [List.length_drop]; omega
    cases h with
    | nil => simp at hl
    | known _ d rds h2 hs hr =>
      obtain ⟨w1, e1, l1, i1⟩ := again_subrecord env hs hp
      obtain ⟨w2, e2, l2, i2⟩ := ih hr
      change w1.length ≤ (seg b 3 (num b 1 2)).length at l1
      change w1 = seg b 3 (num b 1 2) ↔ Kept env (byteAt b 0) (seg b 3 (num b 1 2)) at i1
      rw [hld] at l1
      refine ⟨seg b 0 3 ++ (w1 ++ w2), ?_, ?_, ?_⟩
      · rw [RecordDataSet.encode, rd_again env hl hs e1 l1, ok_bind, e2, ok_bind, pure_eq_ok, List.append_assoc]
      · rw [List.length_append, List.length_append, seg_length (by omega), hlr]; omega
      · constructor
        · intro e
          have e := List.append_cancel_left (e.trans hdec)
          have hlen := congrArg List.length e
          rw [List.length_append, List.length_append, hld] at hlen
          obtain ⟨ea, eb⟩ := List.append_inj e (by rw [hld]; omega)
          exact .cons b hl (i1.mp ea) (i2.mp eb)
        · intro hk
          cases hk with
          | nil => simp at hl
          | cons _ _ k1 k2 =>
            rw [i1.mpr k1, i2.mpr k2, ← hdec]
    | unknown _ rds h2 hu hr =>
      obtain ⟨w2, e2, l2, i2⟩ := ih hr
      refine ⟨w2, e2, by omega, ?_⟩
      constructor
      · intro e; rw [e] at l2; omega
      · intro hk
        cases hk with
        | nil => simp at hl
        | cons _ _ k1 k2 => exact absurd (kept_known k1) hu

/-- The encoding of a record that was decoded: its head is kept. -/
theorem sdr_again (env : Env) {b : Bytes} {rds : List RecordData} {w : Bytes} (hb : ServiceDataRecord.headLength b ≤ b.length)
    (he : RecordDataSet.encode env rds = .ok w) (hl : w.length ≤ num b 0 2) :
    ServiceDataRecord.encode env { ServiceDataRecord.head b with recordDataSet := rds } = .ok (seg b 0 (ServiceDataRecord.headLength b) ++ w) := by
  have h0 := bitAt_lt b 4 0
  have h1 := bitAt_lt b 4 1
  have h2 := bitAt_lt b 4 2
  have hbl : 7 + 4 * (bitAt b 4 0 + bitAt b 4 1 + bitAt b 4 2) ≤ b.length := hb
  have hn : (if UInt16.ofNat (num b 0 2) = 0 then UInt16.ofNat w.length else UInt16.ofNat (num b 0 2)) = UInt16.ofNat (num b 0 2) := by
    split
    · rename_i h0
      have h0' := num_u16_zero h0
      rw [show w.length = 0 by omega, h0']
    · rfl
  have fl : parseFlags (bitStr (bitAt b 4 7) ++ bitStr (bitAt b 4 6) ++ bitStr (bitAt b 4 5) ++ (bitStr (bitAt b 4 4) ++ bitStr (bitAt b 4 3)) ++
      bitStr (bitAt b 4 2) ++ bitStr (bitAt b 4 1) ++ bitStr (bitAt b 4 0)) = .ok (UInt8.ofNat (byteAt b 4)) := by
    have : ∀ n : Fin 256, parseFlags (bitStr (n.val / 2 ^ 7 % 2) ++ bitStr (n.val / 2 ^ 6 % 2) ++ bitStr (n.val / 2 ^ 5 % 2) ++ (bitStr (n.val / 2 ^ 4 % 2) ++ bitStr (n.val / 2 ^ 3 % 2)) ++
      bitStr (n.val / 2 ^ 2 % 2) ++ bitStr (n.val / 2 ^ 1 % 2) ++ bitStr (n.val / 2 ^ 0 % 2)) = .ok (UInt8.ofNat n.val) := by decide +kernel
    exact this ⟨byteAt b 4, byteAt_lt b 4⟩
  have f0 : optBytes (bitStr (bitAt b 4 0)) (put32 (ServiceDataRecord.head b).objectIdentifier) = seg b 5 (4 * bitAt b 4 0) := by
    rw [← ifSet_eq, ← leBytes4]
    refine opt_seg h0 fun e => ?_
    show leBytes 4 (opt (bitAt b 4 0) (UInt32.ofNat (num b 5 4)) 0).toNat = _
    rw [opt_pos e, seg_num4 (by omega)]
  have f1 : optBytes (bitStr (bitAt b 4 1)) (put32 (ServiceDataRecord.head b).eventIdentifier) = seg b (5 + 4 * bitAt b 4 0) (4 * bitAt b 4 1) := by
    rw [← ifSet_eq, ← leBytes4]
    refine opt_seg h1 fun e => ?_
    show leBytes 4 (opt (bitAt b 4 1) (UInt32.ofNat (num b (5 + 4 * bitAt b 4 0) 4)) 0).toNat = _
    rw [opt_pos e, seg_num4 (by omega)]
  have f2 : optBytes (bitStr (bitAt b 4 2)) (put32 (encRecTime (ServiceDataRecord.head b).time)) =
      seg b (5 + 4 * bitAt b 4 0 + 4 * bitAt b 4 1) (4 * bitAt b 4 2) := by
    rw [← ifSet_eq, ← leBytes4]
    refine opt_seg h2 fun e => ?_
    have : (ServiceDataRecord.head b).time = timeOffset + (num b (5 + 4 * (bitAt b 4 0 + bitAt b 4 1)) 4 : Int) * 1000000000 := if_pos e
    rw [this, encRecTime_eq _ (num4_lt b _), show 5 + 4 * (bitAt b 4 0 + bitAt b 4 1) = 5 + 4 * bitAt b 4 0 + 4 * bitAt b 4 1 by omega, seg_num4 (by omega)]
  have f3 : [(ServiceDataRecord.head b).sourceServiceType, (ServiceDataRecord.head b).recipientServiceType] =
      seg b (5 + 4 * bitAt b 4 0 + 4 * bitAt b 4 1 + 4 * bitAt b 4 2) 2 := by
    rw [seg_succ (by omega), seg_succ (by omega), seg_zero]
    show [UInt8.ofNat (byteAt b (5 + 4 * (bitAt b 4 0 + bitAt b 4 1 + bitAt b 4 2))), UInt8.ofNat (byteAt b (6 + 4 * (bitAt b 4 0 + bitAt b 4 1 + bitAt b 4 2)))] = _
    rw [show 5 + 4 * (bitAt b 4 0 + bitAt b 4 1 + bitAt b 4 2) = 5 + 4 * bitAt b 4 0 + 4 * bitAt b 4 1 + 4 * bitAt b 4 2 by omega,
      show 6 + 4 * (bitAt b 4 0 + bitAt b 4 1 + bitAt b 4 2) = 5 + 4 * bitAt b 4 0 + 4 * bitAt b 4 1 + 4 * bitAt b 4 2 + 1 by omega]
  have g : put16 (UInt16.ofNat (num b 0 2)) ++ put16 (UInt16.ofNat (num b 2 2)) ++ [UInt8.ofNat (byteAt b 4)] = seg b 0 5 := by
    rw [← leBytes2, ← leBytes2, seg_num2 (by omega), seg_num2 (by omega), seg_one (by omega), seg0_append, seg0_append]
  unfold ServiceDataRecord.encode
  simp only [he, ok_bind]
  rw [show (ServiceDataRecord.head b).recordLength = UInt16.ofNat (num b 0 2) from rfl, hn,
    show (ServiceDataRecord.head b).recordNumber = UInt16.ofNat (num b 2 2) from rfl,
    show (ServiceDataRecord.head b).ssod = bitStr (bitAt b 4 7) from rfl, show (ServiceDataRecord.head b).rsod = bitStr (bitAt b 4 6) from rfl,
    show (ServiceDataRecord.head b).grp = bitStr (bitAt b 4 5) from rfl, show (ServiceDataRecord.head b).rpp = bitStr (bitAt b 4 4) ++ bitStr (bitAt b 4 3) from rfl,
    show (ServiceDataRecord.head b).tmfe = bitStr (bitAt b 4 2) from rfl, show (ServiceDataRecord.head b).evfe = bitStr (bitAt b 4 1) from rfl,
    show (ServiceDataRecord.head b).obfe = bitStr (bitAt b 4 0) from rfl, fl]
  simp only [liftErr, ok_bind, pure_eq_ok]
  rw [f0, f1, f2, f3, g, seg0_append, seg0_append, seg0_append, seg0_append]
  congr 3
  unfold ServiceDataRecord.headLength; omega

theorem again_records (env : Env) {b : Bytes} (hc : EachRecord (EachSub Complete) b) : ∀ {rs}, IsRecords b rs →
    ∃ w, ServiceDataSet.encode env rs = .ok w ∧ w.length ≤ b.length ∧ (w = b ↔ EachRecord (EachSub (Kept env)) b) := by
  induction hc with
  | nil =>
    intro rs h
    cases h with
    | nil => exact ⟨[], rfl, Nat.le_refl _, fun _ => .nil, fun _ => rfl⟩
    | bare _ h => have := headLength_ge []; simp at h; omega
    | cons _ _ _ h => have := headLength_ge []; simp at h
  | cons b hl hq hrest ih =>
    intro rs h
    have hh := headLength_ge b
    have hdec : b = seg b 0 (ServiceDataRecord.headLength b) ++ (seg b (ServiceDataRecord.headLength b) (num b 0 2) ++
        b.drop (ServiceDataRecord.headLength b + num b 0 2)) := by
      rw [← List.append_assoc, seg0_append]; exact (List.take_append_drop _ b).symm
    have hld : (seg b (ServiceDataRecord.headLength b) (num b 0 2)).length = num b 0 2 := seg_length hl
    have hlr : b.length = ServiceDataRecord.headLength b + (num b 0 2 + (b.drop (ServiceDataRecord.headLength b + num b 0 2)).length) := by
      rw [List.length_drop]; omega
    cases h with
    | nil => simp at hl; omega
    | bare _ h =>
      have hn : num b 0 2 = 0 := by omega
      have hw : ServiceDataSet.encode env [ServiceDataRecord.head b] = .ok (b ++ [] ++ []) := by
        rw [ServiceDataSet.encode, show ServiceDataRecord.head b = { ServiceDataRecord.head b with recordDataSet := [] } from rfl,
          sdr_again env (by omega) (w := []) rfl (by simp), ← h, seg_full rfl]
        rfl
      refine ⟨b, by rw [hw]; simp, Nat.le_refl _, fun _ => .cons b hl ?_ ?_, fun _ => rfl⟩
      · rw [hn]; exact .nil
      · rw [List.drop_eq_nil_of_le (by omega)]; exact .nil
    | cons _ rds rs' h2 hs hr =>
      have ht : text b (ServiceDataRecord.headLength b) (num b 0 2) = seg b (ServiceDataRecord.headLength b) (num b 0 2) := text_full hl
      rw [ht] at hs
      obtain ⟨w1, e1, l1, i1⟩ := again_subs env hq hs
      obtain ⟨w2, e2, l2, i2⟩ := ih hr
      change w1.length ≤ (seg b (ServiceDataRecord.headLength b) (num b 0 2)).length at l1
      change w1 = seg b (ServiceDataRecord.headLength b) (num b 0 2) ↔ EachSub (Kept env) (seg b (ServiceDataRecord.headLength b) (num b 0 2)) at i1
      rw [hld] at l1
      refine ⟨seg b 0 (ServiceDataRecord.headLength b) ++ (w1 ++ w2), ?_, ?_, ?_⟩
      · rw [ServiceDataSet.encode, sdr_again env (by omega) e1 l1, ok_bind, e2, ok_bind, pure_eq_ok, List.append_assoc]
      · rw [List.length_append, List.length_append, seg_length (by omega), hlr]; omega
      · constructor
        · intro e
          have e := List.append_cancel_left (e.trans hdec)
          have hlen := congrArg List.length e
          rw [List.length_append, List.length_append, hld] at hlen
          obtain ⟨ea, eb⟩ := List.append_inj e (by rw [hld]; omega)
          exact .cons b hl (i1.mp ea) (i2.mp eb)
        · intro hk
          cases hk with
          | nil => simp at hl; omega
          | cons _ _ k1 k2 =>
            rw [i1.mpr k1, i2.mpr k2, ← hdec]

/-! ## Frames -/

theorem body_seg {b : Bytes} (h : Frame.hcsPos b + 1 + Frame.fdl b ≤ b.length) : Frame.body b = seg b (Frame.hcsPos b + 1) (Frame.fdl b) := by
  unfold Frame.body Frame.rest seg
  rw [List.length_drop, show Frame.fdl b - (b.length - (Frame.hcsPos b + 1)) = 0 by omega]
  simp [zeros]

theorem clear_again (env : Env) {key : Option SecretKey} {b : Bytes} {d : FrameData} (hd : IsContent key b d) {x : Bytes} (hx : Frame.clear key b = .ok x)
    (hc : EachRecord (EachSub Complete) (recordsOf b x)) :
    ∃ w, d.encode env = .ok w ∧ w.length ≤ x.length ∧ (w = x ↔ EachRecord (EachSub (Kept env)) (recordsOf b x)) := by
  obtain ⟨x', hx', hd⟩ := hd
  rw [hx] at hx'
  cases hx'
  unfold recordsOf at hc ⊢
  rcases hd with ⟨hpt, rs, hr, rfl⟩ | ⟨hpt, y, hy, rfl⟩
  · rw [if_neg (by omega)] at hc ⊢
    exact again_records env hc hr
  · rw [if_pos hpt] at hc ⊢
    obtain ⟨hl, h1, h2, h3⟩ := hy
    have g : put16 y.responsePacketID ++ [y.processingResult] = seg x 0 3 := by
      rw [← leBytes2, h1, seg_num x 2 0 (by omega), show y.processingResult = UInt8.ofNat (byteAt x 2) by rw [← h2, UInt8.ofNat_toNat], seg_one (by omega), seg0_append]
    have hdec : x = seg x 0 3 ++ x.drop 3 := (List.take_append_drop 3 x).symm
    rcases h3 with ⟨h3, hs⟩ | ⟨h3, rs, hr, hs⟩
    · refine ⟨seg x 0 3, ?_, by rw [seg_length (by omega)]; omega, ?_⟩
      · show PtResponse.encode env y = _
        rw [PtResponse.encode, hs]
        simp only [pure_eq_ok, ok_bind]
        rw [g, List.append_nil]
      · rw [seg_full h3, List.drop_eq_nil_of_le (by omega)]
        exact ⟨fun _ => .nil, fun _ => rfl⟩
    · obtain ⟨w, e, l, i⟩ := again_records env hc hr
      refine ⟨seg x 0 3 ++ w, ?_, ?_, ?_⟩
      · show PtResponse.encode env y = _
        rw [PtResponse.encode, hs]
        simp only [pure_eq_ok]
        rw [e, ok_bind, g]
      · rw [List.length_append, seg_length (by omega)]; rw [List.length_drop] at l; omega
      · rw [← i]
        constructor
        · intro e; exact List.append_cancel_left (e.trans hdec)
        · intro e; rw [e]; exact hdec.symm

theorem content_again (env : Env) {b : Bytes} {d : FrameData} (hd : IsContent none b d) (hp : ¬ Frame.Encrypted b)
    (hc : EachRecord (EachSub Complete) (recordBytes b)) :
    ∃ w, d.encode env = .ok w ∧ w.length ≤ (Frame.body b).length ∧ (w = Frame.body b ↔ EachRecord (EachSub (Kept env)) (recordBytes b)) :=
  clear_again env hd (by rw [Frame.clear, if_neg hp]) hc

theorem head_again {p : Package} {b : Bytes} {d : FrameData} (h : Frame.hcsPos b ≤ b.length) (n : UInt16) :
    Package.headBytes { Frame.package p b d with frameDataLength := n } (UInt8.ofNat (byteAt b 2)) = seg b 0 5 ++ (put16 n ++ seg b 7 (Frame.hcsPos b - 7)) := by
  have h10 : 10 ≤ Frame.hcsPos b := by unfold Frame.hcsPos; split <;> omega
  have g5 : [UInt8.ofNat (byteAt b 0), UInt8.ofNat (byteAt b 1), UInt8.ofNat (byteAt b 2), UInt8.ofNat (byteAt b 3), UInt8.ofNat (byteAt b 4)] = seg b 0 5 := by
    rw [seg_succ (by omega), seg_succ (by omega), seg_succ (by omega), seg_succ (by omega), seg_succ (by omega), seg_zero]
  have g7 : put16 (UInt16.ofNat (Frame.pid b)) ++ [UInt8.ofNat (byteAt b 9)] = seg b 7 3 := by
    rw [← leBytes2, show Frame.pid b = num b 7 2 from (num2 b 7).symm, seg_num2 (by omega), seg_one (by omega), show (9 : Nat) = 7 + 2 from rfl, seg_append]
  have gr : optBytes (Frame.package p b d).route (put16 (Frame.package p b d).peerAddress ++ put16 (Frame.package p b d).recipientAddress ++ [(Frame.package p b d).timeToLive]) =
      seg b 10 (Frame.hcsPos b - 10) := by
    have hr : (Frame.package p b d).route = bitStr (byteAt b 2 / 32 % 2) := rfl
    rw [hr, ← ifSet_eq, ifSet_bit]
    by_cases hrt : Frame.Routed b
    · have hpos : Frame.hcsPos b = 15 := if_pos hrt
      rw [if_pos hrt, show (Frame.package p b d).peerAddress = UInt16.ofNat (byteAt b 10 + 256 * byteAt b 11) from if_pos hrt,
        show (Frame.package p b d).recipientAddress = UInt16.ofNat (byteAt b 12 + 256 * byteAt b 13) from if_pos hrt,
        show (Frame.package p b d).timeToLive = UInt8.ofNat (byteAt b 14) from if_pos hrt,
        show byteAt b 10 + 256 * byteAt b 11 = num b 10 2 from (num2 b 10).symm, show byteAt b 12 + 256 * byteAt b 13 = num b 12 2 from (num2 b 12).symm,
        ← leBytes2, ← leBytes2, seg_num2 (by omega), seg_num2 (by omega), seg_one (by omega), hpos, show seg b 12 2 = seg b (10 + 2) 2 from rfl, seg_append,
        show seg b 14 1 = seg b (10 + (2 + 2)) 1 from rfl, seg_append]
    · have hpos : Frame.hcsPos b = 10 := if_neg hrt
      rw [if_neg hrt, hpos]; rfl
  have e7 : seg b 7 (Frame.hcsPos b - 7) = seg b 7 3 ++ seg b 10 (Frame.hcsPos b - 10) := by
    rw [show seg b 10 (Frame.hcsPos b - 10) = seg b (7 + 3) (Frame.hcsPos b - 10) from rfl, seg_append]
    congr 1; omega
  rw [e7, ← g5, ← g7, ← gr]
  simp only [Package.headBytes, List.append_assoc]
  rfl

theorem ena_bits (p : Package) (b : Bytes) (d : FrameData) : (Frame.package p b d).encryptionAlg = go!"00" ↔ ¬ Frame.Encrypted b := by
  show bitStr (byteAt b 2 / 2 ^ 4 % 2) ++ bitStr (byteAt b 2 / 2 ^ 3 % 2) = go!"00" ↔ ¬ (byteAt b 2 / 8 % 4 ≠ 0)
  have : ∀ n : Fin 256, bitStr (n.val / 2 ^ 4 % 2) ++ bitStr (n.val / 2 ^ 3 % 2) = go!"00" ↔ ¬ (n.val / 8 % 4 ≠ 0) := by decide +kernel
  exact this ⟨byteAt b 2, byteAt_lt b 2⟩

theorem body_plain (env : Env) (key : Option SecretKey) {p : Package} {b : Bytes} {d : FrameData} (hp : ¬ Frame.Encrypted b) {w : Bytes}
    (hd : d.encode env = .ok w) : (Frame.package p b d).bodyBytes env key = .ok w := by
  unfold Package.bodyBytes
  rw [show (Frame.package p b d).servicesFrameData = some d from rfl]
  simp only [hd, ok_bind]
  rw [if_neg (by rw [(ena_bits p b d).mpr hp]; simp)]
  rfl

theorem body_encrypted (env : Env) (k : SecretKey) {p : Package} {b : Bytes} {d : FrameData} (hp : Frame.Encrypted b) {w : Bytes}
    (hd : d.encode env = .ok w) : (Frame.package p b d).bodyBytes env (some k) = liftErr (k.encode w) := by
  unfold Package.bodyBytes
  rw [show (Frame.package p b d).servicesFrameData = some d from rfl]
  simp only [hd, ok_bind]
  rw [if_pos (fun h => (ena_bits p b d).mp h hp)]

theorem frame_again (env : Env) (key : Option SecretKey) {p : Package} {b sp : Bytes} {d : FrameData} (hf : FrameOk ⟨b, sp⟩)
    (hh : Frame.Honest b) {w : Bytes} (hbb : (Frame.package p b d).bodyBytes env key = .ok w) (hl : w.length ≤ (Frame.body b).length) :
    ∃ out, ((Frame.package p b d).encode env key).2 = .ok out ∧ (out = b ↔ b.length = Frame.total b ∧ Frame.fdl b ≠ 0 ∧ w = Frame.body b) := by
  obtain ⟨f1, f2, f3, f4, f5, f6⟩ := hf
  obtain ⟨hhl, hsz⟩ := hh
  simp only at f1 f3 f6
  have h10 : 10 ≤ Frame.hcsPos b := by unfold Frame.hcsPos; split <;> omega
  have hfd : Frame.fdl b = num b 5 2 := (num2 b 5).symm
  have hfl := num2_lt b 5
  rw [← hfd] at hfl
  have hbody := body_seg (b := b) (by omega)
  have hbl : (Frame.body b).length = Frame.fdl b := by rw [hbody, seg_length (by omega)]
  rw [hbl] at hl
  have fl : parseFlags ((Frame.package p b d).prefix_ ++ (Frame.package p b d).route ++ (Frame.package p b d).encryptionAlg ++ (Frame.package p b d).compression ++
      (Frame.package p b d).priority) = .ok (UInt8.ofNat (byteAt b 2)) := by
    have : ∀ n : Fin 256, parseFlags ((bitStr (n.val / 2 ^ 7 % 2) ++ bitStr (n.val / 2 ^ 6 % 2)) ++ bitStr (n.val / 2 ^ 5 % 2) ++ (bitStr (n.val / 2 ^ 4 % 2) ++ bitStr (n.val / 2 ^ 3 % 2)) ++
      bitStr (n.val / 2 ^ 2 % 2) ++ (bitStr (n.val / 2 ^ 1 % 2) ++ bitStr (n.val / 2 ^ 0 % 2))) = .ok (UInt8.ofNat n.val) := by decide +kernel
    exact this ⟨byteAt b 2, byteAt_lt b 2⟩
  have hfill : (Frame.package p b d).fillHL = Frame.package p b d := by
    unfold Package.fillHL
    rw [if_neg]
    show UInt8.ofNat (Frame.hl b) ≠ 0
    intro e
    have := (u8_inj (n := 0) (byteAt_lt b 3) (by omega)).mp e
    unfold Frame.hl at hhl
    omega
  have hwt : (UInt16.ofNat w.length).toNat = w.length := by rw [UInt16.toNat_ofNat', Nat.mod_eq_of_lt (by omega)]
  generalize hH : seg b 0 5 ++ (put16 (UInt16.ofNat w.length) ++ seg b 7 (Frame.hcsPos b - 7)) = H
  have hHl : H.length = Frame.hcsPos b := by
    rw [← hH, List.length_append, List.length_append, seg_length (by omega), seg_length (by omega), show (put16 (UInt16.ofNat w.length)).length = 2 from rfl]; omega
  have henc : ((Frame.package p b d).encode env key).2 = .ok (if UInt16.ofNat w.length > 0 then H ++ [crc8 H] ++ w ++ put16 (crc16 w) else H ++ [crc8 H]) := by
    unfold Package.encode
    simp only [fl, hfill, hbb, head_again (p := p) (b := b) (d := d) (by omega), hH]
  have h5 : put16 (UInt16.ofNat (Frame.fdl b)) = seg b 5 2 := by rw [← leBytes2, hfd, seg_num2 (by omega)]
  have hpre : seg b 0 (Frame.hcsPos b) = seg b 0 5 ++ (seg b 5 2 ++ seg b 7 (Frame.hcsPos b - 7)) := by
    rw [show seg b 7 (Frame.hcsPos b - 7) = seg b (5 + 2) (Frame.hcsPos b - 7) from rfl, seg_append, seg0_append]
    congr 1; omega
  refine ⟨_, henc, ?_⟩
  constructor
  · intro e
    have hdec : b = seg b 0 5 ++ (seg b 5 2 ++ b.drop 7) := by
      rw [← List.append_assoc, seg0_append]; exact (List.take_append_drop _ b).symm
    obtain ⟨T, hT⟩ : ∃ T, (if UInt16.ofNat w.length > 0 then H ++ [crc8 H] ++ w ++ put16 (crc16 w) else H ++ [crc8 H]) = seg b 0 5 ++ (put16 (UInt16.ofNat w.length) ++ T) := by
      rw [← hH]
      split
      · simp only [List.append_assoc]; exact ⟨_, rfl⟩
      · simp only [List.append_assoc]; exact ⟨_, rfl⟩
    have e1 := List.append_cancel_left (hT.symm.trans (e.trans hdec))
    have e2 := List.append_inj_left e1 (by rw [seg_length (by omega)]; rfl)
    rw [← h5, ← leBytes2, ← leBytes2, hwt, UInt16.toNat_ofNat', Nat.mod_eq_of_lt hfl] at e2
    have hwl : w.length = Frame.fdl b := by
      simp only [leBytes, List.cons.injEq, and_true] at e2
      have e0 := congrArg UInt8.toNat e2.1
      have e1 := congrArg UInt8.toNat e2.2
      simp at e0 e1
      omega
    split at e
    · rename_i hpos
      have hne : Frame.fdl b ≠ 0 := by
        intro h0
        rw [hwl, h0] at hpos
        exact absurd hpos (by decide)
      have hlen := congrArg List.length e
      rw [List.length_append, List.length_append, List.length_append, hHl, show (put16 (crc16 w)).length = 2 from rfl] at hlen
      refine ⟨?_, hne, ?_⟩
      · rw [← hlen, Frame.total, hwl]; simp
      · have e' : seg (H ++ [crc8 H] ++ w ++ put16 (crc16 w)) (Frame.hcsPos b + 1) (Frame.fdl b) = seg b (Frame.hcsPos b + 1) (Frame.fdl b) := by
          rw [e]
        rw [hbody, ← e']
        have hHc : (H ++ [crc8 H]).length = Frame.hcsPos b + 1 := by rw [List.length_append, hHl]; rfl
        unfold seg
        rw [List.append_assoc, List.drop_left' hHc, List.take_left' hwl]
    · have hlen := congrArg List.length e
      rw [List.length_append, hHl] at hlen
      simp at hlen
      omega
  · rintro ⟨ht, hne, hw⟩
    have hwl : w.length = Frame.fdl b := by rw [hw, hbl]
    have hHb : H = seg b 0 (Frame.hcsPos b) := by rw [← hH, hwl, h5, hpre]
    have hall : ∀ n, n ≤ b.length → (Slice.all ⟨b, sp⟩).take n = seg b 0 n := by
      intro n hn
      show (b ++ sp).take n = _
      rw [List.take_append_of_le_length hn]; rfl
    have hend : Frame.headEnd b = Frame.hcsPos b := by
      unfold Frame.headEnd; rw [if_neg (by omega)]; omega
    rw [hend, hall _ (by omega), ← hHb] at f3
    have hcrc : [crc8 H] = seg b (Frame.hcsPos b) 1 := by
      rw [← seg_one (by omega), f3, UInt8.ofNat_toNat]
    have hbe : Frame.bodyEnd b = Frame.hl b + Frame.fdl b := by unfold Frame.bodyEnd; exact Nat.mod_eq_of_lt hsz
    rw [hbe, hall _ (by omega), hhl] at f6
    have hdr : (seg b 0 (Frame.hcsPos b + 1 + Frame.fdl b)).drop (Frame.hcsPos b + 1) = Frame.body b := by
      rw [hbody]; unfold seg
      rw [List.drop_zero, List.drop_take]
      congr 1; omega
    rw [hdr, ← hw] at f6
    have hs : Frame.sfrcs b = num b (Frame.hcsPos b + 1 + Frame.fdl b) 2 := by
      unfold Frame.sfrcs Frame.after Frame.rest
      rw [List.drop_drop, byteAt_drop, byteAt_drop, num2]; rfl
    have hsum : put16 (crc16 w) = seg b (Frame.hcsPos b + 1 + Frame.fdl b) 2 := by
      rw [← leBytes2, ← f6, hs, seg_num b 2 _ (by unfold Frame.total at ht; omega)]
    rw [if_pos (by
        rw [gt_iff_lt, UInt16.lt_iff_toNat_lt, hwt, hwl]
        show 0 < _; omega), hcrc, hHb, hsum, hw, hbody, seg0_append, seg0_append, seg0_append, seg_full]
    rw [ht]; rfl

end Egts
