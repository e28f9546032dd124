import Verif.Spec.Reencode
import Verif.Proofs.Package

/-! # What was decoded from an encoding is encoded to the same bytes -/

namespace Egts

theorem opt16 (f : Bytes) (x y : UInt16) : optBytes f (put16 (present f x y)) = optBytes f (put16 x) := by
  unfold optBytes present one; split <;> rfl

theorem opt8 (f : Bytes) (x y : UInt8) : optBytes f [present f x y] = optBytes f [x] := by
  unfold optBytes present one; split <;> rfl

theorem optS (f : Bytes) (x y : Bytes) : optBytes f (present f x y) = optBytes f x := by
  unfold optBytes present one; split <;> rfl

theorem opt32 (f : Bytes) (x y : UInt32) : optBytes f (put32 (present f x y)) = optBytes f (put32 x) := by
  unfold optBytes present one; split <;> rfl

theorem optTm (f : Bytes) (x y : GoTime) : optBytes f (put32 (encRecTime (present f x y))) = optBytes f (put32 (encRecTime x)) := by
  unfold optBytes present one; split <;> rfl

theorem optRoute (f : Bytes) (a a' b b' : UInt16) (c c' : UInt8) :
    optBytes f (put16 (present f a a') ++ put16 (present f b b') ++ [present f c c']) = optBytes f (put16 a ++ put16 b ++ [c]) := by
  unfold optBytes present one; split <;> rfl

theorem put24_low24 (v : UInt32) : put24 (low24 v) = put24 v := by
  have hv := v.toNat_lt
  have h : (low24 v).toNat = v.toNat % 16777216 := by
    unfold low24
    rw [UInt32.toNat_ofNat']
    omega
  unfold put24 put32
  simp only [List.take_succ_cons, List.take_zero, List.cons.injEq, and_true]
  refine ⟨?_, ?_, ?_⟩ <;>
  · congr 1
    rw [h]
    omega

theorem opt24 (f : Bytes) (x y : UInt32) : optBytes f (put24 (present f x y)) = optBytes f (put24 x) := by
  unfold optBytes present one; split <;> rfl

theorem opt24l (f : Bytes) (x y : UInt32) : optBytes f (put24 (present f (low24 x) y)) = optBytes f (put24 x) := by
  rw [opt24, put24_low24]

theorem term_reencode (a : SrTermIdentity) : (a.onto {}).encode = a.encode := by
  simp only [SrTermIdentity.encode, SrTermIdentity.onto, opt16, optS]

theorem extPos_reencode (a : SrExtPosData) : (a.onto {}).encode = a.encode := by
  simp only [SrExtPosData.encode, SrExtPosData.onto, opt16, opt8]

theorem adSens_reencode (a : SrAdSensorsData) : (a.onto {}).encode = a.encode := by
  simp only [SrAdSensorsData.encode, SrAdSensorsData.onto, opt24l, opt8]

theorem counters_reencode (a : SrCountersData) : (a.onto {}).encode = a.encode := by
  simp only [SrCountersData.encode, SrCountersData.onto, opt24l]

theorem dirByte_twice : ∀ c : Fin 256, ∀ d : Fin 256,
    posDirByte (UInt8.ofNat c.val ||| (UInt8.ofNat d.val <<< 7)) (UInt8.ofNat d.val) = posDirByte (UInt8.ofNat c.val) (UInt8.ofNat d.val) := by
  decide +kernel

theorem pos_reencode (env : Env) (a b : SrPosData) (hs : (SubData.pos a).Steady env) (h : (SubData.pos a).ReadBack env (.pos b)) :
    b.encode env = a.encode env := by
  obtain ⟨_, _, h1, h2, h3⟩ := h
  obtain ⟨s1, s2⟩ := hs
  simp only at h1 h2
  have hd := dirByte_twice ⟨a.direction.toNat, UInt8.toNat_lt _⟩ ⟨a.directionHighestBit.toNat, UInt8.toNat_lt _⟩
  simp only [UInt8.ofNat_toNat] at hd
  rw [h3]
  unfold SrPosData.encode
  simp only [h1, h2, s1, s2, opt24, SrPosData.directionBack, hd]

theorem sub_reencode (env : Env) (d y : SubData) (hw : d.WF env) (hs : d.Steady env) (h : d.ReadBack env y) : y.encode env = d.encode env := by
  cases d with
  | pos a => cases y <;> first | exact h.elim | exact pos_reencode env a _ hs h
  | term a => cases y <;> first | exact h.elim | (rw [show _ = a.onto {} from h]; exact term_reencode a)
  | extPos a => cases y <;> first | exact h.elim | (rw [show _ = a.onto {} from h]; exact extPos_reencode a)
  | adSens a =>
    rw [show y = .adSens (a.readBack {}) from h, readBack_mirror a {} hw hs]
    exact adSens_reencode a
  | counters a =>
    have hs : a.cfe2 = go!"0" := hs
    have e : a.readBack {} = a.onto {} := by simp [SrCountersData.readBack, SrCountersData.onto, hs, present]
    rw [show y = .counters (a.readBack {}) from h, e]
    exact counters_reencode a
  | _ a => cases y <;> first | exact h.elim | rw [show _ = a from h]

theorem rd_reencode (env : Env) (rd out : RecordData) (hw : rd.WF env) (hs : rd.Steady env) (h : RecordData.ReadBack env rd out) :
    out.encode env = rd.encode env := by
  obtain ⟨d, enc, hd, hwd, ht, he, hlen, hl⟩ := hw
  obtain ⟨x, y, enc', h1, h2, h3, h4, h5, h6⟩ := h
  rw [hd] at h1
  injection h1 with h1
  subst h1
  rw [he] at h5
  injection h5 with h5
  subst h5
  have hy : y.encode env = .ok enc := by rw [sub_reencode env d y hwd (hs d hd) h3, he]
  have ht' : y.TypeOK (d.wireType rd.subrecordType) ∧ y.wireType (d.wireType rd.subrecordType) = d.wireType rd.subrecordType := by
    have hc : y.code = d.code := readBack_code h3
    unfold SubData.TypeOK SubData.wireType
    rw [hc]
    rcases ht with h | ⟨h, _⟩ | ⟨h, hc2⟩
    · rw [← h]
      by_cases h0 : rd.subrecordType = 0
      · simp [h0]
      · simp [h0]
    · simp only [h, if_true, true_or, true_and]
      split
      · rename_i h; rw [h]
      · rfl
    · rw [h, if_neg (show ¬ (20 : UInt8) = 0 by decide), if_neg (show ¬ (20 : UInt8) = 0 by decide)]
      exact ⟨.inr (.inr ⟨rfl, hc2⟩), rfl⟩
  have hlen' : ∀ (l : UInt16) (z : SubData), z.encode env = .ok enc → (l = 0 ∨ l.toNat = enc.length) →
      (if l = 0 then z.length env else l) = UInt16.ofNat enc.length := by
    intro l z hz hl
    split
    · exact length_eq env z enc hz
    · rcases hl with h | h
      · contradiction
      · rw [← h, UInt16.ofNat_toNat]
  unfold RecordData.encode
  rw [h2, h4, typeOK_encode y _ ht'.1, ht'.2, hd, typeOK_encode d _ ht]
  simp only [ok_bind, hlen' _ _ hy (.inr h6), hlen' _ _ he hl, hy, he]

theorem rds_reencode (env : Env) (a b : List RecordData) (hw : ∀ rd ∈ a, rd.WF env) (hs : ∀ rd ∈ a, rd.Steady env)
    (h : List.Forall₂ (RecordData.ReadBack env) a b) : RecordDataSet.encode env b = RecordDataSet.encode env a := by
  induction h with
  | nil => rfl
  | cons h1 _ ih =>
    simp only [RecordDataSet.encode]
    rw [rd_reencode env _ _ (hw _ (by simp)) (hs _ (by simp)) h1, ih (fun x hx => hw x (by simp [hx])) (fun x hx => hs x (by simp [hx]))]

theorem sdr_reencode (env : Env) (a b : ServiceDataRecord) (hw : a.WF env) (hs : a.Steady env) (h : ServiceDataRecord.ReadBack env a b) :
    b.encode env = a.encode env := by
  obtain ⟨_, _, _, _, _, _, _, _, hrd, enc, henc, hlen, hrl⟩ := hw
  obtain ⟨h1, ⟨enc', h2, h3⟩, h4⟩ := h
  rw [henc] at h2
  injection h2 with h2
  subst h2
  have hr := rds_reencode env _ _ hrd hs h1
  rw [henc] at hr
  have hl : (if b.recordLength = 0 then UInt16.ofNat enc.length else b.recordLength) =
      (if a.recordLength = 0 then UInt16.ofNat enc.length else a.recordLength) := by
    have e1 : (if b.recordLength = 0 then UInt16.ofNat enc.length else b.recordLength) = UInt16.ofNat enc.length := by
      split
      · rfl
      · rw [← h3, UInt16.ofNat_toNat]
    have e2 : (if a.recordLength = 0 then UInt16.ofNat enc.length else a.recordLength) = UInt16.ofNat enc.length := by
      split
      · rfl
      · rcases hrl with h | h
        · contradiction
        · rw [← h, UInt16.ofNat_toNat]
    rw [e1, e2]
  generalize hbl : b.recordLength = bl at *
  generalize hbs : b.recordDataSet = bs at *
  subst h4
  unfold ServiceDataRecord.encode
  simp only [hr, henc, ok_bind, hl, opt32, optTm]

theorem sds_reencode (env : Env) (a b : List ServiceDataRecord) (hw : ∀ r ∈ a, r.WF env) (hs : ∀ r ∈ a, r.Steady env)
    (h : List.Forall₂ (ServiceDataRecord.ReadBack env) a b) : ServiceDataSet.encode env b = ServiceDataSet.encode env a := by
  induction h with
  | nil => rfl
  | cons h1 _ ih =>
    simp only [ServiceDataSet.encode]
    rw [sdr_reencode env _ _ (hw _ (by simp)) (hs _ (by simp)) h1, ih (fun x hx => hw x (by simp [hx])) (fun x hx => hs x (by simp [hx]))]

theorem frameData_reencode (env : Env) (p : Package) (d d' : FrameData) (hd : p.servicesFrameData = some d) (hw : d.WF env) (hs : p.Steady env)
    (h : d.Rel env (SubData.ReadBack env) d') : d'.encode env = d.encode env := by
  unfold Package.Steady Package.records at hs
  rw [hd] at hs
  cases d with
  | sds a =>
    cases d' with
    | sds b => exact sds_reencode env a b hw.2 hs h
    | resp b => exact h.elim
  | resp a =>
    cases d' with
    | sds b => exact h.elim
    | resp b =>
      obtain ⟨h1, h2, h3, h4⟩ := h
      show PtResponse.encode env b = PtResponse.encode env a
      have hsd : ServiceDataSet.encode env (b.sdr.getD []) = ServiceDataSet.encode env (a.sdr.getD []) := by
        refine sds_reencode env _ _ ?_ hs h3
        cases ha : a.sdr with
        | none => simp
        | some s => exact hw s ha
      unfold PtResponse.encode
      rw [h1, h2]
      cases ha : a.sdr <;> cases hb : b.sdr <;> simp only [ha, hb, Option.getD_some, Option.getD_none] at hsd ⊢
      · rw [hsd]; rfl
      · rw [← hsd]; rfl
      · rw [hsd]

theorem package_reencode (env : Env) (key : Option SecretKey) (p0 p q : Package) (hw : p.WF env key) (hs : p.Steady env)
    (h : Package.ReadBack env key p0 p q) : (q.encode env key).2 = (p.encode env key).2 := by
  obtain ⟨hh, d0, body0, g1, _, g3, _⟩ := hw
  obtain ⟨d, d', body, h1, h2, h3, h4, h5⟩ := h
  rw [g1] at h1
  injection h1 with h1
  subst h1
  have hd := frameData_reencode env p d0 d' g1 g3 hs h3
  have hhl := hh.2.2.2.2.2
  have hfill : p.fillHL = { p with headerLength := UInt8.ofNat p.fullHL } := by
    unfold Package.fillHL Package.fullHL
    split
    · unfold one
      split <;> rfl
    · rename_i h
      rcases hhl with h' | h'
      · exact absurd h' h
      · unfold Package.fullHL at h'
        rw [← h', UInt8.ofNat_toNat]
  have hne : UInt8.ofNat p.fullHL ≠ 0 := by unfold Package.fullHL; split <;> decide
  have hq : q.fillHL = q := by
    unfold Package.fillHL
    rw [if_neg]
    rw [h5]
    exact hne
  have hb : q.bodyBytes env key = p.bodyBytes env key := by
    unfold Package.bodyBytes
    rw [h2, g1]
    simp only
    rw [hd, show q.encryptionAlg = p.encryptionAlg by rw [h5]]
  have hpb : ({ p with headerLength := UInt8.ofNat p.fullHL } : Package).bodyBytes env key = p.bodyBytes env key := rfl
  unfold Package.encode
  rw [hq, hfill]
  simp only [hpb, hb]
  have hflags : q.prefix_ ++ q.route ++ q.encryptionAlg ++ q.compression ++ q.priority =
      p.prefix_ ++ p.route ++ p.encryptionAlg ++ p.compression ++ p.priority := by rw [h5]
  rw [hflags]
  cases parseFlags (p.prefix_ ++ p.route ++ p.encryptionAlg ++ p.compression ++ p.priority) with
  | error e => rfl
  | ok fl =>
    cases p.bodyBytes env key with
    | error e => rfl
    | ok sf =>
      have hhead : ∀ n, ({ q with frameDataLength := n } : Package).headBytes fl =
          ({ p with headerLength := UInt8.ofNat p.fullHL, frameDataLength := n } : Package).headBytes fl := by
        intro n
        rw [h5]
        unfold Package.headBytes
        simp only [optRoute]
      simp only [hhead]

end Egts
