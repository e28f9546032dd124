import Verif.Proofs.ProtoValid
import Verif.Spec.Record
import Verif.Proofs.Pos
import Verif.Proofs.Fuel

/-! # Round trips of record sets -/

namespace Egts

theorem resp_rt (env : Env) (d : SrResponse) (k : Nat) :
    ∃ b, d.encode = .ok b ∧ b.length = 3 ∧ srRespDecode env (k + 1) b = .ok d := by
  refine ⟨_, rfl, rfl, ?_⟩
  have e := bufferRead_full (buf := zeros 2) (x := put16 d.confirmedRecordNumber) (r := [d.recordStatus]) rfl (by simp [put16])
  simp [srRespDecode, SrResponse.decodeHead, e, sdsLoop]

theorem lat_acc (env : Env) (x : F64) (h0 : 0 ≤ x) (h1 : x ≤ 90) :
    |decLat (encLat env x) - x| ≤ 22 / 1000000000 := by
  have := accuracy env 90 (by norm_num) 90 (by norm_num) (by norm_num) x h0 h1
  refine le_trans this (by norm_num)

theorem lon_acc (env : Env) (x : F64) (h0 : 0 ≤ x) (h1 : x ≤ 180) :
    |decLon (encLon env x) - x| ≤ 44 / 1000000000 := by
  have := accuracy env 180 (by norm_num) 180 (by norm_num) (by norm_num) x h0 h1
  refine le_trans this (by norm_num)

/-- One subrecord: encoding, then decoding under its wire type. -/
theorem sub_rt (env : Env) (k : Nat) (d : SubData) (h : d.WF env) (t : UInt8) (ht : d.TypeOK t) :
    ∃ b y, d.encode env = .ok b ∧ d.ReadBack env y ∧ (b.length < 2 ^ 16 → 
      subDecode env (srRespDecode env (k + 1)) (d.wireType t) (UInt16.ofNat b.length) b = .ok (some y)) := by
  cases d with
  | pos d =>
    obtain ⟨h1, h2, h3⟩ := h
    obtain ⟨b, e1, e2⟩ := pos_rt env d {} h1
    have ht' : SubData.wireType (.pos d) t = 16 := by
      rcases ht with h | ⟨h, _⟩ | ⟨_, h⟩
      · simp [SubData.wireType, h, SubData.code]
      · simp [SubData.wireType, h, SubData.code]
      · simp [SubData.code] at h
    refine ⟨b, .pos (d.onto env {}), e1, ⟨lat_acc env _ h2.1 h2.2, lon_acc env _ h3.1 h3.2, rfl, rfl, rfl⟩, fun _ => ?_⟩
    rw [ht']; simp [subDecode, e2]
  | term d =>
    obtain ⟨b, e1, e2⟩ := term_rt d {} h
    have ht' : SubData.wireType (.term d) t = 1 := by
      rcases ht with h | ⟨h, _⟩ | ⟨_, h⟩ <;> simp_all [SubData.wireType, SubData.code]
    refine ⟨b, .term (d.onto {}), e1, rfl, fun _ => ?_⟩
    rw [ht']; simp [subDecode, e2]
  | module d =>
    obtain ⟨b, e1, e2⟩ := module_rt d {} h
    have ht' : SubData.wireType (.module d) t = 2 := by
      rcases ht with h | ⟨h, _⟩ | ⟨_, h⟩ <;> simp_all [SubData.wireType, SubData.code]
    refine ⟨b, .module d, e1, rfl, fun _ => ?_⟩
    rw [ht']; simp [subDecode, e2]
  | resp d =>
    obtain ⟨b, e1, _, e2⟩ := resp_rt env d k
    have ht' : SubData.wireType (.resp d) t = 0 := by
      rcases ht with h | ⟨h, _⟩ | ⟨_, h⟩ <;> simp_all [SubData.wireType, SubData.code]
    refine ⟨b, .resp d, e1, rfl, fun _ => ?_⟩
    rw [ht']; simp [subDecode, e2]
  | result d =>
    obtain ⟨b, e1, _, e2⟩ := resultCode_rt d {}
    have ht' : SubData.wireType (.result d) t = 9 := by
      rcases ht with h | ⟨h, _⟩ | ⟨_, h⟩ <;> simp_all [SubData.wireType, SubData.code]
    refine ⟨b, .result d, e1, rfl, fun _ => ?_⟩
    rw [ht']; simp [subDecode, e2]
  | extPos d =>
    obtain ⟨b, e1, e2⟩ := extPos_rt d {} h
    have ht' : SubData.wireType (.extPos d) t = 17 := by
      rcases ht with h | ⟨h, _⟩ | ⟨_, h⟩ <;> simp_all [SubData.wireType, SubData.code]
    refine ⟨b, .extPos (d.onto {}), e1, rfl, fun _ => ?_⟩
    rw [ht']; simp [subDecode, e2]
  | adSens d =>
    obtain ⟨b, e1, e2⟩ := adSens_back d {} h
    have ht' : SubData.wireType (.adSens d) t = 18 := by
      rcases ht with h | ⟨h, _⟩ | ⟨_, h⟩ <;> simp_all [SubData.wireType, SubData.code]
    refine ⟨b, .adSens (d.readBack {}), e1, rfl, fun _ => ?_⟩
    rw [ht']; simp [subDecode, e2]
  | state d =>
    obtain ⟨b, e1, el, e2⟩ := stateData_rt d {} h
    refine ⟨b, .state d, e1, rfl, fun _ => ?_⟩
    have ht' : SubData.wireType (.state d) t = 21 ∨ SubData.wireType (.state d) t = 20 := by
      rcases ht with h | ⟨h, _⟩ | ⟨h, _⟩
      · simp [SubData.wireType, h, SubData.code]
      · simp [SubData.wireType, h, SubData.code]
      · simp [SubData.wireType, h]
    rcases ht' with ht' | ht' <;> rw [ht', el] <;> simp [subDecode, e2]
  | liquid d =>
    obtain ⟨b, e1, _, e2⟩ := liquid_rt d {} h
    have ht' : SubData.wireType (.liquid d) t = 27 := by
      rcases ht with h | ⟨h, _⟩ | ⟨_, h⟩ <;> simp_all [SubData.wireType, SubData.code]
    refine ⟨b, .liquid d, e1, rfl, fun _ => ?_⟩
    rw [ht']; simp [subDecode, e2]
  | absCntr d =>
    obtain ⟨b, e1, _, e2⟩ := absCntr_rt d {}
    rw [low24_of_lt _ h] at e2
    have ht' : SubData.wireType (.absCntr d) t = 25 := by
      rcases ht with h | ⟨h, _⟩ | ⟨_, h⟩ <;> simp_all [SubData.wireType, SubData.code]
    refine ⟨b, .absCntr d, e1, rfl, fun _ => ?_⟩
    rw [ht']; simp [subDecode, e2]
  | auth d =>
    obtain ⟨b, e1, e2⟩ := auth_rt d {} h
    have ht' : SubData.wireType (.auth d) t = 7 := by
      rcases ht with h | ⟨h, _⟩ | ⟨_, h⟩ <;> simp_all [SubData.wireType, SubData.code]
    have hs : (if d.serverSequence = [] then ({} : SrAuthInfo).serverSequence else d.serverSequence) = d.serverSequence := by
      split
      · rename_i h; rw [h]
      · rfl
    rw [hs] at e2
    refine ⟨b, .auth d, e1, rfl, fun _ => ?_⟩
    rw [ht']; simp [subDecode, e2]
  | counters d =>
    obtain ⟨b, e1, e2⟩ := counters_rt d {} h
    have ht' : SubData.wireType (.counters d) t = 19 := by
      rcases ht with h | ⟨h, _⟩ | ⟨_, h⟩ <;> simp_all [SubData.wireType, SubData.code]
    refine ⟨b, .counters (d.readBack {}), e1, rfl, fun _ => ?_⟩
    rw [ht']; simp [subDecode, e2]
  | plus d =>
    obtain ⟨b, h1, h2⟩ := Proto.marshal_unmarshal h
    have ht' : SubData.wireType (.plus d) t = 15 := by
      rcases ht with h | ⟨h, _⟩ | ⟨_, h⟩ <;> simp_all [SubData.wireType, SubData.code]
    refine ⟨b, .plus d, by simp [SubData.encode, StorageRecord.encode, h1], rfl, fun _ => ?_⟩
    rw [ht']; simp [subDecode, StorageRecord.decode, h2]
  | absAn d =>
    obtain ⟨b, e1, _, e2⟩ := absAn_rt d {}
    rw [low24_of_lt _ h] at e2
    have ht' : SubData.wireType (.absAn d) t = 24 := by
      rcases ht with h | ⟨h, _⟩ | ⟨_, h⟩ <;> simp_all [SubData.wireType, SubData.code]
    refine ⟨b, .absAn d, e1, rfl, fun _ => ?_⟩
    rw [ht']; simp [subDecode, e2]
  | disp d =>
    obtain ⟨b, e1, e2⟩ := disp_rt d {}
    have ht' : SubData.wireType (.disp d) t = 5 := by
      rcases ht with h | ⟨h, _⟩ | ⟨_, h⟩ <;> simp_all [SubData.wireType, SubData.code]
    refine ⟨b, .disp d, e1, rfl, fun _ => ?_⟩
    rw [ht']; simp [subDecode, e2]

/-- The length field an encoder computes when it is left 0. -/
theorem length_eq (env : Env) (d : SubData) (b : Bytes) (h : d.encode env = .ok b) :
    d.length env = UInt16.ofNat b.length := by
  cases d with
  | absAn d => simp only [SubData.encode, SrAbsAnSensData.encode, Except.ok.injEq] at h; subst h; rfl
  | _ => simp only [SubData.length, h, lengthOf]

theorem typeOK_encode (d : SubData) (t : UInt8) (h : d.TypeOK t) :
    (if t = 0 then liftErr (inferType (some d)) else (pure t : Except Fault UInt8)) = .ok (d.wireType t) := by
  unfold SubData.wireType
  by_cases h0 : t = 0
  · simp only [h0, if_true]
    rcases h with h | ⟨_, h1, h2⟩ | ⟨h, _⟩
    · cases d <;> simp_all [SubData.code, inferType, liftErr]
    · cases d <;> simp_all [SubData.code, inferType, liftErr]
    · rw [h0] at h; exact absurd h (by decide)
  · simp [h0]

/-- One record data element. -/
theorem rd_rt (env : Env) (k : Nat) (rd : RecordData) (h : rd.WF env) :
    ∃ b out, rd.encode env = .ok b ∧ b ≠ [] ∧ RecordData.ReadBack env rd out ∧
      ∀ r, rdStep env (srRespDecode env (k + 1)) (b ++ r) = .ok (some out, r) := by
  obtain ⟨d, enc, hd, hwf, ht, he, hlen, hl⟩ := h
  obtain ⟨b, y, e1, hs, hdec⟩ := sub_rt env k d hwf _ ht
  have : enc = b := by rw [e1] at he; cases he; rfl
  subst this
  have hlen' : (if rd.subrecordLength = 0 then d.length env else rd.subrecordLength) = UInt16.ofNat enc.length := by
    split
    · exact length_eq env d enc he
    · rcases hl with h | h
      · contradiction
      · rw [← h, UInt16.ofNat_toNat]
  have hn : (UInt16.ofNat enc.length).toNat = enc.length := by
    rw [UInt16.toNat_ofNat']; exact Nat.mod_eq_of_lt hlen
  refine ⟨d.wireType rd.subrecordType :: (put16 (UInt16.ofNat enc.length) ++ enc),
    { subrecordType := d.wireType rd.subrecordType, subrecordLength := UInt16.ofNat enc.length,
      subrecordData := some y }, ?_, by simp, ⟨d, y, enc, hd, rfl, hs, rfl, he, hn⟩, ?_⟩
  · have := typeOK_encode d _ ht
    simp only [RecordData.encode, hd]
    rw [this]
    simp only [ok_bind, hlen', he, liftErr, pure_eq_ok, List.cons_append, List.nil_append]
  · intro r
    have e2 := bufferRead_full (buf := zeros 2) (x := put16 (UInt16.ofNat enc.length)) (r := enc ++ r) rfl (by simp [put16])
    simp only [rdStep, List.cons_append, readByte_cons, ok_bind, List.append_assoc, e2, le16_put16, hn,
      List.take_left', List.drop_left', hdec hlen, pure_eq_ok, Option.map]

theorem rdsLoop_step {env f n acc r rd r'} (hr : r ≠ []) (h : rdStep env f r = .ok (rd, r')) (hn : r.length ≤ n) :
    rdsLoop env f n acc r = rdsLoop env f r'.length (acc ++ rd.toList) r' := by
  have hlt := rdStep_lt h
  cases n with
  | zero => exact absurd (List.length_eq_zero_iff.mp (by omega)) hr
  | succ n =>
    simp only [rdsLoop, if_neg hr, h, ok_bind]
    exact rdsLoop_fuel _ _ _ _ _ _ (by omega) (by omega)

/-- Record data sets: with anything after the encoded set. -/
theorem rds_rt (env : Env) (k : Nat) : ∀ rds : List RecordData, (∀ rd ∈ rds, rd.WF env) →
    ∃ b out, RecordDataSet.encode env rds = .ok b ∧ List.Forall₂ (RecordData.ReadBack env) rds out ∧
      ∀ acc r n, (b ++ r).length ≤ n → rdsLoop env (srRespDecode env (k + 1)) n acc (b ++ r)
        = rdsLoop env (srRespDecode env (k + 1)) r.length (acc ++ out) r
  | [], _ => ⟨[], [], rfl, .nil, fun acc r n h => by
      simp only [List.nil_append, List.append_nil] at *
      exact rdsLoop_fuel _ _ _ _ _ _ h (Nat.le_refl _)⟩
  | rd :: rest, h => by
    obtain ⟨b1, o1, e1, hne, s1, d1⟩ := rd_rt env k rd (h rd (by simp))
    obtain ⟨b2, o2, e2, s2, d2⟩ := rds_rt env k rest (fun x hx => h x (by simp [hx]))
    refine ⟨b1 ++ b2, o1 :: o2, ?_, .cons s1 s2, ?_⟩
    · simp only [RecordDataSet.encode, e1, e2, ok_bind, pure_eq_ok]
    · intro acc r n hn
      rw [List.append_assoc] at hn ⊢
      rw [rdsLoop_step (by simp [hne]) (d1 (b2 ++ r)) hn, d2 _ _ _ (Nat.le_refl _)]
      simp

theorem rds_rt_nil (env : Env) (k : Nat) (rds : List RecordData) (h : ∀ rd ∈ rds, rd.WF env) :
    ∃ b out, RecordDataSet.encode env rds = .ok b ∧ List.Forall₂ (RecordData.ReadBack env) rds out ∧
      ∀ acc, rdsLoop env (srRespDecode env (k + 1)) b.length acc b = .ok (acc ++ out) := by
  obtain ⟨b, out, e, s, d⟩ := rds_rt env k rds h
  refine ⟨b, out, e, s, fun acc => ?_⟩
  have := d acc [] b.length (by simp)
  simpa [rdsLoop] using this

/-! ## service records -/

theorem encRecTime_rt (t : GoTime) (h : WireTime t) : decTime (encRecTime t) = t := by
  obtain ⟨s, hs, rfl⟩ := h
  have : GoTime.unix (timeOffset + (s : Int) * 1000000000) - GoTime.unix timeOffset = s := by
    unfold GoTime.unix timeOffset; omega
  unfold encRecTime decTime
  rw [this, UInt32.toNat_ofNat']
  have e : ((s : Int) % 4294967296).toNat % 2 ^ 32 = s := by omega
  rw [e]

/-- Header of a service record. -/
theorem sdrHead_rt (rl rn : UInt16) (a b c p1 p0 t ev ob : Bool) (oid evid : UInt32) (tm : UInt32) (sst rst : UInt8) (r : Bytes) :
    sdrHead (put16 rl ++ (put16 rn ++ (mk8 a b c p1 p0 t ev ob :: (optBytes (bit ob) (put32 oid) ++
      (optBytes (bit ev) (put32 evid) ++ (optBytes (bit t) (put32 tm) ++ (sst :: rst :: r))))))) =
    .ok ({ recordLength := rl, recordNumber := rn, ssod := bit a, rsod := bit b, grp := bit c,
           rpp := bit p1 ++ bit p0, tmfe := bit t, evfe := bit ev, obfe := bit ob,
           objectIdentifier := if ob then oid else 0, eventIdentifier := if ev then evid else 0,
           time := if t then decTime tm else zeroTime, sourceServiceType := sst,
           recipientServiceType := rst, recordDataSet := [] }, r) := by
  have e1 := fun v r => readerRead_put16 (buf := zeros 2) rfl v r
  have e2 := fun u v r => readerRead_put16 (buf := put16 u) rfl v r
  simp only [sdrHead, e1, e2, ok_bind, readByte_cons, sub01, sub12, sub23, sub35, sub56, sub67, sub78,
    optU32_bit, optTime_bit, le16_put16, pure_eq_ok]

theorem readerRead_exact (x r : Bytes) (h : x ++ r ≠ []) :
    readerRead (zeros x.length) (x ++ r) = .ok (x, r) := by
  have h4 : (zeros x.length).drop (x ++ r).length = [] := by
    apply List.drop_eq_nil_of_le; simp
  rw [readerRead, if_neg h, h4, zeros_length, List.take_left', List.drop_left', List.append_nil] <;> rfl

theorem sdr_rt (env : Env) (k : Nat) (sdr : ServiceDataRecord) (h : sdr.WF env) :
    ∃ b out, sdr.encode env = .ok b ∧ b ≠ [] ∧ ServiceDataRecord.ReadBack env sdr out ∧
      ∀ r, sdrStep (rdsDecodeD env (k + 1)) (b ++ r) = .ok (out, r) := by
  obtain ⟨rl, rn, ssod, rsod, grp, rpp, tmfe, evfe, obfe, oid, evid, tm, sst, rst, rds⟩ := sdr
  obtain ⟨g1, g2, g3, g4, g5, g6, g7, htm, hrd, enc, henc, hlen, hrl⟩ := h
  obtain ⟨a, rfl⟩ := isBit_iff.mp g1
  obtain ⟨b, rfl⟩ := isBit_iff.mp g2
  obtain ⟨c, rfl⟩ := isBit_iff.mp g3
  obtain ⟨p1, p0, rfl⟩ := isBits2_iff.mp g4
  obtain ⟨t, rfl⟩ := isBit_iff.mp g5
  obtain ⟨ev, rfl⟩ := isBit_iff.mp g6
  obtain ⟨ob, rfl⟩ := isBit_iff.mp g7
  simp only at htm hrd henc hrl
  simp only [bit_eq_one] at htm
  obtain ⟨enc', out, e1, hs, hdec⟩ := rds_rt_nil env k rds hrd
  rw [henc] at e1; cases e1
  have hp := parseFlags_bits a b c p1 p0 t ev ob
  have hn : (UInt16.ofNat enc.length).toNat = enc.length := by
    rw [UInt16.toNat_ofNat']; exact Nat.mod_eq_of_lt hlen
  have hrl' : (if rl = 0 then UInt16.ofNat enc.length else rl) = UInt16.ofNat enc.length := by
    split
    · rfl
    · rcases hrl with h | h
      · contradiction
      · rw [← h, UInt16.ofNat_toNat]
  have htime : (if t then decTime (encRecTime tm) else zeroTime) = (if t then tm else zeroTime) := by
    cases t
    · rfl
    · simp [encRecTime_rt tm (htm rfl)]
  refine ⟨put16 (UInt16.ofNat enc.length) ++ (put16 rn ++ (mk8 a b c p1 p0 t ev ob :: (optBytes (bit ob) (put32 oid) ++
      (optBytes (bit ev) (put32 evid) ++ (optBytes (bit t) (put32 (encRecTime tm)) ++ (sst :: rst :: enc)))))),
    { recordLength := UInt16.ofNat enc.length, recordNumber := rn, ssod := bit a, rsod := bit b, grp := bit c,
      rpp := bit p1 ++ bit p0, tmfe := bit t, evfe := bit ev, obfe := bit ob,
      objectIdentifier := if ob then oid else 0, eventIdentifier := if ev then evid else 0,
      time := if t then tm else zeroTime, sourceServiceType := sst,
      recipientServiceType := rst, recordDataSet := out }, ?_, by simp [put16], ⟨hs, ⟨enc, henc, hn⟩, ?_⟩, ?_⟩
  · simp only [ServiceDataRecord.encode, henc, ok_bind, hrl', List.append_assoc, hp, liftErr, pure_eq_ok, List.cons_append,
      List.nil_append]
  · simp only [present_bit]
  · intro r
    have hh := sdrHead_rt (UInt16.ofNat enc.length) rn a b c p1 p0 t ev ob oid evid (encRecTime tm) sst rst (enc ++ r)
    simp only [sdrStep, List.append_assoc, List.cons_append, hh, ok_bind, htime]
    by_cases hr : enc ++ r = []
    · have he : enc = [] := (List.append_eq_nil_iff.mp hr).1
      have hr' : r = [] := (List.append_eq_nil_iff.mp hr).2
      subst he hr'
      have h0 := hdec []
      simp only [List.length_nil, rdsLoop, List.nil_append, Except.ok.injEq] at h0
      subst h0
      simp
    · have := hdec []
      simp only [List.nil_append] at this
      simp only [ne_eq, hr, not_false_eq_true, if_true, hn, readerRead_exact enc r hr, ok_bind, rdsDecodeD, this,
        pure_eq_ok]

theorem sdsLoop_step {f n acc r sdr r'} (hr : r ≠ []) (h : sdrStep f r = .ok (sdr, r')) (hn : r.length ≤ n) :
    sdsLoop f n acc r = sdsLoop f r'.length (acc ++ [sdr]) r' := by
  have hlt := sdrStep_lt h
  cases n with
  | zero => exact absurd (List.length_eq_zero_iff.mp (by omega)) hr
  | succ n =>
    simp only [sdsLoop, if_neg hr, h, ok_bind]
    exact sdsLoop_fuel _ _ _ _ _ (by omega) (by omega)

theorem sds_rt (env : Env) (k : Nat) : ∀ s : List ServiceDataRecord, (∀ r ∈ s, r.WF env) →
    ∃ b out, ServiceDataSet.encode env s = .ok b ∧ List.Forall₂ (ServiceDataRecord.ReadBack env) s out ∧
      (s ≠ [] → b ≠ []) ∧
      ∀ acc r n, (b ++ r).length ≤ n → sdsLoop (rdsDecodeD env (k + 1)) n acc (b ++ r)
        = sdsLoop (rdsDecodeD env (k + 1)) r.length (acc ++ out) r
  | [], _ => ⟨[], [], rfl, .nil, fun h => absurd rfl h, fun acc r n h => by
      simp only [List.nil_append, List.append_nil] at *
      exact sdsLoop_fuel _ _ _ _ _ h (Nat.le_refl _)⟩
  | sdr :: rest, h => by
    obtain ⟨b1, o1, e1, hne, s1, d1⟩ := sdr_rt env k sdr (h sdr (by simp))
    obtain ⟨b2, o2, e2, s2, _, d2⟩ := sds_rt env k rest (fun x hx => h x (by simp [hx]))
    refine ⟨b1 ++ b2, o1 :: o2, ?_, .cons s1 s2, fun _ => by simp [hne], ?_⟩
    · simp only [ServiceDataSet.encode, e1, e2, ok_bind, pure_eq_ok]
    · intro acc r n hn
      rw [List.append_assoc] at hn ⊢
      rw [sdsLoop_step (by simp [hne]) (d1 (b2 ++ r)) hn, d2 _ _ _ (Nat.le_refl _)]
      simp

theorem sds_rt_nil (env : Env) (k : Nat) (s : List ServiceDataRecord) (h : ∀ r ∈ s, r.WF env) :
    ∃ b out, ServiceDataSet.encode env s = .ok b ∧ List.Forall₂ (ServiceDataRecord.ReadBack env) s out ∧
      (s ≠ [] → b ≠ []) ∧
      ∀ acc, sdsLoop (rdsDecodeD env (k + 1)) b.length acc b = .ok (acc ++ out) := by
  obtain ⟨b, out, e, s, hne, d⟩ := sds_rt env k s h
  refine ⟨b, out, e, s, hne, fun acc => ?_⟩
  have := d acc [] b.length (by simp)
  simpa [sdsLoop] using this

/-! ## what is read back of the values on which the code does not fail -/

theorem sub_sound {env : Env} {a b : SubData} (hw : a.WF env) (hs : a.Sound) (h : a.ReadBack env b) : a.Same env b := by
  cases a with
  | pos a =>
    have e := directionBack_eq a hw.1.2.2.2.2.2.2.2.2.2.1 hs
    have h : (SubData.pos { a with direction := a.directionBack }).Same env b := h
    rwa [e] at h
  | adSens a =>
    cases (h : b = .adSens (a.readBack {}))
    exact readBack_mirror a {} hw hs
  | counters a =>
    cases (h : b = .counters (a.readBack {}))
    have hs : a.cfe2 = go!"0" := hs
    show a.readBack {} = a.onto {}
    simp [SrCountersData.readBack, SrCountersData.onto, hs, present]
  | _ => exact h

theorem readBack_code {env : Env} {d y : SubData} (h : d.ReadBack env y) : y.code = d.code := by
  cases d with
  | adSens a => rw [show y = _ from h]; rfl
  | counters a => rw [show y = _ from h]; rfl
  | _ a => cases y <;> first | rfl | exact h.elim

theorem rd_sound {env : Env} {a b : RecordData} (hw : a.WF env) (hs : a.Sound) (h : a.ReadBack env b) : a.Same env b := by
  obtain ⟨x, y, enc, h1, h2, h3, h4⟩ := h
  obtain ⟨d, _, hd, hw, _⟩ := hw
  rw [h1] at hd; cases hd
  exact ⟨x, y, enc, h1, h2, sub_sound hw (hs x h1) h3, h4⟩

theorem forall₂_mono_mem {α β : Type} {R S : α → β → Prop} : ∀ {a : List α} {b : List β}, (∀ x ∈ a, ∀ y, R x y → S x y) →
    List.Forall₂ R a b → List.Forall₂ S a b
  | _, _, _, .nil => .nil
  | _, _, h, .cons h1 h2 => .cons (h _ (by simp) _ h1) (forall₂_mono_mem (fun x hx => h x (by simp [hx])) h2)

theorem sdr_sound {env : Env} {a b : ServiceDataRecord} (hw : a.WF env) (hs : a.Sound) (h : a.ReadBack env b) : a.Same env b := by
  obtain ⟨h1, h2⟩ := h
  obtain ⟨_, _, _, _, _, _, _, _, hw, _⟩ := hw
  exact ⟨forall₂_mono_mem (fun x hx y hy => rd_sound (hw x hx) (hs x hx) hy) h1, h2⟩

theorem sds_sound {env : Env} {a b : List ServiceDataRecord} (hw : ∀ r ∈ a, r.WF env) (hs : ∀ r ∈ a, r.Sound)
    (h : List.Forall₂ (ServiceDataRecord.ReadBack env) a b) : List.Forall₂ (ServiceDataRecord.Same env) a b :=
  forall₂_mono_mem (fun x hx _ hy => sdr_sound (hw x hx) (hs x hx) hy) h

end Egts
