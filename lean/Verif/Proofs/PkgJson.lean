import Verif.Proofs.PkgJsonPlus

/-! # Reading packages back out of their JSON texts: packages -/

namespace Egts
open Json

/-! ## Subrecords and records -/

/-- What is needed to read a subrecord back. -/
def SubData.Fit : SubData → Prop
  | .pos d => TimeOk d.navigationTime ∧ IsDouble d.latitude ∧ IsDouble d.longitude
  | .plus m => (SubData.plus m).Holds ∧ ∀ x ∈ m.fuel, FiniteF32 x
  | _ => True

theorem readSub_eq (t : UInt8) (d : SubData) (ht : t = d.code ∨ (t = 20 ∧ d.code = 21)) (hd : d.Fit) :
    readSub t d.goVal.value = some (d.shown repair) := by
  have hc : t = d.code ∨ (t = 20 ∧ ∃ s, d = .state s) := by
    rcases ht with h | ⟨h1, h2⟩
    · exact .inl h
    · refine .inr ⟨h1, ?_⟩
      cases d <;> first | exact ⟨_, rfl⟩ | (exfalso; revert h2; simp [SubData.code])
  rcases hc with rfl | ⟨rfl, s, rfl⟩
  · cases d with
    | pos d =>
      show (readSrPosData d.goVal.value).map SubData.pos = _
      rw [readSrPosData_eq d hd.1 hd.2.1 hd.2.2]; rfl
    | term d =>
      show (readSrTermIdentity d.goVal.value).map SubData.term = _
      rw [readSrTermIdentity_eq d]; rfl
    | module d =>
      show (readSrModuleData d.goVal.value).map SubData.module = _
      rw [readSrModuleData_eq d]; rfl
    | resp d =>
      show (readSrResponse d.goVal.value).map SubData.resp = _
      rw [readSrResponse_eq d]; rfl
    | result d =>
      show (readSrResultCode d.goVal.value).map SubData.result = _
      rw [readSrResultCode_eq d]; rfl
    | extPos d =>
      show (readSrExtPosData d.goVal.value).map SubData.extPos = _
      rw [readSrExtPosData_eq d]; rfl
    | adSens d =>
      show (readSrAdSensorsData d.goVal.value).map SubData.adSens = _
      rw [readSrAdSensorsData_eq d]; rfl
    | state d =>
      show (readSrStateData d.goVal.value).map SubData.state = _
      rw [readSrStateData_eq d]; rfl
    | liquid d =>
      show (readSrLiquidLevelSensor d.goVal.value).map SubData.liquid = _
      rw [readSrLiquidLevelSensor_eq d]; rfl
    | absCntr d =>
      show (readSrAbsCntrData d.goVal.value).map SubData.absCntr = _
      rw [readSrAbsCntrData_eq d]; rfl
    | auth d =>
      show (readSrAuthInfo d.goVal.value).map SubData.auth = _
      rw [readSrAuthInfo_eq d]; rfl
    | counters d =>
      show (readSrCountersData d.goVal.value).map SubData.counters = _
      rw [readSrCountersData_eq d]; rfl
    | plus d =>
      show (readStorageRecord d.goVal.value).map SubData.plus = _
      rw [readStorageRecord_eq d hd.1 hd.2]; rfl
    | absAn d =>
      show (readSrAbsAnSensData d.goVal.value).map SubData.absAn = _
      rw [readSrAbsAnSensData_eq d]; rfl
    | disp d =>
      show (readSrDispatcherIdentity d.goVal.value).map SubData.disp = _
      rw [readSrDispatcherIdentity_eq d]; rfl
  · show (readSrStateData s.goVal.value).map SubData.state = _
    rw [readSrStateData_eq s]; rfl

theorem subData_struct (d : SubData) : ∃ fs, d.goVal = .struct fs := by
  cases d <;> exact ⟨_, rfl⟩

theorem subData_obj (d : SubData) : ∃ fs, d.goVal.value = .obj fs := by
  obtain ⟨fs, h⟩ := subData_struct d
  exact ⟨_, by rw [h]; simp only [GoVal.value]; rfl⟩

/-- What is needed to read a record back. -/
def RecordData.Fit (rd : RecordData) : Prop := rd.Tagged ∧ ∀ d, rd.subrecordData = some d → d.Fit

theorem readRecordData_eq (rd : RecordData) (h : rd.Fit) :
    readRecordData rd.goVal.value = some { rd with subrecordData := rd.subrecordData.map (SubData.shown repair) } := by
  have hv : rd.goVal.value = .obj [(go!"SRT", .num ((rd.subrecordType.toNat : ℕ) : ℚ)), (go!"SRL", .num ((rd.subrecordLength.toNat : ℕ) : ℚ)),
      (go!"SRD", GoVal.value (match rd.subrecordData with | none => .null | some d => d.goVal))] := by
    simp only [RecordData.goVal, GoVal.value, GoVal.valueFields]
    rfl
  have e0 : readU8 rd.goVal.value (go!"SRT") = some rd.subrecordType := readU8_eq _ (by rw [hv]; rfl)
  have e1 : readU16 rd.goVal.value (go!"SRL") = some rd.subrecordLength := readU16_eq _ (by rw [hv]; rfl)
  have e2 : rd.goVal.value.get (go!"SRD") = some (GoVal.value (match rd.subrecordData with | none => .null | some d => d.goVal)) := by
    rw [hv]; rfl
  unfold readRecordData
  simp only [e0, e1, e2, Option.bind_eq_bind, Option.bind_some, Option.pure_def]
  cases hs : rd.subrecordData with
  | none => simp only [GoVal.value, Option.map_none]
  | some d =>
    obtain ⟨fs, hfs⟩ := subData_obj d
    have := readSub_eq rd.subrecordType d (h.1 d hs) (h.2 d hs)
    simp only [hfs] at this ⊢
    rw [this]
    rfl

/-- What is needed to read a service record back. -/
def ServiceDataRecord.Fit (r : ServiceDataRecord) : Prop := TimeOk r.time ∧ ∀ rd ∈ r.recordDataSet, rd.Fit

theorem readRecordDataSet_eq (isNil : Bool) (l : List RecordData) (h : ∀ rd ∈ l, rd.Fit) :
    ((GoVal.value (if l = [] ∧ isNil then .null else .list (l.map RecordData.goVal))).asList.bind fun vs => vs.mapM readRecordData) =
      some (l.map fun rd => { rd with subrecordData := rd.subrecordData.map (SubData.shown repair) }) := by
  split
  · rename_i hn
    rw [hn.1]
    rfl
  · simp only [GoVal.value, GoVal.valueList_eq, Value.asList, Option.bind_some, List.mapM_map, List.map_map]
    exact mapM_some _ fun rd hrd => readRecordData_eq rd (h rd hrd)

theorem readServiceDataRecord_eq (isNil : Bool) (r : ServiceDataRecord) (h : r.Fit) :
    readServiceDataRecord (r.goVal isNil).value = some (r.shown repair) := by
  have hv : (r.goVal isNil).value = .obj
    [(go!"RL", .num ((r.recordLength.toNat : ℕ) : ℚ)), (go!"RN", .num ((r.recordNumber.toNat : ℕ) : ℚ)), (go!"SSOD", .str (repair r.ssod)),
     (go!"RSOD", .str (repair r.rsod)), (go!"GRP", .str (repair r.grp)), (go!"RPP", .str (repair r.rpp)), (go!"TMFE", .str (repair r.tmfe)),
     (go!"EVFE", .str (repair r.evfe)), (go!"OBFE", .str (repair r.obfe)), (go!"OID", .num ((r.objectIdentifier.toNat : ℕ) : ℚ)),
     (go!"EVID", .num ((r.eventIdentifier.toNat : ℕ) : ℚ)), (go!"TM", textValue ((marshalTime r.time).getD [])),
     (go!"SST", .num ((r.sourceServiceType.toNat : ℕ) : ℚ)), (go!"RST", .num ((r.recipientServiceType.toNat : ℕ) : ℚ)),
     (go!"RD", GoVal.value (if r.recordDataSet = [] ∧ isNil then .null else .list (r.recordDataSet.map RecordData.goVal)))] := by
    simp only [ServiceDataRecord.goVal, GoVal.value, GoVal.valueFields]
  have e0 : readU16 (r.goVal isNil).value (go!"RL") = some r.recordLength := readU16_eq _ (by rw [hv]; rfl)
  have e1 : readU16 (r.goVal isNil).value (go!"RN") = some r.recordNumber := readU16_eq _ (by rw [hv]; rfl)
  have e2 : readStr (r.goVal isNil).value (go!"SSOD") = some (repair r.ssod) := readStr_eq (by rw [hv]; rfl)
  have e3 : readStr (r.goVal isNil).value (go!"RSOD") = some (repair r.rsod) := readStr_eq (by rw [hv]; rfl)
  have e4 : readStr (r.goVal isNil).value (go!"GRP") = some (repair r.grp) := readStr_eq (by rw [hv]; rfl)
  have e5 : readStr (r.goVal isNil).value (go!"RPP") = some (repair r.rpp) := readStr_eq (by rw [hv]; rfl)
  have e6 : readStr (r.goVal isNil).value (go!"TMFE") = some (repair r.tmfe) := readStr_eq (by rw [hv]; rfl)
  have e7 : readStr (r.goVal isNil).value (go!"EVFE") = some (repair r.evfe) := readStr_eq (by rw [hv]; rfl)
  have e8 : readStr (r.goVal isNil).value (go!"OBFE") = some (repair r.obfe) := readStr_eq (by rw [hv]; rfl)
  have e9 : readU32 (r.goVal isNil).value (go!"OID") = some r.objectIdentifier := readU32_eq _ (by rw [hv]; rfl)
  have e10 : readU32 (r.goVal isNil).value (go!"EVID") = some r.eventIdentifier := readU32_eq _ (by rw [hv]; rfl)
  have e11 : readTime (r.goVal isNil).value (go!"TM") = some r.time := readTime_eq h.1 (by rw [hv]; rfl)
  have e12 : readU8 (r.goVal isNil).value (go!"SST") = some r.sourceServiceType := readU8_eq _ (by rw [hv]; rfl)
  have e13 : readU8 (r.goVal isNil).value (go!"RST") = some r.recipientServiceType := readU8_eq _ (by rw [hv]; rfl)
  have e14 : (r.goVal isNil).value.get (go!"RD") =
      some (GoVal.value (if r.recordDataSet = [] ∧ isNil then .null else .list (r.recordDataSet.map RecordData.goVal))) := by
    rw [hv]; rfl
  have e15 := readRecordDataSet_eq isNil r.recordDataSet h.2
  obtain ⟨vs, hvs, hm⟩ := Option.bind_eq_some_iff.mp e15
  unfold readServiceDataRecord
  simp only [e0, e1, e2, e3, e4, e5, e6, e7, e8, e9, e10, e11, e12, e13, e14, hvs, hm, Option.bind_eq_bind, Option.bind_some, Option.pure_def]
  rfl

theorem readSet_eq (nils : Nat → Bool) (s : List ServiceDataRecord) (h : ∀ r ∈ s, r.Fit) :
    ((s.mapIdx fun i r => (r.goVal (nils i)).value).mapM readServiceDataRecord) = some (s.map (ServiceDataRecord.shown repair)) := by
  induction s generalizing nils with
  | nil => rfl
  | cons r s ih =>
    rw [List.mapIdx_cons, List.mapM_cons, readServiceDataRecord_eq _ r (h r (List.mem_cons_self ..)),
      ih (fun i => nils (i + 1)) fun x hx => h x (List.mem_cons_of_mem _ hx)]
    rfl

theorem setVal_value (nils : Nat → Bool) (s : List ServiceDataRecord) :
    (setVal nils s).value = .arr (s.mapIdx fun i r => (r.goVal (nils i)).value) := by
  unfold setVal
  simp only [GoVal.value, GoVal.valueList_eq]
  congr 1
  induction s generalizing nils with
  | nil => rfl
  | cons r s ih => rw [List.mapIdx_cons, List.mapIdx_cons, List.map_cons, ih (fun i => nils (i + 1))]

theorem readPtResponse_eq (nils : Nat → Bool) (r : PtResponse) (h : ∀ s, r.sdr = some s → ∀ x ∈ s, x.Fit) :
    readPtResponse (r.goVal nils).value = some { r with sdr := r.sdr.map fun s => s.map (ServiceDataRecord.shown repair) } := by
  have hv : (r.goVal nils).value = .obj [(go!"RPID", .num ((r.responsePacketID.toNat : ℕ) : ℚ)), (go!"PR", .num ((r.processingResult.toNat : ℕ) : ℚ)),
      (go!"SDR", GoVal.value (match r.sdr with | none => .null | some s => setVal nils s))] := by
    simp only [PtResponse.goVal, GoVal.value, GoVal.valueFields]
    rfl
  have e0 : readU16 (r.goVal nils).value (go!"RPID") = some r.responsePacketID := readU16_eq _ (by rw [hv]; rfl)
  have e1 : readU8 (r.goVal nils).value (go!"PR") = some r.processingResult := readU8_eq _ (by rw [hv]; rfl)
  have e2 : (r.goVal nils).value.get (go!"SDR") = some (GoVal.value (match r.sdr with | none => .null | some s => setVal nils s)) := by
    rw [hv]; rfl
  unfold readPtResponse
  simp only [e0, e1, e2, Option.bind_eq_bind, Option.bind_some, Option.pure_def]
  cases hs : r.sdr with
  | none => simp only [GoVal.value, Option.map_none]
  | some s =>
    simp only [setVal_value, readSet_eq nils s (h s hs), Option.bind_some, Option.map_some]

/-- What is needed to read a package back. -/
def Package.Fit (p : Package) : Prop := ∀ r ∈ p.records, r.Fit

theorem readPackageValue_eq (nils : Nat → Bool) (p : Package) (h : p.Fit) :
    readPackageValue (p.goVal nils).value = some (p.shown repair) := by
  have hv : (p.goVal nils).value = .obj
    [(go!"PRV", .num ((p.protocolVersion.toNat : ℕ) : ℚ)), (go!"SKID", .num ((p.securityKeyID.toNat : ℕ) : ℚ)), (go!"PRF", .str (repair p.prefix_)),
     (go!"RTE", .str (repair p.route)), (go!"ENA", .str (repair p.encryptionAlg)), (go!"CMP", .str (repair p.compression)), (go!"PR", .str (repair p.priority)),
     (go!"HL", .num ((p.headerLength.toNat : ℕ) : ℚ)), (go!"HE", .num ((p.headerEncoding.toNat : ℕ) : ℚ)), (go!"FDL", .num ((p.frameDataLength.toNat : ℕ) : ℚ)),
     (go!"PID", .num ((p.packetIdentifier.toNat : ℕ) : ℚ)), (go!"PT", .num ((p.packetType.toNat : ℕ) : ℚ)), (go!"PRA", .num ((p.peerAddress.toNat : ℕ) : ℚ)),
     (go!"RCA", .num ((p.recipientAddress.toNat : ℕ) : ℚ)), (go!"TTL", .num ((p.timeToLive.toNat : ℕ) : ℚ)), (go!"HCS", .num ((p.headerCheckSum.toNat : ℕ) : ℚ)),
     (go!"SFRD", GoVal.value (match p.servicesFrameData with | none => .null | some (.sds s) => setVal nils s | some (.resp r) => r.goVal nils)),
     (go!"SFRCS", .num ((p.servicesFrameDataCheckSum.toNat : ℕ) : ℚ))] := by
    simp only [Package.goVal, GoVal.value, GoVal.valueFields]
    rfl
  have e0 : readU8 (p.goVal nils).value (go!"PRV") = some p.protocolVersion := readU8_eq _ (by rw [hv]; rfl)
  have e1 : readU8 (p.goVal nils).value (go!"SKID") = some p.securityKeyID := readU8_eq _ (by rw [hv]; rfl)
  have e2 : readStr (p.goVal nils).value (go!"PRF") = some (repair p.prefix_) := readStr_eq (by rw [hv]; rfl)
  have e3 : readStr (p.goVal nils).value (go!"RTE") = some (repair p.route) := readStr_eq (by rw [hv]; rfl)
  have e4 : readStr (p.goVal nils).value (go!"ENA") = some (repair p.encryptionAlg) := readStr_eq (by rw [hv]; rfl)
  have e5 : readStr (p.goVal nils).value (go!"CMP") = some (repair p.compression) := readStr_eq (by rw [hv]; rfl)
  have e6 : readStr (p.goVal nils).value (go!"PR") = some (repair p.priority) := readStr_eq (by rw [hv]; rfl)
  have e7 : readU8 (p.goVal nils).value (go!"HL") = some p.headerLength := readU8_eq _ (by rw [hv]; rfl)
  have e8 : readU8 (p.goVal nils).value (go!"HE") = some p.headerEncoding := readU8_eq _ (by rw [hv]; rfl)
  have e9 : readU16 (p.goVal nils).value (go!"FDL") = some p.frameDataLength := readU16_eq _ (by rw [hv]; rfl)
  have e10 : readU16 (p.goVal nils).value (go!"PID") = some p.packetIdentifier := readU16_eq _ (by rw [hv]; rfl)
  have e11 : readU8 (p.goVal nils).value (go!"PT") = some p.packetType := readU8_eq _ (by rw [hv]; rfl)
  have e12 : readU16 (p.goVal nils).value (go!"PRA") = some p.peerAddress := readU16_eq _ (by rw [hv]; rfl)
  have e13 : readU16 (p.goVal nils).value (go!"RCA") = some p.recipientAddress := readU16_eq _ (by rw [hv]; rfl)
  have e14 : readU8 (p.goVal nils).value (go!"TTL") = some p.timeToLive := readU8_eq _ (by rw [hv]; rfl)
  have e15 : readU8 (p.goVal nils).value (go!"HCS") = some p.headerCheckSum := readU8_eq _ (by rw [hv]; rfl)
  have e16 : (p.goVal nils).value.get (go!"SFRD") = some (GoVal.value (match p.servicesFrameData with
      | none => .null | some (.sds s) => setVal nils s | some (.resp r) => r.goVal nils)) := by
    rw [hv]; rfl
  have e17 : readU16 (p.goVal nils).value (go!"SFRCS") = some p.servicesFrameDataCheckSum := readU16_eq _ (by rw [hv]; rfl)
  have e18 : readFrameData (GoVal.value (match p.servicesFrameData with
      | none => .null | some (.sds s) => setVal nils s | some (.resp r) => r.goVal nils)) = some (p.shown repair).servicesFrameData := by
    unfold Package.Fit Package.records at h
    unfold Package.shown
    cases hs : p.servicesFrameData with
    | none => simp only [GoVal.value, readFrameData, Option.map_none]
    | some d =>
      rw [hs] at h
      cases d with
      | sds s =>
        simp only [setVal_value, readFrameData, readSet_eq nils s h, Option.map_some]
      | resp r =>
        have hr := readPtResponse_eq nils r (fun s h1 x hx => h x (by simp only [h1, Option.getD_some]; exact hx))
        simp only
        have hobj : ∃ fs, (r.goVal nils).value = .obj fs := ⟨_, by unfold PtResponse.goVal; simp only [GoVal.value]; rfl⟩
        obtain ⟨fs, hfs⟩ := hobj
        rw [hfs] at hr ⊢
        simp only [readFrameData, hr, Option.map_some]
  unfold readPackageValue
  simp only [e0, e1, e2, e3, e4, e5, e6, e7, e8, e9, e10, e11, e12, e13, e14, e15, e16, e17, e18, Option.bind_eq_bind, Option.bind_some, Option.pure_def]
  rfl

/-! ## The times, the numbers and the names in a package -/

theorem GoVal.timesList_eq (vs : List GoVal) : GoVal.timesList vs = vs.flatMap GoVal.times := by
  induction vs with
  | nil => rfl
  | cons v vs ih => simp only [GoVal.timesList, List.flatMap_cons, ih]

theorem GoVal.timesFields_eq (fs : List (Bytes × GoVal)) : GoVal.timesFields fs = fs.flatMap fun f => f.2.times := by
  induction fs with
  | nil => rfl
  | cons f fs ih => simp only [GoVal.timesFields, List.flatMap_cons, ih]

theorem GoVal.floatsList_eq (vs : List GoVal) : GoVal.floatsList vs = vs.flatMap GoVal.floats := by
  induction vs with
  | nil => rfl
  | cons v vs ih => simp only [GoVal.floatsList, List.flatMap_cons, ih]

theorem GoVal.floatsFields_eq (fs : List (Bytes × GoVal)) : GoVal.floatsFields fs = fs.flatMap fun f => f.2.floats := by
  induction fs with
  | nil => rfl
  | cons f fs ih => simp only [GoVal.floatsFields, List.flatMap_cons, ih]

theorem flatMap_nil {α β : Type} {f : α → List β} {l : List α} (h : ∀ x ∈ l, f x = []) : l.flatMap f = [] := by
  induction l with
  | nil => rfl
  | cons x l ih => rw [List.flatMap_cons, h x (List.mem_cons_self ..), ih fun y hy => h y (List.mem_cons_of_mem _ hy)]; rfl

theorem flatMap_filterMap {α β γ : Type} (f : α → Option β) (g : β → List γ) (l : List α) :
    (l.filterMap f).flatMap g = l.flatMap fun x => (f x).toList.flatMap g := by
  induction l with
  | nil => rfl
  | cons x l ih => cases h : f x <;> simp [h, ih]

theorem JKind.goVal_plain {k : JKind} {v : Option Proto.Val} {g : GoVal} (h : k.goVal v = some g) :
    g.times = [] ∧ (k ≠ .f32 → g.floats = []) ∧ g.Ok := by
  unfold JKind.goVal at h
  split at h
  all_goals first
    | (injection h with h; subst h; simp [GoVal.times, GoVal.floats, GoVal.Ok])
    | (split at h
       · cases h
       · injection h with h; subst h; simp [GoVal.times, GoVal.floats, GoVal.Ok])
    | cases h

theorem sens_times (fields : List (Nat × Bytes × JKind)) (s : Proto.Sens) : (s.goVal fields).times = [] := by
  unfold Proto.Sens.goVal
  simp only [GoVal.times, GoVal.timesFields_eq]
  apply flatMap_nil
  intro f hf
  obtain ⟨e, _, he⟩ := List.mem_filterMap.mp hf
  obtain ⟨g, hg, rfl⟩ := Option.map_eq_some_iff.mp he
  exact (JKind.goVal_plain hg).1

theorem sens_floats (fields : List (Nat × Bytes × JKind)) (h : ∀ f ∈ fields, f.2.2 ≠ .f32) (s : Proto.Sens) :
    (s.goVal fields).floats = [] := by
  unfold Proto.Sens.goVal
  simp only [GoVal.floats, GoVal.floatsFields_eq]
  apply flatMap_nil
  intro f hf
  obtain ⟨e, h1, he⟩ := List.mem_filterMap.mp hf
  obtain ⟨g, hg, rfl⟩ := Option.map_eq_some_iff.mp he
  exact (JKind.goVal_plain hg).2.1 (h e h1)

theorem flatMap_one {α β : Type} {f : α → List β} {l : List α} {g : List β} {k : α → Nat} {n : Nat} (hn : (l.map k).Nodup) (hm : n ∈ l.map k)
    (h : ∀ x ∈ l, f x = if k x = n then g else []) : l.flatMap f = g := by
  induction l with
  | nil => cases hm
  | cons x l ih =>
    rw [List.flatMap_cons, h x (List.mem_cons_self ..)]
    simp only [List.map_cons, List.nodup_cons] at hn
    by_cases hx : k x = n
    · rw [if_pos hx, flatMap_nil, List.append_nil]
      intro y hy
      rw [h y (List.mem_cons_of_mem _ hy), if_neg]
      rintro rfl
      exact hn.1 (hx ▸ List.mem_map_of_mem hy)
    · rw [if_neg hx, List.nil_append]
      refine ih hn.2 ?_ fun y hy => h y (List.mem_cons_of_mem _ hy)
      rcases List.mem_cons.mp hm with hm | hm
      · exact absurd hm.symm hx
      · exact hm

theorem fuel_floats (s : Proto.Sens) : (s.goVal sensFuelLevelJson).floats = match s.vals.getD 1 none with
    | some (.num n) => [n]
    | _ => [] := by
  unfold Proto.Sens.goVal
  simp only [GoVal.floats, GoVal.floatsFields_eq]
  rw [flatMap_filterMap]
  refine flatMap_one (k := (·.1)) (n := 2) (by decide +kernel) (by decide +kernel) ?_
  intro f hf
  have hk : (f.1 = 2 ∧ f.2.2 = .f32) ∨ (f.1 ≠ 2 ∧ f.2.2 ≠ .f32) := by
    revert f; decide +kernel
  rcases hk with ⟨h1, h2⟩ | ⟨h1, h2⟩
  · rw [if_pos h1, h1, h2]
    simp only [Nat.reduceSub]
    cases hv : s.vals.getD 1 none with
    | none => rfl
    | some v => cases v <;> simp [JKind.goVal, GoVal.floats]
  · rw [if_neg h1]
    cases hv : f.2.2.goVal (s.vals.getD (f.1 - 1) none) with
    | none => rfl
    | some g => simp [(JKind.goVal_plain hv).2.1 h2]

theorem storageJson_kinds : ∀ f ∈ storageJson, f.1 ≠ 8 → ∀ g ∈ f.2.2, g.2.2 ≠ .f32 := by decide +kernel

theorem storageJson_names : ∀ f ∈ storageJson, (∀ c ∈ f.2.1, c < 128) ∧ ∀ g ∈ f.2.2, ∀ c ∈ g.2.1, c < 128 := by decide +kernel

theorem storageJson_fuel : ∀ f ∈ storageJson, f.1 = 8 → f.2.2 = sensFuelLevelJson := by decide +kernel

theorem storageRecord_times (m : StorageRecord) : m.goVal.times = [] := by
  unfold StorageRecord.goVal
  simp only [GoVal.times, GoVal.timesFields_eq, List.flatMap_append]
  have e : ∀ (k : Bytes) (o : Option UInt32), List.flatMap (fun f : Bytes × GoVal => f.2.times) (optField k o) = [] := by
    intro k o; cases o <;> simp [optField, GoVal.times]
  rw [e, e, e]
  have h1 : List.flatMap (fun f : Bytes × GoVal => f.2.times) m.sensFields = [] := by
    apply flatMap_nil
    intro f hf
    obtain ⟨g, _, hg⟩ := List.mem_filterMap.mp hf
    simp only at hg
    split at hg
    · cases hg
    · injection hg with hg
      subst hg
      simp only [GoVal.times, GoVal.timesList_eq]
      apply flatMap_nil
      intro v hv
      obtain ⟨s, _, rfl⟩ := List.mem_map.mp hv
      exact sens_times _ s
  rw [h1]
  split
  · simp
  · simp only [List.flatMap_cons, GoVal.times, GoVal.timesList_eq]
    rw [flatMap_nil]
    · simp
    · intro v hv
      obtain ⟨n, _, rfl⟩ := List.mem_map.mp hv
      simp [GoVal.times]

theorem storageRecord_floats (m : StorageRecord) : m.goVal.floats = m.fuel := by
  unfold StorageRecord.goVal
  simp only [GoVal.floats, GoVal.floatsFields_eq, List.flatMap_append]
  have e : ∀ (k : Bytes) (o : Option UInt32), List.flatMap (fun f : Bytes × GoVal => f.2.floats) (optField k o) = [] := by
    intro k o; cases o <;> simp [optField, GoVal.floats]
  rw [e, e, e]
  have h1 : List.flatMap (fun f : Bytes × GoVal => f.2.floats) m.sensFields = m.fuel := by
    unfold StorageRecord.sensFields
    rw [flatMap_filterMap]
    refine flatMap_one (k := (·.1)) (n := 8) (by decide +kernel) (by decide +kernel) ?_
    intro f hf
    by_cases h8 : f.1 = 8
    · rw [if_pos h8, storageJson_fuel f hf h8, h8]
      unfold StorageRecord.fuel
      simp only [Nat.reduceSub]
      by_cases hn : m.sens.getD 1 [] = []
      · rw [if_pos hn, hn]; rfl
      · rw [if_neg hn]
        simp only [Option.toList_some, List.flatMap_cons, List.flatMap_nil, List.append_nil, GoVal.floats, GoVal.floatsList_eq, List.flatMap_map]
        congr 1
        funext s
        exact fuel_floats s
    · rw [if_neg h8]
      simp only
      split
      · rfl
      · simp only [Option.toList_some, List.flatMap_cons, List.flatMap_nil, List.append_nil, GoVal.floats, GoVal.floatsList_eq, List.flatMap_map]
        exact flatMap_nil fun s _ => sens_floats _ (storageJson_kinds f hf h8) s
  rw [h1]
  split
  · simp
  · simp only [List.flatMap_cons, GoVal.floats, GoVal.floatsList_eq]
    rw [flatMap_nil]
    · simp
    · intro v hv
      obtain ⟨n, _, rfl⟩ := List.mem_map.mp hv
      simp [GoVal.floats]

theorem subData_times (d : SubData) : d.goVal.times = match d with
    | .pos d => [d.navigationTime]
    | _ => [] := by
  cases d with
  | plus m => exact storageRecord_times m
  | module d => simp only [SubData.goVal, SrModuleData.goVal, GoVal.times, GoVal.timesFields]; rfl
  | _ => simp [SubData.goVal, SrPosData.goVal, SrTermIdentity.goVal, SrResponse.goVal, SrResultCode.goVal, SrExtPosData.goVal,
      SrAdSensorsData.goVal, SrStateData.goVal, SrLiquidLevelSensor.goVal, SrAbsCntrData.goVal, SrAuthInfo.goVal,
      SrCountersData.goVal, SrAbsAnSensData.goVal, SrDispatcherIdentity.goVal, GoVal.times, GoVal.timesFields, apply_ite]

theorem recordData_times (rd : RecordData) : rd.goVal.times = match rd.subrecordData with
    | some (.pos d) => [d.navigationTime]
    | _ => [] := by
  unfold RecordData.goVal
  simp only [GoVal.times, GoVal.timesFields, List.nil_append, List.append_nil]
  cases rd.subrecordData with
  | none => simp [GoVal.times]
  | some d =>
    simp only [subData_times]
    cases d <;> rfl

theorem record_times (isNil : Bool) (r : ServiceDataRecord) : (r.goVal isNil).times = r.time :: (r.recordDataSet.flatMap fun rd => match rd.subrecordData with
    | some (.pos d) => [d.navigationTime]
    | _ => []) := by
  have h : (if r.recordDataSet = [] ∧ isNil then GoVal.null else .list (r.recordDataSet.map RecordData.goVal)).times =
      r.recordDataSet.flatMap fun rd => rd.goVal.times := by
    split
    · rename_i hn; rw [hn.1]; simp [GoVal.times]
    · simp only [GoVal.times, GoVal.timesList_eq, List.flatMap_map]
  unfold ServiceDataRecord.goVal
  simp only [GoVal.times, GoVal.timesFields, List.nil_append, List.append_nil, List.cons_append]
  rw [h]
  simp only [recordData_times]

theorem set_times (nils : Nat → Bool) (s : List ServiceDataRecord) : (setVal nils s).times = s.flatMap fun r => r.time :: (r.recordDataSet.flatMap fun rd => match rd.subrecordData with
    | some (.pos d) => [d.navigationTime]
    | _ => []) := by
  unfold setVal
  simp only [GoVal.times, GoVal.timesList_eq]
  induction s generalizing nils with
  | nil => rfl
  | cons r s ih => rw [List.mapIdx_cons, List.flatMap_cons, List.flatMap_cons, record_times, ih (fun i => nils (i + 1))]

theorem package_times (nils : Nat → Bool) (p : Package) : (p.goVal nils).times = p.times := by
  unfold Package.goVal
  simp only [GoVal.times, GoVal.timesFields, List.nil_append, List.append_nil]
  unfold Package.times Package.records
  cases hs : p.servicesFrameData with
  | none => simp [GoVal.times]
  | some d =>
    cases d with
    | sds s => exact set_times nils s
    | resp r =>
      simp only [PtResponse.goVal, GoVal.times, GoVal.timesFields, List.nil_append, List.append_nil]
      cases hr : r.sdr with
      | none => simp [GoVal.times]
      | some s => exact set_times nils s

theorem subData_floats (d : SubData) : d.goVal.floats = match d with
    | .plus m => (m.sens.getD 1 []).flatMap fun s => match s.vals.getD 1 none with
      | some (.num n) => [n]
      | _ => []
    | _ => [] := by
  cases d with
  | plus m => exact storageRecord_floats m
  | module d => simp only [SubData.goVal, SrModuleData.goVal, GoVal.floats, GoVal.floatsFields]; rfl
  | _ => simp [SubData.goVal, SrPosData.goVal, SrTermIdentity.goVal, SrResponse.goVal, SrResultCode.goVal, SrExtPosData.goVal,
      SrAdSensorsData.goVal, SrStateData.goVal, SrLiquidLevelSensor.goVal, SrAbsCntrData.goVal, SrAuthInfo.goVal,
      SrCountersData.goVal, SrAbsAnSensData.goVal, SrDispatcherIdentity.goVal, GoVal.floats, GoVal.floatsFields, apply_ite]

theorem recordData_floats (rd : RecordData) : rd.goVal.floats = match rd.subrecordData with
    | some (.plus m) => (m.sens.getD 1 []).flatMap fun s => match s.vals.getD 1 none with
      | some (.num n) => [n]
      | _ => []
    | _ => [] := by
  unfold RecordData.goVal
  simp only [GoVal.floats, GoVal.floatsFields, List.nil_append, List.append_nil]
  cases rd.subrecordData with
  | none => simp [GoVal.floats]
  | some d =>
    simp only [subData_floats]
    cases d <;> rfl

theorem record_floats (isNil : Bool) (r : ServiceDataRecord) : (r.goVal isNil).floats = (r.recordDataSet.flatMap fun rd => match rd.subrecordData with
    | some (.plus m) => (m.sens.getD 1 []).flatMap fun s => match s.vals.getD 1 none with
      | some (.num n) => [n]
      | _ => []
    | _ => []) := by
  have h : (if r.recordDataSet = [] ∧ isNil then GoVal.null else .list (r.recordDataSet.map RecordData.goVal)).floats =
      r.recordDataSet.flatMap fun rd => rd.goVal.floats := by
    split
    · rename_i hn; rw [hn.1]; simp [GoVal.floats]
    · simp only [GoVal.floats, GoVal.floatsList_eq, List.flatMap_map]
  unfold ServiceDataRecord.goVal
  simp only [GoVal.floats, GoVal.floatsFields, List.nil_append, List.append_nil]
  rw [h]
  simp only [recordData_floats]

theorem set_floats (nils : Nat → Bool) (s : List ServiceDataRecord) : (setVal nils s).floats = s.flatMap fun r => (r.recordDataSet.flatMap fun rd => match rd.subrecordData with
    | some (.plus m) => (m.sens.getD 1 []).flatMap fun s => match s.vals.getD 1 none with
      | some (.num n) => [n]
      | _ => []
    | _ => []) := by
  unfold setVal
  simp only [GoVal.floats, GoVal.floatsList_eq]
  induction s generalizing nils with
  | nil => rfl
  | cons r s ih => rw [List.mapIdx_cons, List.flatMap_cons, List.flatMap_cons, record_floats, ih (fun i => nils (i + 1))]

theorem package_floats (nils : Nat → Bool) (p : Package) : (p.goVal nils).floats = p.floats := by
  unfold Package.goVal
  simp only [GoVal.floats, GoVal.floatsFields, List.nil_append, List.append_nil]
  unfold Package.floats Package.records
  cases hs : p.servicesFrameData with
  | none => simp [GoVal.floats]
  | some d =>
    cases d with
    | sds s => exact set_floats nils s
    | resp r =>
      simp only [PtResponse.goVal, GoVal.floats, GoVal.floatsFields, List.nil_append, List.append_nil]
      cases hr : r.sdr with
      | none => simp [GoVal.floats]
      | some s => exact set_floats nils s

/-! ## The names of the fields, and the doubles -/

theorem isAscii_iff (k : Bytes) : IsAscii k ↔ k.all (fun c => decide (c < 128)) = true := by
  unfold IsAscii
  rw [List.all_eq_true]
  simp

theorem sens_ok {fields : List (Nat × Bytes × JKind)} (h : ∀ g ∈ fields, ∀ c ∈ g.2.1, c < 128) (s : Proto.Sens) : (s.goVal fields).Ok := by
  unfold Proto.Sens.goVal
  simp only [GoVal.Ok, GoVal.okFields_iff]
  intro f hf
  obtain ⟨e, h1, he⟩ := List.mem_filterMap.mp hf
  obtain ⟨g, hg, rfl⟩ := Option.map_eq_some_iff.mp he
  exact ⟨h e h1, (JKind.goVal_plain hg).2.2⟩

theorem storageRecord_ok (m : StorageRecord) : m.goVal.Ok := by
  unfold StorageRecord.goVal
  simp only [GoVal.Ok, GoVal.okFields_iff, List.forall_mem_append]
  have e : ∀ (k : Bytes) (o : Option UInt32), IsAscii k → ∀ f ∈ optField k o, IsAscii f.1 ∧ f.2.Ok := by
    intro k o hk f hf
    cases o with
    | none => cases hf
    | some n =>
      simp only [optField, List.mem_singleton] at hf
      subst hf
      exact ⟨hk, trivial⟩
  refine ⟨⟨⟨⟨e _ _ ((isAscii_iff _).mpr rfl), e _ _ ((isAscii_iff _).mpr rfl)⟩, ?_⟩, e _ _ ((isAscii_iff _).mpr rfl)⟩, ?_⟩
  · intro f hf
    split at hf
    · cases hf
    · rw [List.mem_singleton] at hf
      subst hf
      refine ⟨(isAscii_iff _).mpr rfl, ?_⟩
      simp only [GoVal.Ok, GoVal.okList_iff]
      intro v hv
      obtain ⟨n, _, rfl⟩ := List.mem_map.mp hv
      trivial
  · intro f hf
    obtain ⟨g, h1, hg⟩ := List.mem_filterMap.mp hf
    simp only at hg
    split at hg
    · cases hg
    · injection hg with hg
      subst hg
      refine ⟨(storageJson_names g h1).1, ?_⟩
      simp only [GoVal.Ok, GoVal.okList_iff]
      intro v hv
      obtain ⟨s, _, rfl⟩ := List.mem_map.mp hv
      exact sens_ok (storageJson_names g h1).2 s

theorem subData_ok (d : SubData) (h : d.Holds) : d.goVal.Ok := by
  cases d with
  | plus m => exact storageRecord_ok m
  | pos d =>
    simp only [SubData.goVal, SrPosData.goVal, GoVal.Ok, GoVal.OkFields, isAscii_iff, true_and, and_true]
    simp only [SubData.Holds] at h
    simp [h.1, h.2]
  | module d =>
    simp only [SubData.goVal, SrModuleData.goVal, GoVal.Ok, GoVal.OkFields, isAscii_iff, true_and, and_true]
    simp
  | term d =>
    simp only [SubData.goVal, SrTermIdentity.goVal, GoVal.Ok, GoVal.OkFields, isAscii_iff, true_and, and_true]
    simp
    split <;> trivial
  | _ =>
    simp only [SubData.goVal, SrResponse.goVal, SrResultCode.goVal, SrExtPosData.goVal,
      SrAdSensorsData.goVal, SrStateData.goVal, SrLiquidLevelSensor.goVal, SrAbsCntrData.goVal, SrAuthInfo.goVal,
      SrCountersData.goVal, SrAbsAnSensData.goVal, SrDispatcherIdentity.goVal, GoVal.Ok, GoVal.OkFields, isAscii_iff, true_and, and_true]
    simp

theorem recordData_ok (rd : RecordData) (h : ∀ d, rd.subrecordData = some d → d.Holds) : rd.goVal.Ok := by
  unfold RecordData.goVal
  simp only [GoVal.Ok, GoVal.OkFields, isAscii_iff, true_and, and_true]
  cases hs : rd.subrecordData with
  | none => simp [GoVal.Ok]
  | some d => simp [subData_ok d (h d hs)]

theorem record_ok (isNil : Bool) (r : ServiceDataRecord) (h : ∀ rd ∈ r.recordDataSet, ∀ d, rd.subrecordData = some d → d.Holds) :
    (r.goVal isNil).Ok := by
  have hr : (if r.recordDataSet = [] ∧ isNil then GoVal.null else .list (r.recordDataSet.map RecordData.goVal)).Ok := by
    split
    · trivial
    · simp only [GoVal.Ok, GoVal.okList_iff]
      intro v hv
      obtain ⟨rd, hrd, rfl⟩ := List.mem_map.mp hv
      exact recordData_ok rd (h rd hrd)
  unfold ServiceDataRecord.goVal
  simp only [GoVal.Ok, GoVal.OkFields, isAscii_iff, true_and, and_true, hr]
  simp

theorem set_ok (nils : Nat → Bool) (s : List ServiceDataRecord) (h : ∀ r ∈ s, ∀ rd ∈ r.recordDataSet, ∀ d, rd.subrecordData = some d → d.Holds) :
    (setVal nils s).Ok := by
  unfold setVal
  simp only [GoVal.Ok, GoVal.okList_iff]
  intro v hv
  obtain ⟨i, hi, rfl⟩ := List.mem_mapIdx.mp hv
  exact record_ok _ _ (h _ (List.getElem_mem hi))

theorem package_ok (nils : Nat → Bool) (p : Package) (h : ∀ r ∈ p.records, ∀ rd ∈ r.recordDataSet, ∀ d, rd.subrecordData = some d → d.Holds) :
    (p.goVal nils).Ok := by
  unfold Package.records at h
  have hs : GoVal.Ok (match p.servicesFrameData with | none => .null | some (.sds s) => setVal nils s | some (.resp r) => r.goVal nils) := by
    cases hs : p.servicesFrameData with
    | none => trivial
    | some d =>
      rw [hs] at h
      cases d with
      | sds s => exact set_ok nils s h
      | resp r =>
        simp only [PtResponse.goVal, GoVal.Ok, GoVal.OkFields, isAscii_iff, true_and, and_true]
        cases hr : r.sdr with
        | none => simp [GoVal.Ok]
        | some s =>
          have := set_ok nils s (by simpa [hr] using h)
          simp [this]
  unfold Package.goVal
  simp only [GoVal.Ok, GoVal.OkFields, isAscii_iff, true_and, and_true]
  simp
  exact hs

/-! ## Packages -/

/-- There is a text exactly if every time is in the years 0 to 9999 and every number is finite. -/
theorem toBytes_isSome (nils : Nat → Bool) (p : Package) :
    (p.toBytes nils).isSome ↔ (∀ t ∈ p.times, TimeOk t) ∧ ∀ x ∈ p.floats, FiniteF32 x := by
  unfold Package.toBytes
  rw [GoVal.json_isSome, package_times, package_floats]

theorem readable_fit {p : Package} (h : p.Readable) (ht : ∀ t ∈ p.times, TimeOk t) (hf : ∀ x ∈ p.floats, FiniteF32 x) : p.Fit := by
  intro r hr
  refine ⟨ht _ (List.mem_flatMap.mpr ⟨r, hr, List.mem_cons_self ..⟩), fun rd hrd => ⟨(h r hr rd hrd).1, fun d hd => ?_⟩⟩
  have hh := (h r hr rd hrd).2 d hd
  cases d with
  | pos d =>
    refine ⟨ht _ (List.mem_flatMap.mpr ⟨r, hr, List.mem_cons_of_mem _ (List.mem_flatMap.mpr ⟨rd, hrd, ?_⟩)⟩), hh.1, hh.2⟩
    rw [hd]
    exact List.mem_singleton.mpr rfl
  | plus m =>
    refine ⟨hh, fun x hx => hf x (List.mem_flatMap.mpr ⟨r, hr, List.mem_flatMap.mpr ⟨rd, hrd, ?_⟩⟩)⟩
    rw [hd]
    exact hx
  | _ => trivial

/-- What is written is read back. -/
theorem readPackage_toBytes {nils : Nat → Bool} {p : Package} {b : Bytes} (h : p.Readable) (hb : p.toBytes nils = some b) :
    readPackage b = some (p.shown repair) ∧ Utf8.WellFormed b := by
  have hok := package_ok nils p fun r hr rd hrd => (h r hr rd hrd).2
  obtain ⟨ht, hf⟩ := (toBytes_isSome nils p).mp (by rw [hb]; rfl)
  unfold Package.toBytes at hb
  refine ⟨?_, GoVal.json_wellFormed _ _ hok hb⟩
  unfold readPackage
  rw [GoVal.parse_json hok hb, Option.bind_some]
  exact readPackageValue_eq nils p (readable_fit h ht hf)

end Egts
