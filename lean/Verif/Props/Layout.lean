import Verif.Proofs.LayoutRec
import Verif.Props.Decode

/-! # What is made of arbitrary bytes (C81) -/

namespace Egts
open Layout

/-! ## Subrecords -/

theorem C81_record_response (env : Env) (d0 y : SrResponse) (b : Bytes) :
    SrResponse.decode env d0 b = .ok y ↔ 3 ≤ b.length ∧ (∃ rs, IsRecords (b.drop 3) rs) ∧ y = SrResponse.read b := resp_iff env d0 y b

example (env : Env) : SrResponse.decode env {} [5, 1, 7] = .ok { confirmedRecordNumber := 261, recordStatus := 7 } := by
  with_unfolding_all rfl

theorem C81_result_code (d0 y : SrResultCode) (b : Bytes) :
    SrResultCode.decode d0 b = .ok y ↔ 1 ≤ b.length ∧ y = SrResultCode.read b := result_read d0 b y

theorem C81_state_data (d0 y : SrStateData) (b : Bytes) :
    SrStateData.decode d0 b = .ok y ↔ 5 ≤ b.length ∧ y = SrStateData.read b := state_read d0 b y

example : SrStateData.read [1, 2, 3, 4, 0b10000101, 9] =
    { state := 1, mainPowerSourceVoltage := 2, backUpBatteryVoltage := 3, internalBatteryVoltage := 4, nms := go!"1", ibu := go!"0", bbu := go!"1" } := by
  decide +kernel

theorem C81_abs_counter (d0 y : SrAbsCntrData) (b : Bytes) :
    SrAbsCntrData.decode d0 b = .ok y ↔ 2 ≤ b.length ∧ y = SrAbsCntrData.read b := absCntr_read d0 b y

/-- Cut after two bytes of the value. -/
example : SrAbsCntrData.read [1, 7, 2] = { counterNumber := 1, counterValue := 519 } := by decide +kernel

theorem C81_abs_analog (d0 y : SrAbsAnSensData) (b : Bytes) :
    SrAbsAnSensData.decode d0 b = .ok y ↔ 4 ≤ b.length ∧ y = SrAbsAnSensData.read b := absAn_read d0 b y

theorem C81_dispatcher (d0 y : SrDispatcherIdentity) (b : Bytes) :
    SrDispatcherIdentity.decode d0 b = .ok y ↔ 2 ≤ b.length ∧ y = SrDispatcherIdentity.read b := disp_read d0 b y

example : SrDispatcherIdentity.read [1, 2, 0, 0, 1, 65, 66] =
    { dispatcherType := 1, dispatcherID := 16777218, description := go!"AB" } := by decide +kernel

theorem C81_liquid_level (d0 y : SrLiquidLevelSensor) (b : Bytes) :
    SrLiquidLevelSensor.decode d0 b = .ok y ↔ 4 ≤ b.length ∧ y = SrLiquidLevelSensor.read b := liquid_read d0 b y

example : SrLiquidLevelSensor.read [0b01101011, 1, 2, 3, 4] =
    { errorFlag := go!"1", valueUnit := go!"10", rawDataFlag := go!"1", sensorNumber := 3, moduleAddress := 513, sensorData := 1027 } := by
  decide +kernel

theorem C81_ext_pos (d0 y : SrExtPosData) (b : Bytes) :
    SrExtPosData.decode d0 b = .ok y ↔ (1 ≤ b.length ∧ Begun b (SrExtPosData.fields b)) ∧ y = SrExtPosData.read d0 b := extPos_read d0 b y

/-- VDOP, satellites and half of the navigation systems: the missing byte is that of VDOP. -/
example : Begun [0b11001, 1, 2, 3, 4] (SrExtPosData.fields [0b11001, 1, 2, 3, 4]) ∧
    (SrExtPosData.read { hdop := 9 } [0b11001, 1, 2, 3, 4]).navigationSystem = 516 ∧
    (SrExtPosData.read { hdop := 9 } [0b11001, 1, 2, 3, 4]).vdop = 513 ∧ (SrExtPosData.read { hdop := 9 } [0b11001, 1, 2, 3, 4]).hdop = 9 := by
  decide +kernel
/-- The last field has not begun. -/
example : ¬ Begun [0b11001, 1, 2, 3] (SrExtPosData.fields [0b11001, 1, 2, 3]) := by decide +kernel

theorem C81_ad_sensors (d0 y : SrAdSensorsData) (b : Bytes) :
    SrAdSensorsData.decode d0 b = .ok y ↔ (3 ≤ b.length ∧ Begun b (SrAdSensorsData.fields b)) ∧ y = SrAdSensorsData.read d0 b :=
  adSens_read d0 b y

/-- Digital inputs 1 and 8, analog sensors 2 and 3, the last one cut: its missing bytes are those of sensor 2. -/
example : Begun [0b10000001, 7, 0b110, 11, 18, 1, 2, 3, 9] (SrAdSensorsData.fields [0b10000001, 7, 0b110, 11, 18, 1, 2, 3, 9]) ∧
    (SrAdSensorsData.read {} [0b10000001, 7, 0b110, 11, 18, 1, 2, 3, 9]).adio8 = 18 ∧
    (SrAdSensorsData.read {} [0b10000001, 7, 0b110, 11, 18, 1, 2, 3, 9]).ans2 = 197121 ∧
    (SrAdSensorsData.read {} [0b10000001, 7, 0b110, 11, 18, 1, 2, 3, 9]).ans3 = 197129 := by decide +kernel

theorem C81_counters (d0 y : SrCountersData) (b : Bytes) :
    SrCountersData.decode d0 b = .ok y ↔ (1 ≤ b.length ∧ Begun b (SrCountersData.fields b)) ∧ y = SrCountersData.read d0 b :=
  counters_read d0 b y

/-- Counters 1, 2 and 4, the last one cut. -/
example : Begun [0b1011, 1, 0, 0, 2, 5, 0, 9] (SrCountersData.fields [0b1011, 1, 0, 0, 2, 5, 0, 9]) ∧
    (SrCountersData.read { cn2 := 7 } [0b1011, 1, 0, 0, 2, 5, 0, 9]).cn1 = 1282 ∧
    (SrCountersData.read { cn2 := 7 } [0b1011, 1, 0, 0, 2, 5, 0, 9]).cn2 = 7 ∧
    (SrCountersData.read { cn2 := 7 } [0b1011, 1, 0, 0, 2, 5, 0, 9]).cn4 = 1289 := by decide +kernel

theorem C81_term_identity (d0 y : SrTermIdentity) (b : Bytes) :
    SrTermIdentity.decode d0 b = .ok y ↔ (5 ≤ b.length ∧ Begun b (SrTermIdentity.fields b)) ∧ y = SrTermIdentity.read d0 b :=
  term_read d0 b y

/-- Home dispatcher, language and half of the buffer size. -/
example : Begun [1, 0, 0, 0, 0b01001001, 2, 3, 114, 117, 115, 5] (SrTermIdentity.fields [1, 0, 0, 0, 0b01001001, 2, 3, 114, 117, 115, 5]) ∧
    (SrTermIdentity.read {} [1, 0, 0, 0, 0b01001001, 2, 3, 114, 117, 115, 5]).homeDispatcherIdentifier = 770 ∧
    (SrTermIdentity.read {} [1, 0, 0, 0, 0b01001001, 2, 3, 114, 117, 115, 5]).languageCode = go!"rus" ∧
    (SrTermIdentity.read {} [1, 0, 0, 0, 0b01001001, 2, 3, 114, 117, 115, 5]).bufferSize = 5 := by decide +kernel

theorem C81_auth (d0 y : SrAuthInfo) (b : Bytes) : SrAuthInfo.decode d0 b = .ok y ↔ SrAuthInfo.Read d0 b y := auth_read d0 b y

example : SrAuthInfo.Read { serverSequence := go!"z" } [97, 0, 98, 0] { userName := go!"a", userPassword := go!"b", serverSequence := go!"z" } :=
  ⟨by unfold NoNul; decide, by unfold NoNul; decide, .inl ⟨rfl, rfl⟩⟩

theorem C81_module (d0 y : SrModuleData) (b : Bytes) : SrModuleData.decode d0 b = .ok y ↔ SrModuleData.Read b y := module_read d0 b y

example : SrModuleData.Read [1, 2, 0, 0, 0, 3, 0, 4, 0, 5, 6, 65, 0, 0, 9]
    { moduleType := 1, vendorID := 2, firmwareVersion := 3, softwareVersion := 4, modification := 5, state := 6, serialNumber := go!"A" } :=
  ⟨by decide, rfl, rfl, rfl, rfl, rfl, rfl, by unfold NoNul; decide, by unfold NoNul; decide, [9], rfl⟩

/-! ## Records -/

/-- What is read from a sequence of subrecords is appended to what is there. -/
theorem C81_subrecords (env : Env) (prior out : List RecordData) (b : Bytes) :
    RecordDataSet.decode env prior b = .ok out ↔ ∃ rds, IsSubrecords b rds ∧ out = prior ++ rds := rds_iff env prior out b

/-- Two subrecords, one of unknown type between them; the second declares more data than there is. -/
example (env : Env) : RecordDataSet.decode env [] [9, 1, 0, 3, 200, 2, 0, 1, 1, 25, 4, 0, 1, 7] =
    .ok [{ subrecordType := 9, subrecordLength := 1, subrecordData := some (.result { resultCode := 3 }) },
      { subrecordType := 25, subrecordLength := 4, subrecordData := some (.absCntr { counterNumber := 1, counterValue := 7 }) }] := by
  with_unfolding_all rfl

theorem C81_records (env : Env) (prior out : List ServiceDataRecord) (b : Bytes) :
    ServiceDataSet.decode env prior b = .ok out ↔ ∃ rs, IsRecords b rs ∧ out = prior ++ rs := sds_iff env prior out b

/-- A record with an object and one subrecord, and a record whose data are missing. -/
def twoRecords : Bytes := [4, 0, 1, 0, 0b10000001, 7, 0, 0, 0, 2, 2, 9, 1, 0, 3, 99, 0, 2, 0, 0, 1, 1]

example (env : Env) : ∃ r1 r2, ServiceDataSet.decode env [] twoRecords = .ok [r1, r2] ∧ r1.objectIdentifier = 7 ∧
    r1.recordDataSet = [{ subrecordType := 9, subrecordLength := 1, subrecordData := some (.result { resultCode := 3 }) }] ∧
    r2.recordNumber = 2 ∧ r2.recordDataSet = [] := ⟨_, _, by with_unfolding_all rfl, rfl, rfl, rfl, rfl⟩

/-- Bytes stand for at most one sequence of records, and of subrecords. -/
theorem C81_unambiguous (b : Bytes) :
    (∀ rs rs' : List ServiceDataRecord, IsRecords b rs → IsRecords b rs' → rs = rs') ∧
    (∀ rds rds' : List RecordData, IsSubrecords b rds → IsSubrecords b rds' → rds = rds') :=
  ⟨fun _ _ h h' => records_unique h h', fun _ _ h h' => subrecords_unique h h'⟩

example : ∃ rs, IsRecords twoRecords rs ∧ rs.length = 2 := by
  obtain ⟨rs, h, e⟩ := (C81_records ⟨fun _ => 0⟩ [] _ twoRecords).mp (by with_unfolding_all rfl)
  exact ⟨rs, h, by rw [List.nil_append] at e; subst e; rfl⟩

/-- The content of a response. -/
theorem C81_response (env : Env) (y : PtResponse) (b : Bytes) : PtResponse.decode env {} b = .ok y ↔ IsResponse b y :=
  ptResp_iff env {} y b rfl

example (env : Env) : PtResponse.decode env {} ([5, 1, 0] ++ [0, 0, 2, 0, 0, 1, 1]) =
    .ok { responsePacketID := 261, processingResult := 0, sdr := some [ServiceDataRecord.head [0, 0, 2, 0, 0, 1, 1]] } := by
  with_unfolding_all rfl

/-! ## Packages -/

theorem content_iff (env : Env) (key : Option SecretKey) (b : Bytes) (d : FrameData) (hp : Frame.pt b = 0 ∨ Frame.pt b = 1) :
    Frame.content env key b = .ok d ↔ IsContent key b d := by
  simp only [Frame.content, bind_eq_ok, IsContent]
  refine exists_congr fun x => and_congr_right fun _ => ?_
  by_cases h1 : Frame.pt b = 1
  · simp only [h1, if_true, bind_eq_ok, ok_pure, sds_iff, List.nil_append, exists_eq_right', true_and]
    simp
  · have h0 : Frame.pt b = 0 := by omega
    simp only [h0, show (0 : Nat) ≠ 1 by omega, if_false, bind_eq_ok, ok_pure, C81_response]
    simp

/-- `Decode` accepts exactly the frames that are complete, with right checksums and a content in the layout, and gives the package
they describe. -/
theorem C81_package (env : Env) (key : Option SecretKey) (p q : Package) (c : Slice) :
    Package.decode env key p c = .ret q 0 none ↔
      FrameOk c ∧ ∃ d, IsContent key c.data d ∧ q = Frame.package p c.data d := by
  have hr : Frame.rest c.data = [] ↔ c.data.length ≤ Frame.hcsPos c.data + 1 := by
    unfold Frame.rest; exact List.drop_eq_nil_iff
  have ha : Frame.after c.data = [] ↔ c.data.length ≤ Frame.hcsPos c.data + 1 + Frame.fdl c.data := by
    unfold Frame.after Frame.rest
    rw [List.drop_drop]; exact List.drop_eq_nil_iff
  have hs := C12_stages env key p c
  constructor
  · intro h
    obtain ⟨_, d, h1, h2⟩ := C12_success_package env key p q c none h
    rw [h] at hs
    simp only [DecodeResult.outcome, Frame.outcome, hr, ha] at hs
    by_cases g1 : c.data.length ≤ Frame.hcsPos c.data
    · rw [if_pos g1] at hs; cases hs
    rw [if_neg g1] at hs
    by_cases g2 : c.all.length < Frame.headEnd c.data
    · rw [if_pos g2] at hs; cases hs
    rw [if_neg g2] at hs
    by_cases g3 : byteAt c.data (Frame.hcsPos c.data) ≠ (crc8 (c.all.take (Frame.headEnd c.data))).toNat
    · rw [if_pos g3] at hs; cases hs
    rw [if_neg g3] at hs
    by_cases g4 : c.data.length ≤ Frame.hcsPos c.data + 1
    · rw [if_pos g4] at hs; cases hs
    rw [if_neg g4] at hs
    by_cases g5 : Frame.pt c.data ≠ 0 ∧ Frame.pt c.data ≠ 1
    · rw [if_pos g5] at hs; cases hs
    rw [if_neg g5] at hs
    by_cases g6 : (Frame.content env key c.data).isOk = false
    · rw [if_pos g6] at hs; cases hs
    rw [if_neg g6] at hs
    by_cases g7 : c.data.length ≤ Frame.hcsPos c.data + 1 + Frame.fdl c.data
    · rw [if_pos g7] at hs; cases hs
    rw [if_neg g7] at hs
    by_cases g8 : Frame.bodyEnd c.data < Frame.hl c.data ∨ c.all.length < Frame.bodyEnd c.data
    · rw [if_pos g8] at hs; cases hs
    rw [if_neg g8] at hs
    by_cases g9 : Frame.sfrcs c.data ≠ (crc16 ((c.all.take (Frame.bodyEnd c.data)).drop (Frame.hl c.data))).toNat
    · rw [if_pos g9] at hs; cases hs
    exact ⟨⟨by omega, by omega, Classical.not_not.mp g3, by omega, by omega, Classical.not_not.mp g9⟩, d,
      (content_iff env key _ d (by omega)).mp h1, h2⟩
  · rintro ⟨⟨g1, g2, g3, g4, g5, g6⟩, d, h1, rfl⟩
    have hp : Frame.pt c.data = 0 ∨ Frame.pt c.data = 1 := by
      obtain ⟨_, _, ⟨h, _⟩ | ⟨h, _⟩⟩ := h1
      · exact .inr h
      · exact .inl h
    have hc := (content_iff env key _ d hp).mpr h1
    have ho : Frame.outcome env key c = .code 0 := by
      simp only [Frame.outcome, hr, ha]
      rw [if_neg (by omega), if_neg (by omega), if_neg (not_not.mpr g3), if_neg (by omega), if_neg (by omega), if_neg (by rw [hc]; simp [Except.isOk, Except.toBool]),
        if_neg (by omega), if_neg (by omega), if_neg (not_not.mpr g6)]
    rw [ho] at hs
    cases hd : Package.decode env key p c with
    | panic => rw [hd] at hs; cases hs
    | ret q' code err =>
      rw [hd] at hs
      simp only [DecodeResult.outcome, Frame.Outcome.code.injEq] at hs
      subst hs
      obtain ⟨rfl, d', h3, rfl⟩ := C12_success_package env key p q' c err hd
      rw [hc] at h3
      cases h3
      rfl

set_option maxRecDepth 20000 in
example : FrameOk ⟨respFrame, []⟩ := by
  refine ⟨by decide +kernel, by decide +kernel, by decide +kernel, by decide +kernel, by decide +kernel, by decide +kernel⟩
example : IsContent none respFrame (.resp { responsePacketID := 216, processingResult := 0 }) :=
  ⟨[216, 0, 0], by with_unfolding_all rfl, .inr ⟨by decide +kernel, _, ⟨by decide, by decide +kernel, by decide +kernel, .inl ⟨rfl, rfl⟩⟩, rfl⟩⟩

end Egts
