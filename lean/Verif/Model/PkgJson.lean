import Verif.Model.Package
import Verif.Model.Marshal

/-! # `Package.ToBytes` (`libs/egts/egts_pkg.go:275-278`)

`json.Marshal` of a package: the fields of the structures under the names in their tags. -/

namespace Egts

/-- `SrPosData` (`egts_sr_pos_data.go:13-34`). -/
def SrPosData.goVal (d : SrPosData) : GoVal :=
  .struct
    [(go!"NTM", .time d.navigationTime), (go!"LAT", .f64 d.latitude), (go!"LONG", .f64 d.longitude), (go!"ALTE", .str d.alte),
     (go!"LOHS", .str d.lohs), (go!"LAHS", .str d.lahs), (go!"MV", .str d.mv), (go!"BB", .str d.bb), (go!"CS", .str d.cs),
     (go!"FIX", .str d.fix), (go!"VLD", .str d.vld), (go!"DIRH", .uint d.directionHighestBit.toNat),
     (go!"ALTS", .uint d.altitudeSign.toNat), (go!"SPD", .uint d.speed.toNat), (go!"DIR", .uint d.direction.toNat),
     (go!"ODM", .uint d.odometer.toNat), (go!"DIN", .uint d.digitalInputs.toNat), (go!"SRC", .uint d.source.toNat),
     (go!"ALT", .uint d.altitude.toNat), (go!"SRCD", .int d.sourceData)]

/-- `SrTermIdentity` (`egts_sr_term_identity.go:12-29`). Simplification: the empty list stands for the nil slice of bytes; `Decode` leaves the
field nil or makes three bytes. -/
def SrTermIdentity.goVal (d : SrTermIdentity) : GoVal :=
  .struct
    [(go!"TID", .uint d.terminalIdentifier.toNat), (go!"MNE", .str d.mne), (go!"BSE", .str d.bse), (go!"NIDE", .str d.nide),
     (go!"SSRA", .str d.ssra), (go!"LNGCE", .str d.lngce), (go!"IMSIE", .str d.imsie), (go!"IMEIE", .str d.imeie),
     (go!"HDIDE", .str d.hdide), (go!"HDID", .uint d.homeDispatcherIdentifier.toNat), (go!"IMEI", .str d.imei),
     (go!"IMSI", .str d.imsi), (go!"LNGC", .str d.languageCode),
     (go!"NID", if d.networkIdentifier = [] then .null else .bytes d.networkIdentifier), (go!"BS", .uint d.bufferSize.toNat),
     (go!"MSISDN", .str d.mobileNumber)]

/-- `SrModuleData` (`egts_sr_module_data.go:15-26`). The module type is an `int8`. -/
def SrModuleData.goVal (d : SrModuleData) : GoVal :=
  .struct
    [(go!"MT", .int (if d.moduleType.toNat < 128 then d.moduleType.toNat else d.moduleType.toNat - 256)),
     (go!"VID", .uint d.vendorID.toNat), (go!"FWV", .uint d.firmwareVersion.toNat), (go!"SWV", .uint d.softwareVersion.toNat),
     (go!"MD", .uint d.modification.toNat), (go!"ST", .uint d.state.toNat), (go!"SRN", .str d.serialNumber),
     (go!"DSCR", .str d.description)]

/-- `SrResponse` (`egts_sr_response.go:11-14`). -/
def SrResponse.goVal (d : SrResponse) : GoVal :=
  .struct
    [(go!"CRN", .uint d.confirmedRecordNumber.toNat), (go!"RST", .uint d.recordStatus.toNat)]

/-- `SrResultCode` (`egts_sr_result_code.go:10-12`). -/
def SrResultCode.goVal (d : SrResultCode) : GoVal :=
  .struct
    [(go!"RCD", .uint d.resultCode.toNat)]

/-- `SrExtPosData` (`egts_sr_ext_pos_data.go:12-23`). -/
def SrExtPosData.goVal (d : SrExtPosData) : GoVal :=
  .struct
    [(go!"NSFE", .str d.nsfe), (go!"SFE", .str d.sfe), (go!"PFE", .str d.pfe), (go!"HFE", .str d.hfe), (go!"VFE", .str d.vfe),
     (go!"VDOP", .uint d.vdop.toNat), (go!"HDOP", .uint d.hdop.toNat), (go!"PDOP", .uint d.pdop.toNat),
     (go!"SAT", .uint d.satellites.toNat), (go!"NS", .uint d.navigationSystem.toNat)]

/-- `SrAdSensorsData` (`egts_sr_ad_sensors_data.go:13-47`). -/
def SrAdSensorsData.goVal (d : SrAdSensorsData) : GoVal :=
  .struct
    [(go!"DIOE1", .str d.dioe1), (go!"DIOE2", .str d.dioe2), (go!"DIOE3", .str d.dioe3), (go!"DIOE4", .str d.dioe4),
     (go!"DIOE5", .str d.dioe5), (go!"DIOE6", .str d.dioe6), (go!"DIOE7", .str d.dioe7), (go!"DIOE8", .str d.dioe8),
     (go!"DOUT", .uint d.digitalOutputs.toNat), (go!"ASFE1", .str d.asfe1), (go!"ASFE2", .str d.asfe2),
     (go!"ASFE3", .str d.asfe3), (go!"ASFE4", .str d.asfe4), (go!"ASFE5", .str d.asfe5), (go!"ASFE6", .str d.asfe6),
     (go!"ASFE7", .str d.asfe7), (go!"ASFE8", .str d.asfe8), (go!"ADIO1", .uint d.adio1.toNat),
     (go!"ADIO2", .uint d.adio2.toNat), (go!"ADIO3", .uint d.adio3.toNat), (go!"ADIO4", .uint d.adio4.toNat),
     (go!"ADIO5", .uint d.adio5.toNat), (go!"ADIO6", .uint d.adio6.toNat), (go!"ADIO7", .uint d.adio7.toNat),
     (go!"ADIO8", .uint d.adio8.toNat), (go!"ANS1", .uint d.ans1.toNat), (go!"ANS2", .uint d.ans2.toNat),
     (go!"ANS3", .uint d.ans3.toNat), (go!"ANS4", .uint d.ans4.toNat), (go!"ANS5", .uint d.ans5.toNat),
     (go!"ANS6", .uint d.ans6.toNat), (go!"ANS7", .uint d.ans7.toNat), (go!"ANS8", .uint d.ans8.toNat)]

/-- `SrStateData` (`egts_sr_state_data.go:12-20`). -/
def SrStateData.goVal (d : SrStateData) : GoVal :=
  .struct
    [(go!"ST", .uint d.state.toNat), (go!"MPSV", .uint d.mainPowerSourceVoltage.toNat),
     (go!"BBV", .uint d.backUpBatteryVoltage.toNat), (go!"IBV", .uint d.internalBatteryVoltage.toNat), (go!"NMS", .str d.nms),
     (go!"IBU", .str d.ibu), (go!"BBU", .str d.bbu)]

/-- `SrLiquidLevelSensor` (`egts_sr_liquid_level_sensor.go:12-19`). -/
def SrLiquidLevelSensor.goVal (d : SrLiquidLevelSensor) : GoVal :=
  .struct
    [(go!"LLSEF", .str d.errorFlag), (go!"LLSVU", .str d.valueUnit), (go!"RDF", .str d.rawDataFlag),
     (go!"LLSN", .uint d.sensorNumber.toNat), (go!"MADDR", .uint d.moduleAddress.toNat), (go!"LLSD", .uint d.sensorData.toNat)]

/-- `SrAbsCntrData` (`egts_sr_abs_cntr_data.go:12-15`). -/
def SrAbsCntrData.goVal (d : SrAbsCntrData) : GoVal :=
  .struct
    [(go!"CN", .uint d.counterNumber.toNat), (go!"CNV", .uint d.counterValue.toNat)]

/-- `SrAuthInfo` (`egts_sr_auth_info.go:12-16`). -/
def SrAuthInfo.goVal (d : SrAuthInfo) : GoVal :=
  .struct
    [(go!"UNM", .str d.userName), (go!"UPSW", .str d.userPassword), (go!"SS", .str d.serverSequence)]

/-- `SrCountersData` (`egts_sr_counters_data.go:12-29`). -/
def SrCountersData.goVal (d : SrCountersData) : GoVal :=
  .struct
    [(go!"CFE1", .str d.cfe1), (go!"CFE2", .str d.cfe2), (go!"CFE3", .str d.cfe3), (go!"CFE4", .str d.cfe4),
     (go!"CFE5", .str d.cfe5), (go!"CFE6", .str d.cfe6), (go!"CFE7", .str d.cfe7), (go!"CFE8", .str d.cfe8),
     (go!"CN1", .uint d.cn1.toNat), (go!"CN2", .uint d.cn2.toNat), (go!"CN3", .uint d.cn3.toNat), (go!"CN4", .uint d.cn4.toNat),
     (go!"CN5", .uint d.cn5.toNat), (go!"CN6", .uint d.cn6.toNat), (go!"CN7", .uint d.cn7.toNat), (go!"CN8", .uint d.cn8.toNat)]

/-- `SrAbsAnSensData` (`egts_sr_abs_an_sensors_data.go:10-13`). -/
def SrAbsAnSensData.goVal (d : SrAbsAnSensData) : GoVal :=
  .struct
    [(go!"SensorNumber", .uint d.sensorNumber.toNat), (go!"Value", .uint d.value.toNat)]

/-- `SrDispatcherIdentity` (`egts_sr_dispatcher_identity.go:12-16`). -/
def SrDispatcherIdentity.goVal (d : SrDispatcherIdentity) : GoVal :=
  .struct
    [(go!"DT", .uint d.dispatcherType.toNat), (go!"DID", .uint d.dispatcherID.toNat), (go!"DSCR", .str d.description)]

/-! ## The messages of EGTS+ data -/

/-- The Go types of the fields of these messages. -/
inductive JKind
  /-- `*uint32` -/
  | u32
  /-- `*int32` -/
  | i32
  /-- `*bool` -/
  | bool
  /-- `*float32` -/
  | f32
  /-- `[]byte` -/
  | bytes
  deriving DecidableEq, Repr

/-- An `int32` given by its bits. -/
def int32 (n : UInt32) : Int := if n.toNat < 2 ^ 31 then n.toNat else (n.toNat : Int) - 2 ^ 32

/-- A field with the tag `omitempty`: nil pointers and slices without elements are left out. -/
def JKind.goVal : JKind → Option Proto.Val → Option GoVal
  | .u32, some (.num n) => some (.uint n.toNat)
  | .i32, some (.num n) => some (.int (int32 n))
  | .bool, some (.flag b) => some (.bool b)
  | .f32, some (.num n) => some (.f32 n)
  | .bytes, some (.bytes b) => if b = [] then none else some (.bytes b)
  | _, _ => none

/-- `SensAccelerometerData` (`egts_sr_egtsplus_data.go:421-430`): number, name and type of the fields, in the order of their declaration. -/
def sensAccelerometerDataJson : List (Nat × Bytes × JKind) :=
  [(1, go!"sens_num", .u32), (2, go!"buf", .bytes), (3, go!"atm", .u32), (4, go!"frequency", .u32), (5, go!"range", .u32),
   (6, go!"format", .u32), (7, go!"zlib", .u32)]

/-- `SensAinAinValue` (`egts_sr_egtsplus_data.go:487-491`): number, name and type of the fields, in the order of their declaration. -/
def sensAinAinValueJson : List (Nat × Bytes × JKind) :=
  [(1, go!"sens_num", .u32), (2, go!"mv", .u32)]

/-- `SensBufferData` (`egts_sr_egtsplus_data.go:513-518`): number, name and type of the fields, in the order of their declaration. -/
def sensBufferDataJson : List (Nat × Bytes × JKind) :=
  [(1, go!"sens_num", .u32), (2, go!"data", .bytes), (3, go!"is_packed", .bool)]

/-- `SensButtonPressCounter` (`egts_sr_egtsplus_data.go:547-551`): number, name and type of the fields, in the order of their declaration. -/
def sensButtonPressCounterJson : List (Nat × Bytes × JKind) :=
  [(1, go!"sens_num", .u32), (2, go!"state", .bool)]

/-- `SensCanLogData` (`egts_sr_egtsplus_data.go:573-590`): number, name and type of the fields, in the order of their declaration. -/
def sensCanLogDataJson : List (Nat × Bytes × JKind) :=
  [(1, go!"sens_num", .u32), (2, go!"flag_security_state", .u32), (3, go!"flag_alarm", .u32), (4, go!"engine_time_all", .u32),
   (5, go!"engine_turn_speed", .u32), (6, go!"engine_temperature", .i32), (7, go!"fuel_consumption_all", .u32),
   (8, go!"fuel_level", .u32), (9, go!"track_all", .u32), (10, go!"speed", .u32), (11, go!"pressure_axis_1", .u32),
   (12, go!"pressure_axis_2", .u32), (13, go!"pressure_axis_3", .u32), (14, go!"pressure_axis_4", .u32),
   (15, go!"pressure_axis_5", .u32)]

/-- `SensCanLogTmpDataExt` (`egts_sr_egtsplus_data.go:703-708`): number, name and type of the fields, in the order of their declaration. -/
def sensCanLogTmpDataExtJson : List (Nat × Bytes × JKind) :=
  [(1, go!"sens_num", .u32), (2, go!"flags_high", .u32), (3, go!"flags_low", .u32)]

/-- `SensCounterCount` (`egts_sr_egtsplus_data.go:737-741`): number, name and type of the fields, in the order of their declaration. -/
def sensCounterCountJson : List (Nat × Bytes × JKind) :=
  [(1, go!"sens_num", .u32), (2, go!"value", .u32)]

/-- `SensCrashData` (`egts_sr_egtsplus_data.go:763-768`): number, name and type of the fields, in the order of their declaration. -/
def sensCrashDataJson : List (Nat × Bytes × JKind) :=
  [(1, go!"sens_num", .u32), (2, go!"energy", .u32), (3, go!"is_overturned", .bool)]

/-- `SensDinsFlags` (`egts_sr_egtsplus_data.go:797-802`): number, name and type of the fields, in the order of their declaration. -/
def sensDinsFlagsJson : List (Nat × Bytes × JKind) :=
  [(1, go!"sens_num", .u32), (2, go!"device", .u32), (3, go!"external", .u32)]

/-- `SensDoutsFlags` (`egts_sr_egtsplus_data.go:831-836`): number, name and type of the fields, in the order of their declaration. -/
def sensDoutsFlagsJson : List (Nat × Bytes × JKind) :=
  [(1, go!"sens_num", .u32), (2, go!"device", .u32), (3, go!"external", .u32)]

/-- `SensFmeterFrequency` (`egts_sr_egtsplus_data.go:865-869`): number, name and type of the fields, in the order of their declaration. -/
def sensFmeterFrequencyJson : List (Nat × Bytes × JKind) :=
  [(1, go!"sens_num", .u32), (2, go!"value", .u32)]

/-- `SensFuelLevel` (`egts_sr_egtsplus_data.go:891-899`): number, name and type of the fields, in the order of their declaration. -/
def sensFuelLevelJson : List (Nat × Bytes × JKind) :=
  [(1, go!"sens_num", .u32), (2, go!"value", .f32), (3, go!"parrots", .u32), (4, go!"unit", .u32), (5, go!"t", .u32),
   (6, go!"status", .u32)]

/-- `SensGsmCellMonotoringCellMonitoring` (`egts_sr_egtsplus_data.go:949-958`): number, name and type of the fields, in the order of their declaration. -/
def sensGsmCellMonotoringCellMonitoringJson : List (Nat × Bytes × JKind) :=
  [(1, go!"sens_num", .u32), (4, go!"lac", .bytes), (5, go!"cid", .bytes), (6, go!"rssi", .bytes), (7, go!"time_adv", .bytes),
   (2, go!"mcc", .u32), (3, go!"mnc", .u32)]

/-- `SensNdNavData` (`egts_sr_egtsplus_data.go:1017-1029`): number, name and type of the fields, in the order of their declaration. -/
def sensNdNavDataJson : List (Nat × Bytes × JKind) :=
  [(1, go!"sens_num", .u32), (2, go!"longitude", .i32), (3, go!"latitude", .i32), (4, go!"altitude", .u32),
   (5, go!"speed", .u32), (6, go!"course", .u32), (7, go!"sat_count", .u32), (8, go!"pdop", .u32), (9, go!"track", .u32),
   (10, go!"odometer", .u32)]

/-- `SensStorInfo` (`egts_sr_egtsplus_data.go:1107-1116`): number, name and type of the fields, in the order of their declaration. -/
def sensStorInfoJson : List (Nat × Bytes × JKind) :=
  [(1, go!"sens_num", .u32), (2, go!"id_max", .u32), (3, go!"id_min", .u32), (4, go!"tm_oldest", .u32),
   (5, go!"tm_oldest_unack", .u32), (6, go!"cnt_unack", .u32), (7, go!"cnt_unack_losted", .u32)]

/-- `SensTermoData` (`egts_sr_egtsplus_data.go:1173-1178`): number, name and type of the fields, in the order of their declaration. -/
def sensTermoDataJson : List (Nat × Bytes × JKind) :=
  [(1, go!"sens_num", .u32), (2, go!"status", .u32), (3, go!"temperature", .i32)]

/-- `SensTestEraTests` (`egts_sr_egtsplus_data.go:1207-1220`): number, name and type of the fields, in the order of their declaration. -/
def sensTestEraTestsJson : List (Nat × Bytes × JKind) :=
  [(1, go!"sens_num", .u32), (2, go!"mic_con_failure", .bool), (3, go!"mic_failure", .bool), (4, go!"ignition_failure", .bool),
   (5, go!"uim_failure", .bool), (6, go!"bat_failure", .bool), (7, go!"bat_volt_low", .bool),
   (8, go!"crash_sens_failure", .bool), (9, go!"raim_problem", .bool), (10, go!"gnss_antenna_failure", .bool),
   (11, go!"events_memory_overflow", .bool)]

/-- `SensTrackerInfo` (`egts_sr_egtsplus_data.go:1305-1312`): number, name and type of the fields, in the order of their declaration. -/
def sensTrackerInfoJson : List (Nat × Bytes × JKind) :=
  [(1, go!"sens_num", .u32), (2, go!"cnt_ack", .u32), (3, go!"cnt_ack_realtime", .u32), (4, go!"cnt_noack", .u32),
   (5, go!"cnt_connect", .u32)]

/-- A message with these fields; its values are in the order of the numbers of the fields, which begin with 1. The unknown fields
(`XXX_unrecognized`) have the tag `-`: they are left out. -/
def Proto.Sens.goVal (fields : List (Nat × Bytes × JKind)) (s : Proto.Sens) : GoVal :=
  .struct (fields.filterMap fun f => (f.2.2.goVal (s.vals.getD (f.1 - 1) none)).map fun v => (f.2.1, v))

/-- The repeated messages of `StorageRecord` (`egts_sr_egtsplus_data.go:203-237`): number, name and fields, in the order of their
declaration. -/
def storageJson : List (Nat × Bytes × List (Nat × Bytes × JKind)) :=
  [(18, go!"sens_accelerometer_data", sensAccelerometerDataJson), (9, go!"sens_ain_ain_value", sensAinAinValueJson),
   (20, go!"sens_buffer_data", sensBufferDataJson), (14, go!"sens_button_press_counter", sensButtonPressCounterJson),
   (16, go!"sens_can_log_data", sensCanLogDataJson), (17, go!"sens_can_log_tmp_data_ext", sensCanLogTmpDataExtJson),
   (11, go!"sens_counter_count", sensCounterCountJson), (24, go!"sens_crash_data", sensCrashDataJson),
   (10, go!"sens_dins_flags", sensDinsFlagsJson), (19, go!"sens_douts_flags", sensDoutsFlagsJson),
   (12, go!"sens_fmeter_frequency", sensFmeterFrequencyJson), (8, go!"sens_fuel_level", sensFuelLevelJson),
   (13, go!"sens_gsm_cell_monotoring_cell_monitoring", sensGsmCellMonotoringCellMonitoringJson),
   (7, go!"sens_nd_nav_data", sensNdNavDataJson), (21, go!"sens_stor_info", sensStorInfoJson),
   (15, go!"sens_termo_data", sensTermoDataJson), (23, go!"sens_test_era_tests", sensTestEraTestsJson),
   (22, go!"sens_tracker_info", sensTrackerInfoJson)]

/-- The repeated messages, `omitempty`. -/
def StorageRecord.sensFields (m : StorageRecord) : List (Bytes × GoVal) :=
  storageJson.filterMap fun f =>
    let ms := m.sens.getD (f.1 - 7) []
    if ms = [] then none else some (f.2.1, .list (ms.map (Proto.Sens.goVal f.2.2)))

/-- A pointer to a number, `omitempty` (`egts_sr_egtsplus_data.go:195`, `:197`, `:201`). -/
def optField (key : Bytes) : Option UInt32 → List (Bytes × GoVal)
  | some n => [(key, .uint n.toNat)]
  | none => []

/-- `StorageRecord` (`egts_sr_egtsplus_data.go:193-239`). -/
def StorageRecord.goVal (m : StorageRecord) : GoVal :=
  .struct
    (optField (go!"record_number") m.recordNumber
      ++ optField (go!"time_stamp") m.timeStamp
      ++ (if m.recordReason = [] then [] else [(go!"record_reason", .list (m.recordReason.map fun n => .int (int32 n)))])
      ++ optField (go!"status_flags") m.statusFlags
      ++ m.sensFields)

/-! ## Packages -/

/-- The content of the interface `SubrecordData`. -/
def SubData.goVal : SubData → GoVal
  | .pos d => d.goVal
  | .term d => d.goVal
  | .module d => d.goVal
  | .resp d => d.goVal
  | .result d => d.goVal
  | .extPos d => d.goVal
  | .adSens d => d.goVal
  | .state d => d.goVal
  | .liquid d => d.goVal
  | .absCntr d => d.goVal
  | .auth d => d.goVal
  | .counters d => d.goVal
  | .plus d => d.goVal
  | .absAn d => d.goVal
  | .disp d => d.goVal

/-- `RecordData` (`record_data.go:12-16`). -/
def RecordData.goVal (rd : RecordData) : GoVal :=
  .struct
    [(go!"SRT", .uint rd.subrecordType.toNat), (go!"SRL", .uint rd.subrecordLength.toNat),
     (go!"SRD", match rd.subrecordData with | none => .null | some d => d.goVal)]

/-- `ServiceDataRecord` (`service_data_records.go:15-31`). `isNil` tells whether a set of subrecords without elements is nil; the
model of the records does not distinguish this. -/
def ServiceDataRecord.goVal (isNil : Bool) (r : ServiceDataRecord) : GoVal :=
  .struct
    [(go!"RL", .uint r.recordLength.toNat), (go!"RN", .uint r.recordNumber.toNat), (go!"SSOD", .str r.ssod),
     (go!"RSOD", .str r.rsod), (go!"GRP", .str r.grp), (go!"RPP", .str r.rpp), (go!"TMFE", .str r.tmfe),
     (go!"EVFE", .str r.evfe), (go!"OBFE", .str r.obfe), (go!"OID", .uint r.objectIdentifier.toNat),
     (go!"EVID", .uint r.eventIdentifier.toNat), (go!"TM", .time r.time), (go!"SST", .uint r.sourceServiceType.toNat),
     (go!"RST", .uint r.recipientServiceType.toNat),
     (go!"RD", if r.recordDataSet = [] ∧ isNil then .null else .list (r.recordDataSet.map RecordData.goVal))]

/-- `ServiceDataSet` (`service_data_records.go:35`); `nils` tells of each record whether its set of subrecords is nil, if it has
no elements. Simplification: a set of records without elements is taken to be not nil, as in the code of the library
(`egts_pkg.go:134`, `egts_pt_response.go:35`). -/
def setVal (nils : Nat → Bool) (s : List ServiceDataRecord) : GoVal := .list (s.mapIdx fun i r => r.goVal (nils i))

/-- `PtResponse` (`egts_pt_response.go:10-14`). -/
def PtResponse.goVal (nils : Nat → Bool) (r : PtResponse) : GoVal :=
  .struct
    [(go!"RPID", .uint r.responsePacketID.toNat), (go!"PR", .uint r.processingResult.toNat),
     (go!"SDR", match r.sdr with | none => .null | some s => setVal nils s)]

/-- `Package` (`egts_pkg.go:16-35`). -/
def Package.goVal (nils : Nat → Bool) (p : Package) : GoVal :=
  .struct
    [(go!"PRV", .uint p.protocolVersion.toNat), (go!"SKID", .uint p.securityKeyID.toNat), (go!"PRF", .str p.prefix_),
     (go!"RTE", .str p.route), (go!"ENA", .str p.encryptionAlg), (go!"CMP", .str p.compression), (go!"PR", .str p.priority),
     (go!"HL", .uint p.headerLength.toNat), (go!"HE", .uint p.headerEncoding.toNat), (go!"FDL", .uint p.frameDataLength.toNat),
     (go!"PID", .uint p.packetIdentifier.toNat), (go!"PT", .uint p.packetType.toNat), (go!"PRA", .uint p.peerAddress.toNat),
     (go!"RCA", .uint p.recipientAddress.toNat), (go!"TTL", .uint p.timeToLive.toNat), (go!"HCS", .uint p.headerCheckSum.toNat),
     (go!"SFRD", match p.servicesFrameData with | none => .null | some (.sds s) => setVal nils s | some (.resp r) => r.goVal nils),
     (go!"SFRCS", .uint p.servicesFrameDataCheckSum.toNat)]

/-- `Package.ToBytes` (`egts_pkg.go:276-278`); `none` stands for an error. -/
def Package.toBytes (nils : Nat → Bool) (p : Package) : Option Bytes := (p.goVal nils).json

end Egts
