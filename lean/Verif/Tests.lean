import Verif.Model.Server
import Verif.Spec.Wire

/-!
# The model on the test vectors of the repository

These are checks of the model, not proofs of properties: the inputs and the expected results of the `*_test.go` files in
`/repo`, evaluated by the kernel in the model. They show that the model agrees with what the authors observed of the code.
-/

namespace Egts
namespace Tests

/-- An environment in which no out-of-range conversion occurs. -/
def env : Env := { f2u := fun _ => 0 }

/-- The double nearest to a decimal fraction. -/
def dec (n d : Nat) : F64 := rnd ((n : Rat) / (10 ^ d : Nat))

/-- seconds after 1970 -/
def unix (s : Int) : GoTime := s * 1000000000

/-! ## `crc_test.go` -/

example : crc8 (go!"123456789") = 0xF7 := by decide +kernel
example : crc16 (go!"123456789") = 0x29b1 := by decide +kernel

/-- `egts_pkg_test.go`: `egtsPkgPosDataBytes` -/
def pkgPosBytes : Bytes :=
  [1, 0, 3, 11, 0, 35, 0, 138, 0, 1, 73, 24, 0, 97, 0, 153, 176, 9, 2, 0, 2, 2, 16, 21, 0, 213, 63, 1, 16, 111, 28, 5,
   158, 122, 181, 60, 53, 1, 208, 135, 44, 1, 0, 0, 0, 0, 204, 39]

def pkgPosSub : SrPosData :=
  { navigationTime := unix 1530821333, latitude := dec 5555389399769574 14, longitude := dec 3743236696287812 14,
    alte := go!"0", lohs := go!"0", lahs := go!"0", mv := go!"0", bb := go!"0", cs := go!"0", fix := go!"0", vld := go!"1",
    directionHighestBit := 1, speed := 200, direction := 172, odometer := 1 }

def pkgPos (hl : UInt8) (rl : UInt16) (t : UInt8) (sl : UInt16) (crc : UInt16) : Package :=
  { protocolVersion := 1, prefix_ := go!"00", route := go!"0", encryptionAlg := go!"00", compression := go!"0", priority := go!"11",
    headerLength := hl, frameDataLength := 35, packetIdentifier := 138, packetType := 1, headerCheckSum := 73,
    servicesFrameDataCheckSum := crc, servicesFrameData := some (.sds
      [{ recordLength := rl, recordNumber := 97, ssod := go!"1", rsod := go!"0", grp := go!"0", rpp := go!"11", tmfe := go!"0",
         evfe := go!"0", obfe := go!"1", objectIdentifier := 133552, sourceServiceType := 2, recipientServiceType := 2,
         recordDataSet := [{ subrecordType := t, subrecordLength := sl, subrecordData := some (.pos pkgPosSub) }] }]) }

/-- `TestEgtsPackagePosData_Encode` -/
example : ((pkgPos 0 0 0 0 0).encode env none).2 = .ok pkgPosBytes := by decide +kernel
/-- `TestEgtsPackagePosData_Decode` -/
example : Package.decode env none {} ⟨pkgPosBytes, []⟩ = .ret (pkgPos 11 24 16 21 10188) 0 none := by decide +kernel
/-- `TestFullCycleCoding` -/
example : ((pkgPos 11 24 16 21 10188).encode env none).2 = .ok pkgPosBytes := by decide +kernel

def rebuildBytes : Bytes :=
  [1, 0, 2, 11, 0, 48, 0, 0, 18, 1, 132, 37, 0, 134, 0, 18, 108, 13, 0, 0, 2, 2, 16, 24, 0, 48, 29, 243, 20, 101, 206,
   134, 133, 222, 87, 255, 202, 155, 84, 1, 172, 191, 0, 0, 144, 0, 30, 0, 0, 27, 7, 0, 65, 1, 0, 0, 0, 0, 0, 240, 232]

def rebuildPos : SrPosData :=
  { navigationTime := unix 1613781040, latitude := dec 469429406935682 13, longitude := dec 142732571163851 12,
    alte := go!"1", lohs := go!"0", lahs := go!"0", mv := go!"1", bb := go!"1", cs := go!"0", fix := go!"1", vld := go!"1",
    speed := 34, direction := 172, odometer := 191, digitalInputs := 144, altitude := 30 }

def rebuildLiquid : SrLiquidLevelSensor :=
  { errorFlag := go!"1", valueUnit := go!"00", rawDataFlag := go!"0", sensorNumber := 1, moduleAddress := 1 }

def rebuild (obfe : Bytes) (oid : UInt32) : Package :=
  { protocolVersion := 1, prefix_ := go!"00", route := go!"0", encryptionAlg := go!"00", compression := go!"0", priority := go!"10",
    headerLength := 11, frameDataLength := 48, packetIdentifier := 4608, packetType := 1, headerCheckSum := 0x1b,
    servicesFrameData := some (.sds
      [{ recordLength := 37, recordNumber := 134, ssod := go!"0", rsod := go!"0", grp := go!"0", rpp := go!"10", tmfe := go!"0",
         evfe := go!"1", obfe := obfe, eventIdentifier := 3436, objectIdentifier := oid, sourceServiceType := 2,
         recipientServiceType := 2, recordDataSet :=
           [{ subrecordType := 16, subrecordLength := 24, subrecordData := some (.pos rebuildPos) },
            { subrecordType := 27, subrecordLength := 7, subrecordData := some (.liquid rebuildLiquid) }] }]) }

/-- Whether `Decode` returns no error. -/
def decodes (b : Bytes) : Bool :=
  match Package.decode env none {} ⟨b, []⟩ with
  | .ret _ 0 none => true
  | _ => false

/-- `TestRebuildCycleCoding` -/
example : ((rebuild (go!"0") 0).encode env none).2 = .ok rebuildBytes := by decide +kernel
example : decodes rebuildBytes = true := by decide +kernel
/-- `TestRebuildOID` -/
example : (match ((rebuild (go!"1") 326009033).encode env none).2 with | .ok b => decodes b | _ => false) = true := by decide +kernel

/-! ## `egts_pt_response_test.go`, `egts_sr_response_test.go`, `egts_sr_result_code_test.go` -/

/-- `egts_pt_response_test.go`: `testEgtsPkgBytes` -/
def respBytes : Bytes :=
  [1, 0, 3, 11, 0, 3, 0, 137, 0, 0, 74, 21, 56, 0, 51, 232]

def respPkg : Package :=
  { protocolVersion := 1, prefix_ := go!"00", route := go!"0", encryptionAlg := go!"00", compression := go!"0", priority := go!"11",
    headerLength := 11, frameDataLength := 3, packetIdentifier := 137, packetType := 0, headerCheckSum := 74,
    servicesFrameData := some (.resp { responsePacketID := 14357 }), servicesFrameDataCheckSum := 59443 }

example : (respPkg.encode env none).2 = .ok respBytes := by decide +kernel
example : Package.decode env none {} ⟨respBytes, []⟩ = .ret respPkg 0 none := by decide +kernel

/-- `egts_sr_response_test.go`: `testEgtsPkgSrRespBytes` -/
def srRespBytes : Bytes :=
  [1, 0, 0, 11, 0, 16, 0, 134, 0, 0, 24, 134, 0, 0, 6, 0, 95, 0, 32, 1, 1, 0, 3, 0, 95, 0, 0, 19, 115]

def srRespRecs : List ServiceDataRecord :=
        [{ recordLength := 6, recordNumber := 95, ssod := go!"0", rsod := go!"0", grp := go!"1", rpp := go!"00", tmfe := go!"0",
           evfe := go!"0", obfe := go!"0", sourceServiceType := 1, recipientServiceType := 1, recordDataSet :=
             [{ subrecordType := 0, subrecordLength := 3, subrecordData := some (.resp { confirmedRecordNumber := 95 }) }] }]

def srRespPkg : Package :=
  { protocolVersion := 1, prefix_ := go!"00", route := go!"0", encryptionAlg := go!"00", compression := go!"0", priority := go!"00",
    headerLength := 11, frameDataLength := 16, packetIdentifier := 134, packetType := 0, headerCheckSum := 24,
    servicesFrameDataCheckSum := 29459, servicesFrameData := some (.resp
      { responsePacketID := 134, sdr := some srRespRecs }) }

example : (srRespPkg.encode env none).2 = .ok srRespBytes := by decide +kernel
example : Package.decode env none {} ⟨srRespBytes, []⟩ = .ret srRespPkg 0 none := by decide +kernel

/-- `egts_sr_result_code_test.go`: `testEgtsPkgSrResCodeBytes` -/
def resCodeBytes : Bytes :=
  [1, 0, 0, 11, 0, 11, 0, 21, 56, 1, 17, 4, 0, 21, 56, 32, 1, 1, 9, 1, 0, 0, 60, 188]

def resCodePkg : Package :=
  { protocolVersion := 1, prefix_ := go!"00", route := go!"0", encryptionAlg := go!"00", compression := go!"0", priority := go!"00",
    headerLength := 11, frameDataLength := 11, packetIdentifier := 14357, packetType := 1, headerCheckSum := 17,
    servicesFrameDataCheckSum := 48188, servicesFrameData := some (.sds
        [{ recordLength := 4, recordNumber := 14357, ssod := go!"0", rsod := go!"0", grp := go!"1", rpp := go!"00", tmfe := go!"0",
           evfe := go!"0", obfe := go!"0", sourceServiceType := 1, recipientServiceType := 1, recordDataSet :=
             [{ subrecordType := 9, subrecordLength := 1, subrecordData := some (.result { resultCode := 0 }) }] }]) }

example : (resCodePkg.encode env none).2 = .ok resCodeBytes := by decide +kernel
example : Package.decode env none {} ⟨resCodeBytes, []⟩ = .ret resCodePkg 0 none := by decide +kernel

/-! ## Subrecords -/

/-- `egts_sr_pos_data_test.go`: `testEgtsSrPosDataBytes` -/
def posBytes : Bytes :=
  [85, 145, 2, 16, 111, 28, 5, 158, 122, 181, 60, 53, 1, 208, 135, 44, 1, 0, 0, 0, 0]

def pos : SrPosData := { pkgPosSub with navigationTime := unix 1530907733 }

example : pos.encode env = .ok posBytes := by decide +kernel
example : SrPosData.decode {} posBytes = .ok pos := by decide +kernel

/-- `egts_sr_ad_sensors_data_test.go`: `srAdSensorsDataBytes` -/
def adBytes : Bytes :=
  [1, 15, 255, 0, 0, 0, 0, 0, 0, 0, 0, 0, 0, 0, 0, 0, 0, 0, 0, 0, 0, 0, 0, 0, 0, 0, 0, 0]

def ad : SrAdSensorsData :=
  { dioe1 := go!"1", dioe2 := go!"0", dioe3 := go!"0", dioe4 := go!"0", dioe5 := go!"0", dioe6 := go!"0", dioe7 := go!"0",
    dioe8 := go!"0", digitalOutputs := 15, asfe1 := go!"1", asfe2 := go!"1", asfe3 := go!"1", asfe4 := go!"1", asfe5 := go!"1",
    asfe6 := go!"1", asfe7 := go!"1", asfe8 := go!"1" }

example : ad.encode = .ok adBytes := by decide +kernel
example : SrAdSensorsData.decode {} adBytes = .ok ad := by decide +kernel
example : RecordDataSet.encode env [{ subrecordType := 18, subrecordLength := 28, subrecordData := some (.adSens ad) }] =
    .ok ([0x12, 0x1C, 0x00] ++ adBytes) := by decide +kernel
example : RecordDataSet.decode env [] ([0x12, 0x1C, 0x00] ++ adBytes) =
    .ok [{ subrecordType := 18, subrecordLength := 28, subrecordData := some (.adSens ad) }] := by decide +kernel

/-- `egts_sr_counters_data_test.go`: `testSrCountersDataBytes` -/
def cntBytes : Bytes :=
  [192, 0, 0, 0, 3, 0, 0]

def cnt : SrCountersData :=
  { cfe1 := go!"0", cfe2 := go!"0", cfe3 := go!"0", cfe4 := go!"0", cfe5 := go!"0", cfe6 := go!"0", cfe7 := go!"1", cfe8 := go!"1",
    cn8 := 3 }

example : cnt.encode = .ok cntBytes := by decide +kernel
example : SrCountersData.decode {} cntBytes = .ok cnt := by decide +kernel
example : RecordDataSet.encode env [{ subrecordType := 19, subrecordLength := 7, subrecordData := some (.counters cnt) }] =
    .ok ([0x13, 0x07, 0x00] ++ cntBytes) := by decide +kernel

/-- `egts_sr_term_identity_test.go`: `testEgtsSrTermIdentityBin` -/
def termBytes : Bytes :=
  [176, 9, 2, 0, 16]

/-- `egts_sr_term_identity_test.go`: `testEgtsSrTermIdentityPkgBin` -/
def termPkgBytes : Bytes :=
  [1, 0, 3, 11, 0, 19, 0, 134, 0, 1, 182, 8, 0, 95, 0, 153, 2, 0, 0, 0, 1, 1, 1, 5, 0, 176, 9, 2, 0, 16, 13, 206]

def term : SrTermIdentity :=
  { terminalIdentifier := 133552, mne := go!"0", bse := go!"0", nide := go!"0", ssra := go!"1", lngce := go!"0", imsie := go!"0",
    imeie := go!"0", hdide := go!"0" }

def termPkg : Package :=
  { protocolVersion := 1, prefix_ := go!"00", route := go!"0", encryptionAlg := go!"00", compression := go!"0", priority := go!"11",
    headerLength := 11, frameDataLength := 19, packetIdentifier := 134, packetType := 1, headerCheckSum := 182,
    servicesFrameDataCheckSum := 52749, servicesFrameData := some (.sds
        [{ recordLength := 8, recordNumber := 95, ssod := go!"1", rsod := go!"0", grp := go!"0", rpp := go!"11", tmfe := go!"0",
           evfe := go!"0", obfe := go!"1", objectIdentifier := 2, sourceServiceType := 1, recipientServiceType := 1, recordDataSet :=
             [{ subrecordType := 1, subrecordLength := 5, subrecordData := some (.term term) }] }]) }

example : term.encode = .ok termBytes := by decide +kernel
example : SrTermIdentity.decode {} termBytes = .ok term := by decide +kernel
example : (termPkg.encode env none).2 = .ok termPkgBytes := by decide +kernel
example : Package.decode env none {} ⟨termPkgBytes, []⟩ = .ret termPkg 0 none := by decide +kernel

/-- `egts_sr_auth_info_test.go`: `srAuthInfoPkgBytes` -/
def authPkgBytes : Bytes :=
  [1, 0, 1, 11, 0, 51, 0, 1, 0, 1, 234, 40, 0, 0, 0, 12, 68, 152, 17, 17, 1, 1, 7, 37, 0, 56, 48, 48, 0, 69, 70, 50, 56,
   52, 69, 55, 65, 69, 51, 53, 49, 68, 54, 68, 70, 57, 50, 67, 69, 51, 50, 51, 68, 55, 52, 65, 68, 50, 69, 66, 51, 0, 146,
   97]

/-- The test gives the time as 286365764 (seconds after 2010), which does not compile since the field is a `time.Time`. -/
def authPkg : Package :=
  { protocolVersion := 1, prefix_ := go!"00", route := go!"0", encryptionAlg := go!"00", compression := go!"0", priority := go!"01",
    headerLength := 11, frameDataLength := 51, packetIdentifier := 1, packetType := 1, headerCheckSum := 234,
    servicesFrameDataCheckSum := 24978, servicesFrameData := some (.sds
        [{ recordLength := 40, recordNumber := 0, ssod := go!"0", rsod := go!"0", grp := go!"0", rpp := go!"01", tmfe := go!"1",
           evfe := go!"0", obfe := go!"0", time := unix (1262304000 + 286365764), sourceServiceType := 1,
           recipientServiceType := 1, recordDataSet :=
             [{ subrecordType := 7, subrecordLength := 37, subrecordData := some (.auth
                { userName := go!"800", userPassword := go!"EF284E7AE351D6DF92CE323D74AD2EB3" }) }] }]) }

example : (authPkg.encode env none).2 = .ok authPkgBytes := by decide +kernel
example : Package.decode env none {} ⟨authPkgBytes, []⟩ = .ret authPkg 0 none := by decide +kernel

/-- `egts_sr_ext_pos_data_test.go`: `extPosDataBytes` -/
def extPosBytes : Bytes :=
  [14, 50, 0, 0, 0, 12]

def extPos : SrExtPosData :=
  { nsfe := go!"0", sfe := go!"1", pfe := go!"1", hfe := go!"1", vfe := go!"0", hdop := 50, satellites := 12 }

example : extPos.encode = .ok extPosBytes := by decide +kernel
example : SrExtPosData.decode {} extPosBytes = .ok extPos := by decide +kernel
example : RecordDataSet.decode env [] ([0x11, 0x06, 0x00] ++ extPosBytes) =
    .ok [{ subrecordType := 17, subrecordLength := 6, subrecordData := some (.extPos extPos) }] := by decide +kernel

/-- `egts_sr_liquid_level_sensor_test.go`: `testSrLiquidLevelSensorBytes` -/
def liquidBytes : Bytes :=
  [3, 1, 0, 0, 0, 0, 0]

def liquid : SrLiquidLevelSensor :=
  { errorFlag := go!"0", valueUnit := go!"00", rawDataFlag := go!"0", sensorNumber := 3, moduleAddress := 1 }

example : liquid.encode = .ok liquidBytes := by decide +kernel
example : SrLiquidLevelSensor.decode {} liquidBytes = .ok liquid := by decide +kernel
example : RecordDataSet.encode env [{ subrecordData := some (.liquid liquid) }] = .ok ([0x1B, 0x07, 0x00] ++ liquidBytes) := by
  decide +kernel

/-- `egts_sr_module_data_test.go`: `testSrModuleDataBytes` -/
def moduleBytes : Bytes :=
  [1, 0, 0, 0, 0, 1, 1, 3, 1, 1, 1, 84, 66, 49, 48, 49, 49, 48, 49, 48, 48, 48, 48, 48, 48, 49, 48, 50, 50, 48, 50, 51, 0,
   114, 101, 118, 49, 55, 48, 49, 50, 50, 46, 65, 0]

def module_ : SrModuleData :=
  { moduleType := 1, vendorID := 0, firmwareVersion := 257, softwareVersion := 259, modification := 1, state := 1,
    serialNumber := go!"TB1011010000001022023", description := go!"rev170122.A" }

example : module_.encode = .ok moduleBytes := by decide +kernel
example : SrModuleData.decode {} moduleBytes = .ok module_ := by decide +kernel
example : RecordDataSet.encode env [{ subrecordType := 2, subrecordLength := 45, subrecordData := some (.module module_) }] =
    .ok ([0x02, 0x2d, 0x00] ++ moduleBytes) := by decide +kernel

/-- `egts_sr_dispatcher_identity_test.go`: `srDispatcherIdentityPkgBytes` -/
def dispBytes : Bytes :=
  [1, 0, 0, 11, 0, 15, 0, 1, 0, 1, 6, 8, 0, 0, 0, 152, 1, 1, 5, 5, 0, 0, 71, 0, 0, 0, 81, 157]

def dispPkg : Package :=
  { protocolVersion := 1, prefix_ := go!"00", route := go!"0", encryptionAlg := go!"00", compression := go!"0", priority := go!"00",
    headerLength := 11, frameDataLength := 15, packetIdentifier := 1, packetType := 1, headerCheckSum := 6,
    servicesFrameDataCheckSum := 40273, servicesFrameData := some (.sds
        [{ recordLength := 8, ssod := go!"1", rsod := go!"0", grp := go!"0", rpp := go!"11", tmfe := go!"0",
           evfe := go!"0", obfe := go!"0", sourceServiceType := 1, recipientServiceType := 1, recordDataSet :=
             [{ subrecordType := 5, subrecordLength := 5, subrecordData := some (.disp { dispatcherID := 71 }) }] }]) }

example : (dispPkg.encode env none).2 = .ok dispBytes := by decide +kernel
example : Package.decode env none {} ⟨dispBytes, []⟩ = .ret dispPkg 0 none := by decide +kernel

def state : SrStateData :=
  { state := 2, mainPowerSourceVoltage := 127, internalBatteryVoltage := 41, nms := go!"1", ibu := go!"0", bbu := go!"0" }

example : state.encode = .ok [0x02, 0x7F, 0x00, 0x29, 0x04] := by decide +kernel
example : SrStateData.decode {} [0x02, 0x7F, 0x00, 0x29, 0x04] = .ok state := by decide +kernel
example : RecordDataSet.decode env [] [0x14, 0x05, 0x00, 0x02, 0x7F, 0x00, 0x29, 0x04] =
    .ok [{ subrecordType := 20, subrecordLength := 5, subrecordData := some (.state state) }] := by decide +kernel

example : SrAbsCntrData.encode { counterNumber := 6, counterValue := 7347573 } = .ok [0x06, 0x75, 0x1D, 0x70] := by decide +kernel
example : SrAbsCntrData.decode {} [0x06, 0x75, 0x1D, 0x70] = .ok { counterNumber := 6, counterValue := 7347573 } := by decide +kernel

example : SrAbsAnSensData.decode {} [0x98, 0x56, 0x34, 0x12] = .ok { sensorNumber := 0x98, value := 0x123456 } := by decide +kernel
example : SrAbsAnSensData.encode { sensorNumber := 0x98, value := 0x123456 } = .ok [0x98, 0x56, 0x34, 0x12] := by decide +kernel

/-! ## `record_data_test.go`, `service_data_records_test.go` -/

def recBytes : Bytes :=
  [0x10, 0x15, 0x00, 0xD5, 0x3F, 0x01, 0x10, 0x6F, 0x1C, 0x05, 0x9E, 0x7A, 0xB5, 0x3C, 0x35, 0x01, 0xD0, 0x87, 0x2C, 0x01, 0x00,
   0x00, 0x00, 0x00]

example : RecordDataSet.encode env [{ subrecordData := some (.pos pkgPosSub) }] = .ok recBytes := by decide +kernel
example : RecordDataSet.decode env [] recBytes =
    .ok [{ subrecordType := 16, subrecordLength := 21, subrecordData := some (.pos pkgPosSub) }] := by decide +kernel

def sdr (rl : UInt16) : ServiceDataRecord :=
  { recordLength := rl, recordNumber := 97, ssod := go!"1", rsod := go!"0", grp := go!"0", rpp := go!"11", tmfe := go!"0",
    evfe := go!"0", obfe := go!"1", objectIdentifier := 133552, sourceServiceType := 2, recipientServiceType := 2 }

example : ServiceDataSet.encode env [sdr 0] = .ok [0x00, 0x00, 0x61, 0x00, 0x99, 0xB0, 0x09, 0x02, 0x00, 0x02, 0x02] := by
  decide +kernel
example : ServiceDataSet.decode env [] [0x18, 0x00, 0x61, 0x00, 0x99, 0xB0, 0x09, 0x02, 0x00, 0x02, 0x02] = .ok [sdr 24] := by
  decide +kernel

/-! ## `egts_sr_egtsplus_data_test.go` -/

def plusBytes : Bytes :=
  [0x08, 0xFB, 0xD4, 0x03, 0x15, 0x3B, 0x46, 0x5F, 0x5C, 0x25, 0x00, 0x00, 0x00, 0x00, 0x82, 0x01, 0x04, 0x08, 0x01, 0x30, 0x4F,
   0x8A, 0x01, 0x02, 0x08, 0x01]

def plusData : StorageRecord :=
  { recordNumber := some 60027, timeStamp := some 1549747771, statusFlags := some 0,
    sens := [[], [], [], [], [], [], [], [], [],
      [⟨[some (.num 1), none, none, none, none, some (.num (UInt32.ofInt (-40))), none, none, none, none, none, none, none, none, none], []⟩],
      [⟨[some (.num 1), none, none], []⟩], [], [], [], [], [], [], []] }

example : plusData.encode = .ok plusBytes := by decide +kernel
example : ({} : StorageRecord).decode plusBytes = .ok plusData := by decide +kernel
/-- `TestStorageRecordRs` -/
example : RecordDataSet.encode env [{ subrecordType := 15, subrecordLength := 26, subrecordData := some (.plus plusData) }] =
    .ok ([0x0F, 0x1A, 0x00] ++ plusBytes) := by decide +kernel
example : RecordDataSet.decode env [] ([0x0F, 0x1A, 0x00] ++ plusBytes) =
    .ok [{ subrecordType := 15, subrecordLength := 26, subrecordData := some (.plus plusData) }] := by decide +kernel

/-! ## `server_test.go` -/

def message : Bytes :=
  [1, 0, 0, 11, 0, 177, 0, 232, 4, 1, 78, 166, 0, 161, 10, 129, 52, 246, 233, 1, 2, 2, 16, 26, 0, 79, 95, 229, 16, 0, 190,
   205, 158, 128, 127, 139, 53, 147, 155, 128, 47, 249, 128, 2, 1, 0, 146, 0, 0, 0, 0, 17, 6, 0, 14, 70, 0, 0, 0, 12, 18,
   28, 0, 1, 15, 255, 1, 68, 109, 0, 184, 0, 0, 11, 1, 0, 0, 0, 0, 0, 0, 0, 0, 0, 0, 0, 0, 0, 0, 0, 0, 20, 5, 0, 2, 255,
   0, 41, 4, 27, 7, 0, 0, 255, 0, 0, 0, 0, 0, 27, 7, 0, 2, 0, 0, 0, 0, 0, 0, 27, 7, 0, 3, 1, 0, 90, 8, 0, 0, 27, 7, 0, 4,
   2, 0, 0, 0, 0, 0, 25, 4, 0, 100, 119, 42, 4, 25, 4, 0, 101, 0, 0, 0, 25, 4, 0, 102, 1, 0, 0, 25, 4, 0, 103, 119, 42, 4,
   25, 4, 0, 104, 119, 42, 4, 25, 4, 0, 105, 79, 154, 34, 25, 4, 0, 110, 119, 42, 4, 65, 246]

def response : Bytes :=
  [1, 0, 0, 11, 0, 16, 0, 233, 4, 0, 161, 232, 4, 0, 6, 0, 1, 0, 32, 2, 2, 0, 3, 0, 161, 10, 0, 94, 182]

set_option maxRecDepth 100000 in
/-- The receiver sends the expected response, after saving one record. -/
example : (handlePacket env 0 0 ⟨message, []⟩).effs.map (fun | .save _ => 0 | .write b => if b = response then 1 else 2 | _ => 3) = [0, 1] := by
  decide +kernel

end Tests
end Egts
