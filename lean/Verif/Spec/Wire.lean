import Verif.Spec.Record

/-!
# The subrecords and records as the protocol lays them out on the wire

One table per kind: the fields in the order in which they are transmitted, numbers with their width in bytes (little
endian), flags with their bit positions, optional fields after the flag that announces them. Nothing here refers to
readers, buffers or the string handling of the library.
-/

namespace Egts

/-- The `n` low bytes of `v`, least significant first. -/
def leBytes : Nat → Nat → Bytes
  | 0, _ => []
  | n + 1, v => UInt8.ofNat (v % 256) :: leBytes n (v / 256)

/-- The value of a string of binary digits. -/
def binary (s : Bytes) : Nat := s.foldl (fun n c => 2 * n + (if c = 49 then 1 else 0)) 0

/-- A flag byte, from the position of the lowest bit of each flag and its value. -/
def flagByte (fs : List (Nat × Bytes)) : UInt8 := UInt8.ofNat (fs.map fun f => binary f.2 * 2 ^ f.1).sum

/-- A field that is there if its flag is `"1"`. -/
def ifSet (flag b : Bytes) : Bytes := if flag = go!"1" then b else []

/-- EGTS_SR_RECORD_RESPONSE -/
def SrResponse.wire (d : SrResponse) : Bytes := leBytes 2 d.confirmedRecordNumber.toNat ++ [d.recordStatus]

/-- EGTS_SR_RESULT_CODE -/
def SrResultCode.wire (d : SrResultCode) : Bytes := [d.resultCode]

/-- EGTS_SR_STATE_DATA -/
def SrStateData.wire (d : SrStateData) : Bytes :=
  [d.state, d.mainPowerSourceVoltage, d.backUpBatteryVoltage, d.internalBatteryVoltage,
   flagByte [(2, d.nms), (1, d.ibu), (0, d.bbu)]]

/-- EGTS_SR_ABS_CNTR_DATA -/
def SrAbsCntrData.wire (d : SrAbsCntrData) : Bytes := [d.counterNumber] ++ leBytes 3 d.counterValue.toNat

/-- EGTS_SR_ABS_AN_SENS_DATA -/
def SrAbsAnSensData.wire (d : SrAbsAnSensData) : Bytes := [d.sensorNumber] ++ leBytes 3 d.value.toNat

/-- EGTS_SR_LIQUID_LEVEL_SENSOR: bit 7 is not used, the sensor number is in the three low bits of the flag byte. -/
def SrLiquidLevelSensor.wire (d : SrLiquidLevelSensor) : Bytes :=
  [flagByte [(6, d.errorFlag), (4, d.valueUnit), (3, d.rawDataFlag)] + d.sensorNumber]
    ++ leBytes 2 d.moduleAddress.toNat ++ leBytes 4 d.sensorData.toNat

/-- EGTS_SR_EXT_POS_DATA -/
def SrExtPosData.wire (d : SrExtPosData) : Bytes :=
  [flagByte [(4, d.nsfe), (3, d.sfe), (2, d.pfe), (1, d.hfe), (0, d.vfe)]]
    ++ ifSet d.vfe (leBytes 2 d.vdop.toNat)
    ++ ifSet d.hfe (leBytes 2 d.hdop.toNat)
    ++ ifSet d.pfe (leBytes 2 d.pdop.toNat)
    ++ ifSet d.sfe [d.satellites]
    ++ ifSet d.nsfe (leBytes 2 d.navigationSystem.toNat)

/-- EGTS_SR_AD_SENSORS_DATA -/
def SrAdSensorsData.wire (d : SrAdSensorsData) : Bytes :=
  [flagByte [(7, d.dioe8), (6, d.dioe7), (5, d.dioe6), (4, d.dioe5), (3, d.dioe4), (2, d.dioe3), (1, d.dioe2), (0, d.dioe1)],
   d.digitalOutputs,
   flagByte [(7, d.asfe8), (6, d.asfe7), (5, d.asfe6), (4, d.asfe5), (3, d.asfe4), (2, d.asfe3), (1, d.asfe2), (0, d.asfe1)]]
    ++ ifSet d.dioe1 [d.adio1]
    ++ ifSet d.dioe2 [d.adio2]
    ++ ifSet d.dioe3 [d.adio3]
    ++ ifSet d.dioe4 [d.adio4]
    ++ ifSet d.dioe5 [d.adio5]
    ++ ifSet d.dioe6 [d.adio6]
    ++ ifSet d.dioe7 [d.adio7]
    ++ ifSet d.dioe8 [d.adio8]
    ++ ifSet d.asfe1 (leBytes 3 d.ans1.toNat)
    ++ ifSet d.asfe2 (leBytes 3 d.ans2.toNat)
    ++ ifSet d.asfe3 (leBytes 3 d.ans3.toNat)
    ++ ifSet d.asfe4 (leBytes 3 d.ans4.toNat)
    ++ ifSet d.asfe5 (leBytes 3 d.ans5.toNat)
    ++ ifSet d.asfe6 (leBytes 3 d.ans6.toNat)
    ++ ifSet d.asfe7 (leBytes 3 d.ans7.toNat)
    ++ ifSet d.asfe8 (leBytes 3 d.ans8.toNat)

/-- EGTS_SR_COUNTERS_DATA -/
def SrCountersData.wire (d : SrCountersData) : Bytes :=
  [flagByte [(7, d.cfe8), (6, d.cfe7), (5, d.cfe6), (4, d.cfe5), (3, d.cfe4), (2, d.cfe3), (1, d.cfe2), (0, d.cfe1)]]
    ++ ifSet d.cfe1 (leBytes 3 d.cn1.toNat)
    ++ ifSet d.cfe2 (leBytes 3 d.cn2.toNat)
    ++ ifSet d.cfe3 (leBytes 3 d.cn3.toNat)
    ++ ifSet d.cfe4 (leBytes 3 d.cn4.toNat)
    ++ ifSet d.cfe5 (leBytes 3 d.cn5.toNat)
    ++ ifSet d.cfe6 (leBytes 3 d.cn6.toNat)
    ++ ifSet d.cfe7 (leBytes 3 d.cn7.toNat)
    ++ ifSet d.cfe8 (leBytes 3 d.cn8.toNat)

/-- EGTS_SR_TERM_IDENTITY -/
def SrTermIdentity.wire (d : SrTermIdentity) : Bytes :=
  leBytes 4 d.terminalIdentifier.toNat
    ++ [flagByte [(7, d.mne), (6, d.bse), (5, d.nide), (4, d.ssra), (3, d.lngce), (2, d.imsie), (1, d.imeie), (0, d.hdide)]]
    ++ ifSet d.hdide (leBytes 2 d.homeDispatcherIdentifier.toNat)
    ++ ifSet d.imeie d.imei
    ++ ifSet d.imsie d.imsi
    ++ ifSet d.lngce d.languageCode
    ++ ifSet d.nide d.networkIdentifier
    ++ ifSet d.bse (leBytes 2 d.bufferSize.toNat)
    ++ ifSet d.mne d.mobileNumber

/-- EGTS_SR_AUTH_INFO: texts ended by a NUL; the server sequence is left out if it is empty. -/
def SrAuthInfo.wire (d : SrAuthInfo) : Bytes :=
  d.userName ++ [0] ++ d.userPassword ++ [0] ++ (if d.serverSequence = [] then [] else d.serverSequence ++ [0])

/-- EGTS_SR_MODULE_DATA -/
def SrModuleData.wire (d : SrModuleData) : Bytes :=
  [d.moduleType] ++ leBytes 4 d.vendorID.toNat ++ leBytes 2 d.firmwareVersion.toNat ++ leBytes 2 d.softwareVersion.toNat
    ++ [d.modification, d.state] ++ d.serialNumber ++ [0] ++ d.description ++ [0]

/-- EGTS_SR_DISPATCHER_IDENTITY -/
def SrDispatcherIdentity.wire (d : SrDispatcherIdentity) : Bytes :=
  [d.dispatcherType] ++ leBytes 4 d.dispatcherID.toNat ++ d.description

/-- EGTS_SR_POS_DATA, given the navigation time in seconds since 2010 and the two coordinates in units of the wire. SPD: the
speed in 0.1 km/h in the low 14 bits, ALTS in bit 14, DIRH in bit 15. DIR: the library keeps DIRH in bit 7 of `Direction` too,
on the wire it is not there. -/
def SrPosData.wire (d : SrPosData) (time lat lon : Nat) : Bytes :=
  leBytes 4 time ++ leBytes 4 lat ++ leBytes 4 lon
    ++ [flagByte [(7, d.alte), (6, d.lohs), (5, d.lahs), (4, d.mv), (3, d.bb), (2, d.cs), (1, d.fix), (0, d.vld)]]
    ++ leBytes 2 (d.speed.toNat * 10 + d.altitudeSign.toNat * 2 ^ 14 + d.directionHighestBit.toNat * 2 ^ 15)
    ++ [UInt8.ofNat (if d.directionHighestBit = 1 then d.direction.toNat % 128 else d.direction.toNat)]
    ++ leBytes 3 d.odometer.toNat
    ++ [d.digitalInputs, d.source]
    ++ ifSet d.alte (leBytes 3 d.altitude.toNat)

/-- The header of a subrecord: type, length, then the data. -/
def subrecordWire (type : UInt8) (data : Bytes) : Bytes := [type] ++ leBytes 2 data.length ++ data

/-- The flags of a service data record are bits. -/
def ServiceDataRecord.FlagsWF (r : ServiceDataRecord) : Prop :=
  IsBit r.ssod ∧ IsBit r.rsod ∧ IsBit r.grp ∧ IsBits2 r.rpp ∧ IsBit r.tmfe ∧ IsBit r.evfe ∧ IsBit r.obfe

/-- A service data record with the data `data`; `time` is in seconds since 2010. -/
def ServiceDataRecord.wire (r : ServiceDataRecord) (time : Nat) (data : Bytes) : Bytes :=
  leBytes 2 data.length ++ leBytes 2 r.recordNumber.toNat
    ++ [flagByte [(7, r.ssod), (6, r.rsod), (5, r.grp), (3, r.rpp), (2, r.tmfe), (1, r.evfe), (0, r.obfe)]]
    ++ ifSet r.obfe (leBytes 4 r.objectIdentifier.toNat)
    ++ ifSet r.evfe (leBytes 4 r.eventIdentifier.toNat)
    ++ ifSet r.tmfe (leBytes 4 time)
    ++ [r.sourceServiceType, r.recipientServiceType]
    ++ data

/-- EGTS_PT_RESPONSE with the service data records `records`. -/
def PtResponse.wire (r : PtResponse) (records : Bytes) : Bytes :=
  leBytes 2 r.responsePacketID.toNat ++ [r.processingResult] ++ records

end Egts
