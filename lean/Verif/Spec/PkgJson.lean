import Verif.Spec.Json
import Verif.Spec.Record
import Verif.Spec.Utf8
import Verif.Spec.Package
import Verif.Spec.Proto
import Verif.Model.Marshal

/-! # Reading a package out of a JSON text

A reader for the JSON texts of packages, which takes the fields out of the objects by their names. It does not know how the texts
are written: dates are read after RFC 3339, byte strings after RFC 4648 (base64). -/

namespace Egts
namespace Json

/-! ## Dates (RFC 3339) -/

/-- The days of the months of a year. -/
def monthLengths (y : Int) : List Nat :=
  [31, if y % 4 = 0 ∧ (y % 100 ≠ 0 ∨ y % 400 = 0) then 29 else 28, 31, 30, 31, 30, 31, 31, 30, 31, 30, 31]

/-- The days from 1 January of year 1 to a day of the Gregorian calendar; months and days are counted from 1. -/
def dayNumber (y : Int) (m d : Nat) : Int :=
  365 * (y - 1) + (y - 1) / 4 - (y - 1) / 100 + (y - 1) / 400 + (((monthLengths y).take (m - 1)).sum : Nat) + d - 1

/-- A number of decimal digits. -/
def number (ds : Bytes) : Option Nat := if ds.all isDigit then some (digitsVal ds) else none

/-- `[time-secfrac] time-offset` with the offset `Z`: the nanoseconds. -/
def readFraction : Bytes → Option Nat
  | [90] => some 0
  | 46 :: r =>
    let ds := r.takeWhile isDigit
    if ds ≠ [] ∧ ds.length ≤ 9 ∧ r.dropWhile isDigit = [90] then some (digitsVal ds * 10 ^ (9 - ds.length)) else none
  | _ => none

/-- `date-time`: the nanoseconds since 1 January 1970. Leap seconds are not read. -/
def readDateTime : Bytes → Option GoTime
  | y1 :: y2 :: y3 :: y4 :: 45 :: m1 :: m2 :: 45 :: d1 :: d2 :: 84 :: h1 :: h2 :: 58 :: n1 :: n2 :: 58 :: s1 :: s2 :: r => do
    let y ← number [y1, y2, y3, y4]
    let m ← number [m1, m2]
    let d ← number [d1, d2]
    let h ← number [h1, h2]
    let n ← number [n1, n2]
    let s ← number [s1, s2]
    let f ← readFraction r
    if 1 ≤ m ∧ m ≤ 12 ∧ 1 ≤ d ∧ d ≤ (monthLengths y).getD (m - 1) 0 ∧ h ≤ 23 ∧ n ≤ 59 ∧ s ≤ 59 then
      some (((((dayNumber y m d - dayNumber 1970 1 1) * 24 + h) * 60 + n) * 60 + s) * 1000000000 + f)
    else none
  | _ => none

/-! ## Byte strings (RFC 4648, section 4) -/

/-- The value of a character of the base64 alphabet. -/
def base64Val (c : UInt8) : Option Nat :=
  if 65 ≤ c ∧ c ≤ 90 then some (c.toNat - 65)
  else if 97 ≤ c ∧ c ≤ 122 then some (c.toNat - 71)
  else if 48 ≤ c ∧ c ≤ 57 then some (c.toNat + 4)
  else if c = 43 then some 62
  else if c = 47 then some 63
  else none

/-- Groups of four characters stand for three bytes; the last group may be padded. -/
def readBase64 : Bytes → Option Bytes
  | [] => some []
  | [a, b, 61, 61] => do
    let a ← base64Val a
    let b ← base64Val b
    pure [UInt8.ofNat (a * 4 + b / 16)]
  | [a, b, c, 61] => do
    let a ← base64Val a
    let b ← base64Val b
    let c ← base64Val c
    pure [UInt8.ofNat (a * 4 + b / 16), UInt8.ofNat (b % 16 * 16 + c / 4)]
  | a :: b :: c :: d :: r => do
    let a ← base64Val a
    let b ← base64Val b
    let c ← base64Val c
    let d ← base64Val d
    let r ← readBase64 r
    pure (UInt8.ofNat (a * 4 + b / 16) :: UInt8.ofNat (b % 16 * 16 + c / 4) :: UInt8.ofNat (c % 4 * 64 + d) :: r)
  | _ => none

/-! ## Numbers -/

/-- The bits of a number that is a `float32` (IEEE 754): sign, exponent, significand. -/
def f32Bits (x : Rat) : UInt32 :=
  if x = 0 then 0
  else
    let a := if 0 ≤ x then x else -x
    let e := max (ilog2 a - 23) (-149)
    UInt32.ofNat ((e + 149).toNat * 2 ^ 23 + (a / pow2 e).floor.toNat + if 0 ≤ x then 0 else 2 ^ 31)

/-- A number as a `float32`: the nearest one. -/
def Value.asF32 : Value → Option UInt32
  | .num q => some (f32Bits (rnd32 q))
  | _ => none

/-- A number as an `int32`, by its bits. -/
def Value.asI32 (v : Value) : Option UInt32 :=
  match v.asInt with
  | some i => if -2 ^ 31 ≤ i ∧ i < 2 ^ 31 then some (UInt32.ofInt i) else none
  | none => none

def Value.asBool : Value → Option Bool
  | .bool b => some b
  | _ => none

/-- A byte string; `null` counts as an empty one. -/
def Value.asBytes : Value → Option Bytes
  | .null => some []
  | .str s => readBase64 s
  | _ => none

def readStr (v : Value) (key : Bytes) : Option Bytes := (v.get key).bind Value.asString

def readF64 (v : Value) (key : Bytes) : Option F64 := (v.get key).bind Value.asFloat

def readInt (v : Value) (key : Bytes) : Option Int := (v.get key).bind Value.asInt

/-- An `int8`, by its bits. -/
def readI8 (v : Value) (key : Bytes) : Option UInt8 := do
  let i ← readInt v key
  if -128 ≤ i ∧ i < 128 then pure (UInt8.ofInt i) else none

def readTime (v : Value) (key : Bytes) : Option GoTime := (readStr v key).bind readDateTime

def readBytes (v : Value) (key : Bytes) : Option Bytes := (v.get key).bind Value.asBytes

/-! ## Subrecords -/

def readSrPosData (v : Value) : Option SrPosData := do
  let navigationTime ← readTime v (go!"NTM")
  let latitude ← readF64 v (go!"LAT")
  let longitude ← readF64 v (go!"LONG")
  let alte ← readStr v (go!"ALTE")
  let lohs ← readStr v (go!"LOHS")
  let lahs ← readStr v (go!"LAHS")
  let mv ← readStr v (go!"MV")
  let bb ← readStr v (go!"BB")
  let cs ← readStr v (go!"CS")
  let fix ← readStr v (go!"FIX")
  let vld ← readStr v (go!"VLD")
  let directionHighestBit ← readU8 v (go!"DIRH")
  let altitudeSign ← readU8 v (go!"ALTS")
  let speed ← readU16 v (go!"SPD")
  let direction ← readU8 v (go!"DIR")
  let odometer ← readU32 v (go!"ODM")
  let digitalInputs ← readU8 v (go!"DIN")
  let source ← readU8 v (go!"SRC")
  let altitude ← readU32 v (go!"ALT")
  let sourceData ← readInt v (go!"SRCD")
  pure { navigationTime, latitude, longitude, alte, lohs, lahs, mv, bb, cs, fix, vld, directionHighestBit, altitudeSign,
         speed, direction, odometer, digitalInputs, source, altitude, sourceData }

def readSrTermIdentity (v : Value) : Option SrTermIdentity := do
  let terminalIdentifier ← readU32 v (go!"TID")
  let mne ← readStr v (go!"MNE")
  let bse ← readStr v (go!"BSE")
  let nide ← readStr v (go!"NIDE")
  let ssra ← readStr v (go!"SSRA")
  let lngce ← readStr v (go!"LNGCE")
  let imsie ← readStr v (go!"IMSIE")
  let imeie ← readStr v (go!"IMEIE")
  let hdide ← readStr v (go!"HDIDE")
  let homeDispatcherIdentifier ← readU16 v (go!"HDID")
  let imei ← readStr v (go!"IMEI")
  let imsi ← readStr v (go!"IMSI")
  let languageCode ← readStr v (go!"LNGC")
  let networkIdentifier ← readBytes v (go!"NID")
  let bufferSize ← readU16 v (go!"BS")
  let mobileNumber ← readStr v (go!"MSISDN")
  pure { terminalIdentifier, mne, bse, nide, ssra, lngce, imsie, imeie, hdide, homeDispatcherIdentifier, imei, imsi,
         languageCode, networkIdentifier, bufferSize, mobileNumber }

def readSrModuleData (v : Value) : Option SrModuleData := do
  let moduleType ← readI8 v (go!"MT")
  let vendorID ← readU32 v (go!"VID")
  let firmwareVersion ← readU16 v (go!"FWV")
  let softwareVersion ← readU16 v (go!"SWV")
  let modification ← readU8 v (go!"MD")
  let state ← readU8 v (go!"ST")
  let serialNumber ← readStr v (go!"SRN")
  let description ← readStr v (go!"DSCR")
  pure { moduleType, vendorID, firmwareVersion, softwareVersion, modification, state, serialNumber, description }

def readSrResponse (v : Value) : Option SrResponse := do
  let confirmedRecordNumber ← readU16 v (go!"CRN")
  let recordStatus ← readU8 v (go!"RST")
  pure { confirmedRecordNumber, recordStatus }

def readSrResultCode (v : Value) : Option SrResultCode := do
  let resultCode ← readU8 v (go!"RCD")
  pure { resultCode }

def readSrExtPosData (v : Value) : Option SrExtPosData := do
  let nsfe ← readStr v (go!"NSFE")
  let sfe ← readStr v (go!"SFE")
  let pfe ← readStr v (go!"PFE")
  let hfe ← readStr v (go!"HFE")
  let vfe ← readStr v (go!"VFE")
  let vdop ← readU16 v (go!"VDOP")
  let hdop ← readU16 v (go!"HDOP")
  let pdop ← readU16 v (go!"PDOP")
  let satellites ← readU8 v (go!"SAT")
  let navigationSystem ← readU16 v (go!"NS")
  pure { nsfe, sfe, pfe, hfe, vfe, vdop, hdop, pdop, satellites, navigationSystem }

def readSrAdSensorsData (v : Value) : Option SrAdSensorsData := do
  let dioe1 ← readStr v (go!"DIOE1")
  let dioe2 ← readStr v (go!"DIOE2")
  let dioe3 ← readStr v (go!"DIOE3")
  let dioe4 ← readStr v (go!"DIOE4")
  let dioe5 ← readStr v (go!"DIOE5")
  let dioe6 ← readStr v (go!"DIOE6")
  let dioe7 ← readStr v (go!"DIOE7")
  let dioe8 ← readStr v (go!"DIOE8")
  let digitalOutputs ← readU8 v (go!"DOUT")
  let asfe1 ← readStr v (go!"ASFE1")
  let asfe2 ← readStr v (go!"ASFE2")
  let asfe3 ← readStr v (go!"ASFE3")
  let asfe4 ← readStr v (go!"ASFE4")
  let asfe5 ← readStr v (go!"ASFE5")
  let asfe6 ← readStr v (go!"ASFE6")
  let asfe7 ← readStr v (go!"ASFE7")
  let asfe8 ← readStr v (go!"ASFE8")
  let adio1 ← readU8 v (go!"ADIO1")
  let adio2 ← readU8 v (go!"ADIO2")
  let adio3 ← readU8 v (go!"ADIO3")
  let adio4 ← readU8 v (go!"ADIO4")
  let adio5 ← readU8 v (go!"ADIO5")
  let adio6 ← readU8 v (go!"ADIO6")
  let adio7 ← readU8 v (go!"ADIO7")
  let adio8 ← readU8 v (go!"ADIO8")
  let ans1 ← readU32 v (go!"ANS1")
  let ans2 ← readU32 v (go!"ANS2")
  let ans3 ← readU32 v (go!"ANS3")
  let ans4 ← readU32 v (go!"ANS4")
  let ans5 ← readU32 v (go!"ANS5")
  let ans6 ← readU32 v (go!"ANS6")
  let ans7 ← readU32 v (go!"ANS7")
  let ans8 ← readU32 v (go!"ANS8")
  pure { dioe1, dioe2, dioe3, dioe4, dioe5, dioe6, dioe7, dioe8, digitalOutputs, asfe1, asfe2, asfe3, asfe4, asfe5, asfe6,
         asfe7, asfe8, adio1, adio2, adio3, adio4, adio5, adio6, adio7, adio8, ans1, ans2, ans3, ans4, ans5, ans6, ans7, ans8 }

def readSrStateData (v : Value) : Option SrStateData := do
  let state ← readU8 v (go!"ST")
  let mainPowerSourceVoltage ← readU8 v (go!"MPSV")
  let backUpBatteryVoltage ← readU8 v (go!"BBV")
  let internalBatteryVoltage ← readU8 v (go!"IBV")
  let nms ← readStr v (go!"NMS")
  let ibu ← readStr v (go!"IBU")
  let bbu ← readStr v (go!"BBU")
  pure { state, mainPowerSourceVoltage, backUpBatteryVoltage, internalBatteryVoltage, nms, ibu, bbu }

def readSrLiquidLevelSensor (v : Value) : Option SrLiquidLevelSensor := do
  let errorFlag ← readStr v (go!"LLSEF")
  let valueUnit ← readStr v (go!"LLSVU")
  let rawDataFlag ← readStr v (go!"RDF")
  let sensorNumber ← readU8 v (go!"LLSN")
  let moduleAddress ← readU16 v (go!"MADDR")
  let sensorData ← readU32 v (go!"LLSD")
  pure { errorFlag, valueUnit, rawDataFlag, sensorNumber, moduleAddress, sensorData }

def readSrAbsCntrData (v : Value) : Option SrAbsCntrData := do
  let counterNumber ← readU8 v (go!"CN")
  let counterValue ← readU32 v (go!"CNV")
  pure { counterNumber, counterValue }

def readSrAuthInfo (v : Value) : Option SrAuthInfo := do
  let userName ← readStr v (go!"UNM")
  let userPassword ← readStr v (go!"UPSW")
  let serverSequence ← readStr v (go!"SS")
  pure { userName, userPassword, serverSequence }

def readSrCountersData (v : Value) : Option SrCountersData := do
  let cfe1 ← readStr v (go!"CFE1")
  let cfe2 ← readStr v (go!"CFE2")
  let cfe3 ← readStr v (go!"CFE3")
  let cfe4 ← readStr v (go!"CFE4")
  let cfe5 ← readStr v (go!"CFE5")
  let cfe6 ← readStr v (go!"CFE6")
  let cfe7 ← readStr v (go!"CFE7")
  let cfe8 ← readStr v (go!"CFE8")
  let cn1 ← readU32 v (go!"CN1")
  let cn2 ← readU32 v (go!"CN2")
  let cn3 ← readU32 v (go!"CN3")
  let cn4 ← readU32 v (go!"CN4")
  let cn5 ← readU32 v (go!"CN5")
  let cn6 ← readU32 v (go!"CN6")
  let cn7 ← readU32 v (go!"CN7")
  let cn8 ← readU32 v (go!"CN8")
  pure { cfe1, cfe2, cfe3, cfe4, cfe5, cfe6, cfe7, cfe8, cn1, cn2, cn3, cn4, cn5, cn6, cn7, cn8 }

def readSrAbsAnSensData (v : Value) : Option SrAbsAnSensData := do
  let sensorNumber ← readU8 v (go!"SensorNumber")
  let value ← readU32 v (go!"Value")
  pure { sensorNumber, value }

def readSrDispatcherIdentity (v : Value) : Option SrDispatcherIdentity := do
  let dispatcherType ← readU8 v (go!"DT")
  let dispatcherID ← readU32 v (go!"DID")
  let description ← readStr v (go!"DSCR")
  pure { dispatcherType, dispatcherID, description }

/-! ## EGTS+ data, after its published description -/

/-- The bytes of a name. -/
def nameBytes (s : String) : Bytes := s.toUTF8.toList

open Proto in
/-- The value of a field of this type. -/
def readVal (t : ProtoType) (v : Value) : Option Val :=
  match t with
  | .uint32 => (v.asNat (2 ^ 32)).map fun n => .num (UInt32.ofNat n)
  | .fixed32 => (v.asNat (2 ^ 32)).map fun n => .num (UInt32.ofNat n)
  | .sint32 => v.asI32.map .num
  | .sfixed32 => v.asI32.map .num
  | .bool => v.asBool.map .flag
  | .float => v.asF32.map .num
  | .bytes => v.asBytes.map .bytes

open Proto in
/-- An optional field, which may be missing. -/
def readField (t : ProtoType) : Option Value → Option (Option Val)
  | none => some none
  | some x => (readVal t x).map some

open Proto in
/-- The optional fields of a message, in the order of their numbers. -/
def readSens (fields : List (String × Nat × ProtoType)) (v : Value) : Option Sens := do
  let vals ← (List.range fields.length).mapM fun i => do
    let f ← fields.find? fun f => f.2.1 = i + 1
    readField f.2.2 (v.get (nameBytes f.1))
  pure { vals }

/-- The elements of a repeated field; there are none if it is missing. -/
def readRepeated {α : Type} (read : Value → Option α) (v : Value) (key : Bytes) : Option (List α) :=
  match v.get key with
  | none => some []
  | some x => x.asList.bind fun vs => vs.mapM read

/-- An optional number. -/
def readOptional (v : Value) (key : Bytes) : Option (Option UInt32) :=
  match v.get key with
  | none => some none
  | some x => (x.asNat (2 ^ 32)).map fun n => some (UInt32.ofNat n)

open Proto in
def readStorageRecord (v : Value) : Option StorageRecord := do
  let recordNumber ← readOptional v (go!"record_number")
  let timeStamp ← readOptional v (go!"time_stamp")
  let recordReason ← readRepeated Value.asI32 v (go!"record_reason")
  let statusFlags ← readOptional v (go!"status_flags")
  let sens ← (List.range 18).mapM fun i => do
    let m ← protoFile.find? fun m => m.number = i + 7
    readRepeated (readSens m.fields) v (nameBytes m.name)
  pure { recordNumber, timeStamp, recordReason, statusFlags, sens }

/-! ## Packages -/

/-- The subrecord with this type code. -/
def readSub (t : UInt8) (v : Value) : Option SubData :=
  match t.toNat with
  | 0 => (readSrResponse v).map .resp
  | 1 => (readSrTermIdentity v).map .term
  | 2 => (readSrModuleData v).map .module
  | 5 => (readSrDispatcherIdentity v).map .disp
  | 7 => (readSrAuthInfo v).map .auth
  | 9 => (readSrResultCode v).map .result
  | 15 => (readStorageRecord v).map .plus
  | 16 => (readSrPosData v).map .pos
  | 17 => (readSrExtPosData v).map .extPos
  | 18 => (readSrAdSensorsData v).map .adSens
  | 19 => (readSrCountersData v).map .counters
  | 21 => (readSrStateData v).map .state
  | 24 => (readSrAbsAnSensData v).map .absAn
  | 25 => (readSrAbsCntrData v).map .absCntr
  | 27 => (readSrLiquidLevelSensor v).map .liquid
  | 20 => (readSrStateData v).map .state
  | _ => none

def readRecordData (v : Value) : Option RecordData := do
  let subrecordType ← readU8 v (go!"SRT")
  let subrecordLength ← readU16 v (go!"SRL")
  match ← v.get (go!"SRD") with
  | .null => pure { subrecordType, subrecordLength }
  | d => do
    let d ← readSub subrecordType d
    pure { subrecordType, subrecordLength, subrecordData := some d }

def readServiceDataRecord (v : Value) : Option ServiceDataRecord := do
  let recordLength ← readU16 v (go!"RL")
  let recordNumber ← readU16 v (go!"RN")
  let ssod ← readStr v (go!"SSOD")
  let rsod ← readStr v (go!"RSOD")
  let grp ← readStr v (go!"GRP")
  let rpp ← readStr v (go!"RPP")
  let tmfe ← readStr v (go!"TMFE")
  let evfe ← readStr v (go!"EVFE")
  let obfe ← readStr v (go!"OBFE")
  let objectIdentifier ← readU32 v (go!"OID")
  let eventIdentifier ← readU32 v (go!"EVID")
  let time ← readTime v (go!"TM")
  let sourceServiceType ← readU8 v (go!"SST")
  let recipientServiceType ← readU8 v (go!"RST")
  let recordDataSet ← (← (← v.get (go!"RD")).asList).mapM readRecordData
  pure { recordLength, recordNumber, ssod, rsod, grp, rpp, tmfe, evfe, obfe, objectIdentifier, eventIdentifier, time,
         sourceServiceType, recipientServiceType, recordDataSet }

def readPtResponse (v : Value) : Option PtResponse := do
  let responsePacketID ← readU16 v (go!"RPID")
  let processingResult ← readU8 v (go!"PR")
  match ← v.get (go!"SDR") with
  | .arr vs => do
    let s ← vs.mapM readServiceDataRecord
    pure { responsePacketID, processingResult, sdr := some s }
  | .null => pure { responsePacketID, processingResult }
  | _ => none

/-- The data of the services: an array of records, or a response. -/
def readFrameData : Value → Option (Option FrameData)
  | .null => some none
  | .arr vs => (vs.mapM readServiceDataRecord).map fun s => some (.sds s)
  | v => (readPtResponse v).map fun r => some (.resp r)

def readPackageValue (v : Value) : Option Package := do
  let protocolVersion ← readU8 v (go!"PRV")
  let securityKeyID ← readU8 v (go!"SKID")
  let prefix_ ← readStr v (go!"PRF")
  let route ← readStr v (go!"RTE")
  let encryptionAlg ← readStr v (go!"ENA")
  let compression ← readStr v (go!"CMP")
  let priority ← readStr v (go!"PR")
  let headerLength ← readU8 v (go!"HL")
  let headerEncoding ← readU8 v (go!"HE")
  let frameDataLength ← readU16 v (go!"FDL")
  let packetIdentifier ← readU16 v (go!"PID")
  let packetType ← readU8 v (go!"PT")
  let peerAddress ← readU16 v (go!"PRA")
  let recipientAddress ← readU16 v (go!"RCA")
  let timeToLive ← readU8 v (go!"TTL")
  let headerCheckSum ← readU8 v (go!"HCS")
  let servicesFrameData ← readFrameData (← v.get (go!"SFRD"))
  let servicesFrameDataCheckSum ← readU16 v (go!"SFRCS")
  pure { protocolVersion, securityKeyID, prefix_, route, encryptionAlg, compression, priority, headerLength, headerEncoding,
         frameDataLength, packetIdentifier, packetType, peerAddress, recipientAddress, timeToLive, headerCheckSum,
         servicesFrameData, servicesFrameDataCheckSum }

/-- Parse a JSON text and read a package out of it. -/
def readPackage (b : Bytes) : Option Package := (parseJson b).bind readPackageValue

end Json

/-! ## What can be read back -/


/-- The record with every string changed by `f`. -/
def SrPosData.mapStrings (f : Bytes → Bytes) (d : SrPosData) : SrPosData :=
  { d with alte := f d.alte, lohs := f d.lohs, lahs := f d.lahs, mv := f d.mv, bb := f d.bb, cs := f d.cs, fix := f d.fix,
           vld := f d.vld }

/-- The record with every string changed by `f`. -/
def SrTermIdentity.mapStrings (f : Bytes → Bytes) (d : SrTermIdentity) : SrTermIdentity :=
  { d with mne := f d.mne, bse := f d.bse, nide := f d.nide, ssra := f d.ssra, lngce := f d.lngce, imsie := f d.imsie,
           imeie := f d.imeie, hdide := f d.hdide, imei := f d.imei, imsi := f d.imsi, languageCode := f d.languageCode,
           mobileNumber := f d.mobileNumber }

/-- The record with every string changed by `f`. -/
def SrModuleData.mapStrings (f : Bytes → Bytes) (d : SrModuleData) : SrModuleData :=
  { d with serialNumber := f d.serialNumber, description := f d.description }

/-- The record with every string changed by `f`. -/
def SrExtPosData.mapStrings (f : Bytes → Bytes) (d : SrExtPosData) : SrExtPosData :=
  { d with nsfe := f d.nsfe, sfe := f d.sfe, pfe := f d.pfe, hfe := f d.hfe, vfe := f d.vfe }

/-- The record with every string changed by `f`. -/
def SrAdSensorsData.mapStrings (f : Bytes → Bytes) (d : SrAdSensorsData) : SrAdSensorsData :=
  { d with dioe1 := f d.dioe1, dioe2 := f d.dioe2, dioe3 := f d.dioe3, dioe4 := f d.dioe4, dioe5 := f d.dioe5,
           dioe6 := f d.dioe6, dioe7 := f d.dioe7, dioe8 := f d.dioe8, asfe1 := f d.asfe1, asfe2 := f d.asfe2,
           asfe3 := f d.asfe3, asfe4 := f d.asfe4, asfe5 := f d.asfe5, asfe6 := f d.asfe6, asfe7 := f d.asfe7,
           asfe8 := f d.asfe8 }

/-- The record with every string changed by `f`. -/
def SrStateData.mapStrings (f : Bytes → Bytes) (d : SrStateData) : SrStateData :=
  { d with nms := f d.nms, ibu := f d.ibu, bbu := f d.bbu }

/-- The record with every string changed by `f`. -/
def SrLiquidLevelSensor.mapStrings (f : Bytes → Bytes) (d : SrLiquidLevelSensor) : SrLiquidLevelSensor :=
  { d with errorFlag := f d.errorFlag, valueUnit := f d.valueUnit, rawDataFlag := f d.rawDataFlag }

/-- The record with every string changed by `f`. -/
def SrAuthInfo.mapStrings (f : Bytes → Bytes) (d : SrAuthInfo) : SrAuthInfo :=
  { d with userName := f d.userName, userPassword := f d.userPassword, serverSequence := f d.serverSequence }

/-- The record with every string changed by `f`. -/
def SrCountersData.mapStrings (f : Bytes → Bytes) (d : SrCountersData) : SrCountersData :=
  { d with cfe1 := f d.cfe1, cfe2 := f d.cfe2, cfe3 := f d.cfe3, cfe4 := f d.cfe4, cfe5 := f d.cfe5, cfe6 := f d.cfe6,
           cfe7 := f d.cfe7, cfe8 := f d.cfe8 }

/-- The record with every string changed by `f`. -/
def SrDispatcherIdentity.mapStrings (f : Bytes → Bytes) (d : SrDispatcherIdentity) : SrDispatcherIdentity :=
  { d with description := f d.description }

/-- What is left of a message of EGTS+ data: the unknown fields are missing, byte strings without bytes cannot be told from
missing ones, and the sign of zero is lost (by this reader: the field `value` of `sens_fuel_level`, the second field of the message
number 8, is the only floating-point number). -/
def Proto.Sens.shown (number : Nat) (s : Proto.Sens) : Proto.Sens :=
  { vals := s.vals.mapIdx fun j v =>
      if v = some (.bytes []) then none
      else if number = 8 ∧ j + 1 = 2 ∧ v = some (.num 0x80000000) then some (.num 0)
      else v
    unknown := [] }

/-- What is left of EGTS+ data. -/
def StorageRecord.shown (m : StorageRecord) : StorageRecord :=
  { m with sens := m.sens.mapIdx fun i ms => ms.map (Proto.Sens.shown (i + 7)), unknown := [] }

/-- What is left of a subrecord, with every string changed by `f`. -/
def SubData.shown (f : Bytes → Bytes) : SubData → SubData
  | .pos d => .pos (d.mapStrings f)
  | .term d => .term (d.mapStrings f)
  | .module d => .module (d.mapStrings f)
  | .resp d => .resp d
  | .result d => .result d
  | .extPos d => .extPos (d.mapStrings f)
  | .adSens d => .adSens (d.mapStrings f)
  | .state d => .state (d.mapStrings f)
  | .liquid d => .liquid (d.mapStrings f)
  | .absCntr d => .absCntr d
  | .auth d => .auth (d.mapStrings f)
  | .counters d => .counters (d.mapStrings f)
  | .plus d => .plus d.shown
  | .absAn d => .absAn d
  | .disp d => .disp (d.mapStrings f)

/-- What is left of a service record, with every string changed by `f`. -/
def ServiceDataRecord.shown (f : Bytes → Bytes) (r : ServiceDataRecord) : ServiceDataRecord :=
  { r with ssod := f r.ssod, rsod := f r.rsod, grp := f r.grp, rpp := f r.rpp, tmfe := f r.tmfe, evfe := f r.evfe,
           obfe := f r.obfe,
           recordDataSet := r.recordDataSet.map fun rd => { rd with subrecordData := rd.subrecordData.map (SubData.shown f) } }

/-- What is left of a package, with every string changed by `f`. -/
def Package.shown (f : Bytes → Bytes) (p : Package) : Package :=
  { p with prefix_ := f p.prefix_, route := f p.route, encryptionAlg := f p.encryptionAlg, compression := f p.compression,
           priority := f p.priority,
           servicesFrameData := p.servicesFrameData.map fun d => match d with
             | .sds s => .sds (s.map (ServiceDataRecord.shown f))
             | .resp r => .resp { r with sdr := r.sdr.map fun s => s.map (ServiceDataRecord.shown f) } }

/-- The strings of the record. -/
def SrPosData.strings (d : SrPosData) : List Bytes :=
  [d.alte, d.lohs, d.lahs, d.mv, d.bb, d.cs, d.fix, d.vld]

/-- The strings of the record. -/
def SrTermIdentity.strings (d : SrTermIdentity) : List Bytes :=
  [d.mne, d.bse, d.nide, d.ssra, d.lngce, d.imsie, d.imeie, d.hdide, d.imei, d.imsi, d.languageCode, d.mobileNumber]

/-- The strings of the record. -/
def SrModuleData.strings (d : SrModuleData) : List Bytes :=
  [d.serialNumber, d.description]

/-- The strings of the record. -/
def SrExtPosData.strings (d : SrExtPosData) : List Bytes :=
  [d.nsfe, d.sfe, d.pfe, d.hfe, d.vfe]

/-- The strings of the record. -/
def SrAdSensorsData.strings (d : SrAdSensorsData) : List Bytes :=
  [d.dioe1, d.dioe2, d.dioe3, d.dioe4, d.dioe5, d.dioe6, d.dioe7, d.dioe8, d.asfe1, d.asfe2, d.asfe3, d.asfe4, d.asfe5,
   d.asfe6, d.asfe7, d.asfe8]

/-- The strings of the record. -/
def SrStateData.strings (d : SrStateData) : List Bytes :=
  [d.nms, d.ibu, d.bbu]

/-- The strings of the record. -/
def SrLiquidLevelSensor.strings (d : SrLiquidLevelSensor) : List Bytes :=
  [d.errorFlag, d.valueUnit, d.rawDataFlag]

/-- The strings of the record. -/
def SrAuthInfo.strings (d : SrAuthInfo) : List Bytes :=
  [d.userName, d.userPassword, d.serverSequence]

/-- The strings of the record. -/
def SrCountersData.strings (d : SrCountersData) : List Bytes :=
  [d.cfe1, d.cfe2, d.cfe3, d.cfe4, d.cfe5, d.cfe6, d.cfe7, d.cfe8]

/-- The strings of the record. -/
def SrDispatcherIdentity.strings (d : SrDispatcherIdentity) : List Bytes :=
  [d.description]

/-- The strings of a subrecord. -/
def SubData.strings : SubData → List Bytes
  | .pos d => d.strings
  | .term d => d.strings
  | .module d => d.strings
  | .extPos d => d.strings
  | .adSens d => d.strings
  | .state d => d.strings
  | .liquid d => d.strings
  | .auth d => d.strings
  | .counters d => d.strings
  | .disp d => d.strings
  | _ => []

/-- The strings of a package. -/
def Package.strings (p : Package) : List Bytes :=
  [p.prefix_, p.route, p.encryptionAlg, p.compression, p.priority] ++ p.records.flatMap fun r =>
    [r.ssod, r.rsod, r.grp, r.rpp, r.tmfe, r.evfe, r.obfe] ++ r.recordDataSet.flatMap fun rd => match rd.subrecordData with
      | some d => d.strings
      | none => []

/-- The EGTS+ data in a package. -/
def Package.plus (p : Package) : List StorageRecord :=
  p.records.flatMap fun r => r.recordDataSet.filterMap fun rd => match rd.subrecordData with
    | some (.plus m) => some m
    | _ => none

/-- A message from which nothing is missing in the JSON text: it has no unknown fields, no byte string without bytes, and no
negative zero. -/
def Proto.Sens.Whole (number : Nat) (s : Proto.Sens) : Prop :=
  s.unknown = [] ∧ some (.bytes []) ∉ s.vals ∧ ¬ (number = 8 ∧ s.vals[1]? = some (some (.num 0x80000000)))

/-- EGTS+ data from which nothing is missing in the JSON text. -/
def StorageRecord.Whole (m : StorageRecord) : Prop :=
  m.unknown = [] ∧ ∀ (i : Nat) (ms : List Proto.Sens), m.sens[i]? = some ms → ∀ s ∈ ms, s.Whole (i + 7)

/-- A message with as many values as its description has fields, of their types. -/
def Proto.Sens.Shaped (sch : Proto.Schema) (s : Proto.Sens) : Prop :=
  s.vals.length = sch.length ∧ ∀ (i : Nat) (f : Proto.Field) (v : Proto.Val), sch[i]? = some f → s.vals[i]? = some (some v) →
    match f.kind, v with
    | .uint32, .num _ | .sint32, .num _ | .fixed32, .num _ | .bool, .flag _ | .bytes, .bytes _ => True
    | _, _ => False

/-- A subrecord as Go can hold it: coordinates are doubles, the fields of EGTS+ data have their types. -/
def SubData.Holds : SubData → Prop
  | .pos d => IsDouble d.latitude ∧ IsDouble d.longitude
  | .plus m => m.sens.length = 18 ∧ ∀ (i : Nat) (sch : Proto.Schema) (ms : List Proto.Sens), Proto.schemas[i]? = some sch → m.sens[i]? = some ms →
      ∀ s ∈ ms, s.Shaped sch
  | _ => True

/-- The type code says what the subrecord is, as it does after `Encode` and `Decode`. -/
def RecordData.Tagged (rd : RecordData) : Prop :=
  ∀ d, rd.subrecordData = some d → rd.subrecordType = d.code ∨ (rd.subrecordType = 20 ∧ d.code = 21)

/-- The times in a package. -/
def Package.times (p : Package) : List GoTime :=
  p.records.flatMap fun r => r.time :: r.recordDataSet.flatMap fun rd => match rd.subrecordData with
    | some (.pos d) => [d.navigationTime]
    | _ => []

/-- The floating-point numbers of EGTS+ data in a package, by their bits: the values of `value`, the second field of
`sens_fuel_level`, which is the second of the repeated messages. -/
def Package.floats (p : Package) : List UInt32 :=
  p.records.flatMap fun r => r.recordDataSet.flatMap fun rd => match rd.subrecordData with
    | some (.plus m) => (m.sens.getD 1 []).flatMap fun s => match s.vals.getD 1 none with
      | some (.num n) => [n]
      | _ => []
    | _ => []

/-- A package whose subrecords are as Go can hold them, and have their type codes. -/
def Package.Readable (p : Package) : Prop :=
  ∀ r ∈ p.records, ∀ rd ∈ r.recordDataSet, rd.Tagged ∧ ∀ d, rd.subrecordData = some d → d.Holds

end Egts
