import Verif.Model.F64
import Verif.Model.Proto

/-!
# Subrecords (`libs/egts/egts_sr_*.go`)

One structure, one decoder and one encoder per file. Decoders take the receiver (`*e`) as it was
before the call, because fields whose presence flag is `0` are not assigned. On error only the
error is modelled here; for the partially assigned receiver see `Model/After.lean`. Flag fields are Go strings.
-/

namespace Egts

/-- The string `"1"`, against which every presence flag is compared. -/
abbrev one : Bytes := go!"1"

/-! ## EGTS_SR_RECORD_RESPONSE -/

/-- `SrResponse` (`egts_sr_response.go:11-14`). -/
structure SrResponse where
  confirmedRecordNumber : UInt16 := 0
  recordStatus : UInt8 := 0
  deriving DecidableEq, Repr

/-- `SrResponse.Decode`, fixed part (`egts_sr_response.go:17-31`): the record and the bytes left
for the nested `ServiceDataSet.Decode` of lines 33-36 (see `Model/Record.lean`). -/
def SrResponse.decodeHead (content : Bytes) : Except Err (SrResponse × Bytes) := do
  let (tmp, r) ← bufferRead (zeros 2) content
  let (st, r) ← readByte r
  pure ({ confirmedRecordNumber := le16 tmp, recordStatus := st }, r)

/-- `SrResponse.Encode` (`egts_sr_response.go:41-58`). -/
def SrResponse.encode (s : SrResponse) : Except Err Bytes :=
  .ok (put16 s.confirmedRecordNumber ++ [s.recordStatus])

/-! ## EGTS_SR_RESULT_CODE -/

/-- `SrResultCode` (`egts_sr_result_code.go:10-12`). -/
structure SrResultCode where
  resultCode : UInt8 := 0
  deriving DecidableEq, Repr

/-- `SrResultCode.Decode` (`egts_sr_result_code.go:15-26`); trailing bytes are ignored. -/
def SrResultCode.decode (_s : SrResultCode) (content : Bytes) : Except Err SrResultCode := do
  let (b, _) ← readByte content
  pure { resultCode := b }

/-- `SrResultCode.Encode` (`egts_sr_result_code.go:29-42`). -/
def SrResultCode.encode (s : SrResultCode) : Except Err Bytes := .ok [s.resultCode]

/-! ## EGTS_SR_STATE_DATA -/

/-- `SrStateData` (`egts_sr_state_data.go:12-20`). -/
structure SrStateData where
  state : UInt8 := 0
  mainPowerSourceVoltage : UInt8 := 0
  backUpBatteryVoltage : UInt8 := 0
  internalBatteryVoltage : UInt8 := 0
  nms : Bytes := []
  ibu : Bytes := []
  bbu : Bytes := []
  deriving DecidableEq, Repr

/-- `SrStateData.Decode` (`egts_sr_state_data.go:23-55`). -/
def SrStateData.decode (_e : SrStateData) (content : Bytes) : Except Err SrStateData := do
  let (st, r) ← readByte content
  let (mp, r) ← readByte r
  let (bb, r) ← readByte r
  let (ib, r) ← readByte r
  let (flags, _) ← readByte r
  let flagBits := fmt8 flags
  pure { state := st, mainPowerSourceVoltage := mp, backUpBatteryVoltage := bb,
         internalBatteryVoltage := ib,
         nms := substr flagBits 5 6, ibu := substr flagBits 6 7, bbu := substr flagBits 7 8 }

/-- `SrStateData.Encode` (`egts_sr_state_data.go:58-93`). -/
def SrStateData.encode (e : SrStateData) : Except Err Bytes := do
  let flags ← parseFlags (go!"00000" ++ e.nms ++ e.ibu ++ e.bbu)
  pure [e.state, e.mainPowerSourceVoltage, e.backUpBatteryVoltage, e.internalBatteryVoltage, flags]

/-! ## EGTS_SR_ABS_CNTR_DATA -/

/-- `SrAbsCntrData` (`egts_sr_abs_cntr_data.go:12-15`). -/
structure SrAbsCntrData where
  counterNumber : UInt8 := 0
  counterValue : UInt32 := 0
  deriving DecidableEq, Repr

/-- `SrAbsCntrData.Decode` (`egts_sr_abs_cntr_data.go:18-37`). -/
def SrAbsCntrData.decode (_e : SrAbsCntrData) (content : Bytes) : Except Err SrAbsCntrData := do
  let (cn, r) ← readByte content
  let (tmp, _) ← readerRead (zeros 3) r
  pure { counterNumber := cn, counterValue := le32 (tmp ++ [0]) }

/-- `SrAbsCntrData.Encode` (`egts_sr_abs_cntr_data.go:40-59`). -/
def SrAbsCntrData.encode (e : SrAbsCntrData) : Except Err Bytes :=
  .ok (e.counterNumber :: put24 e.counterValue)

/-! ## EGTS_SR_ABS_AN_SENS_DATA -/

/-- `SrAbsAnSensData` (`egts_sr_abs_an_sensors_data.go:10-13`). -/
structure SrAbsAnSensData where
  sensorNumber : UInt8 := 0
  value : UInt32 := 0
  deriving DecidableEq, Repr

/-- `SrAbsAnSensData.Decode` (`egts_sr_abs_an_sensors_data.go:16-23`); `e.Length()` is 4. -/
def SrAbsAnSensData.decode (_e : SrAbsAnSensData) (content : Bytes) :
    Except Err SrAbsAnSensData :=
  if content.length < 4 then .error .badSize
  else .ok { sensorNumber := content.headD 0, value := le32 content >>> 8 }

/-- `SrAbsAnSensData.Encode` (`egts_sr_abs_an_sensors_data.go:26-33`). -/
def SrAbsAnSensData.encode (e : SrAbsAnSensData) : Except Err Bytes :=
  .ok [e.sensorNumber, e.value.toUInt8, (e.value >>> 8).toUInt8, (e.value >>> 16).toUInt8]

/-! ## EGTS_SR_LIQUID_LEVEL_SENSOR -/

/-- `SrLiquidLevelSensor` (`egts_sr_liquid_level_sensor.go:12-19`). -/
structure SrLiquidLevelSensor where
  errorFlag : Bytes := []
  valueUnit : Bytes := []
  rawDataFlag : Bytes := []
  sensorNumber : UInt8 := 0
  moduleAddress : UInt16 := 0
  sensorData : UInt32 := 0
  deriving DecidableEq, Repr

/-- `SrLiquidLevelSensor.Decode` (`egts_sr_liquid_level_sensor.go:22-57`). -/
def SrLiquidLevelSensor.decode (_e : SrLiquidLevelSensor) (content : Bytes) :
    Except Err SrLiquidLevelSensor := do
  let (flags, r) ← readByte content
  let flagBits := fmt8 flags
  let num ← parseFlags (substr flagBits 5 8)
  let (t2, r) ← readerRead (zeros 2) r
  let (t4, _) ← readerRead (zeros 4) r
  pure { errorFlag := substr flagBits 1 2, valueUnit := substr flagBits 2 4,
         rawDataFlag := substr flagBits 4 5, sensorNumber := num,
         moduleAddress := le16 t2, sensorData := le32 t4 }

/-- `SrLiquidLevelSensor.Encode` (`egts_sr_liquid_level_sensor.go:60-89`). -/
def SrLiquidLevelSensor.encode (e : SrLiquidLevelSensor) : Except Err Bytes := do
  let flags ← parseFlags (go!"0" ++ e.errorFlag ++ e.valueUnit ++ e.rawDataFlag ++ fmt3 e.sensorNumber)
  pure (flags :: (put16 e.moduleAddress ++ put32 e.sensorData))

/-! ## EGTS_SR_EXT_POS_DATA -/

/-- `SrExtPosData` (`egts_sr_ext_pos_data.go:12-23`). -/
structure SrExtPosData where
  nsfe : Bytes := []
  sfe : Bytes := []
  pfe : Bytes := []
  hfe : Bytes := []
  vfe : Bytes := []
  vdop : UInt16 := 0
  hdop : UInt16 := 0
  pdop : UInt16 := 0
  satellites : UInt8 := 0
  navigationSystem : UInt16 := 0
  deriving DecidableEq, Repr

/-- `if flag == "1" { buf.Read(tmpBuf); field = Uint16(tmpBuf) }` with the reused two-byte
buffer `tmpBuf`; result: field, `tmpBuf`, unread bytes. -/
def optU16 (flag : Bytes) (old : UInt16) (tmp r : Bytes) : Except Err (UInt16 × Bytes × Bytes) :=
  if flag = one then do
    let (tmp, r) ← readerRead tmp r
    pure (le16 tmp, tmp, r)
  else pure (old, tmp, r)

/-- `if flag == "1" { field = buf.ReadByte() }`. -/
def optU8 (flag : Bytes) (old : UInt8) (r : Bytes) : Except Err (UInt8 × Bytes) :=
  if flag = one then readByte r else pure (old, r)

/-- `SrExtPosData.Decode` (`egts_sr_ext_pos_data.go:26-81`). -/
def SrExtPosData.decode (e : SrExtPosData) (content : Bytes) : Except Err SrExtPosData := do
  let tmp := zeros 2
  let (flags, r) ← readByte content
  let flagBits := fmt8 flags
  let nsfe := substr flagBits 3 4
  let sfe := substr flagBits 4 5
  let pfe := substr flagBits 5 6
  let hfe := substr flagBits 6 7
  let vfe := substr flagBits 7 8
  let (vdop, tmp, r) ← optU16 vfe e.vdop tmp r
  let (hdop, tmp, r) ← optU16 hfe e.hdop tmp r
  let (pdop, tmp, r) ← optU16 pfe e.pdop tmp r
  let (sat, r) ← optU8 sfe e.satellites r
  let (ns, _, _) ← optU16 nsfe e.navigationSystem tmp r
  pure { nsfe, sfe, pfe, hfe, vfe, vdop, hdop, pdop, satellites := sat, navigationSystem := ns }

/-- `if flag == "1" { buf.Write(bytes) }`. -/
def optBytes (flag : Bytes) (b : Bytes) : Bytes := if flag = one then b else []

/-- `SrExtPosData.Encode` (`egts_sr_ext_pos_data.go:84-136`). -/
def SrExtPosData.encode (e : SrExtPosData) : Except Err Bytes := do
  let flags ← parseFlags (go!"000" ++ e.nsfe ++ e.sfe ++ e.pfe ++ e.hfe ++ e.vfe)
  pure ([flags]
    ++ optBytes e.vfe (put16 e.vdop)
    ++ optBytes e.hfe (put16 e.hdop)
    ++ optBytes e.pfe (put16 e.pdop)
    ++ optBytes e.sfe [e.satellites]
    ++ optBytes e.nsfe (put16 e.navigationSystem))

/-! ## EGTS_SR_AD_SENSORS_DATA -/

/-- `SrAdSensorsData` (`egts_sr_ad_sensors_data.go:13-47`). -/
structure SrAdSensorsData where
  dioe1 : Bytes := []
  dioe2 : Bytes := []
  dioe3 : Bytes := []
  dioe4 : Bytes := []
  dioe5 : Bytes := []
  dioe6 : Bytes := []
  dioe7 : Bytes := []
  dioe8 : Bytes := []
  digitalOutputs : UInt8 := 0
  asfe1 : Bytes := []
  asfe2 : Bytes := []
  asfe3 : Bytes := []
  asfe4 : Bytes := []
  asfe5 : Bytes := []
  asfe6 : Bytes := []
  asfe7 : Bytes := []
  asfe8 : Bytes := []
  adio1 : UInt8 := 0
  adio2 : UInt8 := 0
  adio3 : UInt8 := 0
  adio4 : UInt8 := 0
  adio5 : UInt8 := 0
  adio6 : UInt8 := 0
  adio7 : UInt8 := 0
  adio8 : UInt8 := 0
  ans1 : UInt32 := 0
  ans2 : UInt32 := 0
  ans3 : UInt32 := 0
  ans4 : UInt32 := 0
  ans5 : UInt32 := 0
  ans6 : UInt32 := 0
  ans7 : UInt32 := 0
  ans8 : UInt32 := 0
  deriving DecidableEq, Repr

/-- `if flag == "1" { buf.Read(tmpBuf); field = Uint32(append(tmpBuf, 0)) }` with the reused
three-byte buffer `tmpBuf` (`append` copies, its capacity is 3). -/
def optU24 (flag : Bytes) (old : UInt32) (tmp r : Bytes) : Except Err (UInt32 × Bytes × Bytes) :=
  if flag = one then do
    let (tmp, r) ← readerRead tmp r
    pure (le32 (tmp ++ [0]), tmp, r)
  else pure (old, tmp, r)

/-- `SrAdSensorsData.Decode` (`egts_sr_ad_sensors_data.go:50-204`). -/
def SrAdSensorsData.decode (e : SrAdSensorsData) (content : Bytes) : Except Err SrAdSensorsData := do
  let (flags, r) ← readByte content
  let d := fmt8 flags
  let (dout, r) ← readByte r
  let (flags, r) ← readByte r
  let a := fmt8 flags
  let (adio1, r) ← optU8 (substr d 7 8) e.adio1 r
  let (adio2, r) ← optU8 (substr d 6 7) e.adio2 r
  let (adio3, r) ← optU8 (substr d 5 6) e.adio3 r
  let (adio4, r) ← optU8 (substr d 4 5) e.adio4 r
  let (adio5, r) ← optU8 (substr d 3 4) e.adio5 r
  let (adio6, r) ← optU8 (substr d 2 3) e.adio6 r
  let (adio7, r) ← optU8 (substr d 1 2) e.adio7 r
  let (adio8, r) ← optU8 (substr d 0 1) e.adio8 r
  let tmp := zeros 3
  let (ans1, tmp, r) ← optU24 (substr a 7 8) e.ans1 tmp r
  let (ans2, tmp, r) ← optU24 (substr a 6 7) e.ans2 tmp r
  let (ans3, tmp, r) ← optU24 (substr a 5 6) e.ans3 tmp r
  let (ans4, tmp, r) ← optU24 (substr a 4 5) e.ans4 tmp r
  let (ans5, tmp, r) ← optU24 (substr a 3 4) e.ans5 tmp r
  let (ans6, tmp, r) ← optU24 (substr a 2 3) e.ans6 tmp r
  let (ans7, tmp, r) ← optU24 (substr a 1 2) e.ans7 tmp r
  let (ans8, _, _) ← optU24 (substr a 0 1) e.ans8 tmp r
  pure { dioe8 := substr d 0 1, dioe7 := substr d 1 2, dioe6 := substr d 2 3, dioe5 := substr d 3 4,
         dioe4 := substr d 4 5, dioe3 := substr d 5 6, dioe2 := substr d 6 7, dioe1 := substr d 7 8,
         digitalOutputs := dout,
         asfe8 := substr a 0 1, asfe7 := substr a 1 2, asfe6 := substr a 2 3, asfe5 := substr a 3 4,
         asfe4 := substr a 4 5, asfe3 := substr a 5 6, asfe2 := substr a 6 7, asfe1 := substr a 7 8,
         adio1, adio2, adio3, adio4, adio5, adio6, adio7, adio8,
         ans1, ans2, ans3, ans4, ans5, ans6, ans7, ans8 }

/-- `SrAdSensorsData.Encode` (`egts_sr_ad_sensors_data.go:207-360`). The digital flags are
concatenated 8..1, the analog flags 1..8 (lines 216-223 and 237-244). -/
def SrAdSensorsData.encode (e : SrAdSensorsData) : Except Err Bytes := do
  let fd ← parseFlags (e.dioe8 ++ e.dioe7 ++ e.dioe6 ++ e.dioe5 ++ e.dioe4 ++ e.dioe3 ++ e.dioe2 ++ e.dioe1)
  let fa ← parseFlags (e.asfe1 ++ e.asfe2 ++ e.asfe3 ++ e.asfe4 ++ e.asfe5 ++ e.asfe6 ++ e.asfe7 ++ e.asfe8)
  pure ([fd, e.digitalOutputs, fa]
    ++ optBytes e.dioe1 [e.adio1]
    ++ optBytes e.dioe2 [e.adio2]
    ++ optBytes e.dioe3 [e.adio3]
    ++ optBytes e.dioe4 [e.adio4]
    ++ optBytes e.dioe5 [e.adio5]
    ++ optBytes e.dioe6 [e.adio6]
    ++ optBytes e.dioe7 [e.adio7]
    ++ optBytes e.dioe8 [e.adio8]
    ++ optBytes e.asfe1 (put24 e.ans1)
    ++ optBytes e.asfe2 (put24 e.ans2)
    ++ optBytes e.asfe3 (put24 e.ans3)
    ++ optBytes e.asfe4 (put24 e.ans4)
    ++ optBytes e.asfe5 (put24 e.ans5)
    ++ optBytes e.asfe6 (put24 e.ans6)
    ++ optBytes e.asfe7 (put24 e.ans7)
    ++ optBytes e.asfe8 (put24 e.ans8))

/-! ## EGTS_SR_COUNTERS_DATA -/

/-- `SrCountersData` (`egts_sr_counters_data.go:12-29`). -/
structure SrCountersData where
  cfe1 : Bytes := []
  cfe2 : Bytes := []
  cfe3 : Bytes := []
  cfe4 : Bytes := []
  cfe5 : Bytes := []
  cfe6 : Bytes := []
  cfe7 : Bytes := []
  cfe8 : Bytes := []
  cn1 : UInt32 := 0
  cn2 : UInt32 := 0
  cn3 : UInt32 := 0
  cn4 : UInt32 := 0
  cn5 : UInt32 := 0
  cn6 : UInt32 := 0
  cn7 : UInt32 := 0
  cn8 : UInt32 := 0
  deriving DecidableEq, Repr

/-- `SrCountersData.Decode` (`egts_sr_counters_data.go:32-119`). Line 68 assigns the second
counter to `Counter1`; `Counter2` is never assigned. -/
def SrCountersData.decode (c : SrCountersData) (content : Bytes) : Except Err SrCountersData := do
  let (flags, r) ← readByte content
  let f := fmt8 flags
  let tmp := zeros 3
  let (cn1, tmp, r) ← optU24 (substr f 7 8) c.cn1 tmp r
  let (cn1, tmp, r) ← optU24 (substr f 6 7) cn1 tmp r
  let (cn3, tmp, r) ← optU24 (substr f 5 6) c.cn3 tmp r
  let (cn4, tmp, r) ← optU24 (substr f 4 5) c.cn4 tmp r
  let (cn5, tmp, r) ← optU24 (substr f 3 4) c.cn5 tmp r
  let (cn6, tmp, r) ← optU24 (substr f 2 3) c.cn6 tmp r
  let (cn7, tmp, r) ← optU24 (substr f 1 2) c.cn7 tmp r
  let (cn8, _, _) ← optU24 (substr f 0 1) c.cn8 tmp r
  pure { cfe8 := substr f 0 1, cfe7 := substr f 1 2, cfe6 := substr f 2 3, cfe5 := substr f 3 4,
         cfe4 := substr f 4 5, cfe3 := substr f 5 6, cfe2 := substr f 6 7, cfe1 := substr f 7 8,
         cn1, cn2 := c.cn2, cn3, cn4, cn5, cn6, cn7, cn8 }

/-- `SrCountersData.Encode` (`egts_sr_counters_data.go:122-205`). -/
def SrCountersData.encode (c : SrCountersData) : Except Err Bytes := do
  let f ← parseFlags (c.cfe8 ++ c.cfe7 ++ c.cfe6 ++ c.cfe5 ++ c.cfe4 ++ c.cfe3 ++ c.cfe2 ++ c.cfe1)
  pure ([f]
    ++ optBytes c.cfe1 (put24 c.cn1)
    ++ optBytes c.cfe2 (put24 c.cn2)
    ++ optBytes c.cfe3 (put24 c.cn3)
    ++ optBytes c.cfe4 (put24 c.cn4)
    ++ optBytes c.cfe5 (put24 c.cn5)
    ++ optBytes c.cfe6 (put24 c.cn6)
    ++ optBytes c.cfe7 (put24 c.cn7)
    ++ optBytes c.cfe8 (put24 c.cn8))

/-! ## EGTS_SR_TERM_IDENTITY -/

/-- `SrTermIdentity` (`egts_sr_term_identity.go:12-29`). A nil `NetworkIdentifier` is `[]`. -/
structure SrTermIdentity where
  terminalIdentifier : UInt32 := 0
  mne : Bytes := []
  bse : Bytes := []
  nide : Bytes := []
  ssra : Bytes := []
  lngce : Bytes := []
  imsie : Bytes := []
  imeie : Bytes := []
  hdide : Bytes := []
  homeDispatcherIdentifier : UInt16 := 0
  imei : Bytes := []
  imsi : Bytes := []
  languageCode : Bytes := []
  networkIdentifier : Bytes := []
  bufferSize : UInt16 := 0
  mobileNumber : Bytes := []
  deriving DecidableEq, Repr

/-- `if flag == "1" { tmpBuf = make([]byte, n); buf.Read(tmpBuf); field = tmpBuf }`. -/
def optN (flag : Bytes) (n : Nat) (old : Bytes) (r : Bytes) : Except Err (Bytes × Bytes) :=
  if flag = one then readerRead (zeros n) r else pure (old, r)

/-- `SrTermIdentity.Decode` (`egts_sr_term_identity.go:32-115`). -/
def SrTermIdentity.decode (e : SrTermIdentity) (content : Bytes) : Except Err SrTermIdentity := do
  let (t4, r) ← readerRead (zeros 4) content
  let (flags, r) ← readByte r
  let f := fmt8 flags
  let mne := substr f 0 1
  let bse := substr f 1 2
  let nide := substr f 2 3
  let ssra := substr f 3 4
  let lngce := substr f 4 5
  let imsie := substr f 5 6
  let imeie := substr f 6 7
  let hdide := substr f 7 8
  let (hdid, _, r) ← optU16 hdide e.homeDispatcherIdentifier (zeros 2) r
  let (imei, r) ← optN imeie 15 e.imei r
  let (imsi, r) ← optN imsie 16 e.imsi r
  let (lngc, r) ← optN lngce 3 e.languageCode r
  let (nid, r) ← optN nide 3 e.networkIdentifier r
  let (bs, _, r) ← optU16 bse e.bufferSize (zeros 2) r
  let (msisdn, _) ← optN mne 15 e.mobileNumber r
  pure { terminalIdentifier := le32 t4, mne, bse, nide, ssra, lngce, imsie, imeie, hdide,
         homeDispatcherIdentifier := hdid, imei, imsi, languageCode := lngc,
         networkIdentifier := nid, bufferSize := bs, mobileNumber := msisdn }

/-- `SrTermIdentity.Encode` (`egts_sr_term_identity.go:118-179`). The error of `ParseUint`
(line 130) is overwritten on line 131: on error its value (0 or 255) is written. -/
def SrTermIdentity.encode (e : SrTermIdentity) : Except Err Bytes :=
  let flags := UInt8.ofNat (parseUint2 8 (e.mne ++ e.bse ++ e.nide ++ e.ssra ++ e.lngce ++ e.imsie ++ e.imeie ++ e.hdide)).1
  .ok (put32 e.terminalIdentifier ++ [flags]
    ++ optBytes e.hdide (put16 e.homeDispatcherIdentifier)
    ++ optBytes e.imeie e.imei
    ++ optBytes e.imsie e.imsi
    ++ optBytes e.lngce e.languageCode
    ++ optBytes e.nide e.networkIdentifier
    ++ optBytes e.bse (put16 e.bufferSize)
    ++ optBytes e.mne e.mobileNumber)

/-! ## EGTS_SR_AUTH_INFO -/

/-- `SrAuthInfo` (`egts_sr_auth_info.go:12-16`). -/
structure SrAuthInfo where
  userName : Bytes := []
  userPassword : Bytes := []
  serverSequence : Bytes := []
  deriving DecidableEq, Repr

/-- `SrAuthInfo.Decode` (`egts_sr_auth_info.go:19-49`). -/
def SrAuthInfo.decode (e : SrAuthInfo) (content : Bytes) : Except Err SrAuthInfo := do
  let (unm, r) ← readCString content
  let (upsw, r) ← readCString r
  if r ≠ [] then do
    let (ss, _) ← readCString r
    pure { userName := unm, userPassword := upsw, serverSequence := ss }
  else pure { e with userName := unm, userPassword := upsw }

/-- `SrAuthInfo.Encode` (`egts_sr_auth_info.go:52-74`). -/
def SrAuthInfo.encode (e : SrAuthInfo) : Except Err Bytes :=
  .ok (e.userName ++ [0] ++ e.userPassword ++ [0]
    ++ (if e.serverSequence ≠ [] then e.serverSequence ++ [0] else []))

/-! ## EGTS_SR_MODULE_DATA -/

/-- `SrModuleData` (`egts_sr_module_data.go:15-26`). The `int8` module type is kept as its byte
(`int8(b)` and `binary.Write` of an `int8` are the identity on bytes); blank fields are dropped. -/
structure SrModuleData where
  moduleType : UInt8 := 0
  vendorID : UInt32 := 0
  firmwareVersion : UInt16 := 0
  softwareVersion : UInt16 := 0
  modification : UInt8 := 0
  state : UInt8 := 0
  serialNumber : Bytes := []
  description : Bytes := []
  deriving DecidableEq, Repr

/-- `SrModuleData.Decode` (`egts_sr_module_data.go:30-95`); the two `ReadByte` loops
(lines 68-79 and 81-92) read up to a NUL byte. -/
def SrModuleData.decode (_e : SrModuleData) (content : Bytes) : Except Err SrModuleData := do
  let (mt, r) ← readByte content
  let (vid, r) ← readerRead (zeros 4) r
  let (fwv, r) ← readerRead (zeros 2) r
  let (swv, r) ← readerRead (zeros 2) r
  let (md, r) ← readByte r
  let (st, r) ← readByte r
  let (srn, r) ← readCString r
  let (dscr, _) ← readCString r
  pure { moduleType := mt, vendorID := le32 vid, firmwareVersion := le16 fwv,
         softwareVersion := le16 swv, modification := md, state := st,
         serialNumber := srn, description := dscr }

/-- `SrModuleData.Encode` (`egts_sr_module_data.go:98-137`). -/
def SrModuleData.encode (e : SrModuleData) : Except Err Bytes :=
  .ok ([e.moduleType] ++ put32 e.vendorID ++ put16 e.firmwareVersion ++ put16 e.softwareVersion
    ++ [e.modification, e.state] ++ e.serialNumber ++ [0] ++ e.description ++ [0])

/-! ## EGTS_SR_DISPATCHER_IDENTITY -/

/-- `SrDispatcherIdentity` (`egts_sr_dispatcher_identity.go:12-16`). -/
structure SrDispatcherIdentity where
  dispatcherType : UInt8 := 0
  dispatcherID : UInt32 := 0
  description : Bytes := []
  deriving DecidableEq, Repr

/-- `SrDispatcherIdentity.Decode` (`egts_sr_dispatcher_identity.go:19-37`). -/
def SrDispatcherIdentity.decode (_d : SrDispatcherIdentity) (content : Bytes) :
    Except Err SrDispatcherIdentity := do
  let (dt, r) ← readByte content
  let (did, r) ← bufferRead (zeros 4) r
  pure { dispatcherType := dt, dispatcherID := le32 did, description := r }

/-- `SrDispatcherIdentity.Encode` (`egts_sr_dispatcher_identity.go:40-61`). -/
def SrDispatcherIdentity.encode (d : SrDispatcherIdentity) : Except Err Bytes :=
  .ok ([d.dispatcherType] ++ put32 d.dispatcherID ++ d.description)

/-! ## EGTS_SR_POS_DATA -/

/-- `SrPosData` (`egts_sr_pos_data.go:13-34`); `SourceData` is neither decoded nor encoded. -/
structure SrPosData where
  navigationTime : GoTime := zeroTime
  latitude : F64 := 0
  longitude : F64 := 0
  alte : Bytes := []
  lohs : Bytes := []
  lahs : Bytes := []
  mv : Bytes := []
  bb : Bytes := []
  cs : Bytes := []
  fix : Bytes := []
  vld : Bytes := []
  directionHighestBit : UInt8 := 0
  altitudeSign : UInt8 := 0
  speed : UInt16 := 0
  direction : UInt8 := 0
  odometer : UInt32 := 0
  digitalInputs : UInt8 := 0
  source : UInt8 := 0
  altitude : UInt32 := 0
  sourceData : Int := 0
  deriving DecidableEq, Repr

/-- `SrPosData.Decode` (`egts_sr_pos_data.go:37-130`). `tmpUint32Buf` is reused for the time and
both coordinates. -/
def SrPosData.decode (e : SrPosData) (content : Bytes) : Except Err SrPosData := do
  let (t4, r) ← readerRead (zeros 4) content
  let ntm := decTime (le32 t4)
  let (t4, r) ← readerRead t4 r
  let lat := decLat (le32 t4)
  let (t4, r) ← readerRead t4 r
  let lon := decLon (le32 t4)
  let (flags, r) ← readByte r
  let f := fmt8 flags
  let (t2, r) ← readerRead (zeros 2) r
  let spd := le16 t2
  let dirh := (spd >>> 15 &&& 1).toUInt8
  let alts := (spd >>> 14 &&& 1).toUInt8
  -- lines 92-98: `ParseUint(Sprintf("%016b", spd)[2:], 2, 16)`, then `/ 10`
  match parseUint2 16 (substr (fmt16 spd) 2 16) with
  | (_, some er) => .error er
  | (sp, none) => do
  let speed := UInt16.ofNat sp / 10
  let (dir, r) ← readByte r
  let dir := dir ||| (dirh <<< 7)
  let (t3, r) ← readerRead (zeros 3) r
  let odm := le32 (t3 ++ [0])
  let (din, r) ← readByte r
  let (src, r) ← readByte r
  let alte := substr f 0 1
  -- lines 120-126: four bytes are read for the altitude
  let alt ← (if alte = one then do
      let (a4, _) ← readerRead (zeros 4) r
      pure (le32 a4)
    else pure e.altitude)
  pure { navigationTime := ntm, latitude := lat, longitude := lon,
         alte := alte, lohs := substr f 1 2, lahs := substr f 2 3, mv := substr f 3 4,
         bb := substr f 4 5, cs := substr f 5 6, fix := substr f 6 7, vld := substr f 7 8,
         directionHighestBit := dirh, altitudeSign := alts, speed := speed, direction := dir,
         odometer := odm, digitalInputs := din, source := src, altitude := alt,
         sourceData := e.sourceData }

/-- `e.Speed*10 | uint16(DIRH)<<15 | uint16(ALTS)<<14` (`egts_sr_pos_data.go:168-169`). -/
def posSpeedWord (speed : UInt16) (dirh alts : UInt8) : UInt16 :=
  (((speed * (10 : UInt16)) ||| (dirh.toUInt16 <<< (15 : UInt16))) ||| (alts.toUInt16 <<< (14 : UInt16)))

/-- `e.Direction &^ (e.DirectionHighestBit << 7)` (`egts_sr_pos_data.go:176`). -/
def posDirByte (dir dirh : UInt8) : UInt8 := dir &&& ~~~(dirh <<< 7)

/-- `SrPosData.Encode` (`egts_sr_pos_data.go:133-206`). -/
def SrPosData.encode (env : Env) (e : SrPosData) : Except Err Bytes := do
  let flags ← parseFlags (e.alte ++ e.lohs ++ e.lahs ++ e.mv ++ e.bb ++ e.cs ++ e.fix ++ e.vld)
  pure (put32 (encNavTime env e.navigationTime)
    ++ put32 (encLat env e.latitude)
    ++ put32 (encLon env e.longitude)
    ++ [flags]
    ++ put16 (posSpeedWord e.speed e.directionHighestBit e.altitudeSign)
    ++ [posDirByte e.direction e.directionHighestBit]
    ++ put24 e.odometer
    ++ [e.digitalInputs, e.source]
    ++ optBytes e.alte (put24 e.altitude))

/-! ## EGTS_SR_EGTS_PLUS_DATA -/

/-- `StorageRecord.Decode` (`egts_sr_egtsplus_data.go:241-243`): `proto.Unmarshal`, which resets
the receiver first. -/
def StorageRecord.decode (_m : StorageRecord) (content : Bytes) : Except Err StorageRecord :=
  match Proto.unmarshal content with
  | some m => .ok m
  | none => .error .proto

/-- `StorageRecord.Encode` (`egts_sr_egtsplus_data.go:245-247`): `proto.Marshal`. Simplification: the bytes returned along with
the error are not modelled. -/
def StorageRecord.encode (m : StorageRecord) : Except Err Bytes :=
  match Proto.marshal m with
  | some b => .ok b
  | none => .error .proto

end Egts
