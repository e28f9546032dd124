import Verif.Model.Record

/-!
# What a subrecord holds after its `Decode`, whether or not that returned an error

The decoders of `Model/Sub.lean` once more, statement by statement, with the assignments to the receiver in the order in which
the Go code makes them. `C107_same_results` shows that the results are those of `Model/Sub.lean`. EGTS-PLUS data is left out
(what Protocol Buffers leave in a message after an error is not specified), and of `SrResponse` only its own two fields are
held by the receiver.
-/

namespace Egts

/-- A running `Decode`: the receiver so far and the bytes not read yet. An error ends it, and leaves the receiver as it is. -/
abbrev Run (S : Type) := EStateM Err (S × Bytes)

namespace Run
variable {S : Type}

/-- Read from the buffer with `f`. -/
def read {α : Type} (f : Bytes → Except Err (α × Bytes)) : Run S α := fun s =>
  match f s.2 with
  | .ok (a, r) => .ok a (s.1, r)
  | .error e => .error e s

/-- An assignment to the receiver. -/
def set (f : S → S) : Run S Unit := fun s => .ok () (f s.1, s.2)

/-- `if e.X, err = buf.ReadByte(); err != nil { return … }`: at the end of the bytes, 0 is assigned. -/
def byteTo (f : UInt8 → S → S) : Run S UInt8 := fun s =>
  match s.2 with
  | [] => .error .eof (f 0 s.1, [])
  | b :: r => .ok b (f b s.1, r)

/-- The same after `if flag == "1"`. -/
def opt8 (flag : Bytes) (f : UInt8 → S → S) : Run S Unit :=
  if flag = one then do let _ ← byteTo f else pure ()

/-- `if flag == "1" { buf.Read(tmpBuf); … ; e.X = Uint16(tmpBuf) }`; the result is `tmpBuf`. -/
def opt16 (flag tmp : Bytes) (f : UInt16 → S → S) : Run S Bytes :=
  if flag = one then do
    let tmp ← read (readerRead tmp)
    set (f (le16 tmp))
    pure tmp
  else pure tmp

/-- The same with three bytes: `e.X = Uint32(append(tmpBuf, 0))`. -/
def opt24 (flag tmp : Bytes) (f : UInt32 → S → S) : Run S Bytes :=
  if flag = one then do
    let tmp ← read (readerRead tmp)
    set (f (le32 (tmp ++ [0])))
    pure tmp
  else pure tmp

/-- `if flag == "1" { tmpBuf = make([]byte, n); buf.Read(tmpBuf); …; e.X = string(tmpBuf) }`. -/
def optText (flag : Bytes) (n : Nat) (f : Bytes → S → S) : Run S Unit :=
  if flag = one then do
    let tmp ← read (readerRead (zeros n))
    set (f tmp)
  else pure ()

/-- `if flag == "1" { e.X = make([]byte, n); buf.Read(e.X) … }`. -/
def optMade (flag : Bytes) (n : Nat) (f : Bytes → S → S) : Run S Unit :=
  if flag = one then do
    set (f (zeros n))
    let tmp ← read (readerRead (zeros n))
    set (f tmp)
  else pure ()

/-- The receiver and the error, after all. -/
def after (m : Run S Unit) (s : S) (b : Bytes) : S × Option Err :=
  match m (s, b) with
  | .ok _ s => (s.1, none)
  | .error e s => (s.1, some e)

end Run

open Run

/-- `SrPosData.Decode` (`egts_sr_pos_data.go:37-130`). -/
def SrPosData.run : Run SrPosData Unit := do
  let t4 ← read (readerRead (zeros 4))
  set fun e => { e with navigationTime := decTime (le32 t4) }
  let t4 ← read (readerRead t4)
  set fun e => { e with latitude := decLat (le32 t4) }
  let t4 ← read (readerRead t4)
  set fun e => { e with longitude := decLon (le32 t4) }
  let flags ← read readByte
  let f := fmt8 flags
  set fun e => { e with
    alte := substr f 0 1, lohs := substr f 1 2, lahs := substr f 2 3, mv := substr f 3 4
    bb := substr f 4 5, cs := substr f 5 6, fix := substr f 6 7, vld := substr f 7 8 }
  let t2 ← read (readerRead (zeros 2))
  let spd := le16 t2
  let dirh := (spd >>> 15 &&& 1).toUInt8
  set fun e => { e with directionHighestBit := dirh, altitudeSign := (spd >>> 14 &&& 1).toUInt8 }
  let sp ← read fun r => match parseUint2 16 (substr (fmt16 spd) 2 16) with
    | (_, some er) => .error er
    | (sp, none) => .ok (sp, r)
  set fun e => { e with speed := UInt16.ofNat sp / 10 }
  let dir ← byteTo fun v e => { e with direction := v }
  set fun e => { e with direction := dir ||| (dirh <<< 7) }
  let t3 ← read (readerRead (zeros 3))
  set fun e => { e with odometer := le32 (t3 ++ [0]) }
  let _ ← byteTo fun v e => { e with digitalInputs := v }
  let _ ← byteTo fun v e => { e with source := v }
  if substr f 0 1 = one then do
    let a4 ← read (readerRead (zeros 4))
    set fun e => { e with altitude := le32 a4 }
  else pure ()

/-- `SrStateData.Decode` (`egts_sr_state_data.go:23-55`). -/
def SrStateData.run : Run SrStateData Unit := do
  let _ ← byteTo fun v e => { e with state := v }
  let _ ← byteTo fun v e => { e with mainPowerSourceVoltage := v }
  let _ ← byteTo fun v e => { e with backUpBatteryVoltage := v }
  let _ ← byteTo fun v e => { e with internalBatteryVoltage := v }
  let flags ← read readByte
  let f := fmt8 flags
  set fun e => { e with nms := substr f 5 6, ibu := substr f 6 7, bbu := substr f 7 8 }

/-- `SrAbsCntrData.Decode` (`egts_sr_abs_cntr_data.go:18-37`). -/
def SrAbsCntrData.run : Run SrAbsCntrData Unit := do
  let _ ← byteTo fun v e => { e with counterNumber := v }
  let tmp ← read (readerRead (zeros 3))
  set fun e => { e with counterValue := le32 (tmp ++ [0]) }

/-- `SrAbsAnSensData.Decode` (`egts_sr_abs_an_sensors_data.go:16-23`): the length is looked at first. -/
def SrAbsAnSensData.run : Run SrAbsAnSensData Unit := do
  let c ← read fun r => if r.length < 4 then .error .badSize else .ok (r, r)
  set fun e => { e with sensorNumber := c.headD 0 }
  set fun e => { e with value := le32 c >>> 8 }

/-- `SrLiquidLevelSensor.Decode` (`egts_sr_liquid_level_sensor.go:22-57`). -/
def SrLiquidLevelSensor.run : Run SrLiquidLevelSensor Unit := do
  let flags ← read readByte
  let f := fmt8 flags
  set fun e => { e with errorFlag := substr f 1 2, valueUnit := substr f 2 4, rawDataFlag := substr f 4 5 }
  let num ← read fun r => match parseFlags (substr f 5 8) with
    | .ok n => .ok (n, r)
    | .error er => .error er
  set fun e => { e with sensorNumber := num }
  let t2 ← read (readerRead (zeros 2))
  set fun e => { e with moduleAddress := le16 t2 }
  let t4 ← read (readerRead (zeros 4))
  set fun e => { e with sensorData := le32 t4 }

/-- `SrResultCode.Decode` (`egts_sr_result_code.go:15-26`). -/
def SrResultCode.run : Run SrResultCode Unit := do
  let _ ← byteTo fun v e => { e with resultCode := v }

/-- `SrResponse.Decode` (`egts_sr_response.go:17-38`); `nested` is the decoding of what follows, of which only the error is used. -/
def SrResponse.run (nested : Bytes → Option Err) : Run SrResponse Unit := do
  let tmp ← read (bufferRead (zeros 2))
  set fun s => { s with confirmedRecordNumber := le16 tmp }
  let _ ← byteTo fun v s => { s with recordStatus := v }
  read fun r => match nested r with
    | some er => .error er
    | none => .ok ((), r)

/-- `SrExtPosData.Decode` (`egts_sr_ext_pos_data.go:26-81`). -/
def SrExtPosData.run : Run SrExtPosData Unit := do
  let flags ← read readByte
  let f := fmt8 flags
  set fun e => { e with nsfe := substr f 3 4, sfe := substr f 4 5, pfe := substr f 5 6, hfe := substr f 6 7, vfe := substr f 7 8 }
  let tmp ← opt16 (substr f 7 8) (zeros 2) fun v e => { e with vdop := v }
  let tmp ← opt16 (substr f 6 7) tmp fun v e => { e with hdop := v }
  let tmp ← opt16 (substr f 5 6) tmp fun v e => { e with pdop := v }
  opt8 (substr f 4 5) fun v e => { e with satellites := v }
  let _ ← opt16 (substr f 3 4) tmp fun v e => { e with navigationSystem := v }

/-- `SrAdSensorsData.Decode` (`egts_sr_ad_sensors_data.go:50-204`). -/
def SrAdSensorsData.run : Run SrAdSensorsData Unit := do
  let flags ← read readByte
  let d := fmt8 flags
  set fun e => { e with
    dioe8 := substr d 0 1, dioe7 := substr d 1 2, dioe6 := substr d 2 3, dioe5 := substr d 3 4
    dioe4 := substr d 4 5, dioe3 := substr d 5 6, dioe2 := substr d 6 7, dioe1 := substr d 7 8 }
  let _ ← byteTo fun v e => { e with digitalOutputs := v }
  let flags ← read readByte
  let a := fmt8 flags
  set fun e => { e with
    asfe8 := substr a 0 1, asfe7 := substr a 1 2, asfe6 := substr a 2 3, asfe5 := substr a 3 4
    asfe4 := substr a 4 5, asfe3 := substr a 5 6, asfe2 := substr a 6 7, asfe1 := substr a 7 8 }
  opt8 (substr d 7 8) fun v e => { e with adio1 := v }
  opt8 (substr d 6 7) fun v e => { e with adio2 := v }
  opt8 (substr d 5 6) fun v e => { e with adio3 := v }
  opt8 (substr d 4 5) fun v e => { e with adio4 := v }
  opt8 (substr d 3 4) fun v e => { e with adio5 := v }
  opt8 (substr d 2 3) fun v e => { e with adio6 := v }
  opt8 (substr d 1 2) fun v e => { e with adio7 := v }
  opt8 (substr d 0 1) fun v e => { e with adio8 := v }
  let tmp ← opt24 (substr a 7 8) (zeros 3) fun v e => { e with ans1 := v }
  let tmp ← opt24 (substr a 6 7) tmp fun v e => { e with ans2 := v }
  let tmp ← opt24 (substr a 5 6) tmp fun v e => { e with ans3 := v }
  let tmp ← opt24 (substr a 4 5) tmp fun v e => { e with ans4 := v }
  let tmp ← opt24 (substr a 3 4) tmp fun v e => { e with ans5 := v }
  let tmp ← opt24 (substr a 2 3) tmp fun v e => { e with ans6 := v }
  let tmp ← opt24 (substr a 1 2) tmp fun v e => { e with ans7 := v }
  let _ ← opt24 (substr a 0 1) tmp fun v e => { e with ans8 := v }

/-- `SrCountersData.Decode` (`egts_sr_counters_data.go:32-119`). -/
def SrCountersData.run : Run SrCountersData Unit := do
  let flags ← read readByte
  let f := fmt8 flags
  set fun e => { e with
    cfe8 := substr f 0 1, cfe7 := substr f 1 2, cfe6 := substr f 2 3, cfe5 := substr f 3 4
    cfe4 := substr f 4 5, cfe3 := substr f 5 6, cfe2 := substr f 6 7, cfe1 := substr f 7 8 }
  let tmp ← opt24 (substr f 7 8) (zeros 3) fun v e => { e with cn1 := v }
  let tmp ← opt24 (substr f 6 7) tmp fun v e => { e with cn1 := v }
  let tmp ← opt24 (substr f 5 6) tmp fun v e => { e with cn3 := v }
  let tmp ← opt24 (substr f 4 5) tmp fun v e => { e with cn4 := v }
  let tmp ← opt24 (substr f 3 4) tmp fun v e => { e with cn5 := v }
  let tmp ← opt24 (substr f 2 3) tmp fun v e => { e with cn6 := v }
  let tmp ← opt24 (substr f 1 2) tmp fun v e => { e with cn7 := v }
  let _ ← opt24 (substr f 0 1) tmp fun v e => { e with cn8 := v }

/-- `SrTermIdentity.Decode` (`egts_sr_term_identity.go:32-115`). The network identifier is set to three zeros before it is read
(line 93). -/
def SrTermIdentity.run : Run SrTermIdentity Unit := do
  let t4 ← read (readerRead (zeros 4))
  set fun e => { e with terminalIdentifier := le32 t4 }
  let flags ← read readByte
  let f := fmt8 flags
  set fun e => { e with
    mne := substr f 0 1, bse := substr f 1 2, nide := substr f 2 3, ssra := substr f 3 4
    lngce := substr f 4 5, imsie := substr f 5 6, imeie := substr f 6 7, hdide := substr f 7 8 }
  let _ ← opt16 (substr f 7 8) (zeros 2) fun v e => { e with homeDispatcherIdentifier := v }
  optText (substr f 6 7) 15 fun v e => { e with imei := v }
  optText (substr f 5 6) 16 fun v e => { e with imsi := v }
  optText (substr f 4 5) 3 fun v e => { e with languageCode := v }
  optMade (substr f 2 3) 3 fun v e => { e with networkIdentifier := v }
  let _ ← opt16 (substr f 1 2) (zeros 2) fun v e => { e with bufferSize := v }
  optText (substr f 0 1) 15 fun v e => { e with mobileNumber := v }

/-- `SrAuthInfo.Decode` (`egts_sr_auth_info.go:19-49`). -/
def SrAuthInfo.run : Run SrAuthInfo Unit := do
  let unm ← read readCString
  set fun e => { e with userName := unm }
  let upsw ← read readCString
  set fun e => { e with userPassword := upsw }
  let more ← read fun r => .ok (decide (r ≠ []), r)
  if more then do
    let ss ← read readCString
    set fun e => { e with serverSequence := ss }
  else pure ()

/-- `SrModuleData.Decode` (`egts_sr_module_data.go:30-95`). -/
def SrModuleData.run : Run SrModuleData Unit := do
  let mt ← read readByte
  set fun e => { e with moduleType := mt }
  let vid ← read (readerRead (zeros 4))
  set fun e => { e with vendorID := le32 vid }
  let fwv ← read (readerRead (zeros 2))
  set fun e => { e with firmwareVersion := le16 fwv }
  let swv ← read (readerRead (zeros 2))
  set fun e => { e with softwareVersion := le16 swv }
  let _ ← byteTo fun v e => { e with modification := v }
  let _ ← byteTo fun v e => { e with state := v }
  let srn ← read readCString
  set fun e => { e with serialNumber := srn }
  let dscr ← read readCString
  set fun e => { e with description := dscr }

/-- `SrDispatcherIdentity.Decode` (`egts_sr_dispatcher_identity.go:19-37`). -/
def SrDispatcherIdentity.run : Run SrDispatcherIdentity Unit := do
  let _ ← byteTo fun v d => { d with dispatcherType := v }
  let did ← read (bufferRead (zeros 4))
  set fun d => { d with dispatcherID := le32 did }
  let r ← read fun r => .ok (r, [])
  set fun d => { d with description := r }

end Egts
