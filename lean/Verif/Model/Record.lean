import Verif.Model.Sub

/-!
# Subrecord sets, service records and responses

`record_data.go`, `service_data_records.go`, `egts_pt_response.go` and the recursive part of
`egts_sr_response.go`.
-/

namespace Egts

/-- The dynamic type and value of `RecordData.SubrecordData` (the cases of the switches in
`record_data.go:41-83` and `:105-134`). -/
inductive SubData
  | pos (d : SrPosData)
  | term (d : SrTermIdentity)
  | module (d : SrModuleData)
  | resp (d : SrResponse)
  | result (d : SrResultCode)
  | extPos (d : SrExtPosData)
  | adSens (d : SrAdSensorsData)
  | state (d : SrStateData)
  | liquid (d : SrLiquidLevelSensor)
  | absCntr (d : SrAbsCntrData)
  | auth (d : SrAuthInfo)
  | counters (d : SrCountersData)
  | plus (d : StorageRecord)
  | absAn (d : SrAbsAnSensData)
  | disp (d : SrDispatcherIdentity)
  deriving DecidableEq, Repr

/-- Dynamic dispatch of `SubrecordData.Encode()`. -/
def SubData.encode (env : Env) : SubData → Except Err Bytes
  | .pos d => d.encode env
  | .term d => d.encode
  | .module d => d.encode
  | .resp d => d.encode
  | .result d => d.encode
  | .extPos d => d.encode
  | .adSens d => d.encode
  | .state d => d.encode
  | .liquid d => d.encode
  | .absCntr d => d.encode
  | .auth d => d.encode
  | .counters d => d.encode
  | .plus d => d.encode
  | .absAn d => d.encode
  | .disp d => d.encode

/-- `uint16(len(recBytes))`, or 0 if `Encode` fails: the body of every `Length()` method
(e.g. `record_data.go:161-171`). -/
def lengthOf : Except Err Bytes → UInt16
  | .ok b => UInt16.ofNat b.length
  | .error _ => 0

/-- Dynamic dispatch of `SubrecordData.Length()`: every kind computes it from `Encode`, except
`SrAbsAnSensData` which returns 4 (`egts_sr_abs_an_sensors_data.go:36-38`). -/
def SubData.length (env : Env) : SubData → UInt16
  | .absAn _ => 4
  | d => lengthOf (d.encode env)

/-- `RecordData` (`record_data.go:12-16`); `none` is a nil `SubrecordData`. -/
structure RecordData where
  subrecordType : UInt8 := 0
  subrecordLength : UInt16 := 0
  subrecordData : Option SubData := none
  deriving DecidableEq, Repr

/-! ## Decoding of subrecords -/

/-- What `record_data.go:41-87` does with one subrecord of type `t`, declared length `len` and
bytes `b`. `none`: unknown type, the subrecord is skipped. `respDec` is `SrResponse.Decode`, which
is recursive. -/
def subDecode (_env : Env) (respDec : Bytes → Except Err SrResponse)
    (t : UInt8) (len : UInt16) (b : Bytes) : Except Err (Option SubData) :=
  match t.toNat with
  | 16 => do let d ← SrPosData.decode {} b; pure (some (.pos d))
  | 1 => do let d ← SrTermIdentity.decode {} b; pure (some (.term d))
  | 2 => do let d ← SrModuleData.decode {} b; pure (some (.module d))
  | 0 => do let d ← respDec b; pure (some (.resp d))
  | 9 => do let d ← SrResultCode.decode {} b; pure (some (.result d))
  | 17 => do let d ← SrExtPosData.decode {} b; pure (some (.extPos d))
  | 18 => do let d ← SrAdSensorsData.decode {} b; pure (some (.adSens d))
  | 20 =>
    if len = 5 then do let d ← SrStateData.decode {} b; pure (some (.state d))
    else .error .accel
  | 21 => do let d ← SrStateData.decode {} b; pure (some (.state d))
  | 27 => do let d ← SrLiquidLevelSensor.decode {} b; pure (some (.liquid d))
  | 25 => do let d ← SrAbsCntrData.decode {} b; pure (some (.absCntr d))
  | 7 => do let d ← SrAuthInfo.decode {} b; pure (some (.auth d))
  | 19 => do let d ← SrCountersData.decode {} b; pure (some (.counters d))
  | 15 => do let d ← StorageRecord.decode {} b; pure (some (.plus d))
  | 24 => do let d ← SrAbsAnSensData.decode {} b; pure (some (.absAn d))
  | 5 => do let d ← SrDispatcherIdentity.decode {} b; pure (some (.disp d))
  | _ => pure none

/-- One iteration of the loop of `RecordDataSet.Decode` (`record_data.go:28-89`): the record to
append (or `none` if skipped) and the unread bytes. `Buffer.Next(n)` returns at most the unread
bytes, without error. -/
def rdStep (env : Env) (respDec : Bytes → Except Err SrResponse) (r : Bytes) :
    Except Err (Option RecordData × Bytes) := do
  let (t, r) ← readByte r
  let (tmp, r) ← bufferRead (zeros 2) r
  let len := le16 tmp
  let sub := r.take len.toNat
  let d ← subDecode env respDec t len sub
  pure (d.map (fun d => { subrecordType := t, subrecordLength := len, subrecordData := some d }),
    r.drop len.toNat)

/-- The loop of `RecordDataSet.Decode` (`record_data.go:27-90`), appending to `acc`. Every
iteration consumes at least two bytes, so `fuel = length` is enough (`rdsLoop_fuel`). -/
def rdsLoop (env : Env) (respDec : Bytes → Except Err SrResponse) :
    Nat → List RecordData → Bytes → Except Err (List RecordData)
  | 0, acc, _ => .ok acc
  | fuel + 1, acc, r =>
    if r = [] then .ok acc
    else do
      let (rd, r) ← rdStep env respDec r
      rdsLoop env respDec fuel (acc ++ rd.toList) r

/-- `ServiceDataRecord` (`service_data_records.go:15-31`). -/
structure ServiceDataRecord where
  recordLength : UInt16 := 0
  recordNumber : UInt16 := 0
  ssod : Bytes := []
  rsod : Bytes := []
  grp : Bytes := []
  rpp : Bytes := []
  tmfe : Bytes := []
  evfe : Bytes := []
  obfe : Bytes := []
  objectIdentifier : UInt32 := 0
  eventIdentifier : UInt32 := 0
  time : GoTime := zeroTime
  sourceServiceType : UInt8 := 0
  recipientServiceType : UInt8 := 0
  recordDataSet : List RecordData := []
  deriving DecidableEq, Repr

/-- `if flag == "1" { b := make([]byte, 4); buf.Read(b); field = Uint32(b) }`. -/
def optU32 (flag : Bytes) (old : UInt32) (r : Bytes) : Except Err (UInt32 × Bytes) :=
  if flag = one then do
    let (b, r) ← readerRead (zeros 4) r
    pure (le32 b, r)
  else pure (old, r)

/-- `if TMFE == "1" { ...; sdr.Time = timeOffset.Add(...) }` (`service_data_records.go:87-94`). -/
def optTime (flag : Bytes) (old : GoTime) (r : Bytes) : Except Err (GoTime × Bytes) :=
  if flag = one then do
    let (b, r) ← readerRead (zeros 4) r
    pure (decTime (le32 b), r)
  else pure (old, r)

/-- Header of one service record (`service_data_records.go:46-102`). `tmpIntBuf` is reused for the
record number. -/
def sdrHead (r : Bytes) : Except Err (ServiceDataRecord × Bytes) := do
  let (t2, r) ← readerRead (zeros 2) r
  let rl := le16 t2
  let (t2, r) ← readerRead t2 r
  let rn := le16 t2
  let (flags, r) ← readByte r
  let f := fmt8 flags
  let tmfe := substr f 5 6
  let evfe := substr f 6 7
  let obfe := substr f 7 8
  let (oid, r) ← optU32 obfe 0 r
  let (evid, r) ← optU32 evfe 0 r
  let (tm, r) ← optTime tmfe zeroTime r
  let (sst, r) ← readByte r
  let (rst, r) ← readByte r
  pure ({ recordLength := rl, recordNumber := rn,
          ssod := substr f 0 1, rsod := substr f 1 2, grp := substr f 2 3, rpp := substr f 3 5,
          tmfe, evfe, obfe, objectIdentifier := oid, eventIdentifier := evid, time := tm,
          sourceServiceType := sst, recipientServiceType := rst, recordDataSet := [] }, r)

/-- One iteration of the loop of `ServiceDataSet.Decode` (`service_data_records.go:46-117`).
The record data buffer has the declared length; a short read leaves its tail zero. `rdsDec` is
`RecordDataSet.Decode` on a fresh set. -/
def sdrStep (rdsDec : Bytes → Except Err (List RecordData)) (r : Bytes) :
    Except Err (ServiceDataRecord × Bytes) := do
  let (sdr, r) ← sdrHead r
  if r ≠ [] then do
    let (b, r) ← readerRead (zeros sdr.recordLength.toNat) r
    let rds ← rdsDec b
    pure ({ sdr with recordDataSet := rds }, r)
  else pure (sdr, r)

/-- The loop of `ServiceDataSet.Decode` (`service_data_records.go:45-118`), appending to `acc`.
Every iteration consumes at least seven bytes, so `fuel = length` is enough (`sdsLoop_fuel`). -/
def sdsLoop (rdsDec : Bytes → Except Err (List RecordData)) :
    Nat → List ServiceDataRecord → Bytes → Except Err (List ServiceDataRecord)
  | 0, acc, _ => .ok acc
  | fuel + 1, acc, r =>
    if r = [] then .ok acc
    else do
      let (sdr, r) ← sdrStep rdsDec r
      sdsLoop rdsDec fuel (acc ++ [sdr]) r

/-- `SrResponse.Decode` (`egts_sr_response.go:17-38`): the fixed part, then the remaining bytes are
decoded as a `ServiceDataSet` whose result is dropped but whose error is returned. Lean needs a
bound `depth` on the nesting of these calls; when it is exhausted the model returns `Err.nesting`,
which `Proofs/Fuel.lean` shows never happens at the depths used. -/
def srRespDecode (env : Env) : Nat → Bytes → Except Err SrResponse
  | 0, _ => .error .nesting
  | depth + 1, content => do
    let (s, r) ← SrResponse.decodeHead content
    let _ ← sdsLoop (fun b => rdsLoop env (srRespDecode env depth) b.length [] b) r.length [] r
    pure s

/-- The records that the loop of `RecordDataSet.Decode` (`record_data.go:27-90`) has appended when it returns, be it with an error:
`append` (line 89) comes after everything that can fail. -/
def rdsKept (env : Env) (respDec : Bytes → Except Err SrResponse) : Nat → List RecordData → Bytes → List RecordData
  | 0, acc, _ => acc
  | fuel + 1, acc, r =>
    if r = [] then acc
    else match rdStep env respDec r with
      | .error _ => acc
      | .ok (rd, r) => rdsKept env respDec fuel (acc ++ rd.toList) r

/-- The records that the loop of `ServiceDataSet.Decode` (`service_data_records.go:45-118`) has appended when it returns, be it with an
error: `append` (line 117) comes after everything that can fail. -/
def sdsKept (rdsDec : Bytes → Except Err (List RecordData)) : Nat → List ServiceDataRecord → Bytes → List ServiceDataRecord
  | 0, acc, _ => acc
  | fuel + 1, acc, r =>
    if r = [] then acc
    else match sdrStep rdsDec r with
      | .error _ => acc
      | .ok (sdr, r) => sdsKept rdsDec fuel (acc ++ [sdr]) r

/-- Nesting bound used for an input of `n` bytes (proved sufficient in `Proofs/Fuel.lean`). -/
def depthFor (n : Nat) : Nat := n + 1

/-- `RecordDataSet.Decode` on a fresh set, at nesting bound `depth`. -/
def rdsDecodeD (env : Env) (depth : Nat) (b : Bytes) : Except Err (List RecordData) :=
  rdsLoop env (srRespDecode env depth) b.length [] b

/-- `RecordDataSet.Decode` (`record_data.go:22-93`) on a set already holding `rds0`. -/
def RecordDataSet.decode (env : Env) (rds0 : List RecordData) (b : Bytes) :
    Except Err (List RecordData) :=
  rdsLoop env (srRespDecode env (depthFor b.length)) b.length rds0 b

/-- `SrResponse.Decode` (`egts_sr_response.go:17-38`). -/
def SrResponse.decode (env : Env) (_s : SrResponse) (b : Bytes) : Except Err SrResponse :=
  srRespDecode env (depthFor b.length) b

/-- `ServiceDataSet.Decode` (`service_data_records.go:38-120`) on a set already holding `s0`. -/
def ServiceDataSet.decode (env : Env) (s0 : List ServiceDataRecord) (b : Bytes) :
    Except Err (List ServiceDataRecord) :=
  sdsLoop (rdsDecodeD env (depthFor b.length)) b.length s0 b

/-- What the set holds after `RecordDataSet.Decode` (`record_data.go:22-93`), whether or not that returned an error. -/
def RecordDataSet.kept (env : Env) (rds0 : List RecordData) (b : Bytes) : List RecordData :=
  rdsKept env (srRespDecode env (depthFor b.length)) b.length rds0 b

/-- What the set holds after `ServiceDataSet.Decode` (`service_data_records.go:38-120`), whether or not that returned an error. -/
def ServiceDataSet.kept (env : Env) (s0 : List ServiceDataRecord) (b : Bytes) : List ServiceDataRecord :=
  sdsKept (rdsDecodeD env (depthFor b.length)) b.length s0 b

/-! ## Encoding -/

/-- Type inference of `RecordDataSet.Encode` (`record_data.go:104-135`). There is no case for
`SrModuleData` and `SrDispatcherIdentity`, nor for nil. -/
def inferType : Option SubData → Except Err UInt8
  | some (.pos _) => .ok 16
  | some (.term _) => .ok 1
  | some (.resp _) => .ok 0
  | some (.result _) => .ok 9
  | some (.extPos _) => .ok 17
  | some (.adSens _) => .ok 18
  | some (.state _) => .ok 21
  | some (.liquid _) => .ok 27
  | some (.absCntr _) => .ok 25
  | some (.auth _) => .ok 7
  | some (.counters _) => .ok 19
  | some (.plus _) => .ok 15
  | some (.absAn _) => .ok 24
  | some (.module _) => .error .unknownKind
  | some (.disp _) => .error .unknownKind
  | none => .error .unknownKind

/-- An error value as a fault. -/
def liftErr {α : Type} : Except Err α → Except Fault α
  | .ok a => .ok a
  | .error e => .error (.err e)

/-- One iteration of the loop of `RecordDataSet.Encode` (`record_data.go:103-153`). Calling a
method on a nil `SubrecordData` panics (lines 142 and 148). -/
def RecordData.encode (env : Env) (rd : RecordData) : Except Fault Bytes := do
  let t ← (if rd.subrecordType = 0 then liftErr (inferType rd.subrecordData)
    else pure rd.subrecordType)
  match rd.subrecordData with
  | none => .error .panic
  | some d => do
    let len := if rd.subrecordLength = 0 then d.length env else rd.subrecordLength
    let srd ← liftErr (d.encode env)
    pure ([t] ++ put16 len ++ srd)

/-- `RecordDataSet.Encode` (`record_data.go:96-158`). -/
def RecordDataSet.encode (env : Env) : List RecordData → Except Fault Bytes
  | [] => .ok []
  | rd :: rest => do
    let b ← rd.encode env
    let bs ← RecordDataSet.encode env rest
    pure (b ++ bs)

/-- `uint32(sdr.Time.Unix() - timeOffset.Unix())` (`service_data_records.go:171`). -/
def encRecTime (t : GoTime) : UInt32 :=
  UInt32.ofNat ((GoTime.unix t - GoTime.unix timeOffset) % 4294967296).toNat

/-- One iteration of the loop of `ServiceDataSet.Encode` (`service_data_records.go:131-186`). -/
def ServiceDataRecord.encode (env : Env) (sdr : ServiceDataRecord) : Except Fault Bytes := do
  let rd ← RecordDataSet.encode env sdr.recordDataSet
  let rl := if sdr.recordLength = 0 then UInt16.ofNat rd.length else sdr.recordLength
  let flags ← liftErr (parseFlags (sdr.ssod ++ sdr.rsod ++ sdr.grp ++ sdr.rpp ++ sdr.tmfe ++ sdr.evfe ++ sdr.obfe))
  pure (put16 rl ++ put16 sdr.recordNumber ++ [flags]
    ++ optBytes sdr.obfe (put32 sdr.objectIdentifier)
    ++ optBytes sdr.evfe (put32 sdr.eventIdentifier)
    ++ optBytes sdr.tmfe (put32 (encRecTime sdr.time))
    ++ [sdr.sourceServiceType, sdr.recipientServiceType]
    ++ rd)

/-- `ServiceDataSet.Encode` (`service_data_records.go:123-191`). -/
def ServiceDataSet.encode (env : Env) : List ServiceDataRecord → Except Fault Bytes
  | [] => .ok []
  | sdr :: rest => do
    let b ← sdr.encode env
    let bs ← ServiceDataSet.encode env rest
    pure (b ++ bs)

/-- `Length()` of sets and responses: 0 if `Encode` returns an error, panics if it panics. -/
def lengthOrPanic : Except Fault Bytes → Except Fault UInt16
  | .ok b => .ok (UInt16.ofNat b.length)
  | .error (.err _) => .ok 0
  | .error .panic => .error .panic

/-- `RecordDataSet.Length` (`record_data.go:161-171`). -/
def RecordDataSet.length (env : Env) (rds : List RecordData) : Except Fault UInt16 :=
  lengthOrPanic (RecordDataSet.encode env rds)

/-- `ServiceDataSet.Length` (`service_data_records.go:194-204`). -/
def ServiceDataSet.length (env : Env) (s : List ServiceDataRecord) : Except Fault UInt16 :=
  lengthOrPanic (ServiceDataSet.encode env s)

/-! ## EGTS_PT_RESPONSE -/

/-- `PtResponse` (`egts_pt_response.go:10-14`); `SDR` is nil or a `ServiceDataSet`. -/
structure PtResponse where
  responsePacketID : UInt16 := 0
  processingResult : UInt8 := 0
  sdr : Option (List ServiceDataRecord) := none
  deriving DecidableEq, Repr

/-- `PtResponse.Decode` (`egts_pt_response.go:17-42`). -/
def PtResponse.decode (env : Env) (s : PtResponse) (content : Bytes) : Except Err PtResponse := do
  let (tmp, r) ← bufferRead (zeros 2) content
  let (pr, r) ← readByte r
  if r ≠ [] then do
    let sds ← ServiceDataSet.decode env [] r
    pure { responsePacketID := le16 tmp, processingResult := pr, sdr := some sds }
  else pure { responsePacketID := le16 tmp, processingResult := pr, sdr := s.sdr }

/-- What the response holds after `PtResponse.Decode` (`egts_pt_response.go:17-42`), whether or not that returned an error.
`ReadByte` assigns 0 at the end of the input (line 29). -/
def PtResponse.kept (env : Env) (s : PtResponse) (content : Bytes) : PtResponse :=
  match bufferRead (zeros 2) content with
  | .error _ => s
  | .ok (tmp, r) =>
    match readByte r with
    | .error _ => { s with responsePacketID := le16 tmp, processingResult := 0 }
    | .ok (pr, r) =>
      { responsePacketID := le16 tmp, processingResult := pr
        sdr := if r ≠ [] then some (ServiceDataSet.kept env [] r) else s.sdr }

/-- `PtResponse.Encode` (`egts_pt_response.go:45-70`). -/
def PtResponse.encode (env : Env) (s : PtResponse) : Except Fault Bytes := do
  let sdrBytes ← (match s.sdr with
    | none => pure []
    | some sds => ServiceDataSet.encode env sds)
  pure (put16 s.responsePacketID ++ [s.processingResult] ++ sdrBytes)

/-- `PtResponse.Length` (`egts_pt_response.go:73-83`). -/
def PtResponse.length (env : Env) (s : PtResponse) : Except Fault UInt16 :=
  lengthOrPanic (s.encode env)

end Egts
