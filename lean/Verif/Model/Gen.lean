import Verif.Model.Server

/-! # The packet generator (`cli/packet-gen/main.go`) -/

namespace Egts

/-- The command line (`main.go:46-64`). -/
structure GenArgs where
  pid : Int := 0
  oid : Int := 0
  ts : Bytes := []
  liqLvl : Int := 0
  lat : F64 := 0
  lon : F64 := 0
  ackTimeout : Int := 0

/-- `uint16(pid)`: the low 16 bits. -/
def intToU16 (i : Int) : UInt16 := UInt16.ofNat (i % 65536).toNat

/-- `uint32(oid)`: the low 32 bits. -/
def intToU32 (i : Int) : UInt32 := UInt32.ofNat (i % 4294967296).toNat

/-- The position subrecord (`main.go:115-135`); `NavigationTime` is `time.Date(2021, time.February, 20, 0, 30, 40, 0, time.UTC)`. -/
def genPos (a : GenArgs) : SrPosData :=
  { navigationTime := 1613781040 * 1000000000
    latitude := a.lat
    longitude := a.lon
    alte := go!"1"
    lohs := go!"0"
    lahs := go!"0"
    mv := go!"1"
    bb := go!"1"
    cs := go!"0"
    fix := go!"1"
    vld := go!"1"
    directionHighestBit := 0
    altitudeSign := 0
    speed := 34
    direction := 172
    odometer := 191
    digitalInputs := 144
    source := 0
    altitude := 30 }

/-- The liquid level subrecord (`main.go:139-146`). -/
def genLiquid (a : GenArgs) : SrLiquidLevelSensor :=
  { errorFlag := go!"1"
    valueUnit := go!"00"
    rawDataFlag := go!"0"
    sensorNumber := 1
    moduleAddress := 1
    sensorData := intToU32 a.liqLvl }

/-- The record (`main.go:99-149`). -/
def genRecord (a : GenArgs) : ServiceDataRecord :=
  { recordNumber := 1
    ssod := go!"0"
    rsod := go!"0"
    grp := go!"0"
    rpp := go!"10"
    tmfe := go!"0"
    evfe := go!"1"
    obfe := go!"1"
    eventIdentifier := 3436
    objectIdentifier := intToU32 a.oid
    sourceServiceType := 2
    recipientServiceType := 2
    recordDataSet := [{ subrecordType := 16, subrecordData := some (.pos (genPos a)) },
                      { subrecordType := 27, subrecordData := some (.liquid (genLiquid a)) }] }

/-- `egtsSendPacket` (`main.go:86-151`). -/
def genPackage (a : GenArgs) : Package :=
  { protocolVersion := 1
    securityKeyID := 0
    prefix_ := go!"00"
    route := go!"0"
    encryptionAlg := go!"00"
    compression := go!"0"
    priority := go!"10"
    headerLength := 11
    headerEncoding := 0
    packetIdentifier := intToU16 a.pid
    packetType := 1
    servicesFrameData := some (.sds [genRecord a]) }

/-- What is printed at the end. -/
inductive GenMsg
  | noPid | noOid | noTime | badTime
  | encodeFailed | resolveFailed | dialFailed | writeFailed | readFailed
  | parseFailed | notAck | wrongPid | wrongResult | wrongStatus
  | processed
  deriving DecidableEq, Repr

/-- How a run ends: a message and an exit code, or a panic. -/
inductive GenEnd
  | exit (m : GenMsg) (code : Nat)
  | panic
  deriving DecidableEq, Repr

/-- The network as `packet-gen` sees it. `reply` is what the first `Read` would deliver if it waited, and after how many
nanoseconds: `none` for an error or nothing at all. -/
structure GenNet where
  resolves : Bool
  connects : Bool
  writes : Bool
  reply : Option (Nat × Bytes)

/-- `main.go:210-221`: the loops over the records of the acknowledgement. -/
def statusesOk (recs : List ServiceDataRecord) : Bool :=
  recs.all fun r => r.recordDataSet.all fun s =>
    if s.subrecordType = 0 then
      match s.subrecordData with
      | some (.resp x) => x.recordStatus = 0
      | _ => true
    else true

/-- `main.go:186-224`: what is made of the bytes read into the 1024-byte buffer. -/
def checkAck (env : Env) (pid : UInt16) (ack : Bytes) : GenEnd :=
  match Package.decode env none {} ⟨ack, zeros (1024 - ack.length)⟩ with
  | .panic => .panic
  | .ret _ _ (some _) => .exit .parseFailed 1
  | .ret p _ none =>
    match p.servicesFrameData with
    | some (.resp r) =>
      if r.responsePacketID ≠ pid then .exit .wrongPid 1
      else if r.processingResult ≠ 0 then .exit .wrongResult 1
      else
        match r.sdr with
        | none => .panic   -- `ack.SDR.(*egts.ServiceDataSet)`, line 210
        | some recs => if statusesOk recs then .exit .processed 1 else .exit .wrongStatus 1
    | _ => .exit .notAck 1

/-- `main` (`main.go:44-225`) for the arguments `a`: the bytes sent, if any, and the end. `parse` is
`time.Parse(time.RFC3339, ·)`. The read deadline is `ackTimeout` seconds from now (`:179`); a deadline that has been reached
makes the `Read` fail even if there are bytes (Go's `net` package). -/
def genMain (env : Env) (parse : Bytes → Option GoTime) (a : GenArgs) (net : GenNet) : Option Bytes × GenEnd :=
  if a.pid = 0 then (none, .exit .noPid 1)
  else if a.oid = 0 then (none, .exit .noOid 1)
  else if a.ts = [] then (none, .exit .noTime 1)
  else
    match parse a.ts with
    | none => (none, .exit .badTime 1)
    | some _ =>
      match ((genPackage a).encode env none).2 with
      | .error (.err _) => (none, .exit .encodeFailed 1)
      | .error .panic => (none, .panic)
      | .ok out =>
        if ¬ net.resolves then (none, .exit .resolveFailed 1)
        else if ¬ net.connects then (none, .exit .dialFailed 1)
        else if ¬ net.writes then (none, .exit .writeFailed 1)
        else
          match net.reply with
          | none => (some out, .exit .readFailed 1)
          | some (delay, ack) =>
            if (delay : Int) < seconds a.ackTimeout then (some out, checkAck env (genPackage a).packetIdentifier (ack.take 1024))
            else (some out, .exit .readFailed 1)

end Egts
