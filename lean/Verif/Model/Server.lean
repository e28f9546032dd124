import Verif.Model.Package

/-! # The receiver's connection handler (`cli/receiver/server/server.go`) -/

namespace Egts

/-- `storage.AnSensor` (`cli/receiver/storage/packet.go:36-39`). -/
structure AnSensor where
  sensorNumber : UInt8 := 0
  value : UInt32 := 0
  deriving DecidableEq, Repr

/-- `storage.LiquidSensor` (`cli/receiver/storage/packet.go:29-34`). -/
structure LiquidSensor where
  sensorNumber : UInt8 := 0
  errorFlag : Bytes := []
  valueMm : UInt32 := 0
  valueL : UInt32 := 0
  deriving DecidableEq, Repr

/-- `storage.NavRecord` (`cli/receiver/storage/packet.go:7-23`). -/
structure NavRecord where
  client : UInt32 := 0
  packetID : UInt32 := 0
  navigationTimestamp : Int := 0
  receivedTimestamp : Int := 0
  latitude : F64 := 0
  longitude : F64 := 0
  speed : UInt16 := 0
  pdop : UInt16 := 0
  hdop : UInt16 := 0
  vdop : UInt16 := 0
  nsat : UInt8 := 0
  ns : UInt16 := 0
  course : UInt8 := 0
  anSensors : List AnSensor := []
  liquidSensors : List LiquidSensor := []
  deriving DecidableEq, Repr

/-- The flag fields shared by the packets and records built in `server.go:315-349` and
`:362-396`. -/
def ackRecord (rl : UInt16) (serviceType : UInt8) (rds : List RecordData) : ServiceDataRecord :=
  { recordLength := rl, recordNumber := 1, ssod := go!"0", rsod := go!"0", grp := go!"1",
    rpp := go!"00", tmfe := go!"0", evfe := go!"0", obfe := go!"0",
    sourceServiceType := serviceType, recipientServiceType := serviceType, recordDataSet := rds }

/-- The packet header of `server.go:332-346` and `:379-393`. -/
def ackPackage (fdl pid : UInt16) (d : FrameData) : Package :=
  { protocolVersion := 1, securityKeyID := 0, prefix_ := go!"00", route := go!"0",
    encryptionAlg := go!"00", compression := go!"0", priority := go!"00", headerLength := 11,
    headerEncoding := 0, frameDataLength := fdl, packetIdentifier := pid + 1,
    packetType := 0, servicesFrameData := some d }

/-- `createPtResponse` (`server.go:307-349`); a nil `srResponses` is `[]`. -/
def createPtResponse (env : Env) (pid : UInt16) (resultCode serviceType : UInt8)
    (srResponses : List RecordData) : Except Fault Bytes := do
  let sdr ← (if srResponses ≠ [] then do
      let rl ← RecordDataSet.length env srResponses
      pure (some [ackRecord rl serviceType srResponses])
    else pure none)
  let respSection : PtResponse :=
    { responsePacketID := pid, processingResult := resultCode, sdr := sdr }
  let fdl ← respSection.length env
  ((ackPackage fdl pid (.resp respSection)).encode env none).2

/-- `createSrResultCode` (`server.go:351-396`): a packet of type PT_RESPONSE whose body is a
`ServiceDataSet`. -/
def createSrResultCode (env : Env) (pid : UInt16) (resultCode : UInt8) : Except Fault Bytes := do
  let rds : List RecordData :=
    [{ subrecordType := 9, subrecordLength := 1, subrecordData := some (.result { resultCode }) }]
  let rl ← RecordDataSet.length env rds
  let sfd := [ackRecord rl 1 rds]
  let fdl ← ServiceDataSet.length env sfd
  ((ackPackage fdl pid (.sds sfd)).encode env none).2

/-- Observable effects of a connection handler. -/
inductive Effect
  /-- `s.store.Save(&exportPacket)` (`server.go:273`) -/
  | save (r : NavRecord)
  /-- `conn.Write(b)` (`server.go:130,284,289`); write errors are ignored by the code -/
  | write (b : Bytes)
  /-- `<-connTimer.C` (`server.go:110`) -/
  | waitTimer
  /-- the handler returns; deferred `conn.Close()` (`server.go:54`) -/
  | close
  /-- a panic: there is no `recover`, so the whole process dies -/
  | crash
  deriving DecidableEq, Repr

/-- Variables of `handleConn` while the subrecords of one record are processed. -/
structure RecState where
  nav : NavRecord
  isPkgSave : Bool
  packetIDBytes : Bytes
  client : UInt32
  /-- `srResultCodePkg`; nil is `[]` -/
  resultPkg : Bytes
  deriving DecidableEq, Repr

/-- `server.go:202-227`: the analog sensors whose flag is set, in order. -/
def adSensorList (d : SrAdSensorsData) : List AnSensor :=
  (if d.asfe1 = one then [{ sensorNumber := 1, value := d.ans1 }] else [])
  ++ (if d.asfe2 = one then [{ sensorNumber := 2, value := d.ans2 }] else [])
  ++ (if d.asfe3 = one then [{ sensorNumber := 3, value := d.ans3 }] else [])
  ++ (if d.asfe4 = one then [{ sensorNumber := 4, value := d.ans4 }] else [])
  ++ (if d.asfe5 = one then [{ sensorNumber := 5, value := d.ans5 }] else [])
  ++ (if d.asfe6 = one then [{ sensorNumber := 6, value := d.ans6 }] else [])
  ++ (if d.asfe7 = one then [{ sensorNumber := 7, value := d.ans7 }] else [])
  ++ (if d.asfe8 = one then [{ sensorNumber := 8, value := d.ans8 }] else [])

/-- `server.go:255-265`. -/
def liquidOf (d : SrLiquidLevelSensor) : LiquidSensor :=
  let s : LiquidSensor := { sensorNumber := d.sensorNumber, errorFlag := d.errorFlag }
  if d.valueUnit = go!"00" ∨ d.valueUnit = go!"01" then { s with valueMm := d.sensorData }
  else if d.valueUnit = go!"10" then { s with valueL := d.sensorData * 10 }
  else s

/-- `server.go:171,176`: assigns `srResultCodePkg`; on error the nil slice. A panic is a crash. -/
def resultPkgOf (env : Env) (pid : UInt16) : Except Unit Bytes :=
  match createSrResultCode env pid 0 with
  | .ok b => .ok b
  | .error (.err _) => .ok []
  | .error .panic => .error ()

/-- Control flow out of the subrecord loop. -/
inductive SubOut
  | next (s : RecState)
  /-- `goto Received` (line 181) -/
  | received (s : RecState)
  | crash
  deriving DecidableEq, Repr

/-- The body of the subrecord loop (`server.go:164-268`). `pid` is `pkg.PacketIdentifier`, `now`
is `receivedTimestamp`. -/
def subStep (env : Env) (pid : UInt16) (now : Int) (s : RecState) (sr : RecordData) : SubOut :=
  match sr.subrecordData with
  | some (.term d) =>
    match resultPkgOf env pid with
    | .ok b => .next { s with client := d.terminalIdentifier, resultPkg := b }
    | .error _ => .crash
  | some (.auth _) =>
    match resultPkgOf env pid with
    | .ok b => .next { s with resultPkg := b }
    | .error _ => .crash
  | some (.resp _) => .received s
  | some (.pos d) =>
    .next { s with isPkgSave := true,
                   nav := { s.nav with navigationTimestamp := GoTime.unix d.navigationTime,
                                       receivedTimestamp := now,
                                       latitude := d.latitude, longitude := d.longitude,
                                       speed := d.speed, course := d.direction } }
  | some (.extPos d) =>
    .next { s with nav := { s.nav with nsat := d.satellites, pdop := d.pdop, hdop := d.hdop,
                                       vdop := d.vdop, ns := d.navigationSystem } }
  | some (.adSens d) =>
    .next { s with nav := { s.nav with anSensors := s.nav.anSensors ++ adSensorList d } }
  | some (.absAn d) =>
    .next { s with nav := { s.nav with
      anSensors := s.nav.anSensors ++ [{ sensorNumber := d.sensorNumber, value := d.value }] } }
  | some (.absCntr d) =>
    if d.counterNumber = 110 then
      .next { s with packetIDBytes := putBE32 d.counterValue,
                     nav := { s.nav with packetID := d.counterValue } }
    else if d.counterNumber = 111 then
      let b := s.packetIDBytes.set 3 ((putBE32 d.counterValue).getD 3 0)
      .next { s with packetIDBytes := b, nav := { s.nav with packetID := le32 b } }
    else .next s
  | some (.liquid d) =>
    .next { s with nav := { s.nav with liquidSensors := s.nav.liquidSensors ++ [liquidOf d] } }
  | _ => .next s

/-- The subrecord loop (`server.go:163-269`). -/
def subLoop (env : Env) (pid : UInt16) (now : Int) : RecState → List RecordData → SubOut
  | s, [] => .next s
  | s, sr :: rest =>
    match subStep env pid now s sr with
    | .next s => subLoop env pid now s rest
    | o => o

/-- Variables of `handleConn` while the records of one packet are processed. -/
structure PktState where
  client : UInt32
  serviceType : UInt8 := 0
  responses : List RecordData := []
  resultPkg : Bytes := []
  deriving DecidableEq, Repr

/-- Control flow out of the record loop, with the effects performed so far. -/
inductive RecOut
  | done (effs : List Effect) (s : PktState)
  | received (effs : List Effect) (client : UInt32)
  | crash (effs : List Effect)
  deriving DecidableEq, Repr

/-- The confirmation appended for a record (`server.go:147-154`). -/
def confirmation (rec : ServiceDataRecord) : RecordData :=
  { subrecordType := 0, subrecordLength := 3,
    subrecordData := some (.resp { confirmedRecordNumber := rec.recordNumber, recordStatus := 0 }) }

/-- The record loop (`server.go:139-277`); the error of `Save` is only logged. -/
def recLoop (env : Env) (pid : UInt16) (now : Int) :
    List Effect → PktState → List ServiceDataRecord → RecOut
  | effs, st, [] => .done effs st
  | effs, st, rec :: rest =>
    let client := if rec.obfe = one then rec.objectIdentifier else st.client
    let rs : RecState :=
      { nav := { packetID := UInt32.ofNat pid.toNat }, isPkgSave := false,
        packetIDBytes := zeros 4, client := client, resultPkg := st.resultPkg }
    match subLoop env pid now rs rec.recordDataSet with
    | .crash => .crash effs
    | .received rs => .received effs rs.client
    | .next rs =>
      let nav := { rs.nav with client := rs.client }
      recLoop env pid now (if rs.isPkgSave then effs ++ [.save nav] else effs)
        { client := rs.client, serviceType := rec.sourceServiceType,
          responses := st.responses ++ [confirmation rec], resultPkg := rs.resultPkg } rest

/-- Processing of one received packet: effects, and the client id afterwards (`none`: the process
has crashed). -/
structure PktOut where
  effs : List Effect
  client : Option UInt32
  deriving DecidableEq, Repr

/-- Write the result of a packet constructor, if it succeeded (`server.go:125-132`, `:279-284`):
the effects, or `none` for a panic. -/
def writeResp : Except Fault Bytes → Option (Option Bytes)
  | .ok b => some (some b)
  | .error (.err _) => some none
  | .error .panic => none

/-- `server.go:118-295`: one packet, given as the slice handed to `Decode`. -/
def handlePacket (env : Env) (now : Int) (client : UInt32) (pkt : Slice) : PktOut :=
  match Package.decode env none {} pkt with
  | .panic => { effs := [.crash], client := none }
  | .ret p code (some _) =>
    match writeResp (createPtResponse env p.packetIdentifier code 0 []) with
    | none => { effs := [.crash], client := none }
    | some none => { effs := [], client := some client }
    | some (some b) => { effs := [.write b], client := some client }
  | .ret p code none =>
    if p.packetType = 1 then
      match p.servicesFrameData with
      | some (.sds recs) =>
        match recLoop env p.packetIdentifier now [] { client := client } recs with
        | .crash effs => { effs := effs ++ [.crash], client := none }
        | .received effs client => { effs := effs, client := some client }
        | .done effs st =>
          match writeResp (createPtResponse env p.packetIdentifier code st.serviceType st.responses) with
          | none => { effs := effs ++ [.crash], client := none }
          | some none => { effs := effs, client := some st.client }
          | some (some b) =>
            { effs := effs ++ [.write b]
                ++ (if st.resultPkg.length > 0 then [.write st.resultPkg] else []),
              client := some st.client }
      | _ => { effs := [.crash], client := none }   -- failed type assertion, line 139
    else { effs := [], client := some client }

/-! ## The stream level -/

/-- How the incoming stream continues after the bytes received so far. -/
inductive End
  /-- orderly close by the peer: reads return `io.EOF` -/
  | eof
  /-- any other read error -/
  | error
  /-- nothing more (yet): reads block -/
  | blocked
  deriving DecidableEq, Repr

/-- Per-packet environment of a connection: the clock and the spare capacity that
`append(headerBuf, buf...)` (`server.go:108`) happens to leave. -/
structure ConnEnv where
  clock : Nat → Int
  spare : Nat → Bytes

/-- `headerLen` (`server.go:15`). -/
def headerLen : Nat := 10

/-- The number of bytes read after the ten header bytes (`server.go:95-101`); `uint16` arithmetic,
so `pkgLen - 10` wraps around. -/
def bodyReadLen (h : Bytes) : Nat :=
  let bodyLen := le16 ((h.take 7).drop 5)
  let hl := (h.getD 3 0).toUInt16
  let pkgLen := if bodyLen > 0 then hl + (bodyLen + 2) else hl
  (pkgLen - 10).toNat

/-- One read of a packet from the stream (`server.go:80-116`). -/
inductive ReadOut
  | packet (bytes rest : Bytes)
  | stop (effs : List Effect)
  deriving DecidableEq, Repr

/-- `io.ReadFull(conn, headerBuf)` … `recvPacket = append(headerBuf, buf...)`
(`server.go:80-116`). -/
def readPacket (input : Bytes) (e : End) : ReadOut :=
  if input.length < headerLen then
    match e with
    | .blocked => .stop []
    | .error => .stop [.close]
    | .eof => if input = [] then .stop [.waitTimer, .close] else .stop [.close]
  else
    let h := input.take headerLen
    let rest := input.drop headerLen
    if h.headD 0 ≠ 1 then .stop [.close]
    else
      let n := bodyReadLen h
      if rest.length < n then
        match e with
        | .blocked => .stop []
        | _ => .stop [.close]
      else .packet (h ++ rest.take n) (rest.drop n)

/-- The loop of `handleConn` (`server.go:71-296`); `i` counts packets. Every packet has at least
ten bytes, so `fuel = length` is enough (`connLoop_fuel`). -/
def connLoop (env : Env) (ce : ConnEnv) (e : End) : Nat → Nat → UInt32 → Bytes → List Effect
  | 0, _, _, _ => []
  | fuel + 1, i, client, input =>
    match readPacket input e with
    | .stop effs => effs
    | .packet b rest =>
      let o := handlePacket env (ce.clock i) client ⟨b, ce.spare i⟩
      match o.client with
      | none => o.effs
      | some client => o.effs ++ connLoop env ce e fuel (i + 1) client rest

/-- `handleConn` (`server.go:53-297`) on a server with a non-nil store: effects of a connection
whose incoming stream is `input` followed by `e`. -/
def handleConn (env : Env) (ce : ConnEnv) (input : Bytes) (e : End) : List Effect :=
  connLoop env ce e (input.length + 1) 0 0 input

end Egts
