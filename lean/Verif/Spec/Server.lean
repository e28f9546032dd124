import Verif.Spec.Package
import Verif.Model.Server

/-!
# What the receiver should do with one application packet, record by record

Nothing here is a loop with mutable variables: everything is "the last", "all in order" or "the first
records up to" of the lists of records and subrecords that were decoded.
-/

namespace Egts

/-! ## Subrecords by kind -/

def RecordData.pos? (r : RecordData) : Option SrPosData :=
  match r.subrecordData with | some (.pos d) => some d | _ => none

def RecordData.extPos? (r : RecordData) : Option SrExtPosData :=
  match r.subrecordData with | some (.extPos d) => some d | _ => none

def RecordData.term? (r : RecordData) : Option SrTermIdentity :=
  match r.subrecordData with | some (.term d) => some d | _ => none

def RecordData.counter? (r : RecordData) : Option SrAbsCntrData :=
  match r.subrecordData with | some (.absCntr d) => some d | _ => none

/-- a record-response subrecord -/
def RecordData.isResp (r : RecordData) : Bool :=
  match r.subrecordData with | some (.resp _) => true | _ => false

/-- a terminal identity or auth info subrecord -/
def RecordData.isLogin (r : RecordData) : Bool :=
  match r.subrecordData with | some (.term _) => true | some (.auth _) => true | _ => false

/-- Analog readings in a subrecord: of a digital/analog sensors subrecord those whose flag is set,
numbered 1 to 8; of an absolute analog sensor subrecord the only one. -/
def RecordData.analog (r : RecordData) : List AnSensor :=
  match r.subrecordData with
  | some (.adSens d) =>
    ([(1, d.asfe1, d.ans1), (2, d.asfe2, d.ans2), (3, d.asfe3, d.ans3), (4, d.asfe4, d.ans4), (5, d.asfe5, d.ans5),
      (6, d.asfe6, d.ans6), (7, d.asfe7, d.ans7), (8, d.asfe8, d.ans8)].filter (fun t => t.2.1 = go!"1")).map
      (fun t => { sensorNumber := t.1, value := t.2.2 })
  | some (.absAn d) => [{ sensorNumber := d.sensorNumber, value := d.value }]
  | _ => []

/-- Level readings in a subrecord: units 00 and 01 are stored as they are under millimetres, unit 10 times
ten (modulo 2^32) under litres. -/
def RecordData.liquids (r : RecordData) : List LiquidSensor :=
  match r.subrecordData with
  | some (.liquid d) =>
    [{ sensorNumber := d.sensorNumber
       errorFlag := d.errorFlag
       valueMm := if d.valueUnit = go!"00" ∨ d.valueUnit = go!"01" then d.sensorData else 0
       valueL := if d.valueUnit = go!"10" then d.sensorData * 10 else 0 }]
  | _ => []

/-! ## Records -/

/-- Has a record-response subrecord. -/
def ServiceDataRecord.hasResp (r : ServiceDataRecord) : Bool := r.recordDataSet.any (·.isResp)

/-- Has a position. -/
def ServiceDataRecord.hasPos (r : ServiceDataRecord) : Bool := r.recordDataSet.any (fun x => x.pos?.isSome)

/-- The object id, if there, and the terminal ids in the given subrecords. -/
def ServiceDataRecord.idsIn (r : ServiceDataRecord) (subs : List RecordData) : List UInt32 :=
  (if r.obfe = go!"1" then [r.objectIdentifier] else []) ++ (subs.filterMap (·.term?)).map (·.terminalIdentifier)

/-- The identifiers in a record: the object id, if there, then the terminal ids. -/
def ServiceDataRecord.ids (r : ServiceDataRecord) : List UInt32 := r.idsIn r.recordDataSet

/-- The last identifier in `ids`, or `c`. -/
def lastOr (ids : List UInt32) (c : UInt32) : UInt32 := ids.getLast?.getD c

/-- The counters 110 and 111 among the subrecords. -/
def idCounters (subs : List RecordData) : List SrAbsCntrData :=
  (subs.filterMap (·.counter?)).filter (fun d => d.counterNumber = 110 ∨ d.counterNumber = 111)

/-- The value of the last counter 110, or 0. -/
def lowCounter (subs : List RecordData) : UInt32 :=
  match ((idCounters subs).filter (fun d => d.counterNumber = 110)).getLast? with
  | some d => d.counterValue
  | none => 0

/-- The packet id the code stores (not what the protocol asks for, see C50): the packet's identifier if
there is no counter 110 or 111; if the last one is a 110 its value; if the last one is a 111 with value
`v`, the bytes of the counter 110, most significant first and the last of them replaced by the low byte
of `v`, read as a little-endian number. -/
def storedId (pid : UInt16) (subs : List RecordData) : UInt32 :=
  match (idCounters subs).getLast? with
  | none => UInt32.ofNat pid.toNat
  | some d =>
    if d.counterNumber = 110 then d.counterValue
    else
      let w := (lowCounter subs).toNat
      UInt32.ofNat (w / 2 ^ 24 + 2 ^ 8 * (w / 2 ^ 16 % 2 ^ 8) + 2 ^ 16 * (w / 2 ^ 8 % 2 ^ 8) + 2 ^ 24 * (d.counterValue.toNat % 2 ^ 8))

/-- What is stored for a record with client id `client` and position `d`, received at `now`. -/
def storedAs (now : Int) (client id : UInt32) (subs : List RecordData) (d : SrPosData) : NavRecord :=
  let ext : SrExtPosData := ((subs.filterMap (·.extPos?)).getLast?).getD {}
  { client := client
    packetID := id
    navigationTimestamp := GoTime.unix d.navigationTime
    receivedTimestamp := now
    latitude := d.latitude
    longitude := d.longitude
    speed := d.speed
    course := d.direction
    pdop := ext.pdop
    hdop := ext.hdop
    vdop := ext.vdop
    nsat := ext.satellites
    ns := ext.navigationSystem
    anSensors := subs.flatMap (·.analog)
    liquidSensors := subs.flatMap (·.liquids) }

/-! ## Packets -/

/-- The records before the first one with a record-response subrecord. -/
def beforeResp (recs : List ServiceDataRecord) : List ServiceDataRecord := recs.takeWhile (fun r => !r.hasResp)

/-- What is stored for the records of a packet: for the `i`-th record, if it has positions, its last
position, under the last identifier in records 0..i, or `c` if there is none. -/
def stored (pid : UInt16) (now : Int) (c : UInt32) (recs : List ServiceDataRecord) : List NavRecord :=
  recs.zipIdx.filterMap fun (r, i) =>
    (r.recordDataSet.filterMap (·.pos?)).getLast?.map fun d =>
      storedAs now (lastOr ((recs.take (i + 1)).flatMap (·.ids)) c) (storedId pid r.recordDataSet) r.recordDataSet d

/-- The saved records in a trace. -/
def saves (effs : List Effect) : List NavRecord := effs.filterMap fun | .save r => some r | _ => none

/-- The written packets in a trace. -/
def writes (effs : List Effect) : List Bytes := effs.filterMap fun | .write b => some b | _ => none

/-- The application packet accepted from the received bytes `pkt` has these records. -/
def Accepts (env : Env) (pkt : Slice) (p : Package) (recs : List ServiceDataRecord) : Prop :=
  Package.decode env none {} pkt = .ret p 0 none ∧ p.packetType = 1 ∧ p.servicesFrameData = some (.sds recs)

/-- The response section the receiver should send for a packet `pid` it accepted: result 0 and one
record with a confirmation, status 0, for each record, in order, under the service type of the last. -/
def acceptance (pid : UInt16) (recs : List ServiceDataRecord) : PtResponse :=
  { responsePacketID := pid
    processingResult := 0
    sdr := if recs = [] then none else some [
      { recordLength := UInt16.ofNat (6 * recs.length)
        recordNumber := 1
        ssod := go!"0"
        rsod := go!"0"
        grp := go!"1"
        rpp := go!"00"
        tmfe := go!"0"
        evfe := go!"0"
        obfe := go!"0"
        sourceServiceType := (recs.getLast?.map (·.sourceServiceType)).getD 0
        recipientServiceType := (recs.getLast?.map (·.sourceServiceType)).getD 0
        recordDataSet := recs.map fun r =>
          { subrecordType := 0
            subrecordLength := 3
            subrecordData := some (.resp { confirmedRecordNumber := r.recordNumber, recordStatus := 0 }) } }] }

/-- `b` is a response packet number `pid + 1` with the response section `r`: the library decodes it to
that, whatever the receiver holds and whatever lies behind the bytes. -/
def IsResponse (env : Env) (b : Bytes) (pid : UInt16) (r : PtResponse) : Prop :=
  ∀ p0 sp, ∃ q, Package.decode env none p0 ⟨b, sp⟩ = .ret q 0 none ∧ q.packetType = 0 ∧
    q.packetIdentifier = pid + 1 ∧ q.servicesFrameData = some (.resp r)

/-- The body of the packet made by `createSrResultCode`: a set of one record, service 1, with a result
code subrecord. -/
def resultBody : Bytes := [4, 0, 1, 0, 32, 1, 1, 9, 1, 0, 0]

/-- The header of that packet. -/
def resultHead (pid : UInt16) : Bytes := [1, 0, 0, 11, 0, 11, 0] ++ put16 (pid + 1) ++ [0]

/-- The packet made by `createSrResultCode`. -/
def resultPacket (pid : UInt16) : Bytes := resultHead pid ++ [crc8 (resultHead pid)] ++ resultBody ++ [43, 43]

end Egts
