import Verif.Spec.PosWire
import Verif.Spec.Frame
import Verif.Spec.Proto
import Verif.Spec.Sub
import Verif.Model.Record

/-!
# Subrecords and records on arbitrary bytes

What is at which position. `X.read d0 b` is what the bytes `b` say when they are read into `d0`; `X.fields b` says where the optional
fields begin: of the last one, one byte suffices. Missing bytes count as zero, except where noted. Nothing here refers to
readers, buffers or bounds on the depth of nesting.
-/

namespace Egts
namespace Layout

/-- The number of `w` bytes at `o`, little endian; missing bytes are zero. -/
def num (b : Bytes) (o : Nat) : Nat → Nat
  | 0 => 0
  | w + 1 => byteAt b o + 256 * num b (o + 1) w

/-- Bit `k` of byte `i`. -/
def bitAt (b : Bytes) (i k : Nat) : Nat := byteAt b i / 2 ^ k % 2

/-- A field that is there if its flag is 1. -/
def opt {α : Type} (flag : Nat) (v old : α) : α := if flag = 1 then v else old

/-- A text of `n` bytes at `o`, missing bytes are NUL. -/
def text (b : Bytes) (o n : Nat) : Bytes := (b.drop o).take n ++ zeros (n - (b.length - o))

/-- Of each field that is present, the first byte is there. -/
def Begun (b : Bytes) (fields : List (Nat × Nat)) : Prop := ∀ f ∈ fields, f.1 = 1 → f.2 < b.length

instance (b : Bytes) (fields : List (Nat × Nat)) : Decidable (Begun b fields) := by unfold Begun; infer_instance

/-- The number in the `k`-th of the three-byte fields that begin at `s`. Missing bytes are those of the field before; of the first
field, they are zero. -/
def num24 (b : Bytes) (s k : Nat) : Nat :=
  let at_ := fun p => if p < b.length then byteAt b p else if k = 0 then 0 else byteAt b (p - 3)
  at_ (s + 3 * k) + 256 * at_ (s + 3 * k + 1) + 65536 * at_ (s + 3 * k + 2)

/-- The number in the two bytes at `o`. If the second is missing, it is the second byte of the last one of the `k` two-byte fields
that begin at 1; if there is none, zero. -/
def num16 (b : Bytes) (k o : Nat) : Nat :=
  byteAt b o + 256 * (if o + 1 < b.length then byteAt b (o + 1) else if k = 0 then 0 else byteAt b (2 * k))

end Layout

open Layout

def SrResponse.read (b : Bytes) : SrResponse :=
  { confirmedRecordNumber := UInt16.ofNat (num b 0 2), recordStatus := UInt8.ofNat (byteAt b 2) }

def SrResultCode.read (b : Bytes) : SrResultCode := { resultCode := UInt8.ofNat (byteAt b 0) }

def SrStateData.read (b : Bytes) : SrStateData :=
  { state := UInt8.ofNat (byteAt b 0), mainPowerSourceVoltage := UInt8.ofNat (byteAt b 1)
    backUpBatteryVoltage := UInt8.ofNat (byteAt b 2), internalBatteryVoltage := UInt8.ofNat (byteAt b 3)
    nms := bitStr (bitAt b 4 2), ibu := bitStr (bitAt b 4 1), bbu := bitStr (bitAt b 4 0) }

def SrAbsCntrData.read (b : Bytes) : SrAbsCntrData :=
  { counterNumber := UInt8.ofNat (byteAt b 0), counterValue := UInt32.ofNat (num b 1 3) }

def SrAbsAnSensData.read (b : Bytes) : SrAbsAnSensData :=
  { sensorNumber := UInt8.ofNat (byteAt b 0), value := UInt32.ofNat (num b 1 3) }

def SrLiquidLevelSensor.read (b : Bytes) : SrLiquidLevelSensor :=
  { errorFlag := bitStr (bitAt b 0 6), valueUnit := bitStr (bitAt b 0 5) ++ bitStr (bitAt b 0 4), rawDataFlag := bitStr (bitAt b 0 3)
    sensorNumber := UInt8.ofNat (byteAt b 0 % 8), moduleAddress := UInt16.ofNat (num b 1 2), sensorData := UInt32.ofNat (num b 3 4) }

def SrDispatcherIdentity.read (b : Bytes) : SrDispatcherIdentity :=
  { dispatcherType := UInt8.ofNat (byteAt b 0), dispatcherID := UInt32.ofNat (num b 1 4), description := b.drop 5 }

/-- The fields of extended position data: flag and position. -/
def SrExtPosData.fields (b : Bytes) : List (Nat × Nat) :=
  let v := bitAt b 0 0; let h := bitAt b 0 1; let p := bitAt b 0 2; let s := bitAt b 0 3; let n := bitAt b 0 4
  [(v, 1), (h, 1 + 2 * v), (p, 1 + 2 * (v + h)), (s, 1 + 2 * (v + h + p)), (n, 1 + 2 * (v + h + p) + s)]

def SrExtPosData.read (d0 : SrExtPosData) (b : Bytes) : SrExtPosData :=
  let v := bitAt b 0 0; let h := bitAt b 0 1; let p := bitAt b 0 2; let s := bitAt b 0 3; let n := bitAt b 0 4
  { vfe := bitStr v, hfe := bitStr h, pfe := bitStr p, sfe := bitStr s, nsfe := bitStr n
    vdop := opt v (UInt16.ofNat (num16 b 0 1)) d0.vdop
    hdop := opt h (UInt16.ofNat (num16 b v (1 + 2 * v))) d0.hdop
    pdop := opt p (UInt16.ofNat (num16 b (v + h) (1 + 2 * (v + h)))) d0.pdop
    satellites := opt s (UInt8.ofNat (byteAt b (1 + 2 * (v + h + p)))) d0.satellites
    navigationSystem := opt n (UInt16.ofNat (num16 b (v + h + p) (1 + 2 * (v + h + p) + s))) d0.navigationSystem }

/-- How many of the lowest `k` bits of byte `i` are set. -/
def Layout.count (b : Bytes) (i : Nat) : Nat → Nat
  | 0 => 0
  | k + 1 => count b i k + bitAt b i k

/-- The fields of sensors: those announced in byte 0, of one byte each, from 3 on; then those announced in byte 2, of three bytes
each. -/
def SrAdSensorsData.fields (b : Bytes) : List (Nat × Nat) :=
  (List.range 8).map (fun k => (bitAt b 0 k, 3 + count b 0 k)) ++
  (List.range 8).map (fun k => (bitAt b 2 k, 3 + count b 0 8 + 3 * count b 2 k))

def SrAdSensorsData.read (d0 : SrAdSensorsData) (b : Bytes) : SrAdSensorsData :=
  let flag := fun i k => bitStr (bitAt b i k)
  let dio := fun k (old : UInt8) => opt (bitAt b 0 k) (UInt8.ofNat (byteAt b (3 + count b 0 k))) old
  let ans := fun k (old : UInt32) => opt (bitAt b 2 k) (UInt32.ofNat (num24 b (3 + count b 0 8) (count b 2 k))) old
  { dioe1 := flag 0 0, dioe2 := flag 0 1, dioe3 := flag 0 2, dioe4 := flag 0 3
    dioe5 := flag 0 4, dioe6 := flag 0 5, dioe7 := flag 0 6, dioe8 := flag 0 7
    digitalOutputs := UInt8.ofNat (byteAt b 1)
    asfe1 := flag 2 0, asfe2 := flag 2 1, asfe3 := flag 2 2, asfe4 := flag 2 3
    asfe5 := flag 2 4, asfe6 := flag 2 5, asfe7 := flag 2 6, asfe8 := flag 2 7
    adio1 := dio 0 d0.adio1, adio2 := dio 1 d0.adio2, adio3 := dio 2 d0.adio3, adio4 := dio 3 d0.adio4
    adio5 := dio 4 d0.adio5, adio6 := dio 5 d0.adio6, adio7 := dio 6 d0.adio7, adio8 := dio 7 d0.adio8
    ans1 := ans 0 d0.ans1, ans2 := ans 1 d0.ans2, ans3 := ans 2 d0.ans3, ans4 := ans 3 d0.ans4
    ans5 := ans 4 d0.ans5, ans6 := ans 5 d0.ans6, ans7 := ans 6 d0.ans7, ans8 := ans 7 d0.ans8 }

def SrCountersData.fields (b : Bytes) : List (Nat × Nat) :=
  (List.range 8).map fun k => (bitAt b 0 k, 1 + 3 * count b 0 k)

/-- The second counter is put in the place of the first. -/
def SrCountersData.read (d0 : SrCountersData) (b : Bytes) : SrCountersData :=
  let flag := fun k => bitStr (bitAt b 0 k)
  let cn := fun k (old : UInt32) => opt (bitAt b 0 k) (UInt32.ofNat (num24 b 1 (count b 0 k))) old
  { cfe1 := flag 0, cfe2 := flag 1, cfe3 := flag 2, cfe4 := flag 3, cfe5 := flag 4, cfe6 := flag 5, cfe7 := flag 6, cfe8 := flag 7
    cn1 := cn 1 (cn 0 d0.cn1), cn2 := d0.cn2, cn3 := cn 2 d0.cn3, cn4 := cn 3 d0.cn4
    cn5 := cn 4 d0.cn5, cn6 := cn 5 d0.cn6, cn7 := cn 6 d0.cn7, cn8 := cn 7 d0.cn8 }

/-- Where the optional fields of the terminal identity begin. -/
def SrTermIdentity.starts (b : Bytes) : List Nat :=
  let f := bitAt b 4
  [5, 5 + 2 * f 0, 5 + 2 * f 0 + 15 * f 1, 5 + 2 * f 0 + 15 * f 1 + 16 * f 2, 5 + 2 * f 0 + 15 * f 1 + 16 * f 2 + 3 * f 3,
   5 + 2 * f 0 + 15 * f 1 + 16 * f 2 + 3 * f 3 + 3 * f 5, 5 + 2 * f 0 + 15 * f 1 + 16 * f 2 + 3 * f 3 + 3 * f 5 + 2 * f 6]

def SrTermIdentity.fields (b : Bytes) : List (Nat × Nat) :=
  [bitAt b 4 0, bitAt b 4 1, bitAt b 4 2, bitAt b 4 3, bitAt b 4 5, bitAt b 4 6, bitAt b 4 7].zip (SrTermIdentity.starts b)

def SrTermIdentity.read (d0 : SrTermIdentity) (b : Bytes) : SrTermIdentity :=
  let f := bitAt b 4
  let o := fun i => (SrTermIdentity.starts b).getD i 0
  { terminalIdentifier := UInt32.ofNat (num b 0 4)
    hdide := bitStr (f 0), imeie := bitStr (f 1), imsie := bitStr (f 2), lngce := bitStr (f 3)
    ssra := bitStr (f 4), nide := bitStr (f 5), bse := bitStr (f 6), mne := bitStr (f 7)
    homeDispatcherIdentifier := opt (f 0) (UInt16.ofNat (num b (o 0) 2)) d0.homeDispatcherIdentifier
    imei := opt (f 1) (text b (o 1) 15) d0.imei
    imsi := opt (f 2) (text b (o 2) 16) d0.imsi
    languageCode := opt (f 3) (text b (o 3) 3) d0.languageCode
    networkIdentifier := opt (f 5) (text b (o 4) 3) d0.networkIdentifier
    bufferSize := opt (f 6) (UInt16.ofNat (num b (o 5) 2)) d0.bufferSize
    mobileNumber := opt (f 7) (text b (o 6) 15) d0.mobileNumber }

/-- Two texts ended by NUL, and a third unless nothing follows. -/
def SrAuthInfo.Read (d0 : SrAuthInfo) (b : Bytes) (y : SrAuthInfo) : Prop :=
  NoNul y.userName ∧ NoNul y.userPassword ∧
    (b = y.userName ++ [0] ++ y.userPassword ++ [0] ∧ y.serverSequence = d0.serverSequence ∨
     ∃ rest, b = y.userName ++ [0] ++ y.userPassword ++ [0] ++ y.serverSequence ++ [0] ++ rest ∧ NoNul y.serverSequence)

/-- Eleven bytes, and two texts ended by NUL. -/
def SrModuleData.Read (b : Bytes) (y : SrModuleData) : Prop :=
  11 ≤ b.length ∧ y.moduleType.toNat = byteAt b 0 ∧ y.vendorID.toNat = num b 1 4 ∧ y.firmwareVersion.toNat = num b 5 2 ∧
    y.softwareVersion.toNat = num b 7 2 ∧ y.modification.toNat = byteAt b 9 ∧ y.state.toNat = byteAt b 10 ∧
    NoNul y.serialNumber ∧ NoNul y.description ∧ ∃ rest, b.drop 11 = y.serialNumber ++ [0] ++ y.description ++ [0] ++ rest

/-- The types of the subrecords that are known. -/
def knownTypes : List Nat := [0, 1, 2, 5, 7, 9, 15, 16, 17, 18, 19, 20, 21, 24, 25, 27]

/-- The data `b` of a subrecord of type `t` (other than a record response) and declared length `len`. -/
def Layout.IsKind (t len : Nat) (b : Bytes) (d : SubData) : Prop :=
  (t = 16 ∧ 21 ≤ b.length ∧ (PosWire.hasAltitude b → 22 ≤ b.length) ∧ d = .pos (PosWire.record {} b)) ∨
  (t = 1 ∧ 5 ≤ b.length ∧ Begun b (SrTermIdentity.fields b) ∧ d = .term (SrTermIdentity.read {} b)) ∨
  (t = 2 ∧ ∃ y, SrModuleData.Read b y ∧ d = .module y) ∨
  (t = 9 ∧ 1 ≤ b.length ∧ d = .result (SrResultCode.read b)) ∨
  (t = 17 ∧ 1 ≤ b.length ∧ Begun b (SrExtPosData.fields b) ∧ d = .extPos (SrExtPosData.read {} b)) ∨
  (t = 18 ∧ 3 ≤ b.length ∧ Begun b (SrAdSensorsData.fields b) ∧ d = .adSens (SrAdSensorsData.read {} b)) ∨
  ((t = 20 ∧ len = 5 ∨ t = 21) ∧ 5 ≤ b.length ∧ d = .state (SrStateData.read b)) ∨
  (t = 27 ∧ 4 ≤ b.length ∧ d = .liquid (SrLiquidLevelSensor.read b)) ∨
  (t = 25 ∧ 2 ≤ b.length ∧ d = .absCntr (SrAbsCntrData.read b)) ∨
  (t = 7 ∧ ∃ y, SrAuthInfo.Read {} b y ∧ d = .auth y) ∨
  (t = 19 ∧ 1 ≤ b.length ∧ Begun b (SrCountersData.fields b) ∧ d = .counters (SrCountersData.read {} b)) ∨
  (t = 15 ∧ ∃ y, Proto.IsRecord b y ∧ y.recordNumber.isSome ∧ y.timeStamp.isSome ∧ y.statusFlags.isSome ∧ d = .plus y) ∨
  (t = 24 ∧ 4 ≤ b.length ∧ d = .absAn (SrAbsAnSensData.read b)) ∨
  (t = 5 ∧ 2 ≤ b.length ∧ d = .disp (SrDispatcherIdentity.read b))

/-- The length of the head of a service data record. -/
def ServiceDataRecord.headLength (b : Bytes) : Nat := 7 + 4 * (bitAt b 4 0 + bitAt b 4 1 + bitAt b 4 2)

/-- The head of a service data record: RL, RN, flags, OID, EVID, TM (if present), SST, RST. -/
def ServiceDataRecord.head (b : Bytes) : ServiceDataRecord :=
  let f := bitAt b 4
  { recordLength := UInt16.ofNat (num b 0 2), recordNumber := UInt16.ofNat (num b 2 2)
    ssod := bitStr (f 7), rsod := bitStr (f 6), grp := bitStr (f 5), rpp := bitStr (f 4) ++ bitStr (f 3)
    tmfe := bitStr (f 2), evfe := bitStr (f 1), obfe := bitStr (f 0)
    objectIdentifier := opt (f 0) (UInt32.ofNat (num b 5 4)) 0
    eventIdentifier := opt (f 1) (UInt32.ofNat (num b (5 + 4 * f 0) 4)) 0
    time := opt (f 2) (timeOffset + (num b (5 + 4 * (f 0 + f 1)) 4 : Int) * 1000000000) zeroTime
    sourceServiceType := UInt8.ofNat (byteAt b (5 + 4 * (f 0 + f 1 + f 2)))
    recipientServiceType := UInt8.ofNat (byteAt b (6 + 4 * (f 0 + f 1 + f 2))) }

namespace Layout

mutual

/-- `b` is a sequence of service data records. -/
inductive IsRecords : Bytes → List ServiceDataRecord → Prop
  | nil : IsRecords [] []
  /-- The last record may lack its data, whatever its declared length. -/
  | bare (b : Bytes) : b.length = ServiceDataRecord.headLength b → IsRecords b [ServiceDataRecord.head b]
  /-- Missing bytes of the data are zero. -/
  | cons (b : Bytes) (rds : List RecordData) (rs : List ServiceDataRecord) : ServiceDataRecord.headLength b < b.length →
      IsSubrecords (text b (ServiceDataRecord.headLength b) (num b 0 2)) rds →
      IsRecords (b.drop (ServiceDataRecord.headLength b + num b 0 2)) rs →
      IsRecords b ({ ServiceDataRecord.head b with recordDataSet := rds } :: rs)

/-- `b` is a sequence of subrecords: type, length, data. Of the length one byte suffices, the data may be cut. Subrecords of unknown
type are left out. -/
inductive IsSubrecords : Bytes → List RecordData → Prop
  | nil : IsSubrecords [] []
  | known (b : Bytes) (d : SubData) (rds : List RecordData) : 2 ≤ b.length →
      IsSubrecord (byteAt b 0) (num b 1 2) ((b.drop 3).take (num b 1 2)) d →
      IsSubrecords (b.drop (3 + num b 1 2)) rds →
      IsSubrecords b (⟨UInt8.ofNat (byteAt b 0), UInt16.ofNat (num b 1 2), some d⟩ :: rds)
  | unknown (b : Bytes) (rds : List RecordData) : 2 ≤ b.length → byteAt b 0 ∉ knownTypes →
      IsSubrecords (b.drop (3 + num b 1 2)) rds → IsSubrecords b rds

/-- `b` is the data of a subrecord of type `t` and declared length `len`. -/
inductive IsSubrecord : Nat → Nat → Bytes → SubData → Prop
  | plain (t len : Nat) (b : Bytes) (d : SubData) : IsKind t len b d → IsSubrecord t len b d
  /-- What follows a record response is a sequence of service data records, too. They are left out. -/
  | response (len : Nat) (b : Bytes) (rs : List ServiceDataRecord) : 3 ≤ b.length → IsRecords (b.drop 3) rs →
      IsSubrecord 0 len b (.resp (SrResponse.read b))

end

/-- `b` is the content of a response: PID, result, and service data records if anything follows. -/
def IsResponse (b : Bytes) (y : PtResponse) : Prop :=
  3 ≤ b.length ∧ y.responsePacketID.toNat = num b 0 2 ∧ y.processingResult.toNat = byteAt b 2 ∧
    (b.length = 3 ∧ y.sdr = none ∨ 3 < b.length ∧ ∃ rs, IsRecords (b.drop 3) rs ∧ y.sdr = some rs)

/-- `d` is the content of the frame `b`. -/
def IsContent (key : Option SecretKey) (b : Bytes) (d : FrameData) : Prop :=
  ∃ x, Frame.clear key b = .ok x ∧
    (Frame.pt b = 1 ∧ (∃ rs, IsRecords x rs ∧ d = .sds rs) ∨ Frame.pt b = 0 ∧ ∃ y, IsResponse x y ∧ d = .resp y)

/-- The header and something after the body are there, and both checksums are right. They are taken over as many bytes as the header
declares, of those there are up to the capacity of the slice. -/
def FrameOk (c : Slice) : Prop :=
  let b := c.data
  Frame.hcsPos b + 1 + Frame.fdl b < b.length ∧
  Frame.headEnd b ≤ c.all.length ∧ byteAt b (Frame.hcsPos b) = (crc8 (c.all.take (Frame.headEnd b))).toNat ∧
  Frame.hl b ≤ Frame.bodyEnd b ∧ Frame.bodyEnd b ≤ c.all.length ∧
  Frame.sfrcs b = (crc16 ((c.all.take (Frame.bodyEnd b)).drop (Frame.hl b))).toNat

end Layout
end Egts
