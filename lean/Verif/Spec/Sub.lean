import Verif.Model.Record

/-!
# Specification vocabulary for subrecords

What "well-formed" means for each subrecord, and what a decoder may legitimately leave in fields
that are absent from the wire.
-/

namespace Egts

/-- A one-bit flag string, as the library produces and expects them. -/
def IsBit (s : Bytes) : Prop := s = go!"0" ∨ s = go!"1"

/-- A two-bit flag string. -/
def IsBits2 (s : Bytes) : Prop := s = go!"00" ∨ s = go!"01" ∨ s = go!"10" ∨ s = go!"11"

instance (s : Bytes) : Decidable (IsBit s) := by unfold IsBit; infer_instance
instance (s : Bytes) : Decidable (IsBits2 s) := by unfold IsBits2; infer_instance

/-- Value of an optional field after decoding: the one encoded if its flag is `"1"`, otherwise what
the receiver held before. -/
def present {α : Type} (flag : Bytes) (new old : α) : α := if flag = go!"1" then new else old

/-- The low 24 bits. -/
def low24 (v : UInt32) : UInt32 := UInt32.ofNat (v.toNat % 2 ^ 24)

def SrStateData.WF (d : SrStateData) : Prop := IsBit d.nms ∧ IsBit d.ibu ∧ IsBit d.bbu

def SrLiquidLevelSensor.WF (d : SrLiquidLevelSensor) : Prop :=
  IsBit d.errorFlag ∧ IsBits2 d.valueUnit ∧ IsBit d.rawDataFlag ∧ d.sensorNumber < 8

def SrExtPosData.WF (d : SrExtPosData) : Prop :=
  IsBit d.nsfe ∧ IsBit d.sfe ∧ IsBit d.pfe ∧ IsBit d.hfe ∧ IsBit d.vfe

/-- `d` with the fields absent from the wire taken from the prior receiver `d0`. -/
def SrExtPosData.onto (d d0 : SrExtPosData) : SrExtPosData :=
  { d with
    vdop := present d.vfe d.vdop d0.vdop
    hdop := present d.hfe d.hdop d0.hdop
    pdop := present d.pfe d.pdop d0.pdop
    satellites := present d.sfe d.satellites d0.satellites
    navigationSystem := present d.nsfe d.navigationSystem d0.navigationSystem }

def SrAdSensorsData.FlagsWF (d : SrAdSensorsData) : Prop :=
  IsBit d.dioe1 ∧ IsBit d.dioe2 ∧ IsBit d.dioe3 ∧ IsBit d.dioe4 ∧
  IsBit d.dioe5 ∧ IsBit d.dioe6 ∧ IsBit d.dioe7 ∧ IsBit d.dioe8 ∧
  IsBit d.asfe1 ∧ IsBit d.asfe2 ∧ IsBit d.asfe3 ∧ IsBit d.asfe4 ∧
  IsBit d.asfe5 ∧ IsBit d.asfe6 ∧ IsBit d.asfe7 ∧ IsBit d.asfe8

/-- The set of analog sensors present is its own mirror image (1↔8, 2↔7, 3↔6, 4↔5). -/
def SrAdSensorsData.Mirror (d : SrAdSensorsData) : Prop :=
  d.asfe1 = d.asfe8 ∧ d.asfe2 = d.asfe7 ∧ d.asfe3 = d.asfe6 ∧ d.asfe4 = d.asfe5

def SrAdSensorsData.onto (d d0 : SrAdSensorsData) : SrAdSensorsData :=
  { d with
    adio1 := present d.dioe1 d.adio1 d0.adio1
    adio2 := present d.dioe2 d.adio2 d0.adio2
    adio3 := present d.dioe3 d.adio3 d0.adio3
    adio4 := present d.dioe4 d.adio4 d0.adio4
    adio5 := present d.dioe5 d.adio5 d0.adio5
    adio6 := present d.dioe6 d.adio6 d0.adio6
    adio7 := present d.dioe7 d.adio7 d0.adio7
    adio8 := present d.dioe8 d.adio8 d0.adio8
    ans1 := present d.asfe1 (low24 d.ans1) d0.ans1
    ans2 := present d.asfe2 (low24 d.ans2) d0.ans2
    ans3 := present d.asfe3 (low24 d.ans3) d0.ans3
    ans4 := present d.asfe4 (low24 d.ans4) d0.ans4
    ans5 := present d.asfe5 (low24 d.ans5) d0.ans5
    ans6 := present d.asfe6 (low24 d.ans6) d0.ans6
    ans7 := present d.asfe7 (low24 d.ans7) d0.ans7
    ans8 := present d.asfe8 (low24 d.ans8) d0.ans8 }

/-- The values of the analog sensors that are present, from the first sensor to the last, 24 bits of
each. -/
def SrAdSensorsData.analogValues (d : SrAdSensorsData) : List UInt32 :=
  [(d.asfe1, d.ans1), (d.asfe2, d.ans2), (d.asfe3, d.ans3), (d.asfe4, d.ans4),
   (d.asfe5, d.ans5), (d.asfe6, d.ans6), (d.asfe7, d.ans7), (d.asfe8, d.ans8)].filterMap
    fun x => if x.1 = go!"1" then some (low24 x.2) else none

/-- The next of those values when the flags `before` have been gone through. -/
def SrAdSensorsData.analogAfter (d : SrAdSensorsData) (before : List Bytes) : UInt32 :=
  d.analogValues.getD (before.count (go!"1")) 0

/-- What the library reads back of digital and analog sensors into `d0`: the presence flags of the analog
sensors are mirrored (1↔8, 2↔7, 3↔6, 4↔5), and their values are dealt in order to the sensors these
flags declare present. -/
def SrAdSensorsData.readBack (d d0 : SrAdSensorsData) : SrAdSensorsData :=
  { d.onto d0 with
    asfe1 := d.asfe8, asfe2 := d.asfe7, asfe3 := d.asfe6, asfe4 := d.asfe5
    asfe5 := d.asfe4, asfe6 := d.asfe3, asfe7 := d.asfe2, asfe8 := d.asfe1
    ans1 := present d.asfe8 (d.analogAfter []) d0.ans1
    ans2 := present d.asfe7 (d.analogAfter [d.asfe8]) d0.ans2
    ans3 := present d.asfe6 (d.analogAfter [d.asfe8, d.asfe7]) d0.ans3
    ans4 := present d.asfe5 (d.analogAfter [d.asfe8, d.asfe7, d.asfe6]) d0.ans4
    ans5 := present d.asfe4 (d.analogAfter [d.asfe8, d.asfe7, d.asfe6, d.asfe5]) d0.ans5
    ans6 := present d.asfe3 (d.analogAfter [d.asfe8, d.asfe7, d.asfe6, d.asfe5, d.asfe4]) d0.ans6
    ans7 := present d.asfe2 (d.analogAfter [d.asfe8, d.asfe7, d.asfe6, d.asfe5, d.asfe4, d.asfe3]) d0.ans7
    ans8 := present d.asfe1 (d.analogAfter [d.asfe8, d.asfe7, d.asfe6, d.asfe5, d.asfe4, d.asfe3, d.asfe2]) d0.ans8 }

def SrCountersData.FlagsWF (d : SrCountersData) : Prop :=
  IsBit d.cfe1 ∧ IsBit d.cfe2 ∧ IsBit d.cfe3 ∧ IsBit d.cfe4 ∧
  IsBit d.cfe5 ∧ IsBit d.cfe6 ∧ IsBit d.cfe7 ∧ IsBit d.cfe8

def SrCountersData.onto (d d0 : SrCountersData) : SrCountersData :=
  { d with
    cn1 := present d.cfe1 (low24 d.cn1) d0.cn1
    cn2 := present d.cfe2 (low24 d.cn2) d0.cn2
    cn3 := present d.cfe3 (low24 d.cn3) d0.cn3
    cn4 := present d.cfe4 (low24 d.cn4) d0.cn4
    cn5 := present d.cfe5 (low24 d.cn5) d0.cn5
    cn6 := present d.cfe6 (low24 d.cn6) d0.cn6
    cn7 := present d.cfe7 (low24 d.cn7) d0.cn7
    cn8 := present d.cfe8 (low24 d.cn8) d0.cn8 }

/-- What the library reads back of counters into `d0`: the second counter, if present, as the first one,
and nothing as the second one. -/
def SrCountersData.readBack (d d0 : SrCountersData) : SrCountersData :=
  { d.onto d0 with
    cn1 := present d.cfe2 (low24 d.cn2) (present d.cfe1 (low24 d.cn1) d0.cn1)
    cn2 := d0.cn2 }

/-- Flags are bits, and every text that is present has its protocol width. -/
def SrTermIdentity.WF (d : SrTermIdentity) : Prop :=
  IsBit d.mne ∧ IsBit d.bse ∧ IsBit d.nide ∧ IsBit d.ssra ∧
  IsBit d.lngce ∧ IsBit d.imsie ∧ IsBit d.imeie ∧ IsBit d.hdide ∧
  (d.imeie = go!"1" → d.imei.length = 15) ∧
  (d.imsie = go!"1" → d.imsi.length = 16) ∧
  (d.lngce = go!"1" → d.languageCode.length = 3) ∧
  (d.nide = go!"1" → d.networkIdentifier.length = 3) ∧
  (d.mne = go!"1" → d.mobileNumber.length = 15)

def SrTermIdentity.onto (d d0 : SrTermIdentity) : SrTermIdentity :=
  { d with
    homeDispatcherIdentifier := present d.hdide d.homeDispatcherIdentifier d0.homeDispatcherIdentifier
    imei := present d.imeie d.imei d0.imei
    imsi := present d.imsie d.imsi d0.imsi
    languageCode := present d.lngce d.languageCode d0.languageCode
    networkIdentifier := present d.nide d.networkIdentifier d0.networkIdentifier
    bufferSize := present d.bse d.bufferSize d0.bufferSize
    mobileNumber := present d.mne d.mobileNumber d0.mobileNumber }

/-- No NUL byte. -/
def NoNul (s : Bytes) : Prop := (0 : UInt8) ∉ s

def SrAuthInfo.WF (d : SrAuthInfo) : Prop :=
  NoNul d.userName ∧ NoNul d.userPassword ∧ NoNul d.serverSequence

def SrModuleData.WF (d : SrModuleData) : Prop := NoNul d.serialNumber ∧ NoNul d.description

/-- Everything except the coordinates is in the range the wire format can carry. -/
def SrPosData.WF (d : SrPosData) : Prop :=
  IsBit d.alte ∧ IsBit d.lohs ∧ IsBit d.lahs ∧ IsBit d.mv ∧
  IsBit d.bb ∧ IsBit d.cs ∧ IsBit d.fix ∧ IsBit d.vld ∧
  (∃ s : Nat, s < 2 ^ 32 ∧ d.navigationTime = timeOffset + (s : Int) * 1000000000) ∧
  d.directionHighestBit < 2 ∧ d.altitudeSign < 2 ∧ d.speed ≤ 1638 ∧
  d.odometer.toNat < 2 ^ 24 ∧
  (d.alte = go!"1" → d.altitude.toNat < 2 ^ 24)

/-- The direction the library reads back: its highest bit is set if the separate ninth bit is. -/
def SrPosData.directionBack (d : SrPosData) : UInt8 := d.direction ||| (d.directionHighestBit <<< 7)

instance (d : SrStateData) : Decidable d.WF := by unfold SrStateData.WF; infer_instance
instance (d : SrLiquidLevelSensor) : Decidable d.WF := by unfold SrLiquidLevelSensor.WF; infer_instance
instance (d : SrExtPosData) : Decidable d.WF := by unfold SrExtPosData.WF; infer_instance
instance (d : SrAdSensorsData) : Decidable d.FlagsWF := by unfold SrAdSensorsData.FlagsWF; infer_instance
instance (d : SrAdSensorsData) : Decidable d.Mirror := by unfold SrAdSensorsData.Mirror; infer_instance
instance (d : SrCountersData) : Decidable d.FlagsWF := by unfold SrCountersData.FlagsWF; infer_instance

end Egts
