import Verif.Spec.Record

/-!
# Values that are too large for their place in a packet

Fields of the Go structures are often wider than their place in a packet: a 32-bit counter for 24 bits, a
text of any length for 15 bytes. `FlagsOK` says nothing but that the flags are spelled right, `Fits` nothing
but that each value that is sent is one that its place can hold, `Kept` that what was read has the values
that were put in.
-/

namespace Egts

/-- The flags are zeros and ones (and EGTS-PLUS data is what Protocol Buffers accept). -/
def SubData.FlagsOK : SubData → Prop
  | .pos d => IsBit d.alte ∧ IsBit d.lohs ∧ IsBit d.lahs ∧ IsBit d.mv ∧ IsBit d.bb ∧ IsBit d.cs ∧ IsBit d.fix ∧ IsBit d.vld
  | .term d => IsBit d.mne ∧ IsBit d.bse ∧ IsBit d.nide ∧ IsBit d.ssra ∧ IsBit d.lngce ∧ IsBit d.imsie ∧ IsBit d.imeie ∧ IsBit d.hdide
  | .extPos d => d.WF
  | .adSens d => d.FlagsWF
  | .counters d => d.FlagsWF
  | .state d => d.WF
  | .liquid d => IsBit d.errorFlag ∧ IsBits2 d.valueUnit ∧ IsBit d.rawDataFlag
  | .plus d => d.Valid
  | _ => True

/-- A number of 24 bits. -/
def Is24 (v : UInt32) : Prop := v.toNat < 2 ^ 24

/-- Every value that is sent is one that its place in the packet can hold. Coordinates: to within the
resolution of the wire format; the hemisphere is a flag, so they are not negative. -/
def SubData.Fits : SubData → Prop
  | .pos d => WireTime d.navigationTime ∧
      (-(22 / 1000000000) ≤ d.latitude ∧ d.latitude ≤ 90 + 22 / 1000000000) ∧
      (-(44 / 1000000000) ≤ d.longitude ∧ d.longitude ≤ 180 + 44 / 1000000000) ∧
      d.directionHighestBit.toNat < 2 ∧ d.altitudeSign.toNat < 2 ∧ d.speed.toNat ≤ 1638 ∧ Is24 d.odometer ∧
      (d.alte = go!"1" → Is24 d.altitude)
  | .term d => (d.imeie = go!"1" → d.imei.length = 15) ∧ (d.imsie = go!"1" → d.imsi.length = 16) ∧
      (d.lngce = go!"1" → d.languageCode.length = 3) ∧ (d.nide = go!"1" → d.networkIdentifier.length = 3) ∧
      (d.mne = go!"1" → d.mobileNumber.length = 15)
  | .module d => NoNul d.serialNumber ∧ NoNul d.description
  | .auth d => NoNul d.userName ∧ NoNul d.userPassword ∧ NoNul d.serverSequence
  | .liquid d => d.sensorNumber.toNat < 8
  | .absCntr d => Is24 d.counterValue
  | .absAn d => Is24 d.value
  | .adSens d => (d.asfe1 = go!"1" → Is24 d.ans1) ∧ (d.asfe2 = go!"1" → Is24 d.ans2) ∧ (d.asfe3 = go!"1" → Is24 d.ans3) ∧
      (d.asfe4 = go!"1" → Is24 d.ans4) ∧ (d.asfe5 = go!"1" → Is24 d.ans5) ∧ (d.asfe6 = go!"1" → Is24 d.ans6) ∧
      (d.asfe7 = go!"1" → Is24 d.ans7) ∧ (d.asfe8 = go!"1" → Is24 d.ans8)
  | .counters d => (d.cfe1 = go!"1" → Is24 d.cn1) ∧ (d.cfe2 = go!"1" → Is24 d.cn2) ∧ (d.cfe3 = go!"1" → Is24 d.cn3) ∧
      (d.cfe4 = go!"1" → Is24 d.cn4) ∧ (d.cfe5 = go!"1" → Is24 d.cn5) ∧ (d.cfe6 = go!"1" → Is24 d.cn6) ∧
      (d.cfe7 = go!"1" → Is24 d.cn7) ∧ (d.cfe8 = go!"1" → Is24 d.cn8)
  | _ => True

/-- The values put in (`a`) are the values read (`b`), where they are sent at all. -/
def SubData.Kept : SubData → SubData → Prop
  | .pos a, .pos b => b.navigationTime = a.navigationTime ∧
      |b.latitude - a.latitude| ≤ 22 / 1000000000 ∧ |b.longitude - a.longitude| ≤ 44 / 1000000000 ∧
      b.directionHighestBit = a.directionHighestBit ∧ b.altitudeSign = a.altitudeSign ∧ b.speed = a.speed ∧
      b.odometer = a.odometer ∧ (a.alte = go!"1" → b.altitude = a.altitude)
  | .term a, .term b => b.terminalIdentifier = a.terminalIdentifier ∧ (a.imeie = go!"1" → b.imei = a.imei) ∧
      (a.imsie = go!"1" → b.imsi = a.imsi) ∧ (a.lngce = go!"1" → b.languageCode = a.languageCode) ∧
      (a.nide = go!"1" → b.networkIdentifier = a.networkIdentifier) ∧ (a.mne = go!"1" → b.mobileNumber = a.mobileNumber)
  | .module a, .module b => b = a
  | .auth a, .auth b => b = a
  | .liquid a, .liquid b => b = a
  | .absCntr a, .absCntr b => b = a
  | .absAn a, .absAn b => b = a
  | .adSens a, .adSens b => (a.asfe1 = go!"1" → b.ans1 = a.ans1) ∧ (a.asfe2 = go!"1" → b.ans2 = a.ans2) ∧
      (a.asfe3 = go!"1" → b.ans3 = a.ans3) ∧ (a.asfe4 = go!"1" → b.ans4 = a.ans4) ∧ (a.asfe5 = go!"1" → b.ans5 = a.ans5) ∧
      (a.asfe6 = go!"1" → b.ans6 = a.ans6) ∧ (a.asfe7 = go!"1" → b.ans7 = a.ans7) ∧ (a.asfe8 = go!"1" → b.ans8 = a.ans8)
  | .counters a, .counters b => (a.cfe1 = go!"1" → b.cn1 = a.cn1) ∧ (a.cfe2 = go!"1" → b.cn2 = a.cn2) ∧
      (a.cfe3 = go!"1" → b.cn3 = a.cn3) ∧ (a.cfe4 = go!"1" → b.cn4 = a.cn4) ∧ (a.cfe5 = go!"1" → b.cn5 = a.cn5) ∧
      (a.cfe6 = go!"1" → b.cn6 = a.cn6) ∧ (a.cfe7 = go!"1" → b.cn7 = a.cn7) ∧ (a.cfe8 = go!"1" → b.cn8 = a.cn8)
  | .resp a, .resp b => b = a
  | .result a, .result b => b = a
  | .extPos a, .extPos b => b = a.onto {}
  | .state a, .state b => b = a
  | .plus a, .plus b => b = a
  | .disp a, .disp b => b = a
  | _, _ => False

/-- The coordinates of a position are degrees of latitude and longitude, without sign. -/
def SubData.OnGlobe : SubData → Prop
  | .pos d => (0 ≤ d.latitude ∧ d.latitude ≤ 90) ∧ (0 ≤ d.longitude ∧ d.longitude ≤ 180)
  | _ => True

end Egts
