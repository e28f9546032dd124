import Verif.Spec.Sub
import Verif.Spec.Proto
import Verif.Model.Package
import Mathlib.Data.List.Forall2
import Mathlib.Algebra.Order.Ring.Rat
import Mathlib.Algebra.Order.Group.Unbundled.Abs

/-!
# Specification vocabulary for record sets, service records, responses and packets

`WF`: what a user may put in and expect back. `Same a b`: `b` is an acceptable decoding of what was
encoded from `a`: every field equal, except that fields absent from the wire are zero, fields
computed by the encoder (lengths, types, checksums) are filled in, and coordinates are within the
resolution of the wire format.
-/

namespace Egts

/-- Protocol code of each kind of subrecord (`const_types.go`). -/
def SubData.code : SubData → UInt8
  | .resp _ => 0
  | .term _ => 1
  | .module _ => 2
  | .disp _ => 5
  | .auth _ => 7
  | .result _ => 9
  | .plus _ => 15
  | .pos _ => 16
  | .extPos _ => 17
  | .adSens _ => 18
  | .counters _ => 19
  | .state _ => 21
  | .absAn _ => 24
  | .absCntr _ => 25
  | .liquid _ => 27

/-- A value of one of the supported kinds that the wire format can carry. -/
def SubData.WF (_env : Env) : SubData → Prop
  | .pos d => d.WF ∧ (0 ≤ d.latitude ∧ d.latitude ≤ 90) ∧ (0 ≤ d.longitude ∧ d.longitude ≤ 180)
  | .term d => d.WF
  | .module d => d.WF
  | .resp _ => True
  | .result _ => True
  | .extPos d => d.WF
  | .adSens d => d.FlagsWF
  | .state d => d.WF
  | .liquid d => d.WF
  | .absCntr d => d.counterValue.toNat < 2 ^ 24
  | .auth d => d.WF
  | .counters d => d.FlagsWF
  | .plus d => d.Valid
  | .absAn d => d.value.toNat < 2 ^ 24
  | .disp _ => True

/-- Same subrecord: present fields equal (24-bit sensor fields in their low 24 bits), absent fields
zero, coordinates within 22 (44) nanodegrees: those denoted by the 32-bit numbers sent. -/
def SubData.Same (env : Env) : SubData → SubData → Prop
  | .pos a, .pos b =>
    |b.latitude - a.latitude| ≤ 22 / 1000000000 ∧ |b.longitude - a.longitude| ≤ 44 / 1000000000 ∧
    b.latitude = decLat (encLat env a.latitude) ∧ b.longitude = decLon (encLon env a.longitude) ∧
    b = { a with latitude := b.latitude, longitude := b.longitude,
                 altitude := present a.alte a.altitude 0, sourceData := 0 }
  | .term a, .term b => b = a.onto {}
  | .module a, .module b => b = a
  | .resp a, .resp b => b = a
  | .result a, .result b => b = a
  | .extPos a, .extPos b => b = a.onto {}
  | .adSens a, .adSens b => b = a.onto {}
  | .state a, .state b => b = a
  | .liquid a, .liquid b => b = a
  | .absCntr a, .absCntr b => b = a
  | .auth a, .auth b => b = a
  | .counters a, .counters b => b = a.onto {}
  | .plus a, .plus b => b = a
  | .absAn a, .absAn b => b = a
  | .disp a, .disp b => b = a
  | _, _ => False

/-- The values on which the code is not known to fail: positions whose direction agrees with its
separate highest bit (C32), analog sensors whose presence is its own mirror image (C28), no second counter
(C29). Every value of the other kinds. -/
def SubData.Sound : SubData → Prop
  | .pos d => d.directionHighestBit = 1 → 128 ≤ d.direction
  | .adSens d => d.Mirror
  | .counters d => d.cfe2 = go!"0"
  | _ => True

/-- What the library reads back, for every value: as `Same`, with three exceptions, on which see
`directionBack` (C32), `SrAdSensorsData.readBack` (C28) and `SrCountersData.readBack` (C29). -/
def SubData.ReadBack (env : Env) : SubData → SubData → Prop
  | .pos a, y => (SubData.pos { a with direction := a.directionBack }).Same env y
  | .adSens a, y => y = .adSens (a.readBack {})
  | .counters a, y => y = .counters (a.readBack {})
  | x, y => x.Same env y

/-- The type field is the kind's code, or 0 for a kind whose code the encoder infers, or the
alternative code 20 of state data. -/
def SubData.TypeOK (d : SubData) (t : UInt8) : Prop :=
  t = d.code ∨ (t = 0 ∧ d.code ≠ 2 ∧ d.code ≠ 5) ∨ (t = 20 ∧ d.code = 21)

/-- The type that ends up on the wire. -/
def SubData.wireType (d : SubData) (t : UInt8) : UInt8 := if t = 0 then d.code else t

/-- A subrecord of a supported kind whose declared type and length are unset or right. -/
def RecordData.WF (env : Env) (rd : RecordData) : Prop :=
  ∃ d b, rd.subrecordData = some d ∧ d.WF env ∧ d.TypeOK rd.subrecordType ∧
    d.encode env = .ok b ∧ b.length < 2 ^ 16 ∧
    (rd.subrecordLength = 0 ∨ rd.subrecordLength.toNat = b.length)

/-- `b` is what is read of `a`, if `R` says so of the contents: the type is set, the length filled in. -/
def RecordData.Rel (env : Env) (R : SubData → SubData → Prop) (a b : RecordData) : Prop :=
  ∃ x y enc, a.subrecordData = some x ∧ b.subrecordData = some y ∧ R x y ∧
    b.subrecordType = x.wireType a.subrecordType ∧
    x.encode env = .ok enc ∧ b.subrecordLength.toNat = enc.length

/-- Same subrecord with its header. -/
abbrev RecordData.Same (env : Env) : RecordData → RecordData → Prop := RecordData.Rel env (SubData.Same env)

/-- What the library reads back of a subrecord with its header. -/
abbrev RecordData.ReadBack (env : Env) : RecordData → RecordData → Prop := RecordData.Rel env (SubData.ReadBack env)

/-- The subrecord is not one on which the code is known to fail. -/
def RecordData.Sound (rd : RecordData) : Prop := ∀ d, rd.subrecordData = some d → d.Sound

/-- A moment the 32-bit second counters can express: whole seconds from 2010-01-01 00:00:00 UTC. -/
def WireTime (t : GoTime) : Prop := ∃ s : Nat, s < 2 ^ 32 ∧ t = timeOffset + (s : Int) * 1000000000

def ServiceDataRecord.WF (env : Env) (r : ServiceDataRecord) : Prop :=
  IsBit r.ssod ∧ IsBit r.rsod ∧ IsBit r.grp ∧ IsBits2 r.rpp ∧ IsBit r.tmfe ∧ IsBit r.evfe ∧
  IsBit r.obfe ∧ (r.tmfe = go!"1" → WireTime r.time) ∧
  (∀ rd ∈ r.recordDataSet, rd.WF env) ∧
  ∃ b, RecordDataSet.encode env r.recordDataSet = .ok b ∧ b.length < 2 ^ 16 ∧
    (r.recordLength = 0 ∨ r.recordLength.toNat = b.length)

/-- `b` is what is read of the service record `a`, if `R` says so of the contents of the subrecords: the
same number of subrecords in the same order, the length filled in, fields absent from the wire zero, the
others equal. -/
def ServiceDataRecord.Rel (env : Env) (R : SubData → SubData → Prop) (a b : ServiceDataRecord) : Prop :=
  List.Forall₂ (RecordData.Rel env R) a.recordDataSet b.recordDataSet ∧
  (∃ enc, RecordDataSet.encode env a.recordDataSet = .ok enc ∧ b.recordLength.toNat = enc.length) ∧
  b = { a with
        recordLength := b.recordLength
        objectIdentifier := present a.obfe a.objectIdentifier 0
        eventIdentifier := present a.evfe a.eventIdentifier 0
        time := present a.tmfe a.time zeroTime
        recordDataSet := b.recordDataSet }

abbrev ServiceDataRecord.Same (env : Env) : ServiceDataRecord → ServiceDataRecord → Prop :=
  ServiceDataRecord.Rel env (SubData.Same env)

abbrev ServiceDataRecord.ReadBack (env : Env) : ServiceDataRecord → ServiceDataRecord → Prop :=
  ServiceDataRecord.Rel env (SubData.ReadBack env)

def ServiceDataRecord.Sound (r : ServiceDataRecord) : Prop := ∀ rd ∈ r.recordDataSet, rd.Sound

end Egts
