import Verif.Model.Package

/-!
# Vocabulary: machines

What the Go language leaves to the implementation is the field of `Env`: the value of `uint32(f)` for a
number `f` that does not fit. Two implementations of it, and the positions for which it is not needed.
-/

namespace Egts

/-- The position `d` is in the record `r`. -/
def ServiceDataRecord.HasPos (r : ServiceDataRecord) (d : SrPosData) : Prop :=
  ∃ rd ∈ r.recordDataSet, rd.subrecordData = some (.pos d)

/-- The position `d` is in the package `p`. -/
def Package.HasPos (p : Package) (d : SrPosData) : Prop :=
  ∃ recs, (p.servicesFrameData = some (.sds recs) ∨ ∃ s, p.servicesFrameData = some (.resp s) ∧ s.sdr = some recs) ∧
    ∃ r ∈ recs, r.HasPos d

/-- Coordinates without sign and a time from 2010 to 2146, the ones the protocol can express. -/
def SrPosData.InRange (d : SrPosData) : Prop :=
  (0 ≤ d.latitude ∧ d.latitude ≤ 90) ∧ (0 ≤ d.longitude ∧ d.longitude ≤ 180) ∧
    (timeOffset ≤ d.navigationTime ∧ d.navigationTime ≤ timeOffset + (4294967295 : Int) * 1000000000)

/-- A machine on which the number is cut off toward zero and its lowest 32 bits are taken (as amd64 does, up to 2^63). -/
def wrapping : Env where
  f2u x := UInt32.ofNat ((if x < 0 then -(-x).floor else x.floor) % 4294967296).toNat

/-- A machine on which the nearest number that fits is taken (as arm64 does). -/
def saturating : Env where
  f2u x := if x < 0 then 0 else 4294967295

end Egts
