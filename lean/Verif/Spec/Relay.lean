import Verif.Spec.Package

/-!
# Passing packages on

A relay decodes a frame and encodes the package it got. The package remembers the lengths that were declared in the frame;
`unsized` forgets them, so that `Encode` computes them.
-/

namespace Egts

def RecordData.unsized (rd : RecordData) : RecordData := { rd with subrecordLength := 0 }

def ServiceDataRecord.unsized (r : ServiceDataRecord) : ServiceDataRecord :=
  { r with recordLength := 0, recordDataSet := r.recordDataSet.map RecordData.unsized }

def FrameData.unsized : FrameData → FrameData
  | .sds s => .sds (s.map ServiceDataRecord.unsized)
  | .resp r => .resp { r with sdr := r.sdr.map (List.map ServiceDataRecord.unsized) }

/-- The package with all lengths unset: the header, the records, the subrecords. -/
def Package.unsized (p : Package) : Package :=
  { p with headerLength := 0, servicesFrameData := p.servicesFrameData.map FrameData.unsized }

/-- No altitude exceeds 24 bits. (The library takes four bytes for the altitude if there are so many.) -/
def Package.AltitudesFit (p : Package) : Prop :=
  ∀ r ∈ p.records, ∀ rd ∈ r.recordDataSet, ∀ x, rd.subrecordData = some (.pos x) → x.altitude.toNat < 2 ^ 24

/-- Analog sensors are present together with their mirror images (C28), and no second counter is (C29). -/
def Package.SensorsSound (p : Package) : Prop :=
  ∀ r ∈ p.records, ∀ rd ∈ r.recordDataSet,
    (∀ x, rd.subrecordData = some (.adSens x) → x.Mirror) ∧ (∀ x, rd.subrecordData = some (.counters x) → x.cfe2 = go!"0")

end Egts
