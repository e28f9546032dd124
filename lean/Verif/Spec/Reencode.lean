import Verif.Spec.Package

/-! # When decoding and encoding again can give the same bytes (C22) -/

namespace Egts

/-- The coordinates of a position are such that what their 32-bit numbers denote is encoded to the same numbers again (for
some numbers it is encoded to the one before, C33); analog sensors and counters are read back as they were (C28, C29). -/
def SubData.Steady (env : Env) : SubData → Prop
  | .pos d => encLat env (decLat (encLat env d.latitude)) = encLat env d.latitude ∧
      encLon env (decLon (encLon env d.longitude)) = encLon env d.longitude
  | .adSens d => d.Mirror
  | .counters d => d.cfe2 = go!"0"
  | _ => True

def RecordData.Steady (env : Env) (rd : RecordData) : Prop := ∀ d, rd.subrecordData = some d → d.Steady env

def ServiceDataRecord.Steady (env : Env) (r : ServiceDataRecord) : Prop := ∀ rd ∈ r.recordDataSet, rd.Steady env

def Package.Steady (env : Env) (p : Package) : Prop := ∀ r ∈ p.records, r.Steady env

end Egts
