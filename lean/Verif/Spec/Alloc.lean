import Verif.Model.Alloc
import Verif.Spec.Frame

/-! # Specification of the memory that decoding takes -/

namespace Egts

/-- The size of all the buffers for record data that are set aside while the records `b` are decoded. -/
def setAside (env : Env) (b : Bytes) : Nat := ServiceDataSet.alloc (· + ·) env b

/-- The size of the buffers for record data that are in use at a time while the records `b` are decoded, at the most. -/
def inUse (env : Env) (b : Bytes) : Nat := ServiceDataSet.alloc max env b

/-- A record with a record response, which is followed by a record with a record response, and so on. Every record says that its data are 65533
bytes long. -/
def nestedRecords : Nat → Bytes
  | 0 => []
  | d + 1 => [253, 255, 0, 0, 0, 2, 2] ++ [0, 255, 255] ++ [1, 0, 0] ++ nestedRecords d

/-- The frame around the body `x`, of type EGTS_PT_APPDATA. -/
def frameAround (x : Bytes) : Bytes :=
  let head : Bytes := [1, 0, 0, 11, 0, UInt8.ofNat x.length, UInt8.ofNat (x.length / 256), 7, 0, 1]
  let sum := (crc16 x).toNat
  head ++ [crc8 head] ++ x ++ [UInt8.ofNat sum, UInt8.ofNat (sum / 256)]

/-- No record has a record response among its subrecords. -/
def NoResponses (rs : List ServiceDataRecord) : Prop := ∀ r ∈ rs, ∀ rd ∈ r.recordDataSet, rd.subrecordType ≠ 0

end Egts
