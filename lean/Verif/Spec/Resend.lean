import Verif.Spec.Conn

/-! # Specification vocabulary for packets that are sent again, and for logins -/

namespace Egts

/-- A stored record without the time of its receipt. -/
def NavRecord.untimed (r : NavRecord) : NavRecord := { r with receivedTimestamp := 0 }

/-- Every record with a position has an identifier, or comes after a record of the packet that has one. -/
def SelfIdentified (recs : List ServiceDataRecord) : Prop :=
  ∀ i r, recs[i]? = some r → r.hasPos = true → (recs.take (i + 1)).flatMap (·.ids) ≠ []

/-- What should be stored for a packet, apart from the time of receipt, if it does not matter what has come before. -/
def content (env : Env) (f : Bytes) : List NavRecord :=
  match accepted env ⟨f, []⟩ with
  | some (pid, recs) => stored pid 0 0 (beforeResp recs)
  | none => []

/-- A packet that declares its header length correctly and, if it is an application packet, says itself whose positions it carries. -/
structure Independent (env : Env) (f : Bytes) : Prop where
  framed : WellFramed f
  honest : Frame.Honest f
  self : ∀ pid recs, accepted env ⟨f, []⟩ = some (pid, recs) → SelfIdentified (beforeResp recs)

/-- A subrecord with authorization data, all of which are blanked. -/
def RecordData.blankAuth (x : RecordData) : RecordData :=
  match x.subrecordData with
  | some (.auth _) => { x with subrecordLength := 0, subrecordData := some (.auth {}) }
  | _ => x

/-- The record with all authorization data in it blanked. -/
def ServiceDataRecord.blankAuth (r : ServiceDataRecord) : ServiceDataRecord :=
  { r with recordLength := 0, recordDataSet := r.recordDataSet.map (·.blankAuth) }

/-- Is authorization data. -/
def RecordData.isAuth (x : RecordData) : Bool :=
  match x.subrecordData with | some (.auth _) => true | _ => false

/-- The record without any authorization data in it. -/
def ServiceDataRecord.withoutAuth (r : ServiceDataRecord) : ServiceDataRecord :=
  { r with recordLength := 0, recordDataSet := r.recordDataSet.filter fun x => !x.isAuth }

/-- The two packets differ in authorization data at most: one may have them, and the other not. Neither, or both, are accepted application
packets. -/
def SameButAuth (env : Env) (f g : Bytes) : Prop :=
  (accepted env ⟨f, []⟩).map (fun x => (x.1, x.2.map (·.withoutAuth))) = (accepted env ⟨g, []⟩).map (fun x => (x.1, x.2.map (·.withoutAuth)))

end Egts
