import Verif.Spec.Record
import Verif.Spec.Frame

/-! # Specification vocabulary for responses and packets -/

namespace Egts

/-- A response section whose service records (if any) are well-formed. -/
def PtResponse.WF (env : Env) (r : PtResponse) : Prop := ∀ s, r.sdr = some s → ∀ x ∈ s, x.WF env

/-- `b` is what is read of the response `a`, if `R` says so of the contents of the subrecords. A response
without records is the same as one with an empty set of records. -/
def PtResponse.Rel (env : Env) (R : SubData → SubData → Prop) (a b : PtResponse) : Prop :=
  b.responsePacketID = a.responsePacketID ∧ b.processingResult = a.processingResult ∧
  List.Forall₂ (ServiceDataRecord.Rel env R) (a.sdr.getD []) (b.sdr.getD []) ∧
  (b.sdr = none ↔ a.sdr.getD [] = [])

def FrameData.WF (env : Env) : FrameData → Prop
  | .sds s => s ≠ [] ∧ ∀ x ∈ s, x.WF env
  | .resp r => r.WF env

def FrameData.Rel (env : Env) (R : SubData → SubData → Prop) : FrameData → FrameData → Prop
  | .sds a, .sds b => List.Forall₂ (ServiceDataRecord.Rel env R) a b
  | .resp a, .resp b => a.Rel env R b
  | _, _ => False

/-- Protocol code of the packet type. -/
def FrameData.code : FrameData → UInt8
  | .resp _ => 0
  | .sds _ => 1

/-- `body` is what travels between the header and the body checksum: nothing, or the encoded services
frame data, encrypted with the key if the package says so. -/
def Package.Body (env : Env) (key : Option SecretKey) (p : Package) (body : Bytes) : Prop :=
  match p.servicesFrameData with
  | none => body = []
  | some d => ∃ x, d.encode env = .ok x ∧
      ((p.encryptionAlg = go!"00" ∧ body = x) ∨
       (p.encryptionAlg ≠ go!"00" ∧ ∃ k, key = some k ∧ k.encode x = .ok body))

/-- Length of the header, checksum included. -/
def Package.fullHL (p : Package) : Nat := if p.route = go!"1" then 16 else 11

/-- The header fields are such that the wire can carry them: flags are bits and the header length is
unset or right. -/
def Package.HeadWF (p : Package) : Prop :=
  IsBits2 p.prefix_ ∧ IsBit p.route ∧ IsBits2 p.encryptionAlg ∧ IsBit p.compression ∧ IsBits2 p.priority ∧
  (p.headerLength = 0 ∨ p.headerLength.toNat = p.fullHL)

instance (p : Package) : Decidable p.HeadWF := by unfold Package.HeadWF; infer_instance

/-- A package with a body of the declared type, which (encrypted) fits the 16-bit length field. -/
def Package.WF (env : Env) (key : Option SecretKey) (p : Package) : Prop :=
  p.HeadWF ∧ ∃ d body, p.servicesFrameData = some d ∧ p.packetType = d.code ∧ d.WF env ∧
    p.Body env key body ∧ 0 < body.length ∧ body.length < 2 ^ 16

/-- `q` is what is read of the package `p`, if `R` says so of the contents of the subrecords: all fields as
they were, the computed ones filled in, and the routing fields, if not transmitted, those of the receiver
`p0`. -/
def Package.Rel (env : Env) (key : Option SecretKey) (R : SubData → SubData → Prop) (p0 p q : Package) : Prop :=
  ∃ d d' body, p.servicesFrameData = some d ∧ q.servicesFrameData = some d' ∧ d.Rel env R d' ∧
    p.Body env key body ∧
    q = { p with
          headerLength := UInt8.ofNat p.fullHL
          frameDataLength := UInt16.ofNat body.length
          peerAddress := present p.route p.peerAddress p0.peerAddress
          recipientAddress := present p.route p.recipientAddress p0.recipientAddress
          timeToLive := present p.route p.timeToLive p0.timeToLive
          headerCheckSum := q.headerCheckSum
          servicesFrameData := q.servicesFrameData
          servicesFrameDataCheckSum := crc16 body }

/-- Same package. -/
abbrev Package.Same (env : Env) (key : Option SecretKey) : Package → Package → Package → Prop :=
  Package.Rel env key (SubData.Same env)

/-- What the library reads back of a package. -/
abbrev Package.ReadBack (env : Env) (key : Option SecretKey) : Package → Package → Package → Prop :=
  Package.Rel env key (SubData.ReadBack env)

/-- The service records in a package of either type. -/
def Package.records (p : Package) : List ServiceDataRecord :=
  match p.servicesFrameData with
  | some (.sds s) => s
  | some (.resp r) => r.sdr.getD []
  | none => []

/-- The package has no subrecord on which the code is known to fail (C28, C29, C32). -/
def Package.Sound (p : Package) : Prop := ∀ r ∈ p.records, r.Sound

end Egts
