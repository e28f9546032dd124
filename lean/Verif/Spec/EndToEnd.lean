import Verif.Spec.Conn

/-! # Specification vocabulary for the way from a device to the storages -/

namespace Egts

/-- All that the receiver stores of this subrecord is transmitted: the direction of a position agrees with its separate highest
bit (C32), absent fields of extended positions and analog sensors are zero, analog values have 24 bits, and their presence is its
own mirror image (C28). -/
def SubData.Carried : SubData → Prop
  | .pos d => d.directionHighestBit = 1 → 128 ≤ d.direction
  | .extPos d => d.onto {} = d
  | .adSens d => d.Mirror ∧ d.onto {} = d
  | _ => True

/-- A packet as a device sends it with this library: unencrypted, of version 1, with the records `s`, without confirmations of other
records. It is not too long. -/
structure Report (env : Env) (p : Package) (s : List ServiceDataRecord) : Prop where
  records : p.servicesFrameData = some (.sds s)
  wf : p.WF env none
  plain : p.encryptionAlg = go!"00"
  version : p.protocolVersion = 1
  fits : ∀ body, ServiceDataSet.encode env s = .ok body → p.fullHL + body.length + 2 < 2 ^ 16
  noResponse : ∀ r ∈ s, r.hasResp = false
  carried : ∀ r ∈ s, ∀ x ∈ r.recordDataSet, ∀ d, x.subrecordData = some d → d.Carried

/-- The same record up to the resolution of the coordinates. -/
def NavRecord.Near (m n : NavRecord) : Prop :=
  |n.latitude - m.latitude| ≤ 22 / 1000000000 ∧ |n.longitude - m.longitude| ≤ 44 / 1000000000 ∧
    n = { m with latitude := n.latitude, longitude := n.longitude }

/-- The identifiers that a device has sent with the first `n` packets. -/
def idsSent (sent : List (Package × List ServiceDataRecord)) (n : Nat) : List UInt32 :=
  (sent.take n).flatMap fun x => x.2.flatMap (·.ids)

/-- What should be stored for the packets that a device has sent on a connection, of which packet number `i` is handled at `now i`: a
record for each sent record with a position (the last of them, C46), in order, under the last identifier sent up to then. -/
def dueRecords (now : Nat → Int) (sent : List (Package × List ServiceDataRecord)) : List NavRecord :=
  sent.zipIdx.flatMap fun (x, i) => stored x.1.packetIdentifier (now i) (lastOr (idsSent sent i) 0) x.2

/-- `ws` is what should be written for a packet: the confirmation of all its records and, after a login, the result of that. -/
def Answers (env : Env) (x : Package × List ServiceDataRecord) (ws : List Bytes) : Prop :=
  ∃ ack, IsResponse env ack x.1.packetIdentifier (acceptance x.1.packetIdentifier x.2) ∧
    ws = ack :: (if x.2.any (fun r => r.recordDataSet.any (·.isLogin)) then [resultPacket x.1.packetIdentifier] else [])

/-- What the receiver does at the end of what has come: wait for more; wait for its time-out and close; or close. -/
def atEnd : End → List Effect
  | .blocked => []
  | .eof => [.waitTimer, .close]
  | .error => [.close]

end Egts
