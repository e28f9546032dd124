import Verif.Spec.Program
import Verif.Spec.System
import Verif.Spec.Fine

/-! # Specification vocabulary for devices that keep what has not been acknowledged -/

namespace Egts

/-- What a device has read so far, `b`, holds a positive response to its packet number `n`: after complete packets there is one that the library
decodes as a response with result 0 to that number. -/
def Hears (env : Env) (b : Bytes) (n : UInt16) : Prop :=
  ∃ (pre : List Bytes) (w post sp : Bytes) (q : Package) (r : PtResponse), b = pre.flatten ++ w ++ post ∧ (∀ g ∈ pre, WellFramed g) ∧ WellFramed w ∧
    Package.decode env none {} ⟨w, sp⟩ = .ret q 0 none ∧ q.packetType = 0 ∧ q.servicesFrameData = some (.resp r) ∧
    r.responsePacketID = n ∧ r.processingResult = 0

/-- A device is connected to a receiver for a time: connection `k` of a process started with `argv`, of which `evs` is the history so far and `p`
the state. The device has sent the packets `sent`, as the bytes `frames`; it has read the bytes `back`. -/
structure Session (W E : Type) where
  order : List (Bytes × Params) → List (Bytes × Params)
  fs : Bytes → Option Yaml
  ce : Nat → ConnEnv
  argv : List Bytes
  w0 : W
  evs : List ProgEvent
  p : Program (W × List Call) (ConnErr E)
  k : Nat
  sent : List (Package × List ServiceDataRecord)
  frames : List Bytes
  back : Bytes

/-- The receiver is configured with the storages `ss` and `evs` is a history of it. What it has received is the beginning of what the device has
sent, and what the device has read is the beginning of what the receiver has written; either may have been cut off anywhere. The device
does not give the same number to different packets. -/
structure Session.Possible {W E : Type} (lib : Lib W E) (env : Env) (ss : List (Bytes × Yaml)) (s : Session W E) : Prop where
  order : ∀ l, (s.order l).Perm l
  configured : Configured s.argv s.fs ss
  run : receiverRun (recorder lib) s.order s.fs env s.ce s.argv (s.w0, []) s.evs = some s.p
  reports : ∀ x ∈ s.sent, Report env x.1 x.2
  encoded : List.Forall₂ (fun x f => (x.1.encode env none).2 = .ok f) s.sent s.frames
  received : receivedOn s.k (onConns s.evs) <+: s.frames.flatten
  read : s.back <+: (writes (s.p.sys.doneBy s.k)).flatten
  numbers : ∀ x ∈ s.sent, ∀ y ∈ s.sent, x.1.packetIdentifier = y.1.packetIdentifier → x = y

/-- The device has sent this packet and read its acknowledgement. -/
def Session.Acknowledged {W E : Type} (env : Env) (s : Session W E) (x : Package × List ServiceDataRecord) : Prop :=
  x ∈ s.sent ∧ Hears env s.back x.1.packetIdentifier

/-- The records due for this packet have been delivered to each of the storages `ss`, as JSON that reads back as just these records; under the
identifier in the packet or else the last one sent before on this connection. -/
def Session.Delivered {W E : Type} (ss : List (Bytes × Yaml)) (s : Session W E) (x : Package × List ServiceDataRecord) : Prop :=
  ∃ i cfg got, s.sent[i]? = some x ∧ StoragesOf ss cfg ∧
    List.Forall₂ NavRecord.Near (stored x.1.packetIdentifier ((s.ce s.k).clock i) (lastOr (idsSent s.sent i) 0) x.2) got ∧
    (∀ r ∈ got, Json.readNav r.toBytes = some r) ∧ (got.flatMap (dues cfg)).Sublist (s.p.sys.world.2.map Call.due)

/-- What a device still keeps of the packets `todo` after some sessions: those whose acknowledgement it has not read in any of them. -/
noncomputable def kept {W E : Type} (env : Env) (sessions : List (Session W E)) (todo : List (Package × List ServiceDataRecord)) :
    List (Package × List ServiceDataRecord) :=
  open Classical in todo.filter fun x => ∀ s ∈ sessions, ¬ s.Acknowledged env x

/-- The session goes on: more happens on its connection in the receiver, and the device reads all that has been written. -/
def Session.goesOn {W E : Type} (s : Session W E) (more : List Event) (p : Program (W × List Call) (ConnErr E)) : Session W E :=
  { s with evs := s.evs ++ more.map .conn, p := p, back := (writes (p.sys.doneBy s.k)).flatten }

end Egts
