import Verif.Spec.Program

/-! # Specification vocabulary for what may be delivered at all -/

namespace Egts

/-- The record `r` is one of those that are to be stored for a packet received on this connection, of which `input` are the bytes received:
there are complete frames `frames`, then the packet `f`, which is accepted; it is handled when its turn comes, and an identifier that is not
in the packet itself is the last in the frames before it. -/
def MadeFrom (env : Env) (ce : ConnEnv) (input : Bytes) (r : NavRecord) : Prop :=
  ∃ (frames : List Bytes) (f tail : Bytes) (p : Package) (recs : List ServiceDataRecord), input = frames.flatten ++ f ++ tail ∧
    (∀ g ∈ frames, WellFramed g) ∧ WellFramed f ∧ Accepts env ⟨f, ce.spare frames.length⟩ p recs ∧
    r ∈ stored p.packetIdentifier (ce.clock frames.length) (lastOr (idsBefore env ce frames frames.length) 0) (beforeResp recs)

/-- A delivery of a record to the storage of this name among the configured ones; the log goes by the name `log`. -/
def Delivers (store : List (Bytes × Params)) (name : Bytes) (r : NavRecord) (c : Call) : Prop :=
  c.payload.bind Json.readNav = some r ∧
    ((∃ b, c = .logPacket b) ∧ name = go!"log" ∨ ∃ p, (name, p) ∈ store ∧ name ∈ storageNames ∧ c.place = placeOf name (p.getD []))

end Egts
