import Verif.Model.Container

/-! # Specification vocabulary for containers -/

namespace Egts

/-- A directory with just these files. -/
def directory (l : List (Bytes × Bytes)) : Files := fun p => (l.find? fun x => x.1 = p).map (·.2)

/-- A server that listens on `addr` can be reached at the address `ip` of its machine and this port: it listens there, or on all addresses. -/
def ReachedAt (ip port addr : Bytes) : Prop :=
  addr = ip ++ go!":" ++ port ∨ addr = go!":" ++ port ∨ addr = go!"0.0.0.0:" ++ port

end Egts
