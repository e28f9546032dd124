import Verif.Spec.Fine
import Verif.Model.Slow

/-! # Specification vocabulary for clients that are slow to read -/

namespace Egts

/-- What happened in the process. -/
def connEvents (evs : List SlowEvent) : List Event := evs.filterMap fun | .conn ev => some ev | _ => none

/-- The bytes for which the client of connection `k` has made room by reading. -/
def readBy (k : Nat) (evs : List SlowEvent) : Nat := (evs.map fun | .reads j n => if j = k then n else 0 | _ => 0).sum

/-- An event of connection `k`: a step of its goroutine, or its client reads. -/
def IsOwn (k : Nat) (ev : SlowEvent) : Prop := ev = .conn (.iterate k) ∨ ev = .conn (.effect k) ∨ ∃ n, ev = .reads k n

/-- The goroutine of connection `k` can make no step. -/
def Slow.Stands {W E : Type} (env : Env) (ce : Nat → ConnEnv) (stores : List (Saver W E)) (s : Slow W E) (k : Nat) : Prop :=
  s.step env ce stores (.conn (.iterate k)) = none ∧ s.step env ce stores (.conn (.effect k)) = none

end Egts
