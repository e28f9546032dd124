import Verif.Spec.Conn
import Verif.Model.Timed

/-! # Specification vocabulary for time -/

namespace Egts

/-- The bytes of a timeline. -/
def Timeline.bytes (x : Timeline) : Bytes := x.map (·.2)

/-- When a handler that starts at `t` with frame number `i` has dealt with these frames and waits for the next: it begins
each when its last byte has arrived and needs `work` for it. -/
def waitingFrom (work : Nat → Nat) : Nat → Nat → List Timeline → Nat
  | _, t, [] => t
  | i, t, f :: fs => waitingFrom work (i + 1) ((f.map (·.1)).foldl max t + work i) fs

end Egts
