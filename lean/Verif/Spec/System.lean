import Verif.Spec.Conn
import Verif.Model.System

/-! # Specification vocabulary for many connections -/

namespace Egts

/-- The bytes that arrived on connection `k` in a history. -/
def receivedOn (k : Nat) (evs : List Event) : Bytes :=
  evs.flatMap fun | .deliver j b => if j = k then b else [] | _ => []

/-- How connection `k` has ended in a history; `.blocked` if it has not. -/
def endingOf (k : Nat) (evs : List Event) : End :=
  ((evs.filterMap fun | .hangup j e => if j = k then some e else none | _ => none).getLast?).getD .blocked

/-- The effect behind an outcome. -/
def Outcome.effect {E : Type} : Outcome E → Effect
  | .saved r _ => .save r
  | .other x => x

/-- What connection `k` did, in order, according to the log. -/
def doneBy {W E : Type} (s : System W E) (k : Nat) : List Effect := (s.log.filter (fun x => x.1 = k)).map (fun x => x.2.effect)

end Egts
