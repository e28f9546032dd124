import Verif.Spec.System
import Verif.Spec.Connectors
import Verif.Model.Fine

/-! # Specification vocabulary for saves that take time -/

namespace Egts

variable {W E : Type}

/-- What connection `k` did, in order, according to the log. -/
def Fine.doneBy (s : Fine W E) (k : Nat) : List Effect := (s.log.filter (fun x => x.1 = k)).map (fun x => x.2.effect)

/-- The offers made by goroutine `k`, in order: record, storage, answer. -/
def Fine.offersOf (s : Fine W E) (k : Nat) : List (NavRecord × Nat × Option E) := (s.offers.filter (fun x => x.1 = k)).map (·.2)

/-- The attempts of goroutine `k` to save a record, with their results, in order. -/
def Fine.attemptsOf (s : Fine W E) (k : Nat) : List (NavRecord × Option E) := attempts ((s.log.filter (fun x => x.1 = k)).map (·.2))

/-- The record has been offered to the storages number 0, 1, …, `i - 1`, and accepted. -/
def acceptedUpTo (r : NavRecord) (i : Nat) : List (NavRecord × Nat × Option E) := (List.range i).map fun j => (r, j, none)

/-- The offers that one attempt consists of, if there are `n` storages: to each in turn, up to the first that refuses. -/
def IsAttempt (n : Nat) (offs : List (NavRecord × Nat × Option E)) (a : NavRecord × Option E) : Prop :=
  match a.2 with
  | none => offs = acceptedUpTo a.1 n
  | some e => ∃ i < n, offs = acceptedUpTo a.1 i ++ [(a.1, i, some e)]

/-- The storages, asked one after the other as listed, give these answers and leave this world. -/
def Served (stores : List (Saver W E)) : W → List (Nat × NavRecord × Nat × Option E) → W → Prop
  | w, [], w' => w' = w
  | w, (_, r, i, err) :: rest, w' => ∃ st, stores[i]? = some st ∧ (st r w).2 = err ∧ Served stores (st r w).1 rest w'

end Egts
