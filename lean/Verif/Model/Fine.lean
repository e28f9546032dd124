import Verif.Model.System

/-! # The running receiver, with saves that take time

In `Model/System.lean` a record is offered to all storages in one step. Here `Repository.Save` (`store.go:47-54`) is a loop whose every call
of a storage is a step of its own, so that other goroutines can do anything in between; they share the storages. -/

namespace Egts

/-- The process. `saving k` is the record for which goroutine `k` is inside `Repository.Save`, with the number of the storage that is next;
`offers` are the calls of `Save` of the storages so far: by which goroutine, which record, which storage, and its answer. -/
structure Fine (W E : Type) where
  conns : Nat → Option ConnState := fun _ => none
  saving : Nat → Option (NavRecord × Nat) := fun _ => none
  world : W
  log : List (Nat × Outcome E) := []
  offers : List (Nat × NavRecord × Nat × Option E) := []
  crashed : Bool := false

/-- Replace a connection. -/
def Fine.set {W E : Type} (s : Fine W E) (k : Nat) (c : ConnState) : Fine W E :=
  { s with conns := fun j => if j = k then some c else s.conns j }

/-- Replace what goroutine `k` is saving. -/
def Fine.setSaving {W E : Type} (s : Fine W E) (k : Nat) (x : Option (NavRecord × Nat)) : Fine W E :=
  { s with saving := fun j => if j = k then x else s.saving j }

/-- An entry in the log. -/
def Fine.note {W E : Type} (s : Fine W E) (k : Nat) (o : Outcome E) : Fine W E := { s with log := s.log ++ [(k, o)] }

/-- One step inside `Repository.Save` (`store.go:48-53`): the next storage, or the end of the loop. -/
def Fine.offer {W E : Type} (stores : List (Saver W E)) (s : Fine W E) (k : Nat) (r : NavRecord) (i : Nat) : Fine W E :=
  match stores[i]? with
  | none => (s.note k (.saved r none)).setSaving k none
  | some st =>
    let (w, err) := st r s.world
    let s := { s with world := w, offers := s.offers ++ [(k, r, i, err)] }
    match err with
    | none => s.setSaving k (some (r, i + 1))
    | some e => (s.note k (.saved r (some e))).setSaving k none

/-- One step of the process, like `System.step`; `.effect k` is the next step of the effect that goroutine `k` is carrying out, or the
first of the next one. -/
def Fine.step {W E : Type} (env : Env) (ce : Nat → ConnEnv) (stores : List (Saver W E)) (s : Fine W E) (ev : Event) : Option (Fine W E) :=
  if s.crashed = true then none
  else
    match ev with
    | .accept k => if (s.conns k).isSome then none else some (s.set k {})
    | .deliver k b => (s.conns k).bind fun c => if c.ending = .blocked then some (s.set k { c with buf := c.buf ++ b }) else none
    | .hangup k e => (s.conns k).bind fun c => if c.ending = .blocked then some (s.set k { c with ending := e }) else none
    | .iterate k => (s.conns k).bind fun c => if (s.saving k).isSome then none else (c.iterate env (ce k)).map fun c' => s.set k c'
    | .effect k => (s.conns k).bind fun c =>
      match s.saving k with
      | some (r, i) => some (s.offer stores k r i)
      | none =>
        match c.pending with
        | [] => none
        | .save r :: rest => some ((s.setSaving k (some (r, 0))).set k { c with pending := rest })
        | .crash :: rest => some { (s.note k (.other .crash)).set k { c with pending := rest } with crashed := true }
        | x :: rest => some ((s.note k (.other x)).set k { c with pending := rest })

/-- A history. -/
def Fine.exec {W E : Type} (env : Env) (ce : Nat → ConnEnv) (stores : List (Saver W E)) (s : Fine W E) : List Event → Option (Fine W E)
  | [] => some s
  | ev :: evs => (s.step env ce stores ev).bind fun s' => Fine.exec env ce stores s' evs

end Egts
