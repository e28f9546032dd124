import Verif.Model.Server

/-! # `Run` and `Stop` (`server.go:25-51`) -/

namespace Egts

/-- Where the goroutine that executes `Run` is. -/
inductive RunPhase
  | notStarted
  /-- in the loop, `server.go:35-42` -/
  | accepting
  /-- `Run` has returned to its caller -/
  | returned
  /-- the process has ended: `log.Fatalf`, `server.go:30` -/
  | exited
  deriving DecidableEq, Repr

/-- A server. `l` is the field of that name (`server.go:22`): nil, or a listener, of which only matters whether it has
been closed. -/
structure Srv where
  l : Option Bool := none
  phase : RunPhase := .notStarted
  /-- connections whose handlers have been started -/
  started : List Nat := []
  /-- messages "Ошибка соединения" in the log -/
  errors : Nat := 0
  deriving DecidableEq, Repr

/-- Whether a loop body goes on to the next round. -/
inductive Ctl
  | next
  | ret
  deriving DecidableEq, Repr

/-- The body of the loop (`server.go:36-41`), given what `Accept` returned: a connection, or `none` for an error. -/
def acceptBody (s : Srv) : Option Nat → Srv × Ctl
  | none => ({ s with errors := s.errors + 1 }, .next)
  | some k => ({ s with started := s.started ++ [k] }, .next)

/-- Things that can happen to a server. -/
inductive SrvEvent
  /-- `Run` is called and `net.Listen` succeeds or not (`server.go:26-32`) -/
  | run (listening : Bool)
  /-- `Accept` returns (`server.go:36`) -/
  | accept (r : Option Nat)
  /-- `Stop` is called (`server.go:45-51`), by another goroutine -/
  | stop
  deriving DecidableEq, Repr

/-- `Stop` (`server.go:45-51`): the server afterwards, and whether an error is returned. Closing a listener a second time is
an error (Go's `net` package). -/
def Srv.stop (s : Srv) : Srv × Bool :=
  match s.l with
  | none => (s, false)
  | some closed => ({ s with l := some true }, closed)

/-- One event; `none` if it is not possible. `Accept` of a closed listener returns an error and nothing else, at once. -/
def Srv.step (s : Srv) : SrvEvent → Option Srv
  | .run listening =>
    if s.phase ≠ .notStarted then none
    else if listening then some { s with l := some false, phase := .accepting }
    else some { s with phase := .exited }
  | .accept r =>
    if s.phase ≠ .accepting then none
    else if s.l = some true ∧ r ≠ none then none
    else
      match acceptBody s r with
      | (s, .next) => some s
      | (s, .ret) => some { s with phase := .returned, l := some true }   -- `defer s.l.Close()`, line 32
  | .stop => if s.phase = .exited then none else some s.stop.1

/-- A history of a server. -/
def Srv.exec (s : Srv) : List SrvEvent → Option Srv
  | [] => some s
  | ev :: evs => (s.step ev).bind fun s => s.exec evs

end Egts
