import Verif.Model.Storage

/-! # The running receiver: many connections at once (`server.go:25-51`, `:53-297`)

`Run` starts a goroutine for each connection; each has its own local variables (`server.go:56-63`), and all share the
`Server`, of which they read `store` and `ttl` only. Here a goroutine is a state machine which reads a packet (computing
what it will do) and then carries out its effects one at a time; at any moment any goroutine may take its next step. -/

namespace Egts

/-- The local variables of a goroutine that outlive a packet, and its connection. -/
structure ConnState where
  /-- received by the operating system and not yet read -/
  buf : Bytes := []
  /-- what comes after that -/
  ending : End := .blocked
  /-- `client` (`server.go:62`) -/
  client : UInt32 := 0
  /-- how many packets have been read -/
  count : Nat := 0
  /-- effects of the packet at hand not yet carried out -/
  pending : List Effect := []
  /-- the handler will not read any more -/
  done : Bool := false

/-- Reading a packet and deciding what to do about it: one iteration of the loop (`server.go:71-296`). Not possible as
long as effects are pending, after the last iteration, or if the read blocks. -/
def ConnState.iterate (env : Env) (ce : ConnEnv) (s : ConnState) : Option ConnState :=
  if s.pending ≠ [] ∨ s.done = true then none
  else
    match readPacket s.buf s.ending with
    | .stop [] => none
    | .stop effs => some { s with pending := effs, done := true }
    | .packet b rest =>
      let o := handlePacket env (ce.clock s.count) s.client ⟨b, ce.spare s.count⟩
      match o.client with
      | none => some { s with buf := rest, count := s.count + 1, pending := o.effs, done := true }
      | some c => some { s with buf := rest, count := s.count + 1, pending := o.effs, client := c }

/-- The process: the connections by number, the world behind the storages, what has happened so far (most recent last)
and whether the process has died of a panic. -/
structure System (W E : Type) where
  conns : Nat → Option ConnState := fun _ => none
  world : W
  log : List (Nat × Outcome E) := []
  crashed : Bool := false

/-- Replace a connection. -/
def System.set {W E : Type} (s : System W E) (k : Nat) (c : ConnState) : System W E :=
  { s with conns := fun j => if j = k then some c else s.conns j }

/-- Carrying out an effect of connection `k`. A simplification: a save is one step here, in which the record is offered to all storages; in
`Model/Fine.lean` each call of a storage is a step of its own. -/
def System.perform {W E : Type} (stores : List (Saver W E)) (s : System W E) (k : Nat) (x : Effect) : System W E :=
  match x with
  | .save r =>
    let (w, err) := Repository.save stores r s.world
    { s with world := w, log := s.log ++ [(k, .saved r err)] }
  | .crash => { s with log := s.log ++ [(k, .other .crash)], crashed := true }
  | x => { s with log := s.log ++ [(k, .other x)] }

/-- What can happen next. -/
inductive Event
  /-- `Accept` returns a new connection and `go s.handleConn(conn)` (`server.go:36-41`) -/
  | accept (k : Nat)
  /-- bytes arrive on connection `k` -/
  | deliver (k : Nat) (b : Bytes)
  /-- the peer closes connection `k`, or it fails -/
  | hangup (k : Nat) (e : End)
  /-- goroutine `k` reads a packet -/
  | iterate (k : Nat)
  /-- goroutine `k` carries out its next effect -/
  | effect (k : Nat)
  deriving DecidableEq, Repr

/-- One step of the system; `none` if the event cannot happen in this state. `ce k` is the environment of connection `k`.
Nothing happens in a process that has died. -/
def System.step {W E : Type} (env : Env) (ce : Nat → ConnEnv) (stores : List (Saver W E)) (s : System W E) (ev : Event) : Option (System W E) :=
  if s.crashed = true then none
  else
    match ev with
    | .accept k => if (s.conns k).isSome then none else some (s.set k {})
    | .deliver k b => (s.conns k).bind fun c => if c.ending = .blocked then some (s.set k { c with buf := c.buf ++ b }) else none
    | .hangup k e => (s.conns k).bind fun c => if c.ending = .blocked then some (s.set k { c with ending := e }) else none
    | .iterate k => (s.conns k).bind fun c => (c.iterate env (ce k)).map fun c' => s.set k c'
    | .effect k => (s.conns k).bind fun c =>
      match c.pending with
      | [] => none
      | x :: rest => some ((s.perform stores k x).set k { c with pending := rest })

/-- A history: a list of events, one after the other. -/
def System.exec {W E : Type} (env : Env) (ce : Nat → ConnEnv) (stores : List (Saver W E)) (s : System W E) : List Event → Option (System W E)
  | [] => some s
  | ev :: evs => (s.step env ce stores ev).bind fun s' => System.exec env ce stores s' evs

end Egts
