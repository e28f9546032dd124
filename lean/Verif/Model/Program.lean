import Verif.Model.Cli
import Verif.Model.Run
import Verif.Model.Fine

/-! # The whole receiver: from its command line to the storages

`main` (`cli/receiver/main.go`) puts the parts together: the command line (`Model/Cli.lean`), the configuration and the storages
(`Model/Main.lean`), the accept loop (`Model/Run.lean`) and the connections, whose goroutines share
the storages (`Model/Fine.lean`). `Stop` is not called by `main`. -/

namespace Egts

/-- The process after `srv.Run()` has been called (`main.go:42`), with the address it listens on. -/
structure Program (W E : Type) where
  addr : Bytes
  srv : Srv := {}
  sys : Fine W E

/-- What can happen in the process. -/
inductive ProgEvent
  /-- `net.Listen` returns (`server.go:26-32`) -/
  | listen (ok : Bool)
  /-- `Accept` returns an error (`server.go:36-39`) -/
  | acceptFails
  /-- a connection is accepted (`server.go:36-41`), or something happens on one -/
  | conn (ev : Event)
  deriving DecidableEq, Repr

/-- One event; `none` if it is not possible. The accept loop and the handlers are goroutines of one process. -/
def Program.step {W E : Type} (env : Env) (ce : Nat → ConnEnv) (stores : List (Saver W E)) (p : Program W E) : ProgEvent → Option (Program W E)
  | .listen ok => (p.srv.step (.run ok)).map fun v => { p with srv := v }
  | .acceptFails => if p.sys.crashed then none else (p.srv.step (.accept none)).map fun v => { p with srv := v }
  | .conn (.accept k) => (p.srv.step (.accept (some k))).bind fun v => (p.sys.step env ce stores (.accept k)).map fun s => { p with srv := v, sys := s }
  | .conn ev => if p.srv.phase ≠ .accepting then none else (p.sys.step env ce stores ev).map fun s => { p with sys := s }

/-- A history of the process. -/
def Program.exec {W E : Type} (env : Env) (ce : Nat → ConnEnv) (stores : List (Saver W E)) (p : Program W E) : List ProgEvent → Option (Program W E)
  | [] => some p
  | ev :: evs => (p.step env ce stores ev).bind fun p => p.exec env ce stores evs

/-- The receiver, started with the arguments `argv` in the world `w`: the process after the history `evs`, `none` if that is not possible.
If it ends before `srv.Run()` (`main.go:14-24`) nothing happens any more. -/
def receiverRun {W E : Type} (lib : Lib W E) (order : List (Bytes × Params) → List (Bytes × Params)) (fs : Bytes → Option Yaml)
    (env : Env) (ce : Nat → ConnEnv) (argv : List Bytes) (w : W) (evs : List ProgEvent) : Option (Program W (ConnErr E)) :=
  match receiverCli lib order fs argv w with
  | .main (.run addr _ stores w) => Program.exec env ce stores { addr := addr, sys := { world := w } } evs
  | _ => if evs = [] then some { addr := [], srv := { phase := .exited }, sys := { world := w } } else none

end Egts
