import Verif.Model.Server

/-! # Storages (`cli/receiver/storage/store.go`, `default.go`, `cli/receiver/main.go`)

Here a storage is any function on the state `W` of the world outside; the six connectors are in `Model/Connectors.lean`. -/

namespace Egts

/-- A value of interface type `Saver` (`store.go:22-25`): `Save` changes the world and returns nil (`none`) or
an error. -/
abbrev Saver (W E : Type) := NavRecord → W → W × Option E

/-- `Repository.Save` (`store.go:47-54`). -/
def Repository.save {W E : Type} : List (Saver W E) → NavRecord → W → W × Option E
  | [], _, w => (w, none)
  | s :: rest, m, w =>
    match s m w with
    | (w, some e) => (w, some e)
    | (w, none) => Repository.save rest m w

/-- Errors of `LoadStorages` (`store.go:14-15`, or that of an `Init`). -/
inductive LoadErr (E : Type)
  | invalidStorage
  | unknownStorage
  | init (e : E)
  deriving DecidableEq, Repr

/-- The settings of one storage: a `map[string]string`, nil if the section is empty. Keys are distinct. -/
abbrev Params := Option (List (Bytes × Bytes))

/-- The world of connectors: what `Init` of the connector of that name does, and the `Saver` that it becomes. -/
structure Connectors (W E : Type) where
  init : Bytes → Params → W → W × Option E
  saver : Bytes → Params → Saver W E

/-- The names in the switch of `LoadStorages` (`store.go:64-77`). -/
def supportedNames : List Bytes :=
  [go!"rabbitmq", go!"postgresql", go!"nats", go!"tarantool_queue", go!"redis", go!"mysql"]

/-- The loop of `LoadStorages` (`store.go:63-84`) over the entries in the order in which the iteration over the
map happens to deliver them. -/
def loadLoop {W E : Type} (cs : Connectors W E) : List (Saver W E) → W → List (Bytes × Params) → List (Saver W E) × W × Option (LoadErr E)
  | stores, w, [] => (stores, w, none)
  | stores, w, (name, params) :: rest =>
    if name ∈ supportedNames then
      match cs.init name params w with
      | (w, some e) => (stores, w, some (.init e))
      | (w, none) => loadLoop cs (stores ++ [cs.saver name params]) w rest
    else (stores, w, some .unknownStorage)

/-- `Repository.LoadStorages` (`store.go:57-86`). -/
def loadStorages {W E : Type} (cs : Connectors W E) (stores : List (Saver W E)) (w : W) (cfg : List (Bytes × Params)) :
    List (Saver W E) × W × Option (LoadErr E) :=
  if cfg.length = 0 then (stores, w, some .invalidStorage) else loadLoop cs stores w cfg

/-- The storages `main` gives to the server (`main.go:27-39`): if loading fails the `LogConnector`, whose `Init`
returns nil (`default.go:10-12`), is added to those that were loaded before the failure. -/
def mainStorages {W E : Type} (cs : Connectors W E) (logConnector : Saver W E) (w : W) (cfg : List (Bytes × Params)) :
    List (Saver W E) × W :=
  match loadStorages cs [] w cfg with
  | (stores, w, none) => (stores, w)
  | (stores, w, some _) => (stores ++ [logConnector], w)

/-- What becomes of an effect of the handler. -/
inductive Outcome (E : Type)
  /-- a record was offered to the repository, with this result -/
  | saved (r : NavRecord) (err : Option E)
  | other (x : Effect)
  deriving DecidableEq, Repr

/-- The effects of a handler, carried out with a repository (`server.go:273-275`: the error of `Save` is logged
and has no influence on what follows). -/
def runEffs {W E : Type} (stores : List (Saver W E)) : W → List Effect → W × List (Outcome E)
  | w, [] => (w, [])
  | w, .save r :: rest =>
    let (w, err) := Repository.save stores r w
    let (w, outs) := runEffs stores w rest
    (w, .saved r err :: outs)
  | w, x :: rest =>
    let (w, outs) := runEffs stores w rest
    (w, .other x :: outs)

end Egts
