import Verif.Model.Storage

/-! # Specification vocabulary for storages -/

namespace Egts

variable {W E : Type}

/-- The world after the record has been offered to these storages one after the other. -/
def offered (stores : List (Saver W E)) (m : NavRecord) (w : W) : W := stores.foldl (fun w s => (s m w).1) w

/-- What the `i`-th storage answers when the record has been offered to those before it. -/
def answer (stores : List (Saver W E)) (m : NavRecord) (w : W) (i : Nat) : Option E :=
  match stores[i]? with
  | some s => (s m (offered (stores.take i) m w)).2
  | none => none

/-- Every storage accepts the record. -/
def AllAccept (stores : List (Saver W E)) (m : NavRecord) (w : W) : Prop := ∀ i < stores.length, answer stores m w i = none

/-- The world after initialising these connectors one after the other. -/
def inited (cs : Connectors W E) (cfg : List (Bytes × Params)) (w : W) : W := cfg.foldl (fun w x => (cs.init x.1 x.2 w).1) w

/-- The storages the documentation lists (`README.md`, `configs/receiver.yaml`, `store.go:57-86`). -/
def storageNames : List Bytes :=
  [go!"rabbitmq", go!"postgresql", go!"nats", go!"tarantool_queue", go!"redis", go!"mysql"]

/-- The `i`-th entry is for a supported storage whose `Init` succeeds when those before have been initialised. -/
def EntryOk (cs : Connectors W E) (cfg : List (Bytes × Params)) (w : W) (i : Nat) : Prop :=
  ∀ x, cfg[i]? = some x → x.1 ∈ storageNames ∧ (cs.init x.1 x.2 (inited cs (cfg.take i) w)).2 = none

/-- The outcomes of saving records one after the other: each is offered to the repository as it was left by the one before. -/
def saveAll (stores : List (Saver W E)) : W → List NavRecord → W × List (NavRecord × Option E)
  | w, [] => (w, [])
  | w, r :: rs =>
    let (w, err) := Repository.save stores r w
    let (w, outs) := saveAll stores w rs
    (w, (r, err) :: outs)

end Egts
