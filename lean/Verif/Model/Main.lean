import Verif.Model.Connectors

/-! # Configuration and start of the receiver (`cli/receiver/config/config.go`, `cli/receiver/main.go`,
`cli/receiver/storage/default.go`) -/

namespace Egts

/-! ## The configuration file -/

/-- A YAML node, as `gopkg.in/yaml.v2` (2.4.0) resolves it. Scalars other than strings come with the text they were written as.
Simplification: no anchors and merge keys; the keys of mappings are texts. -/
inductive Yaml
  /-- nothing, `~` or `null` -/
  | null (text : Bytes := [])
  | int (n : Int) (text : Bytes)
  /-- a finite number with a fraction or an exponent -/
  | float (q : Rat) (text : Bytes)
  | str (s : Bytes)
  /-- booleans, dates, infinities -/
  | other (text : Bytes)
  /-- a sequence; its elements do not matter here -/
  | seq
  | map (ms : List (Bytes × Yaml))

/-- `Settings` (`config.go:15-21`). -/
structure Settings where
  host : Bytes := []
  port : Bytes := []
  connTTL : Int := 0
  logLevel : Bytes := []
  store : List (Bytes × Params) := []

/-- yaml.v2, decoding into a string: a string, or any other scalar as it is written, `null` included. `none` is an error. -/
def Yaml.toStr : Yaml → Option Bytes
  | .null text => some text
  | .int _ text => some text
  | .float _ text => some text
  | .str s => some s
  | .other text => some text
  | .seq => none
  | .map _ => none

/-- yaml.v2, decoding into an `int`; `null` leaves zero, a fraction is cut off. Simplification: numbers with a fraction or an exponent
below the range of int64, for which Go leaves the result open, are an error. -/
def Yaml.toInt : Yaml → Option Int
  | .null _ => some 0
  | .int n _ => if -9223372036854775808 ≤ n ∧ n < 9223372036854775808 then some n else none
  | .float q _ => if -9223372036854775808 ≤ q ∧ q < 9223372036854775808 then some (if q < 0 then -(-q).floor else q.floor) else none
  | _ => none

/-- yaml.v2, assignment to a map: the last value of a key counts. Simplification: the entry of a key that occurs again moves
to the end; the order of a Go map is not defined. -/
def assign {α : Type} (m : List (Bytes × α)) (key : Bytes) (v : α) : List (Bytes × α) := m.filter (fun x => x.1 ≠ key) ++ [(key, v)]

/-- yaml.v2, decoding into `map[string]string`, with the entries so far. -/
def Yaml.toParams : List (Bytes × Yaml) → List (Bytes × Bytes) → Option (List (Bytes × Bytes))
  | [], m => some m
  | (key, v) :: ms, m =>
    match v.toStr with
    | some s => Yaml.toParams ms (assign m key s)
    | none => none

/-- yaml.v2, decoding into `map[string]map[string]string`, with the entries so far; `null` is the nil map. -/
def Yaml.toStore : List (Bytes × Yaml) → List (Bytes × Params) → Option (List (Bytes × Params))
  | [], m => some m
  | (key, .null _) :: ms, m => Yaml.toStore ms (assign m key none)
  | (key, .map ps) :: ms, m =>
    match Yaml.toParams ps [] with
    | some p => Yaml.toStore ms (assign m key (some p))
    | none => none
  | _ :: _, _ => none

/-- yaml.v2, decoding a mapping into the structure, by the tags of its fields (`config.go:16-20`); other keys are ignored. -/
def Settings.read : List (Bytes × Yaml) → Settings → Option Settings
  | [], s => some s
  | (key, v) :: ms, s =>
    if key = go!"host" then
      match v.toStr with
      | some x => Settings.read ms { s with host := x }
      | none => none
    else if key = go!"port" then
      match v.toStr with
      | some x => Settings.read ms { s with port := x }
      | none => none
    else if key = go!"conn_ttl" then
      match v.toInt with
      | some x => Settings.read ms { s with connTTL := x }
      | none => none
    else if key = go!"log_level" then
      match v.toStr with
      | some x => Settings.read ms { s with logLevel := x }
      | none => none
    else if key = go!"storage" then
      match v with
      | .null _ => Settings.read ms { s with store := [] }
      | .map ss =>
        match Yaml.toStore ss s.store with
        | some x => Settings.read ms { s with store := x }
        | none => none
      | _ => none
    else Settings.read ms s

/-- `config.New` (`config.go:52-60`): `none` if there is an error. The argument is the content of the file, `none` if it
cannot be read or is not YAML; an empty file is `null`. -/
def configNew : Option Yaml → Option Settings
  | none => none
  | some (.null _) => some {}
  | some (.map ms) => Settings.read ms {}
  | some _ => none

/-- `GetEmptyConnTTL` (`config.go:23-25`), in nanoseconds. -/
def Settings.emptyConnTTL (s : Settings) : Int := seconds s.connTTL

/-- `GetListenAddress` (`config.go:26-28`). -/
def Settings.listenAddress (s : Settings) : Bytes := s.host ++ go!":" ++ s.port

/-- The levels of logrus that occur here. -/
inductive Level
  | error
  | warn
  | info
  | debug
  deriving DecidableEq, Repr

/-- `GetLogLevel` (`config.go:30-50`). -/
def Settings.level (s : Settings) : Level :=
  if s.logLevel = go!"DEBUG" then .debug
  else if s.logLevel = go!"INFO" then .info
  else if s.logLevel = go!"WARN" then .warn
  else if s.logLevel = go!"ERROR" then .error
  else .info

/-! ## The storage of last resort -/

/-- Whether logrus prints entries of level Info. -/
def Level.printsInfo : Level → Bool
  | .error => false
  | .warn => false
  | .info => true
  | .debug => true

/-- `LogConnector.Save` (`default.go:14-22`): an entry of level Info in the log. Its errors, those of `json.MarshalIndent`,
do not occur (see `NavRecord.toBytes`); those of writing the log are not reported by logrus. -/
def logConnectorSave {W E : Type} (lib : Lib W E) (level : Level) : Saver W (ConnErr E) := fun m w =>
  if level.printsInfo then ((lib (.logPacket m.indented) w).1, none) else (w, none)

/-! ## main -/

/-- What becomes of the process before it serves connections. -/
inductive Start (W E : Type)
  /-- `log.Fatalf` -/
  | fatal
  /-- `Run` of a server with this address, this TTL and these storages -/
  | run (addr : Bytes) (ttl : Int) (stores : List (Saver W (ConnErr E))) (w : W)

/-- `main` up to `srv.Run()` (`main.go:11-43`). `path` is the value of the flag `-c`, `fs` the file system; `order` is the
order in which `range` happens to go through the map of storages (`store.go:63`). -/
def receiverMain {W E : Type} (lib : Lib W E) (order : List (Bytes × Params) → List (Bytes × Params)) (fs : Bytes → Option Yaml) (path : Bytes)
    (w : W) : Start W E :=
  if path = [] then .fatal
  else
    match configNew (fs path) with
    | none => .fatal
    | some cfg =>
      let (stores, w) := mainStorages (connectors lib) (logConnectorSave lib cfg.level) w (order cfg.store)
      .run cfg.listenAddress cfg.emptyConnTTL stores w

end Egts
