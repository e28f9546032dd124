import Verif.Model.Storage
import Verif.Model.Json

/-! # The six connectors (`cli/receiver/storage/store/*/connector.go`)

A connector turns its settings and a record into calls of a client library. What the library and the database behind it do
with a call is not modelled: `Lib` answers each call as it likes. -/

namespace Egts

/-- Options of `nats.Connect` used here (`nats/connector.go:36-42`). The slice begins with three nil options
(`make([]natsLib.Option, 3)`), which the library skips. -/
inductive NatsOption
  | nil
  | name (s : Bytes)
  | userInfo (user password : Bytes)
  deriving DecidableEq, Repr

/-- `tarantool.Opts` as filled in at `tarantool_queue/connector.go:55-61`; durations in nanoseconds. -/
structure TarantoolOpts where
  timeout : Int
  reconnect : Int
  maxReconnects : Nat
  user : Bytes
  pass : Bytes
  deriving DecidableEq, Repr

/-- A call of a client library. A connection is named by what it was opened with. -/
inductive Call
  | sqlOpen (driver dsn : Bytes)
  | sqlPing (driver dsn : Bytes)
  | sqlExec (driver dsn query arg : Bytes)
  | amqpDial (url : Bytes)
  | amqpChannel (url : Bytes)
  | amqpPublish (url exchange key : Bytes) (mandatory immediate : Bool) (contentType body : Bytes)
  | natsConnect (servers : Bytes) (options : List NatsOption)
  | natsPublish (servers : Bytes) (options : List NatsOption) (topic body : Bytes)
  | redisPublish (addr password : Bytes) (db : Int) (channel body : Bytes)
  | tarantoolConnect (addr : Bytes) (opts : TarantoolOpts)
  | tarantoolPut (addr : Bytes) (opts : TarantoolOpts) (queue body : Bytes)
  /-- an entry of the log with a field `packet` -/
  | logPacket (packet : Bytes)
  deriving DecidableEq, Repr

/-- The libraries: a call changes the world and returns nil (`none`) or an error. -/
abbrev Lib (W E : Type) := Call → W → W × Option E

/-- Errors of the connectors; those of a library are wrapped with `%v`. -/
inductive ConnErr (E : Type)
  | nilConfig
  | noServer
  | badDb
  | noQueue
  | badMaxRecons
  | badTimeout
  | badReconnect
  | lib (e : E)
  deriving DecidableEq, Repr

/-- `v, ok := config[key]` of a map. -/
def lookup (m : List (Bytes × Bytes)) (key : Bytes) : Option Bytes := (m.find? (fun x => x.1 = key)).map (·.2)

/-- `config[key]`: the empty string if the key is missing. -/
def setting (m : List (Bytes × Bytes)) (key : Bytes) : Bytes := (lookup m key).getD []

/-- `strconv.Atoi` after the sign. -/
def atoiDigits (neg : Bool) (ds : Bytes) : Option Int :=
  if ds = [] ∨ ds.any (fun c => c < 48 || 57 < c) then none
  else
    let n : Nat := ds.foldl (fun n c => 10 * n + (c.toNat - 48)) 0
    if neg then (if n ≤ 9223372036854775808 then some (-(n : Int)) else none)
    else if n < 9223372036854775808 then some n else none

/-- `strconv.Atoi` on a 64-bit machine; `none` is an error. -/
def atoi (s : Bytes) : Option Int :=
  match s with
  | 45 :: r => atoiDigits true r
  | 43 :: r => atoiDigits false r
  | s => atoiDigits false s

/-- An error of a library, wrapped. -/
def wrap {W E : Type} (r : W × Option E) : W × Option (ConnErr E) := (r.1, r.2.map .lib)

/-! ## PostgreSQL -/

/-- `connStr` (`postgresql/connector.go:38-39`). -/
def pgDsn (c : List (Bytes × Bytes)) : Bytes :=
  go!"dbname=" ++ setting c (go!"database") ++ go!" host=" ++ setting c (go!"host") ++ go!" port=" ++ setting c (go!"port") ++
  go!" user=" ++ setting c (go!"user") ++ go!" password=" ++ setting c (go!"password") ++ go!" sslmode=" ++ setting c (go!"sslmode")

/-- `postgresql.Connector.Init` (`postgresql/connector.go:30-48`). -/
def pgInit {W E : Type} (lib : Lib W E) : Params → W → W × Option (ConnErr E)
  | none, w => (w, some .nilConfig)
  | some c, w =>
    match lib (.sqlOpen (go!"postgres") (pgDsn c)) w with
    | (w, some e) => (w, some (.lib e))
    | (w, none) => wrap (lib (.sqlPing (go!"postgres") (pgDsn c)) w)

/-- `postgresql.Connector.Save` (`postgresql/connector.go:50-65`). -/
def pgSave {W E : Type} (lib : Lib W E) (c : List (Bytes × Bytes)) : Saver W (ConnErr E) := fun m w =>
  wrap (lib (.sqlExec (go!"postgres") (pgDsn c) (go!"INSERT INTO " ++ setting c (go!"table") ++ go!" (point) VALUES ($1)") m.toBytes) w)

/-! ## MySQL -/

/-- `mysql.Connector.Init` (`mysql/connector.go:26-43`). -/
def myInit {W E : Type} (lib : Lib W E) : Params → W → W × Option (ConnErr E)
  | none, w => (w, some .nilConfig)
  | some c, w =>
    match lib (.sqlOpen (go!"mysql") (setting c (go!"uri"))) w with
    | (w, some e) => (w, some (.lib e))
    | (w, none) => wrap (lib (.sqlPing (go!"mysql") (setting c (go!"uri"))) w)

/-- `mysql.Connector.Save` (`mysql/connector.go:45-60`). -/
def mySave {W E : Type} (lib : Lib W E) (c : List (Bytes × Bytes)) : Saver W (ConnErr E) := fun m w =>
  wrap (lib (.sqlExec (go!"mysql") (setting c (go!"uri")) (go!"INSERT INTO " ++ setting c (go!"table") ++ go!" (point) VALUES (?)") m.toBytes) w)

/-! ## RabbitMQ -/

/-- `conStr` (`rabbitmq/connector.go:36`). -/
def amqpUrl (c : List (Bytes × Bytes)) : Bytes :=
  go!"amqp://" ++ setting c (go!"user") ++ go!":" ++ setting c (go!"password") ++ go!"@" ++ setting c (go!"host") ++ go!":" ++
  setting c (go!"port") ++ go!"/"

/-- `rabbitmq.Connector.Init` (`rabbitmq/connector.go:27-46`). -/
def amqpInit {W E : Type} (lib : Lib W E) : Params → W → W × Option (ConnErr E)
  | none, w => (w, some .nilConfig)
  | some c, w =>
    match lib (.amqpDial (amqpUrl c)) w with
    | (w, some e) => (w, some (.lib e))
    | (w, none) => wrap (lib (.amqpChannel (amqpUrl c)) w)

/-- `rabbitmq.Connector.Save` (`rabbitmq/connector.go:48-71`). -/
def amqpSave {W E : Type} (lib : Lib W E) (c : List (Bytes × Bytes)) : Saver W (ConnErr E) := fun m w =>
  wrap (lib (.amqpPublish (amqpUrl c) (setting c (go!"exchange")) (setting c (go!"key")) false false (go!"text/plain") m.toBytes) w)

/-! ## NATS -/

/-- `options` (`nats/connector.go:34-42`). -/
def natsOptions (c : List (Bytes × Bytes)) : List NatsOption :=
  let options := [.nil, .nil, .nil]
  let options := options ++ [.name (go!"EGTS handler, topic: " ++ setting c (go!"topic"))]
  match lookup c (go!"user") with
  | some user =>
    match lookup c (go!"password") with
    | some password => options ++ [.userInfo user password]
    | none => options
  | none => options

/-- `nats.Connector.Init` (`nats/connector.go:25-48`). -/
def natsInit {W E : Type} (lib : Lib W E) : Params → W → W × Option (ConnErr E)
  | none, w => (w, some .nilConfig)
  | some c, w => wrap (lib (.natsConnect (setting c (go!"servers")) (natsOptions c)) w)

/-- `nats.Connector.Save` (`nats/connector.go:50-64`). -/
def natsSave {W E : Type} (lib : Lib W E) (c : List (Bytes × Bytes)) : Saver W (ConnErr E) := fun m w =>
  wrap (lib (.natsPublish (setting c (go!"servers")) (natsOptions c) (setting c (go!"topic")) m.toBytes) w)

/-! ## Redis -/

/-- `configDb` (`redis/connector.go:43-46`): the `ok` tested at line 44 is still that of the lookup of `server` at line 38,
where a missing server has already led to a return. -/
def redisDb (c : List (Bytes × Bytes)) (ok : Bool) : Bytes :=
  let configDb := setting c (go!"db")
  if !ok then go!"0" else configDb

/-- `redis.Connector.Init` (`redis/connector.go:28-65`). `redis.NewClient` does not connect. -/
def redisInit {W E : Type} : Params → W → W × Option (ConnErr E)
  | none, w => (w, some .nilConfig)
  | some c, w =>
    match lookup c (go!"server") with
    | none => (w, some .noServer)
    | some _ =>
      match atoi (redisDb c true) with
      | none => (w, some .badDb)
      | some _ =>
        match lookup c (go!"queue") with
        | none => (w, some .noQueue)
        | some _ => (w, none)

/-- `redis.Connector.Save` (`redis/connector.go:67-82`), on the connection made by `Init`. -/
def redisSave {W E : Type} (lib : Lib W E) (c : List (Bytes × Bytes)) : Saver W (ConnErr E) := fun m w =>
  wrap (lib (.redisPublish (setting c (go!"server")) (setting c (go!"password")) ((atoi (redisDb c true)).getD 0) (setting c (go!"queue")) m.toBytes) w)

/-! ## Tarantool -/

/-- `conStr` (`tarantool_queue/connector.go:41`). -/
def tarantoolAddr (c : List (Bytes × Bytes)) : Bytes := setting c (go!"host") ++ go!":" ++ setting c (go!"port")

/-- `opts` (`tarantool_queue/connector.go:55-61`). -/
def tarantoolOpts (c : List (Bytes × Bytes)) (maxRecons timeout reconnect : Int) : TarantoolOpts :=
  { timeout := seconds timeout
    reconnect := seconds reconnect
    maxReconnects := (maxRecons % 18446744073709551616).toNat
    user := setting c (go!"user")
    pass := setting c (go!"password") }

/-- `tarantool_queue.Connector.Init` (`tarantool_queue/connector.go:34-70`). -/
def tarantoolInit {W E : Type} (lib : Lib W E) : Params → W → W × Option (ConnErr E)
  | none, w => (w, some .nilConfig)
  | some c, w =>
    match atoi (setting c (go!"max_recons")) with
    | none => (w, some .badMaxRecons)
    | some maxRecons =>
      match atoi (setting c (go!"timeout")) with
      | none => (w, some .badTimeout)
      | some timeout =>
        match atoi (setting c (go!"reconnect")) with
        | none => (w, some .badReconnect)
        | some reconnect => wrap (lib (.tarantoolConnect (tarantoolAddr c) (tarantoolOpts c maxRecons timeout reconnect)) w)

/-- `tarantool_queue.Connector.Save` (`tarantool_queue/connector.go:72-87`), on the connection made by `Init`. -/
def tarantoolSave {W E : Type} (lib : Lib W E) (c : List (Bytes × Bytes)) : Saver W (ConnErr E) := fun m w =>
  wrap (lib (.tarantoolPut (tarantoolAddr c)
    (tarantoolOpts c ((atoi (setting c (go!"max_recons"))).getD 0) ((atoi (setting c (go!"timeout"))).getD 0)
      ((atoi (setting c (go!"reconnect"))).getD 0)) (setting c (go!"queue")) m.toBytes) w)

/-! ## All of them -/

/-- The switch of `LoadStorages` (`store.go:64-77`): the connector of that name. The last branch is not reached
(`loadLoop` looks at the names first); the settings of a `Saver` are never nil, since its `Init` has succeeded. -/
def connectors {W E : Type} (lib : Lib W E) : Connectors W (ConnErr E) where
  init name params w :=
    if name = go!"rabbitmq" then amqpInit lib params w
    else if name = go!"postgresql" then pgInit lib params w
    else if name = go!"nats" then natsInit lib params w
    else if name = go!"tarantool_queue" then tarantoolInit lib params w
    else if name = go!"redis" then redisInit params w
    else if name = go!"mysql" then myInit lib params w
    else (w, some .nilConfig)
  saver name params :=
    let c := params.getD []
    if name = go!"rabbitmq" then amqpSave lib c
    else if name = go!"postgresql" then pgSave lib c
    else if name = go!"nats" then natsSave lib c
    else if name = go!"tarantool_queue" then tarantoolSave lib c
    else if name = go!"redis" then redisSave lib c
    else mySave lib c

end Egts
