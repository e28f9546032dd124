import Verif.Spec.Storage
import Verif.Model.Connectors

/-! # Specification vocabulary for the connectors -/

namespace Egts

variable {W E : Type}

/-! ## What is sent -/

/-- What a call delivers to a storage, if it delivers anything. -/
def Call.payload : Call → Option Bytes
  | .sqlExec _ _ _ arg => some arg
  | .amqpPublish _ _ _ _ _ _ body => some body
  | .natsPublish _ _ _ body => some body
  | .redisPublish _ _ _ _ body => some body
  | .tarantoolPut _ _ _ body => some body
  | .logPacket packet => some packet
  | _ => none

/-- The place in the storage into which a call delivers: the statement of a database, exchange and key of RabbitMQ, the
topic of NATS, the channel of Redis, the queue of Tarantool. -/
def Call.place : Call → List Bytes
  | .sqlExec _ _ query _ => [query]
  | .amqpPublish _ exchange key _ _ _ _ => [exchange, key]
  | .natsPublish _ _ topic _ => [topic]
  | .redisPublish _ _ _ channel _ => [channel]
  | .tarantoolPut _ _ queue _ => [queue]
  | .logPacket _ => [go!"log"]
  | _ => []

/-- The place that the settings name. -/
def placeOf (name : Bytes) (c : List (Bytes × Bytes)) : List Bytes :=
  if name = go!"postgresql" then [go!"INSERT INTO " ++ setting c (go!"table") ++ go!" (point) VALUES ($1)"]
  else if name = go!"mysql" then [go!"INSERT INTO " ++ setting c (go!"table") ++ go!" (point) VALUES (?)"]
  else if name = go!"rabbitmq" then [setting c (go!"exchange"), setting c (go!"key")]
  else if name = go!"nats" then [setting c (go!"topic")]
  else if name = go!"redis" then [setting c (go!"queue")]
  else if name = go!"tarantool_queue" then [setting c (go!"queue")]
  else []

/-- The connection on which a call is made: the library and what the connection was opened with. -/
def Call.conn : Call → Bytes × List Bytes × List NatsOption × Option Int × Option TarantoolOpts
  | .sqlOpen driver dsn => (driver, [dsn], [], none, none)
  | .sqlPing driver dsn => (driver, [dsn], [], none, none)
  | .sqlExec driver dsn _ _ => (driver, [dsn], [], none, none)
  | .amqpDial url => (go!"amqp", [url], [], none, none)
  | .amqpChannel url => (go!"amqp", [url], [], none, none)
  | .amqpPublish url _ _ _ _ _ _ => (go!"amqp", [url], [], none, none)
  | .natsConnect servers options => (go!"nats", [servers], options, none, none)
  | .natsPublish servers options _ _ => (go!"nats", [servers], options, none, none)
  | .redisPublish addr password db _ _ => (go!"redis", [addr, password], [], some db, none)
  | .tarantoolConnect addr opts => (go!"tarantool", [addr], [], none, some opts)
  | .tarantoolPut addr opts _ _ => (go!"tarantool", [addr], [], none, some opts)
  | .logPacket _ => (go!"log", [], [], none, none)

/-- Where a record should go and what should arrive there, for each of the configured storages. -/
def dues (cfg : List (Bytes × Params)) (r : NavRecord) : List (List Bytes × Option Bytes) :=
  cfg.map fun x => (placeOf x.1 (x.2.getD []), some r.toBytes)

/-- Where a call goes and what arrives there. -/
def Call.due (c : Call) : List Bytes × Option Bytes := (c.place, c.payload)

/-- The attempts to save a record, with their results, in a list of outcomes. -/
def attempts {E : Type} (outs : List (Outcome E)) : List (NavRecord × Option E) :=
  outs.filterMap fun | .saved r e => some (r, e) | .other _ => none

/-! ## Starting -/

/-- The decimal numbers that fit into an `int`: an optional sign and at least one digit. -/
def IsInt (s : Bytes) (n : Int) : Prop :=
  ∃ (sign : Bytes) (ds : Bytes), s = sign ++ ds ∧ (sign = [] ∨ sign = go!"+" ∨ sign = go!"-") ∧ ds ≠ [] ∧ (∀ c ∈ ds, 48 ≤ c ∧ c ≤ 57) ∧
    n = (if sign = go!"-" then -1 else 1) * ((ds.foldl (fun n c => 10 * n + (c.toNat - 48)) 0 : Nat) : Int) ∧ -2 ^ 63 ≤ n ∧ n < 2 ^ 63

/-- The settings that a connector demands. -/
def Usable (name : Bytes) (c : List (Bytes × Bytes)) : Prop :=
  if name = go!"redis" then (lookup c (go!"server")).isSome ∧ (∃ n, IsInt (setting c (go!"db")) n) ∧ (lookup c (go!"queue")).isSome
  else if name = go!"tarantool_queue" then
    (∃ n, IsInt (setting c (go!"max_recons")) n) ∧ (∃ n, IsInt (setting c (go!"timeout")) n) ∧ ∃ n, IsInt (setting c (go!"reconnect")) n
  else True

/-- These calls, one after the other, all succeed. -/
def Succeed (lib : Lib W E) : List Call → W → Prop
  | [], _ => True
  | c :: cs, w => (lib c w).2 = none ∧ Succeed lib cs (lib c w).1

/-- The world after these calls. -/
def after (lib : Lib W E) (cs : List Call) (w : W) : W := cs.foldl (fun w c => (lib c w).1) w

/-- What makes up a connection: opening and trying it. -/
inductive Opens : Bytes → List Call → Prop
  | postgres (dsn) : Opens (go!"postgresql") [.sqlOpen (go!"postgres") dsn, .sqlPing (go!"postgres") dsn]
  | mysql (dsn) : Opens (go!"mysql") [.sqlOpen (go!"mysql") dsn, .sqlPing (go!"mysql") dsn]
  | rabbitmq (url) : Opens (go!"rabbitmq") [.amqpDial url, .amqpChannel url]
  | nats (servers options) : Opens (go!"nats") [.natsConnect servers options]
  | tarantool (addr opts) : Opens (go!"tarantool_queue") [.tarantoolConnect addr opts]
  /-- Redis is not tried at the start. -/
  | redis : Opens (go!"redis") []

/-! ## Recording -/

/-- The libraries with a record of all calls made. -/
def recorder (lib : Lib W E) : Lib (W × List Call) E := fun c x => (((lib c x.1).1, x.2 ++ [c]), (lib c x.1).2)

end Egts
