import Verif.Model.Connectors

/-! # `Close` of the connectors (`cli/receiver/storage/store/*/connector.go`, `storage/default.go`)

`Init` leaves pointers in the connector, `Close` uses them. Which of them are nil after a failed call is up to the library:
`ptr call w` says whether `call`, made in the world `w`, returns a pointer that is not nil. A method of a nil pointer panics in
database/sql, go-redis and go-tarantool, whose `Close` look into the structure first; that of nats.go v1.28.0 does nothing. -/

namespace Egts

/-- What a connector may have to close. -/
inductive Res
  | connection
  /-- `channel` of `rabbitmq.Connector` -/
  | channel
  deriving DecidableEq, Repr

/-- The pointers in a connector that are not nil. Before `Init` all are. -/
structure Held where
  connection : Bool := false
  channel : Bool := false
  deriving DecidableEq, Repr

/-- The pointers after `postgresql.Connector.Init` (`postgresql/connector.go:30-48`). -/
def pgHeld {W : Type} (ptr : Call → W → Bool) : Params → W → Held
  | none, _ => {}
  | some c, w => { connection := ptr (.sqlOpen (go!"postgres") (pgDsn c)) w }

/-- The pointers after `mysql.Connector.Init` (`mysql/connector.go:26-43`). -/
def myHeld {W : Type} (ptr : Call → W → Bool) : Params → W → Held
  | none, _ => {}
  | some c, w => { connection := ptr (.sqlOpen (go!"mysql") (setting c (go!"uri"))) w }

/-- The pointers after `rabbitmq.Connector.Init` (`rabbitmq/connector.go:27-46`). -/
def amqpHeld {W E : Type} (lib : Lib W E) (ptr : Call → W → Bool) : Params → W → Held
  | none, _ => {}
  | some c, w =>
    match lib (.amqpDial (amqpUrl c)) w with
    | (_, some _) => { connection := ptr (.amqpDial (amqpUrl c)) w }
    | (w', none) => { connection := ptr (.amqpDial (amqpUrl c)) w, channel := ptr (.amqpChannel (amqpUrl c)) w' }

/-- The pointers after `nats.Connector.Init` (`nats/connector.go:25-48`). -/
def natsHeld {W : Type} (ptr : Call → W → Bool) : Params → W → Held
  | none, _ => {}
  | some c, w => { connection := ptr (.natsConnect (setting c (go!"servers")) (natsOptions c)) w }

/-- The pointers after `redis.Connector.Init` (`redis/connector.go:28-65`): `redis.NewClient`, which always returns a client, is
called before the queue is looked up. -/
def redisHeld : Params → Held
  | none => {}
  | some c =>
    match lookup c (go!"server") with
    | none => {}
    | some _ =>
      match atoi (redisDb c true) with
      | none => {}
      | some _ => { connection := true }

/-- The pointers after `tarantool_queue.Connector.Init` (`tarantool_queue/connector.go:34-70`). -/
def tarantoolHeld {W : Type} (ptr : Call → W → Bool) : Params → W → Held
  | none, _ => {}
  | some c, w =>
    match atoi (setting c (go!"max_recons")) with
    | none => {}
    | some maxRecons =>
      match atoi (setting c (go!"timeout")) with
      | none => {}
      | some timeout =>
        match atoi (setting c (go!"reconnect")) with
        | none => {}
        | some reconnect => { connection := ptr (.tarantoolConnect (tarantoolAddr c) (tarantoolOpts c maxRecons timeout reconnect)) w }

/-- The pointers in the connector of that name after its `Init`. -/
def heldAfter {W E : Type} (lib : Lib W E) (ptr : Call → W → Bool) (name : Bytes) (params : Params) (w : W) : Held :=
  if name = go!"rabbitmq" then amqpHeld lib ptr params w
  else if name = go!"postgresql" then pgHeld ptr params w
  else if name = go!"nats" then natsHeld ptr params w
  else if name = go!"tarantool_queue" then tarantoolHeld ptr params w
  else if name = go!"redis" then redisHeld params
  else if name = go!"mysql" then myHeld ptr params w
  else {}

/-- What `Close` does: the closing calls of the library that it makes, in order, and its result, `none` for nil. -/
structure Closing (E : Type) where
  calls : List Res
  result : Option E
  panics : Bool := false
  deriving DecidableEq, Repr

/-- `Close` of the connectors for PostgreSQL (`postgresql/connector.go:66-68`), MySQL (`mysql/connector.go:61-63`), Redis
(`redis/connector.go:82-84`, `conn` instead of `connection`) and Tarantool (`tarantool_queue/connector.go:86-88`): `return c.connection.Close()`. `close r` is the result
of the library. -/
def plainClose {E : Type} (close : Res → Option E) (h : Held) : Closing E :=
  if h.connection then { calls := [.connection], result := close .connection } else { calls := [], result := none, panics := true }

/-- `nats.Connector.Close` (`nats/connector.go:64-67`). -/
def natsClose {E : Type} (h : Held) : Closing E :=
  { calls := if h.connection then [.connection] else [], result := none }

/-- `rabbitmq.Connector.Close` (`rabbitmq/connector.go:72-87`). -/
def amqpClose {E : Type} (close : Res → Option E) (h : Held) : Closing E :=
  let connection (calls : List Res) : Closing E :=
    if h.connection then { calls := calls ++ [.connection], result := close .connection } else { calls, result := none }
  if h.channel then
    match close .channel with
    | some e => { calls := [.channel], result := some e }
    | none => connection [.channel]
  else connection []

/-- `Close` of the connector of that name. -/
def closeOf {E : Type} (close : Res → Option E) (name : Bytes) (h : Held) : Closing E :=
  if name = go!"rabbitmq" then amqpClose close h
  else if name = go!"nats" then natsClose h
  else plainClose close h

end Egts
