import Verif.Model.Server

/-! # The connection handler in time (`server.go:71-116`, `:78`, `:86`, `:110`)

The loop of `Model/Server.lean` with a clock. Each byte comes with the moment at which it arrives. Reading takes no time but
waiting for the bytes does; processing packet `i` takes `work i`. All effects of a packet are given the moment at which the
packet was complete (a simplification: they happen between that moment and `work i` later). -/

namespace Egts

/-- Bytes with the moments of their arrival. -/
abbrev Timeline := List (Nat × UInt8)

/-- When somebody who starts reading at `t` has read all these bytes. -/
def arrivedBy (t : Nat) (xs : Timeline) : Nat := xs.foldl (fun t x => max t x.1) t

/-- Outcome of reading a packet. -/
inductive ReadOutT
  | packet (bytes : Bytes) (rest : Timeline) (t : Nat)
  | stop (effs : List (Nat × Effect))
  deriving DecidableEq, Repr

/-- `server.go:78-116`, started at `t`. The stream ends with `e`, at `te`. `time.NewTimer(s.ttl)` (`:78`) is started with the
iteration; nothing looks at it while a read blocks; after the header it is reset (`:86`) but `<-connTimer.C` (`:110`), the
only place where it is waited for, is reached only if the header could not be read. -/
def readPacketT (ttl t : Nat) (input : Timeline) (e : End) (te : Nat) : ReadOutT :=
  let timer := t + ttl
  if input.length < headerLen then
    let t := max (arrivedBy t input) te
    match e with
    | .blocked => .stop []
    | .error => .stop [(t, .close)]
    | .eof => if input = [] then .stop [(t, .waitTimer), (max t timer, .close)] else .stop [(t, .close)]
  else
    let h := input.take headerLen
    let rest := input.drop headerLen
    let t := arrivedBy t h
    if (h.map (·.2)).headD 0 ≠ 1 then .stop [(t, .close)]
    else
      let n := bodyReadLen (h.map (·.2))
      if rest.length < n then
        match e with
        | .blocked => .stop []
        | _ => .stop [(max (arrivedBy t rest) te, .close)]
      else .packet ((h ++ rest.take n).map (·.2)) (rest.drop n) (arrivedBy t (rest.take n))

/-- The loop of `handleConn` (`server.go:71-296`) in time. -/
def connLoopT (env : Env) (ce : ConnEnv) (work : Nat → Nat) (ttl : Nat) (e : End) (te : Nat) :
    Nat → Nat → UInt32 → Nat → Timeline → List (Nat × Effect)
  | 0, _, _, _, _ => []
  | fuel + 1, i, client, t, input =>
    match readPacketT ttl t input e te with
    | .stop effs => effs
    | .packet b rest t =>
      let o := handlePacket env (ce.clock i) client ⟨b, ce.spare i⟩
      match o.client with
      | none => o.effs.map (t, ·)
      | some client => o.effs.map (t, ·) ++ connLoopT env ce work ttl e te fuel (i + 1) client (t + work i) rest

/-- `handleConn` (`server.go:53-297`) in time, for a connection accepted at `t`. -/
def handleConnT (env : Env) (ce : ConnEnv) (work : Nat → Nat) (ttl t : Nat) (input : Timeline) (e : End) (te : Nat) : List (Nat × Effect) :=
  connLoopT env ce work ttl e te (input.length + 1) 0 0 t input

end Egts
