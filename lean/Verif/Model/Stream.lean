import Verif.Model.Server

/-!
# The connection handler reading from a segmented stream

The same loop as in `Model/Server.lean`, but over the sequence of segments that the operating system
delivers instead of over their concatenation.
-/

namespace Egts

/-- `io.ReadFull` into a buffer of `n` bytes (`server.go:82,102`; `io.ReadAtLeast` of the Go standard
library): `Read` is called until `n` bytes are there or there is no more. One `Read` returns what is left
of the next segment, or as much of it as fits; it may be empty. Result: the bytes read (fewer than `n`
means that the end was reached) and the segments that remain. -/
def readFull : Nat → List Bytes → Bytes × List Bytes
  | 0, cs => ([], cs)
  | _ + 1, [] => ([], [])
  | n + 1, c :: cs =>
    if c.length ≤ n + 1 then
      let (b, r) := readFull (n + 1 - c.length) cs
      (c ++ b, r)
    else (c.take (n + 1), c.drop (n + 1) :: cs)

/-- One read of a packet from a segmented stream (`server.go:80-116`). -/
inductive ReadOutS
  | packet (bytes : Bytes) (rest : List Bytes)
  | stop (effs : List Effect)
  deriving DecidableEq, Repr

/-- `server.go:80-116`. `io.ReadFull` returns `io.EOF` only if nothing at all was read, and
`io.ErrUnexpectedEOF` if the stream ended in the middle. -/
def readPacketS (cs : List Bytes) (e : End) : ReadOutS :=
  let (h, cs) := readFull headerLen cs
  if h.length < headerLen then
    match e with
    | .blocked => .stop []
    | .error => .stop [.close]
    | .eof => if h = [] then .stop [.waitTimer, .close] else .stop [.close]
  else if h.headD 0 ≠ 1 then .stop [.close]
  else
    let n := bodyReadLen h
    let (buf, cs) := readFull n cs
    if buf.length < n then
      match e with
      | .blocked => .stop []
      | _ => .stop [.close]
    else .packet (h ++ buf) cs

/-- The loop of `handleConn` (`server.go:71-296`) over segments; `fuel` as in `connLoop`. -/
def connLoopS (env : Env) (ce : ConnEnv) (e : End) : Nat → Nat → UInt32 → List Bytes → List Effect
  | 0, _, _, _ => []
  | fuel + 1, i, client, cs =>
    match readPacketS cs e with
    | .stop effs => effs
    | .packet b rest =>
      let o := handlePacket env (ce.clock i) client ⟨b, ce.spare i⟩
      match o.client with
      | none => o.effs
      | some client => o.effs ++ connLoopS env ce e fuel (i + 1) client rest

/-- `handleConn` (`server.go:53-297`) over segments. -/
def handleConnS (env : Env) (ce : ConnEnv) (cs : List Bytes) (e : End) : List Effect :=
  connLoopS env ce e (cs.flatten.length + 1) 0 0 cs

end Egts
