import Verif.Model.Fine

/-! # The running receiver, with clients that are slow to read

In `Model/System.lean` and `Model/Fine.lean` a write is one step, which is always possible. Here `conn.Write` (`server.go:130,284,289`) hands the
bytes over to the operating system, which takes only as many as it has room for on their way to the client; `Write` returns when all of them
have been taken, or the connection has failed. The receiver sets no deadline for it. -/

namespace Egts

/-- The process, and for each connection: how many more bytes the operating system takes, what `conn.Write` still has to hand over if the
goroutine is inside it, the bytes handed over so far, and whether writing has failed for good. -/
structure Slow (W E : Type) where
  sys : Fine W E
  room : Nat → Nat
  sending : Nat → Option Bytes := fun _ => none
  got : Nat → Bytes := fun _ => []
  broken : Nat → Bool := fun _ => false

/-- What can happen next: a step of the process, the client of connection `k` reads so that there is room for `n` more bytes, or the connection
fails. -/
inductive SlowEvent
  | conn (ev : Event)
  | reads (k n : Nat)
  | reset (k : Nat)
  deriving DecidableEq, Repr

/-- Replace what goroutine `k` has to hand over. -/
def Slow.setSending {W E : Type} (s : Slow W E) (k : Nat) (x : Option Bytes) : Slow W E :=
  { s with sending := fun j => if j = k then x else s.sending j }

/-- The packet that goroutine `k` writes next, if its next effect is a write. -/
def Fine.nextWrite {W E : Type} (s : Fine W E) (k : Nat) : Option Bytes :=
  match s.saving k, s.conns k with
  | none, some c =>
    match c.pending with
    | .write b :: _ => some b
    | _ => none
  | _, _ => none

/-- The operating system takes what there is room for. -/
def Slow.hand {W E : Type} (s : Slow W E) (k : Nat) (b : Bytes) : Slow W E :=
  { s.setSending k (some (b.drop (s.room k))) with
    room := fun j => if j = k then s.room k - b.length else s.room j
    got := fun j => if j = k then s.got k ++ b.take (s.room k) else s.got j }

/-- One step. A write is begun, goes on while there is room, and ends when everything has been handed over or the connection has failed
(`conn.Write` then returns an error, which the receiver ignores). -/
def Slow.step {W E : Type} (env : Env) (ce : Nat → ConnEnv) (stores : List (Saver W E)) (s : Slow W E) : SlowEvent → Option (Slow W E)
  | .reads k n => some { s with room := fun j => if j = k then s.room k + n else s.room j }
  | .reset k => some { s with broken := fun j => if j = k then true else s.broken j }
  | .conn (.effect k) =>
    match s.sending k with
    | some b =>
      if b = [] ∨ s.broken k = true then
        (s.sys.step env ce stores (.effect k)).map fun t => { s with sys := t }.setSending k none
      else if s.room k = 0 ∨ s.sys.crashed = true then none
      else some (s.hand k b)
    | none =>
      match s.sys.nextWrite k with
      | some b => if s.sys.crashed = true then none else some (s.setSending k (some b))
      | none => (s.sys.step env ce stores (.effect k)).map fun t => { s with sys := t }
  | .conn ev => (s.sys.step env ce stores ev).map fun t => { s with sys := t }

/-- A history. -/
def Slow.exec {W E : Type} (env : Env) (ce : Nat → ConnEnv) (stores : List (Saver W E)) (s : Slow W E) : List SlowEvent → Option (Slow W E)
  | [] => some s
  | ev :: evs => (s.step env ce stores ev).bind fun s' => Slow.exec env ce stores s' evs

end Egts
