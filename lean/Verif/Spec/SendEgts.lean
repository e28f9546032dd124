import Verif.Model.SendEgts
import Verif.Spec.EndToEnd

/-! # Specification vocabulary for `tools/send_egts.py` -/

namespace Egts

/-- The digit shows this value (0 to 15). -/
def ShowsNibble (c : UInt8) (v : Nat) : Prop :=
  v < 10 ∧ c.toNat = 48 + v ∨ 10 ≤ v ∧ v < 16 ∧ (c.toNat = 87 + v ∨ c.toNat = 55 + v)

/-- The text shows these bytes, with two hexadecimal digits each. -/
inductive Shows : Bytes → Bytes → Prop
  | nil : Shows [] []
  | cons (c d : UInt8) (b : UInt8) (t bs : Bytes) (hc : ShowsNibble c (b.toNat / 16)) (hd : ShowsNibble d (b.toNat % 16)) (ht : Shows t bs) :
      Shows (c :: d :: t) (b :: bs)

/-- The ends of lines of the three kinds of systems. -/
def LineEnd (e : Bytes) : Prop := e = [10] ∨ e = [13, 10] ∨ e = [13]

/-- The file holds these packets, one per line, every line ended. -/
inductive Holds : Bytes → List Bytes → Prop
  | nil : Holds [] []
  | cons (t e p file : Bytes) (ps : List Bytes) (ht : Shows t p) (hp : p ≠ []) (he : LineEnd e) (hr : Holds file ps) : Holds (t ++ e ++ file) (p :: ps)

/-- What the receiver has written on the connection when it has dealt with the first `k` packets. -/
def written (env : Env) (ce : ConnEnv) (frames : List Bytes) (k : Nat) : Bytes :=
  (writes (handleConn env ce (frames.take k).flatten .blocked)).flatten

/-- The script has sent `k` packets and received `r` bytes altogether: each `recv(2048)` has returned at least one byte and at most 2048,
of those written up to then. -/
inductive Got (env : Env) (ce : ConnEnv) (frames : List Bytes) : Nat → Nat → Prop
  | start : Got env ce frames 0 0
  | recv (k r m : Nat) (h : Got env ce frames k r) (h1 : 1 ≤ m) (h2 : m ≤ 2048) (h3 : r + m ≤ (written env ce frames (k + 1)).length) :
      Got env ce frames (k + 1) (r + m)

end Egts
