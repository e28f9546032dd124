import Verif.Spec.Package
import Mathlib.Logic.Function.Iterate

/-!
# Packages passed on from relay to relay

A relay decodes the frame it receives and encodes the package it got. `Passed n p q`: the package `p` is encoded, and what the `n`-th
relay decodes is `q`.
-/

namespace Egts

/-- `q` is what the `n`-th receiver in a row decodes; the first is sent `p`, each of the others what the one before it encodes. -/
inductive Passed (env : Env) (key : Option SecretKey) : Nat → Package → Package → Prop
  | start (p : Package) : Passed env key 0 p p
  | next {n : Nat} {p q r : Package} {out : Bytes} (h : Passed env key n p q) (he : (q.encode env key).2 = .ok out)
      (hd : Package.decode env key {} ⟨out, []⟩ = .ret r 0 none) : Passed env key (n + 1) p r

/-- The number that is sent for the latitude that the number `v` denotes. -/
def latOnward (env : Env) (v : UInt32) : UInt32 := encLat env (decLat v)

/-- The number that is sent for the longitude that the number `v` denotes. -/
def lonOnward (env : Env) (v : UInt32) : UInt32 := encLon env (decLon v)

/-- `y` is the content `x` sent and passed on `n` times: the same (`SubData.Same`), except that of a position the coordinates are
those denoted by the numbers that the first sender sent, passed on `n` times. -/
def SubData.Moved (env : Env) (n : Nat) : SubData → SubData → Prop
  | .pos a, .pos b =>
    b = { a with latitude := decLat ((latOnward env)^[n] (encLat env a.latitude))
                 longitude := decLon ((lonOnward env)^[n] (encLon env a.longitude))
                 altitude := present a.alte a.altitude 0
                 sourceData := 0 }
  | x, y => x.Same env y

/-- `q` is the package `p` sent and passed on `n` times: the contents are as `SubData.Moved` says, absent fields are zero, the
lengths are filled in, everything else but the checksums is equal. -/
def Package.Moved (env : Env) (n : Nat) (p q : Package) : Prop :=
  ∃ d d' body, p.servicesFrameData = some d ∧ q.servicesFrameData = some d' ∧ d.Rel env (SubData.Moved env n) d' ∧
    p.Body env none body ∧
    q = { p with
          headerLength := UInt8.ofNat p.fullHL
          frameDataLength := UInt16.ofNat body.length
          peerAddress := present p.route p.peerAddress 0
          recipientAddress := present p.route p.recipientAddress 0
          timeToLive := present p.route p.timeToLive 0
          headerCheckSum := q.headerCheckSum
          servicesFrameData := q.servicesFrameData
          servicesFrameDataCheckSum := q.servicesFrameDataCheckSum }

/-- A package in the clear that the library can carry: no subrecord on which it is known to fail (C28, C29, C32), and
short enough for a frame. -/
def Package.Carried (env : Env) (p : Package) : Prop :=
  p.WF env none ∧ p.Sound ∧ p.encryptionAlg = go!"00" ∧ ∀ body, p.Body env none body → p.fullHL + body.length < 2 ^ 16

/-- The positions in a package, in order. -/
def Package.positions (p : Package) : List SrPosData :=
  p.records.flatMap fun r => r.recordDataSet.filterMap fun rd =>
    match rd.subrecordData with
    | some (.pos a) => some a
    | _ => none

end Egts
