import Verif.Model.Concurrent

/-! # Words for statements about packages that are encoded by several goroutines at once -/

namespace Egts

/-- The header length that `Encode` leaves in the package. -/
def Package.hlAfter (p : Package) : UInt8 := if p.headerLength = 0 then (if p.route = go!"1" then 16 else 11) else p.headerLength

/-- What the frame of a goroutine is if it has written `h` as the length of the header. -/
def frameWith (env : Env) (key : Option SecretKey) (p : Package) (h : UInt8) : Except Fault Bytes :=
  match parseFlags (p.prefix_ ++ p.route ++ p.encryptionAlg ++ p.compression ++ p.priority) with
  | .error e => .error (.err e)
  | .ok flags =>
    match p.bodyBytes env key with
    | .error f => .error f
    | .ok sfrd =>
      let q : Package := { p with headerLength := h, frameDataLength := UInt16.ofNat sfrd.length }
      let out := q.headBytes flags ++ [crc8 (q.headBytes flags)]
      .ok (if q.frameDataLength > 0 then out ++ sfrd ++ put16 (crc16 sfrd) else out)

/-- The bodies that the goroutines encode, as far as they succeed, are equally long (as `FrameDataLength` counts): in particular if all use the
same key. -/
def SameLength (env : Env) (keys : Nat → Option SecretKey) (p : Package) : Prop :=
  ∀ i j a b, p.bodyBytes env (keys i) = .ok a → p.bodyBytes env (keys j) = .ok b → UInt16.ofNat a.length = UInt16.ofNat b.length

end Egts
