import Verif.Spec.PosWire
import Verif.Model.Package

/-!
# The transport frame as laid out on the wire

    0 PRV  1 SKID  2 PRF(2) RTE ENA(2) CMP PR(2)  3 HL  4 HE  5 FDL(2)  7 PID(2)  9 PT
    10 PRA(2) RCA(2) TTL (if RTE)   then HCS   then FDL bytes of body   then SFRCS(2)

Everything here is in terms of byte positions; nothing refers to readers, buffers or receivers.
-/

namespace Egts

namespace Frame

/-- RTE: routing fields are present. -/
abbrev Routed (b : Bytes) : Prop := byteAt b 2 / 32 % 2 = 1
/-- ENA is not 00: the body is encrypted. -/
abbrev Encrypted (b : Bytes) : Prop := byteAt b 2 / 8 % 4 ≠ 0
/-- position of the header checksum -/
def hcsPos (b : Bytes) : Nat := if Routed b then 15 else 10
/-- HL, as declared -/
def hl (b : Bytes) : Nat := byteAt b 3
/-- FDL, as declared -/
def fdl (b : Bytes) : Nat := byteAt b 5 + 256 * byteAt b 6
/-- PID -/
def pid (b : Bytes) : Nat := byteAt b 7 + 256 * byteAt b 8
/-- PT -/
def pt (b : Bytes) : Nat := byteAt b 9
/-- the bytes after the header checksum -/
def rest (b : Bytes) : Bytes := b.drop (hcsPos b + 1)
/-- the body: the next FDL bytes; if fewer are there the library goes on with zeros -/
def body (b : Bytes) : Bytes := (rest b).take (fdl b) ++ zeros (fdl b - (rest b).length)
/-- the bytes after the body -/
def after (b : Bytes) : Bytes := (rest b).drop (fdl b)
/-- the body checksum; a missing second byte counts as zero -/
def sfrcs (b : Bytes) : Nat := byteAt (after b) 0 + 256 * byteAt (after b) 1
/-- how many bytes the header checksum is taken over: HL-1, computed in a byte -/
def headEnd (b : Bytes) : Nat := if hl b = 0 then 255 else hl b - 1
/-- where the checksummed body ends: HL+FDL, computed in 16 bits -/
def bodyEnd (b : Bytes) : Nat := (hl b + fdl b) % 65536

/-- HL says how long the header is, and HL+FDL fits 16 bits. All frames made by `Encode` from a package
with the header length unset or right are like this, except for the very long. -/
def Honest (b : Bytes) : Prop := hl b = hcsPos b + 1 ∧ hl b + fdl b < 65536
/-- length of a frame with a body: header, header checksum, body, body checksum -/
def total (b : Bytes) : Nat := hcsPos b + 1 + fdl b + 2

instance (b : Bytes) : Decidable (Honest b) := by unfold Honest; infer_instance

end Frame

/-- The bytes of a slice up to its capacity. -/
def Slice.all (c : Slice) : Bytes := c.data ++ c.spare

/-- The clear body: decrypted with the key if the frame says it is encrypted. -/
def Frame.clear (key : Option SecretKey) (b : Bytes) : Except Err Bytes :=
  if Frame.Encrypted b then
    match key with
    | none => .error .noKey
    | some k => k.decode (Frame.body b)
  else .ok (Frame.body b)

/-- The decoded body: a set of service records for PT = 1, a response for PT = 0. -/
def Frame.content (env : Env) (key : Option SecretKey) (b : Bytes) : Except Err FrameData := do
  let x ← Frame.clear key b
  if Frame.pt b = 1 then do let s ← ServiceDataSet.decode env [] x; pure (.sds s)
  else do let r ← PtResponse.decode env {} x; pure (.resp r)

/-- How decoding ends. -/
inductive Frame.Outcome
  | panic
  | code (c : UInt8)
  deriving DecidableEq, Repr

/-- How `Package.Decode` ended. -/
def DecodeResult.outcome : DecodeResult → Frame.Outcome
  | .panic => .panic
  | .ret _ c _ => .code c

/-- The stages of decoding, in order, and what each one reports. -/
def Frame.outcome (env : Env) (key : Option SecretKey) (c : Slice) : Frame.Outcome :=
  let b := c.data
  -- the header is cut short
  if b.length ≤ Frame.hcsPos b then .code 131
  -- the header checksum is taken over memory that is not there
  else if c.all.length < Frame.headEnd b then .panic
  -- the header checksum is wrong
  else if byteAt b (Frame.hcsPos b) ≠ (crc8 (c.all.take (Frame.headEnd b))).toNat then .code 137
  -- nothing follows the header
  else if Frame.rest b = [] then .code 132
  -- unknown packet type
  else if Frame.pt b ≠ 0 ∧ Frame.pt b ≠ 1 then .code 133
  -- the body cannot be decrypted or decoded
  else if (Frame.content env key b).isOk = false then .code 129
  -- nothing follows the body
  else if Frame.after b = [] then .code 129
  -- the body checksum is taken over memory that is not there
  else if Frame.bodyEnd b < Frame.hl b ∨ c.all.length < Frame.bodyEnd b then .panic
  -- the body checksum is wrong
  else if Frame.sfrcs b ≠ (crc16 ((c.all.take (Frame.bodyEnd b)).drop (Frame.hl b))).toNat then .code 137
  else .code 0

/-- The package described by a frame. The routing fields of an unrouted frame are whatever the
receiver `p` held. -/
def Frame.package (p : Package) (b : Bytes) (d : FrameData) : Package :=
  let f := fun i => bitStr (byteAt b 2 / 2 ^ i % 2)
  { protocolVersion := UInt8.ofNat (byteAt b 0)
    securityKeyID := UInt8.ofNat (byteAt b 1)
    prefix_ := f 7 ++ f 6
    route := f 5
    encryptionAlg := f 4 ++ f 3
    compression := f 2
    priority := f 1 ++ f 0
    headerLength := UInt8.ofNat (Frame.hl b)
    headerEncoding := UInt8.ofNat (byteAt b 4)
    frameDataLength := UInt16.ofNat (Frame.fdl b)
    packetIdentifier := UInt16.ofNat (Frame.pid b)
    packetType := UInt8.ofNat (Frame.pt b)
    peerAddress := if Frame.Routed b then UInt16.ofNat (byteAt b 10 + 256 * byteAt b 11) else p.peerAddress
    recipientAddress := if Frame.Routed b then UInt16.ofNat (byteAt b 12 + 256 * byteAt b 13) else p.recipientAddress
    timeToLive := if Frame.Routed b then UInt8.ofNat (byteAt b 14) else p.timeToLive
    headerCheckSum := UInt8.ofNat (byteAt b (Frame.hcsPos b))
    servicesFrameData := some d
    servicesFrameDataCheckSum := UInt16.ofNat (Frame.sfrcs b) }

end Egts
