import Verif.Model.Record
import Verif.Model.Crc

/-! # Transport packets (`libs/egts/egts_pkg.go`) -/

namespace Egts

/-- The dynamic type and value of a non-nil `Package.ServicesFrameData`. -/
inductive FrameData
  | sds (s : List ServiceDataRecord)
  | resp (r : PtResponse)
  deriving DecidableEq, Repr

/-- Dynamic dispatch of `ServicesFrameData.Encode()`. -/
def FrameData.encode (env : Env) : FrameData → Except Fault Bytes
  | .sds s => ServiceDataSet.encode env s
  | .resp r => r.encode env

/-- `Package` (`egts_pkg.go:16-35`). -/
structure Package where
  protocolVersion : UInt8 := 0
  securityKeyID : UInt8 := 0
  prefix_ : Bytes := []
  route : Bytes := []
  encryptionAlg : Bytes := []
  compression : Bytes := []
  priority : Bytes := []
  headerLength : UInt8 := 0
  headerEncoding : UInt8 := 0
  frameDataLength : UInt16 := 0
  packetIdentifier : UInt16 := 0
  packetType : UInt8 := 0
  peerAddress : UInt16 := 0
  recipientAddress : UInt16 := 0
  timeToLive : UInt8 := 0
  headerCheckSum : UInt8 := 0
  servicesFrameData : Option FrameData := none
  servicesFrameDataCheckSum : UInt16 := 0
  deriving DecidableEq, Repr

/-- `SecretKey` (`egts_pkg.go:37-40`): arbitrary user functions. -/
structure SecretKey where
  decode : Bytes → Except Err Bytes
  encode : Bytes → Except Err Bytes

/-- Result codes used by `Package.Decode` (`errors.go:4,13,19,22,25,37`). -/
def egtsPcOk : UInt8 := 0
/-- `errors.go:13` -/
def egtsPcDecryptError : UInt8 := 129
/-- `errors.go:19` -/
def egtsPcIncHeaderform : UInt8 := 131
/-- `errors.go:22` -/
def egtsPcIncDataform : UInt8 := 132
/-- `errors.go:25` -/
def egtsPcUnsType : UInt8 := 133
/-- `errors.go:37` -/
def egtsPcHeaderCrcError : UInt8 := 137

/-- What `Package.Decode` does: it panics, or returns a code and an error and leaves the
receiver in some state. -/
inductive DecodeResult
  | panic
  | ret (p : Package) (code : UInt8) (err : Option Err)
  deriving DecidableEq, Repr

/-- `return code, err` -/
abbrev fail (p : Package) (code : UInt8) (e : Err) : DecodeResult := .ret p code (some e)

/-- Assignment of the flag fields from the flag byte (`egts_pkg.go:72-77`). -/
def Package.setFlags (p : Package) (flags : UInt8) : Package :=
  let f := fmt8 flags
  { p with prefix_ := substr f 0 2, route := substr f 2 3, encryptionAlg := substr f 3 5,
           compression := substr f 5 6, priority := substr f 6 8 }

/-- `egts_pkg.go:143-151`: decryption of the body. -/
def Package.decrypt (key : Option SecretKey) (p : Package) (frame : Bytes) : Except Err Bytes :=
  if p.encryptionAlg ≠ go!"00" then
    match key with
    | none => .error .noKey
    | some k => k.decode frame
  else .ok frame

/-- `egts_pkg.go:128-166`: everything after the header checksum. `content` is the whole slice, `r`
the unread part of it. If decoding the body fails, the package holds what had been decoded (the body is decoded in place). -/
def Package.decodeBody (env : Env) (key : Option SecretKey) (p : Package) (content : Slice)
    (r : Bytes) : DecodeResult :=
  match readerRead (zeros p.frameDataLength.toNat) r with
  | .error e => fail p egtsPcIncDataform e
  | .ok (frame, r) =>
  if p.packetType ≠ 1 ∧ p.packetType ≠ 0 then fail p egtsPcUnsType .packetType
  else
    let p := { p with servicesFrameData := some (if p.packetType = 1 then .sds [] else .resp {}) }
    match p.decrypt key frame with
    | .error e => fail p egtsPcDecryptError e
    | .ok frame =>
    -- line 153
    let body : Except Err FrameData :=
      if p.packetType = 1 then (ServiceDataSet.decode env [] frame).map .sds
      else (PtResponse.decode env {} frame).map .resp
    match body with
    | .error e =>
      fail { p with servicesFrameData := some (if p.packetType = 1 then .sds (ServiceDataSet.kept env [] frame)
        else .resp (PtResponse.kept env {} frame)) } egtsPcDecryptError e
    | .ok d =>
    let p := { p with servicesFrameData := some d }
    -- lines 157-161
    match readerRead (zeros 2) r with
    | .error e => fail p egtsPcDecryptError e
    | .ok (crcBytes, _) =>
    let p := { p with servicesFrameDataCheckSum := le16 crcBytes }
    -- line 163: the upper bound is a uint16 sum
    match content.sub? p.headerLength.toNat (p.headerLength.toUInt16 + p.frameDataLength).toNat with
    | none => .panic
    | some b =>
      if p.servicesFrameDataCheckSum ≠ crc16 b then fail p egtsPcHeaderCrcError .checksum
      else .ret p egtsPcOk none

/-- `egts_pkg.go:120-126`: the header checksum, then the body. The upper bound of the slice is a
byte difference (255 for a zero header length). -/
def Package.decodeTail (env : Env) (key : Option SecretKey) (p : Package) (content : Slice)
    (r : Bytes) : DecodeResult :=
  match readByte r with
  | .error e => fail { p with headerCheckSum := 0 } egtsPcIncHeaderform e
  | .ok (hcs, r) =>
    let p := { p with headerCheckSum := hcs }
    match content.sub? 0 (p.headerLength - 1).toNat with
    | none => .panic
    | some h =>
      if p.headerCheckSum ≠ crc8 h then fail p egtsPcHeaderCrcError .checksum
      else p.decodeBody env key content r

/-- `egts_pkg.go:104-118`: the routing fields, present if RTE is `"1"`; `tmp` is `tmpIntBuf`. -/
def Package.decodeRoute (env : Env) (key : Option SecretKey) (p : Package) (content : Slice)
    (tmp r : Bytes) : DecodeResult :=
  if p.route = one then
    match readerRead tmp r with
    | .error e => fail p egtsPcIncHeaderform e
    | .ok (tmp, r) =>
    let p := { p with peerAddress := le16 tmp }
    match readerRead tmp r with
    | .error e => fail p egtsPcIncHeaderform e
    | .ok (tmp, r) =>
    let p := { p with recipientAddress := le16 tmp }
    match readByte r with
    | .error e => fail { p with timeToLive := 0 } egtsPcIncHeaderform e
    | .ok (ttl, r) => ({ p with timeToLive := ttl } : Package).decodeTail env key content r
  else p.decodeTail env key content r

/-- `Package.Decode` (`egts_pkg.go:47-167`) into a receiver holding `p`. `ReadByte` assigns 0 on
EOF; `Read` leaves the field alone on EOF. -/
def Package.decode (env : Env) (key : Option SecretKey) (p : Package) (content : Slice) :
    DecodeResult :=
  match readByte content.data with
  | .error e => fail { p with protocolVersion := 0 } egtsPcIncHeaderform e
  | .ok (prv, r) =>
  let p := { p with protocolVersion := prv }
  match readByte r with
  | .error e => fail { p with securityKeyID := 0 } egtsPcIncHeaderform e
  | .ok (skid, r) =>
  let p := { p with securityKeyID := skid }
  match readByte r with
  | .error e => fail p egtsPcIncHeaderform e
  | .ok (flags, r) =>
  let p := p.setFlags flags
  match readByte r with
  | .error e => fail { p with headerLength := 0 } egtsPcIncHeaderform e
  | .ok (hl, r) =>
  let p := { p with headerLength := hl }
  match readByte r with
  | .error e => fail { p with headerEncoding := 0 } egtsPcIncHeaderform e
  | .ok (he, r) =>
  let p := { p with headerEncoding := he }
  match readerRead (zeros 2) r with
  | .error e => fail p egtsPcIncHeaderform e
  | .ok (tmp, r) =>
  let p := { p with frameDataLength := le16 tmp }
  match readerRead tmp r with
  | .error e => fail p egtsPcIncHeaderform e
  | .ok (tmp, r) =>
  let p := { p with packetIdentifier := le16 tmp }
  match readByte r with
  | .error e => fail { p with packetType := 0 } egtsPcIncHeaderform e
  | .ok (pt, r) => ({ p with packetType := pt } : Package).decodeRoute env key content tmp r

/-- `egts_pkg.go:203-208`. -/
def Package.fillHL (p : Package) : Package :=
  if p.headerLength = 0 then
    { p with headerLength := if p.route = one then 11 + 5 else 11 }
  else p

/-- `egts_pkg.go:218-234`: the (possibly encrypted) body. -/
def Package.bodyBytes (env : Env) (key : Option SecretKey) (p : Package) : Except Fault Bytes :=
  match p.servicesFrameData with
  | none => .ok []
  | some d => do
    let sfrd ← d.encode env
    if p.encryptionAlg ≠ go!"00" then
      match key with
      | none => .error (.err .noKey)
      | some k => liftErr (k.encode sfrd)
    else pure sfrd

/-- The header bytes before the checksum (`egts_pkg.go:186-260`). -/
def Package.headBytes (p : Package) (flags : UInt8) : Bytes :=
  [p.protocolVersion, p.securityKeyID, flags, p.headerLength, p.headerEncoding]
    ++ put16 p.frameDataLength ++ put16 p.packetIdentifier ++ [p.packetType]
    ++ optBytes p.route (put16 p.peerAddress ++ put16 p.recipientAddress ++ [p.timeToLive])

/-- `Package.Encode` (`egts_pkg.go:170-273`): the receiver afterwards and the result. -/
def Package.encode (env : Env) (key : Option SecretKey) (p : Package) :
    Package × Except Fault Bytes :=
  match parseFlags (p.prefix_ ++ p.route ++ p.encryptionAlg ++ p.compression ++ p.priority) with
  | .error e => (p, .error (.err e))
  | .ok flags =>
  let p := p.fillHL
  match p.bodyBytes env key with
  | .error f => (p, .error f)
  | .ok sfrd =>
  let p := { p with frameDataLength := UInt16.ofNat sfrd.length }
  let head := p.headBytes flags
  let out := head ++ [crc8 head]
  (p, .ok (if p.frameDataLength > 0 then out ++ sfrd ++ put16 (crc16 sfrd) else out))

end Egts
