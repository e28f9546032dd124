import Verif.Model.Package

/-! # `Encode` of one package by several goroutines at once (`libs/egts/egts_pkg.go:170-273`)

`Encode` has a pointer receiver and writes to two fields of the package, `HeaderLength` and `FrameDataLength`; the other fields, and what
they point to, are only read (the loops of `RecordDataSet.Encode` and `ServiceDataSet.Encode` change copies of the elements,
`record_data.go:103`, `service_data_records.go:131`). Here every access of `Encode` to one of the two fields is a step of its own. A
simplification: the steps of all goroutines happen one after the other in some order. Go promises that only for programs without
data races, which such a program is not; what a real run can do is at least what happens here. -/

namespace Egts

/-- The two fields that `Encode` writes to. -/
structure EncMem where
  hl : UInt8
  fdl : UInt16
  deriving DecidableEq, Repr

/-- Where a goroutine is in `Encode`, with those of its local variables that matter later. -/
inductive EncAt
  | start
  /-- before `if p.HeaderLength == 0` (`:203`) -/
  | testHL (flags : UInt8)
  /-- before `p.HeaderLength = DEFAULT_HEADER_LEN` (`:204`) -/
  | setHL (flags : UInt8)
  /-- before the reading half of `p.HeaderLength += 5` (`:206`) -/
  | loadHL (flags : UInt8)
  /-- before the writing half of it -/
  | storeHL (flags v : UInt8)
  /-- before `buf.WriteByte(p.HeaderLength)` (`:210`) -/
  | writeHL (flags : UInt8)
  /-- before the body is encoded (`:218-234`) -/
  | body (flags hl : UInt8)
  /-- before `p.FrameDataLength = uint16(len(sfrd))` (`:235`) -/
  | setFDL (flags hl : UInt8) (sfrd : Bytes)
  /-- before `binary.Write(buf, binary.LittleEndian, p.FrameDataLength)` (`:236`) -/
  | writeFDL (flags hl : UInt8) (sfrd : Bytes)
  /-- before `if p.FrameDataLength > 0` (`:264`) -/
  | testFDL (flags hl : UInt8) (sfrd : Bytes) (fdl : UInt16)
  /-- `Encode` has returned -/
  | done (r : Except Fault Bytes)
  deriving DecidableEq, Repr

/-- The next step of a goroutine that encodes `p` with the key `key`. -/
def EncAt.step (env : Env) (key : Option SecretKey) (p : Package) (m : EncMem) : EncAt → EncMem × EncAt
  | .start =>
    match parseFlags (p.prefix_ ++ p.route ++ p.encryptionAlg ++ p.compression ++ p.priority) with
    | .error e => (m, .done (.error (.err e)))
    | .ok flags => (m, .testHL flags)
  | .testHL flags => if m.hl = 0 then (m, .setHL flags) else (m, .writeHL flags)
  | .setHL flags => ({ m with hl := 11 }, if p.route = one then .loadHL flags else .writeHL flags)
  | .loadHL flags => (m, .storeHL flags m.hl)
  | .storeHL flags v => ({ m with hl := v + 5 }, .writeHL flags)
  | .writeHL flags => (m, .body flags m.hl)
  | .body flags hl =>
    match p.bodyBytes env key with
    | .error f => (m, .done (.error f))
    | .ok sfrd => (m, .setFDL flags hl sfrd)
  | .setFDL flags hl sfrd => ({ m with fdl := UInt16.ofNat sfrd.length }, .writeFDL flags hl sfrd)
  | .writeFDL flags hl sfrd => (m, .testFDL flags hl sfrd m.fdl)
  | .testFDL flags hl sfrd fdl =>
    let head := { p with headerLength := hl, frameDataLength := fdl }.headBytes flags
    let out := head ++ [crc8 head]
    (m, .done (.ok (if m.fdl > 0 then out ++ sfrd ++ put16 (crc16 sfrd) else out)))
  | .done r => (m, .done r)

/-- The two fields, and where each goroutine is. -/
structure Encoders where
  mem : EncMem
  pos : Nat → EncAt

/-- All goroutines are about to call `Encode` of `p`. -/
def Encoders.init (p : Package) : Encoders := { mem := ⟨p.headerLength, p.frameDataLength⟩, pos := fun _ => .start }

/-- Goroutine `i` takes a step. -/
def Encoders.step (env : Env) (keys : Nat → Option SecretKey) (p : Package) (s : Encoders) (i : Nat) : Encoders :=
  let r := (s.pos i).step env (keys i) p s.mem
  { mem := r.1, pos := fun j => if j = i then r.2 else s.pos j }

/-- A history: the numbers of the goroutines in the order in which they take steps. -/
def Encoders.run (env : Env) (keys : Nat → Option SecretKey) (p : Package) (s : Encoders) (sched : List Nat) : Encoders :=
  sched.foldl (Encoders.step env keys p) s

/-- The package at that moment. -/
def Encoders.package (p : Package) (s : Encoders) : Package := { p with headerLength := s.mem.hl, frameDataLength := s.mem.fdl }

end Egts
