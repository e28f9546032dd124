import Verif.Model.Go

/-!
# Protobuf messages (`libs/egts/egts_sr_egtsplus_data.go`)

The messages of the generated file are described by the tags of their fields; `proto.Marshal` and `proto.Unmarshal`
(`github.com/golang/protobuf` v1.5.2 over `google.golang.org/protobuf` v1.26.0) work from this description. The functions below
model these libraries: the wire format (package protowire) and the coders of the kinds of fields that occur.
-/

namespace Egts

namespace Proto

/-! ## protowire -/

/-- `protowire.ConsumeVarint` with at most `n` bytes: the value and the bytes after it. -/
def readVarintN : Nat → Bytes → Option (Nat × Bytes)
  | 0, _ => none
  | _ + 1, [] => none
  | n + 1, c :: b =>
    if c < 0x80 then
      if n = 0 ∧ 2 ≤ c then none else some (c.toNat, b)
    else
      match readVarintN n b with
      | some (v, r) => some (c.toNat - 128 + 128 * v, r)
      | none => none

/-- `protowire.ConsumeVarint`: ten bytes at most, the tenth of which is 0 or 1. -/
def readVarint (b : Bytes) : Option (Nat × Bytes) := readVarintN 10 b

/-- `protowire.AppendVarint`, for numbers of at most `7 * n` bits. -/
def putVarintN : Nat → Nat → Bytes
  | 0, _ => []
  | n + 1, v => if v < 128 then [UInt8.ofNat v] else UInt8.ofNat (v % 128 + 128) :: putVarintN n (v / 128)

/-- `protowire.AppendVarint` of a `uint64`. -/
def putVarint (v : Nat) : Bytes := putVarintN 10 v

/-- `protowire.ConsumeBytes`. -/
def readBytes (b : Bytes) : Option (Bytes × Bytes) :=
  match readVarint b with
  | some (n, r) => if n ≤ r.length then some (r.take n, r.drop n) else none
  | none => none

/-- `protowire.ConsumeFixed32`. -/
def read32 (b : Bytes) : Option (UInt32 × Bytes) := if 4 ≤ b.length then some (le32 b, b.drop 4) else none

/-- `protowire.AppendTag`; `wt` is the wire type. -/
def putTag (num wt : Nat) : Bytes := putVarint (8 * num + wt)

/-- `protowire.ConsumeFieldValue` of wire types other than groups: the bytes after the value. -/
def skipPlain (wt : Nat) (b : Bytes) : Option Bytes :=
  match wt with
  | 0 => (readVarint b).map (·.2)
  | 1 => if 8 ≤ b.length then some (b.drop 8) else none
  | 2 => (readBytes b).map (·.2)
  | 5 => if 4 ≤ b.length then some (b.drop 4) else none
  | _ => none

/-- `protowire.ConsumeFieldValue` of a group, with the numbers of the groups that are open, the innermost first. The first
argument bounds the number of fields. Simplification: the recursion of the code is a stack here. -/
def skipGroup : Nat → List Nat → Bytes → Option Bytes
  | _, [], b => some b
  | 0, _ :: _, _ => none
  | k + 1, num :: st, b =>
    match readVarint b with
    | none => none
    | some (tag, b) =>
      if tag / 8 = 0 ∨ 2 ^ 31 ≤ tag / 8 then none
      else if tag % 8 = 4 then
        if tag / 8 = num then skipGroup k st b else none
      else if tag % 8 = 3 then skipGroup k (tag / 8 :: num :: st) b
      else
        match skipPlain (tag % 8) b with
        | some b => skipGroup k (num :: st) b
        | none => none

/-- `protowire.ConsumeFieldValue`: the bytes after the value. -/
def skipValue (num wt : Nat) (b : Bytes) : Option Bytes := if wt = 3 then skipGroup b.length [num] b else skipPlain wt b

/-! ## Messages -/

/-- What the coder of a field makes of a value. -/
inductive Step (M : Type)
  /-- an error -/
  | bad
  /-- `errUnknown`: no such field, or not of this wire type -/
  | unknown
  /-- the message with the value, and the bytes after it -/
  | ok (m : M) (b : Bytes)

/-- `MessageInfo.unmarshalPointer` (`internal/impl/decode.go`). `field` sets a field; `keep` appends to the unknown fields.
The first argument bounds the number of fields. -/
def parse {M : Type} (field : Nat → Nat → Bytes → M → Step M) (keep : Bytes → M → M) : Nat → Bytes → M → Option M
  | _, [], m => some m
  | 0, _ :: _, _ => none
  | k + 1, b, m =>
    match readVarint b with
    | none => none
    | some (tag, b) =>
      if tag / 8 = 0 ∨ 2 ^ 29 ≤ tag / 8 ∨ tag % 8 = 4 then none
      else
        match field (tag / 8) (tag % 8) b m with
        | .bad => none
        | .ok m b => parse field keep k b m
        | .unknown =>
          match skipValue (tag / 8) (tag % 8) b with
          | none => none
          | some r => parse field keep k r (keep (putTag (tag / 8) (tag % 8) ++ b.take (b.length - r.length)) m)

/-- The kinds of scalar fields. `fixed32` stands for fixed32, sfixed32 and float, whose bits are kept. -/
inductive Kind
  | uint32
  | sint32
  | bool
  | fixed32
  | bytes
  deriving DecidableEq, Repr

/-- Values of fields. Signed numbers and floats are represented by their bits. -/
inductive Val
  | num (n : UInt32)
  | flag (b : Bool)
  | bytes (b : Bytes)
  deriving DecidableEq, Repr

/-- The wire type of a kind. -/
def Kind.wire : Kind → Nat
  | .uint32 => 0
  | .sint32 => 0
  | .bool => 0
  | .fixed32 => 5
  | .bytes => 2

/-- `protowire.EncodeZigZag` of an `int32` given by its bits. -/
def zigzag (n : UInt32) : Nat := if n.toNat < 2 ^ 31 then 2 * n.toNat else 2 * (2 ^ 32 - n.toNat) - 1

/-- `int32(protowire.DecodeZigZag(v & math.MaxUint32))`. -/
def unzigzag (v : Nat) : UInt32 :=
  let v := v % 2 ^ 32
  if v % 2 = 0 then UInt32.ofNat (v / 2) else UInt32.ofNat (2 ^ 32 - 1 - v / 2)

/-- The coders of the kinds (`internal/impl/codec_gen.go`), reading. -/
def Kind.read (k : Kind) (b : Bytes) : Option (Val × Bytes) :=
  match k with
  | .uint32 => (readVarint b).map fun (v, r) => (.num (UInt32.ofNat v), r)
  | .sint32 => (readVarint b).map fun (v, r) => (.num (unzigzag v), r)
  | .bool => (readVarint b).map fun (v, r) => (.flag (v ≠ 0), r)
  | .fixed32 => (read32 b).map fun (v, r) => (.num v, r)
  | .bytes => (readBytes b).map fun (v, r) => (.bytes v, r)

/-- The coders of the kinds, writing. -/
def Kind.write : Kind → Val → Bytes
  | .uint32, .num n => putVarint n.toNat
  | .sint32, .num n => putVarint (zigzag n)
  | .bool, .flag b => [if b then 1 else 0]
  | .fixed32, .num n => put32 n
  | .bytes, .bytes b => putVarint b.length ++ b
  | _, _ => []

/-- A field of a message, by its tag. -/
structure Field where
  num : Nat
  kind : Kind
  deriving DecidableEq, Repr

/-- The fields of a message, in the order of their numbers. -/
abbrev Schema := List Field

/-- A message of optional scalar fields: all messages of the file except `StorageRecord`. A field is nil or points to a value;
`unknown` is `XXX_unrecognized`. -/
structure Sens where
  vals : List (Option Val)
  unknown : Bytes := []
  deriving DecidableEq, Repr

/-- The message without any fields. -/
def Sens.empty (sch : Schema) : Sens := { vals := sch.map fun _ => none }

/-- `f.funcs.unmarshal` for the fields of such a message: the position of the field with this number and wire type is looked
for first. -/
def Sens.field (sch : Schema) (num wt : Nat) (b : Bytes) (m : Sens) : Step Sens :=
  match sch.findIdx? fun f => f.num = num ∧ f.kind.wire = wt with
  | none => .unknown
  | some i =>
    match sch[i]? with
    | none => .unknown
    | some f =>
      match f.kind.read b with
      | some (v, r) => .ok { m with vals := m.vals.set i (some v) } r
      | none => .bad

/-- Unmarshalling such a message. -/
def Sens.unmarshal (sch : Schema) (b : Bytes) : Option Sens :=
  parse (Sens.field sch) (fun u m => { m with unknown := m.unknown ++ u }) b.length b (Sens.empty sch)

/-- One field of `marshalAppendPointer` (`internal/impl/encode.go`). -/
def writeField (f : Field) : Option Val → Bytes
  | none => []
  | some v => putTag f.num f.kind.wire ++ f.kind.write v

/-- Marshalling such a message: the fields in the order of their numbers, then the unknown ones. -/
def Sens.marshal (sch : Schema) (m : Sens) : Bytes := (List.zipWith writeField sch m.vals).flatten ++ m.unknown

/-! ## The messages of the file -/

/-- `SensNdNavData` (`egts_sr_egtsplus_data.go:1017-1029`): sens_num, longitude, latitude, altitude, speed, course,
sat_count, pdop, track, odometer. -/
def sensNdNavData : Schema :=
  [⟨1, .uint32⟩, ⟨2, .fixed32⟩, ⟨3, .fixed32⟩, ⟨4, .uint32⟩, ⟨5, .uint32⟩, ⟨6, .uint32⟩, ⟨7, .uint32⟩, ⟨8, .uint32⟩, ⟨9,
   .uint32⟩, ⟨10, .uint32⟩]

/-- `SensFuelLevel` (`egts_sr_egtsplus_data.go:891-899`): sens_num, value, parrots, unit, t, status. -/
def sensFuelLevel : Schema :=
  [⟨1, .uint32⟩, ⟨2, .fixed32⟩, ⟨3, .uint32⟩, ⟨4, .uint32⟩, ⟨5, .uint32⟩, ⟨6, .uint32⟩]

/-- `SensAinAinValue` (`egts_sr_egtsplus_data.go:487-491`): sens_num, mv. -/
def sensAinAinValue : Schema :=
  [⟨1, .uint32⟩, ⟨2, .uint32⟩]

/-- `SensDinsFlags` (`egts_sr_egtsplus_data.go:797-802`): sens_num, device, external. -/
def sensDinsFlags : Schema :=
  [⟨1, .uint32⟩, ⟨2, .uint32⟩, ⟨3, .uint32⟩]

/-- `SensCounterCount` (`egts_sr_egtsplus_data.go:737-741`): sens_num, value. -/
def sensCounterCount : Schema :=
  [⟨1, .uint32⟩, ⟨2, .uint32⟩]

/-- `SensFmeterFrequency` (`egts_sr_egtsplus_data.go:865-869`): sens_num, value. -/
def sensFmeterFrequency : Schema :=
  [⟨1, .uint32⟩, ⟨2, .uint32⟩]

/-- `SensGsmCellMonotoringCellMonitoring` (`egts_sr_egtsplus_data.go:949-958`): sens_num, mcc, mnc, lac, cid, rssi,
time_adv. -/
def sensGsmCellMonotoringCellMonitoring : Schema :=
  [⟨1, .uint32⟩, ⟨2, .uint32⟩, ⟨3, .uint32⟩, ⟨4, .bytes⟩, ⟨5, .bytes⟩, ⟨6, .bytes⟩, ⟨7, .bytes⟩]

/-- `SensButtonPressCounter` (`egts_sr_egtsplus_data.go:547-551`): sens_num, state. -/
def sensButtonPressCounter : Schema :=
  [⟨1, .uint32⟩, ⟨2, .bool⟩]

/-- `SensTermoData` (`egts_sr_egtsplus_data.go:1173-1178`): sens_num, status, temperature. -/
def sensTermoData : Schema :=
  [⟨1, .uint32⟩, ⟨2, .uint32⟩, ⟨3, .sint32⟩]

/-- `SensCanLogData` (`egts_sr_egtsplus_data.go:573-590`): sens_num, flag_security_state, flag_alarm, engine_time_all,
engine_turn_speed, engine_temperature, fuel_consumption_all, fuel_level, track_all, speed, pressure_axis_1, pressure_axis_2,
pressure_axis_3, pressure_axis_4, pressure_axis_5. -/
def sensCanLogData : Schema :=
  [⟨1, .uint32⟩, ⟨2, .uint32⟩, ⟨3, .uint32⟩, ⟨4, .uint32⟩, ⟨5, .uint32⟩, ⟨6, .sint32⟩, ⟨7, .uint32⟩, ⟨8, .uint32⟩, ⟨9,
   .uint32⟩, ⟨10, .uint32⟩, ⟨11, .uint32⟩, ⟨12, .uint32⟩, ⟨13, .uint32⟩, ⟨14, .uint32⟩, ⟨15, .uint32⟩]

/-- `SensCanLogTmpDataExt` (`egts_sr_egtsplus_data.go:703-708`): sens_num, flags_high, flags_low. -/
def sensCanLogTmpDataExt : Schema :=
  [⟨1, .uint32⟩, ⟨2, .uint32⟩, ⟨3, .uint32⟩]

/-- `SensAccelerometerData` (`egts_sr_egtsplus_data.go:421-430`): sens_num, buf, atm, frequency, range, format, zlib. -/
def sensAccelerometerData : Schema :=
  [⟨1, .uint32⟩, ⟨2, .bytes⟩, ⟨3, .uint32⟩, ⟨4, .uint32⟩, ⟨5, .uint32⟩, ⟨6, .uint32⟩, ⟨7, .uint32⟩]

/-- `SensDoutsFlags` (`egts_sr_egtsplus_data.go:831-836`): sens_num, device, external. -/
def sensDoutsFlags : Schema :=
  [⟨1, .uint32⟩, ⟨2, .uint32⟩, ⟨3, .uint32⟩]

/-- `SensBufferData` (`egts_sr_egtsplus_data.go:513-518`): sens_num, data, is_packed. -/
def sensBufferData : Schema :=
  [⟨1, .uint32⟩, ⟨2, .bytes⟩, ⟨3, .bool⟩]

/-- `SensStorInfo` (`egts_sr_egtsplus_data.go:1107-1116`): sens_num, id_max, id_min, tm_oldest, tm_oldest_unack, cnt_unack,
cnt_unack_losted. -/
def sensStorInfo : Schema :=
  [⟨1, .uint32⟩, ⟨2, .uint32⟩, ⟨3, .uint32⟩, ⟨4, .uint32⟩, ⟨5, .uint32⟩, ⟨6, .uint32⟩, ⟨7, .uint32⟩]

/-- `SensTrackerInfo` (`egts_sr_egtsplus_data.go:1305-1312`): sens_num, cnt_ack, cnt_ack_realtime, cnt_noack, cnt_connect. -/
def sensTrackerInfo : Schema :=
  [⟨1, .uint32⟩, ⟨2, .uint32⟩, ⟨3, .uint32⟩, ⟨4, .uint32⟩, ⟨5, .uint32⟩]

/-- `SensTestEraTests` (`egts_sr_egtsplus_data.go:1207-1220`): sens_num, mic_con_failure, mic_failure, ignition_failure,
uim_failure, bat_failure, bat_volt_low, crash_sens_failure, raim_problem, gnss_antenna_failure, events_memory_overflow. -/
def sensTestEraTests : Schema :=
  [⟨1, .uint32⟩, ⟨2, .bool⟩, ⟨3, .bool⟩, ⟨4, .bool⟩, ⟨5, .bool⟩, ⟨6, .bool⟩, ⟨7, .bool⟩, ⟨8, .bool⟩, ⟨9, .bool⟩, ⟨10,
   .bool⟩, ⟨11, .bool⟩]

/-- `SensCrashData` (`egts_sr_egtsplus_data.go:763-768`): sens_num, energy, is_overturned. -/
def sensCrashData : Schema :=
  [⟨1, .uint32⟩, ⟨2, .uint32⟩, ⟨3, .bool⟩]

/-- The types of the fields 7 to 24 of `StorageRecord` (`egts_sr_egtsplus_data.go:203-237`), in the order of their numbers. -/
def schemas : List Schema :=
  [sensNdNavData, sensFuelLevel, sensAinAinValue, sensDinsFlags, sensCounterCount, sensFmeterFrequency,
   sensGsmCellMonotoringCellMonitoring, sensButtonPressCounter, sensTermoData, sensCanLogData, sensCanLogTmpDataExt,
   sensAccelerometerData, sensDoutsFlags, sensBufferData, sensStorInfo, sensTrackerInfo, sensTestEraTests, sensCrashData]

/-- Packed values (`consumeInt32Slice`). The first argument bounds their number. -/
def readPacked : Nat → Bytes → Option (List UInt32)
  | _, [] => some []
  | 0, _ :: _ => none
  | k + 1, b =>
    match readVarint b with
    | none => none
    | some (v, r) => (readPacked k r).map (UInt32.ofNat v :: ·)

/-- `uint64(v)` of an `int32` given by its bits: sign extension. -/
def extend (n : UInt32) : Nat := if n.toNat < 2 ^ 31 then n.toNat else n.toNat + (2 ^ 64 - 2 ^ 32)

end Proto

/-- `StorageRecord` (`egts_sr_egtsplus_data.go:193-239`). `sens` holds the repeated fields 7 to 24, in the order of their
numbers. Simplification: nil and empty slices are not distinguished, and the elements are not nil. -/
structure StorageRecord where
  recordNumber : Option UInt32 := none
  timeStamp : Option UInt32 := none
  recordReason : List UInt32 := []
  statusFlags : Option UInt32 := none
  sens : List (List Proto.Sens) := Proto.schemas.map fun _ => []
  unknown : Bytes := []
  deriving DecidableEq, Repr

namespace Proto

/-- `f.funcs.unmarshal` for the fields of `StorageRecord`. -/
def recordField (num wt : Nat) (b : Bytes) (m : StorageRecord) : Step StorageRecord :=
  if num = 1 ∧ wt = 0 then
    match readVarint b with
    | some (v, r) => .ok { m with recordNumber := some (UInt32.ofNat v) } r
    | none => .bad
  else if num = 2 ∧ wt = 5 then
    match read32 b with
    | some (v, r) => .ok { m with timeStamp := some v } r
    | none => .bad
  else if num = 3 ∧ wt = 0 then
    match readVarint b with
    | some (v, r) => .ok { m with recordReason := m.recordReason ++ [UInt32.ofNat v] } r
    | none => .bad
  else if num = 3 ∧ wt = 2 then
    match readBytes b with
    | none => .bad
    | some (p, r) =>
      match readPacked p.length p with
      | some vs => .ok { m with recordReason := m.recordReason ++ vs } r
      | none => .bad
  else if num = 4 ∧ wt = 5 then
    match read32 b with
    | some (v, r) => .ok { m with statusFlags := some v } r
    | none => .bad
  else if 7 ≤ num ∧ wt = 2 then
    match schemas[num - 7]? with
    | none => .unknown
    | some sch =>
      match readBytes b with
      | none => .bad
      | some (p, r) =>
        match Sens.unmarshal sch p with
        | some s => .ok { m with sens := m.sens.modify (num - 7) (· ++ [s]) } r
        | none => .bad
  else .unknown

/-- `proto.Unmarshal` (golang/protobuf `proto/wire.go`) into a `StorageRecord`: the receiver is reset; `none` is an error, which
missing required fields are too. -/
def unmarshal (b : Bytes) : Option StorageRecord :=
  match parse recordField (fun u m => { m with unknown := m.unknown ++ u }) b.length b {} with
  | none => none
  | some m => if m.recordNumber.isSome ∧ m.timeStamp.isSome ∧ m.statusFlags.isSome then some m else none

/-- `appendMessageSlice`. -/
def putMessages (num : Nat) (sch : Schema) (ms : List Sens) : Bytes :=
  ms.flatMap fun s => putTag num 2 ++ putVarint (s.marshal sch).length ++ s.marshal sch

/-- The repeated messages from field number `num` on. -/
def putSens : Nat → List Schema → List (List Sens) → Bytes
  | num, sch :: schs, ms :: mss => putMessages num sch ms ++ putSens (num + 1) schs mss
  | _, _, _ => []

/-- `proto.Marshal` of a `StorageRecord`: `none` is an error, which missing required fields are. -/
def marshal (m : StorageRecord) : Option Bytes :=
  match m.recordNumber, m.timeStamp, m.statusFlags with
  | some rn, some ts, some sf =>
    some (putTag 1 0 ++ putVarint rn.toNat ++ (putTag 2 5 ++ put32 ts) ++ (m.recordReason.flatMap fun r => putTag 3 0 ++ putVarint (extend r))
      ++ (putTag 4 5 ++ put32 sf) ++ putSens 7 schemas m.sens ++ m.unknown)
  | _, _, _ => none

end Proto

end Egts
