import Verif.Model.Proto
import Mathlib.Data.List.Forall2

/-!
# The protobuf wire format, and the messages of `docs/egts_sr_egtsplus_data.proto`

The format is described by relations between byte strings and what they stand for, after the "Encoding" chapter of the protobuf
documentation: a message is a sequence of fields; a field is a tag (number and wire type) and a value; the last value of a
scalar field counts, repeated fields collect their values; fields that are not in the description of the message, or have
another wire type there, are kept as they are.
-/

namespace Egts

namespace Proto

/-! ## Wire format -/

/-- The number that a varint stands for: seven bits in each byte, the lowest first. -/
def base128 : Bytes → Nat
  | [] => 0
  | c :: b => c.toNat % 128 + 128 * base128 b

/-- The bytes are a varint for this number: the high bit is set in all bytes but the last; ten bytes at most. Other than the
shortest encodings are allowed. -/
def IsVarint (n : Nat) (b : Bytes) : Prop :=
  ∃ init last, b = init ++ [last] ∧ (∀ c ∈ init, 0x80 ≤ c) ∧ last < 0x80 ∧ b.length ≤ 10 ∧ base128 b = n ∧ n < 2 ^ 64

/-- The bytes are the value of a field of this number and wire type. The value of a group is the fields in it and its end tag. -/
inductive IsValue : Nat → Nat → Bytes → Prop
  | varint {num n p} : IsVarint n p → IsValue num 0 p
  | fixed64 {num p} : p.length = 8 → IsValue num 1 p
  | bytes {num h d} : IsVarint d.length h → IsValue num 2 (h ++ d)
  | fixed32 {num p} : p.length = 4 → IsValue num 5 p
  | groupEnd {num t} : IsVarint (8 * num + 4) t → 1 ≤ num → num < 2 ^ 31 → IsValue num 3 t
  | groupField {num num' wt' t p rest} : IsVarint (8 * num' + wt') t → 1 ≤ num' → num' < 2 ^ 31 → IsValue num' wt' p →
      IsValue num 3 rest → IsValue num 3 (t ++ p ++ rest)

/-- A field of a message as it is on the wire. -/
structure WField where
  num : Nat
  wt : Nat
  tag : Bytes
  payload : Bytes

/-- A whole field. -/
def WField.Ok (f : WField) : Prop :=
  IsVarint (8 * f.num + f.wt) f.tag ∧ f.wt < 8 ∧ 1 ≤ f.num ∧ f.num < 2 ^ 29 ∧ IsValue f.num f.wt f.payload

/-- The bytes of a field. -/
def WField.bytes (f : WField) : Bytes := f.tag ++ f.payload

/-- The bytes of a field with the shortest encoding of its tag. -/
def WField.canon (f : WField) : Bytes := putTag f.num f.wt ++ f.payload

/-- The field has this number and this wire type. -/
def WField.is (num wt : Nat) (f : WField) : Bool := f.num = num ∧ f.wt = wt

/-- The last value of the fields of this number and wire type. -/
def lastWith (fs : List WField) (num wt : Nat) : Option Bytes := ((fs.filter (WField.is num wt)).getLast?).map (·.payload)

/-! ## Values -/

/-- What the value of a field means, by the kind of the field. -/
def Kind.Means (k : Kind) (p : Bytes) (v : Val) : Prop :=
  match k with
  | .uint32 => ∃ n, IsVarint n p ∧ v = .num (UInt32.ofNat n)
  | .sint32 => ∃ (n : Nat) (x : Int), IsVarint n p ∧ ((n % 2 ^ 32 : Nat) : Int) = (if 0 ≤ x then 2 * x else -2 * x - 1) ∧ v = .num (UInt32.ofInt x)
  | .bool => ∃ n, IsVarint n p ∧ v = .flag (n ≠ 0)
  | .fixed32 => ∃ a b c d : UInt8, p = [a, b, c, d] ∧
      v = .num (UInt32.ofNat (a.toNat + 256 * b.toNat + 256 ^ 2 * c.toNat + 256 ^ 3 * d.toNat))
  | .bytes => ∃ h d, p = h ++ d ∧ IsVarint d.length h ∧ v = .bytes d

/-- A field is nil if it does not occur, and means the last value otherwise. -/
def Kind.IsLast (k : Kind) (last : Option Bytes) (v : Option Val) : Prop :=
  match last with
  | none => v = none
  | some p => ∃ x, v = some x ∧ k.Means p x

/-- The field is in the description of the message. -/
def Schema.knows (sch : Schema) (f : WField) : Bool := sch.any fun x => WField.is x.num x.kind.wire f

/-- The message that a sequence of fields stands for. -/
structure Sens.Denoted (sch : Schema) (fs : List WField) (s : Sens) : Prop where
  length : s.vals.length = sch.length
  vals : ∀ (i : Nat) (f : Field) (v : Option Val), sch[i]? = some f → s.vals[i]? = some v → f.kind.IsLast (lastWith fs f.num f.kind.wire) v
  unknown : s.unknown = (fs.filter fun f => !sch.knows f).flatMap WField.canon

/-- The bytes are a message of this description. -/
def IsMessage (sch : Schema) (b : Bytes) (s : Sens) : Prop :=
  ∃ fs : List WField, (∀ f ∈ fs, f.Ok) ∧ b = fs.flatMap WField.bytes ∧ s.Denoted sch fs

/-! ## StorageRecord -/

/-- One field of reasons: a single value, or several packed into one field. -/
def IsReasons (f : WField) (vs : List UInt32) : Prop :=
  (f.wt = 0 ∧ ∃ n, IsVarint n f.payload ∧ vs = [UInt32.ofNat n]) ∨
  (f.wt = 2 ∧ ∃ h, ∃ ps : List Bytes, f.payload = h ++ ps.flatten ∧ IsVarint ps.flatten.length h ∧
    List.Forall₂ (fun p v => ∃ n, IsVarint n p ∧ v = UInt32.ofNat n) ps vs)

/-- The field is in the description of `storage_record`. -/
def recordKnows (f : WField) : Bool :=
  WField.is 1 0 f || WField.is 2 5 f || WField.is 3 0 f || WField.is 3 2 f || WField.is 4 5 f || (decide (7 ≤ f.num) && decide (f.num ≤ 24) && decide (f.wt = 2))

/-- The record that a sequence of fields stands for. -/
structure Denoted (fs : List WField) (m : StorageRecord) : Prop where
  recordNumber : Kind.uint32.IsLast (lastWith fs 1 0) (m.recordNumber.map .num)
  timeStamp : Kind.fixed32.IsLast (lastWith fs 2 5) (m.timeStamp.map .num)
  recordReason : ∃ vss : List (List UInt32),
    List.Forall₂ IsReasons (fs.filter fun f => WField.is 3 0 f || WField.is 3 2 f) vss ∧ m.recordReason = vss.flatten
  statusFlags : Kind.fixed32.IsLast (lastWith fs 4 5) (m.statusFlags.map .num)
  length : m.sens.length = 18
  sens : ∀ (i : Nat) (sch : Schema) (ms : List Sens), schemas[i]? = some sch → m.sens[i]? = some ms →
    List.Forall₂ (fun f s => ∃ h d, f.payload = h ++ d ∧ IsVarint d.length h ∧ IsMessage sch d s) (fs.filter (WField.is (7 + i) 2)) ms
  unknown : m.unknown = (fs.filter fun f => !recordKnows f).flatMap WField.canon

/-- The bytes are a record. -/
def IsRecord (b : Bytes) (m : StorageRecord) : Prop :=
  ∃ fs : List WField, (∀ f ∈ fs, f.Ok) ∧ b = fs.flatMap WField.bytes ∧ Denoted fs m

/-! ## Messages that can be marshalled -/

/-- The value is of the kind of the field. Byte strings are shorter than 4 GiB. -/
def Val.Typed (k : Kind) (v : Val) : Prop :=
  match k, v with
  | .uint32, .num _ => True
  | .sint32, .num _ => True
  | .bool, .flag _ => True
  | .fixed32, .num _ => True
  | .bytes, .bytes b => b.length < 2 ^ 32
  | _, _ => False

/-- Unknown fields that `proto.Unmarshal` may have left. -/
def UnknownOk (knows : WField → Bool) (u : Bytes) : Prop :=
  u.length < 2 ^ 32 ∧ ∃ fs : List WField, (∀ f ∈ fs, f.Ok ∧ knows f = false ∧ f.bytes = f.canon) ∧ u = fs.flatMap WField.bytes

/-- A message that can be marshalled. -/
structure Sens.Valid (sch : Schema) (s : Sens) : Prop where
  length : s.vals.length = sch.length
  vals : ∀ (i : Nat) (f : Field) (v : Val), sch[i]? = some f → s.vals[i]? = some (some v) → v.Typed f.kind
  unknown : UnknownOk sch.knows s.unknown

end Proto

open Proto in
/-- A record that can be marshalled: the required fields are present. -/
structure StorageRecord.Valid (m : StorageRecord) : Prop where
  recordNumber : m.recordNumber.isSome
  timeStamp : m.timeStamp.isSome
  statusFlags : m.statusFlags.isSome
  length : m.sens.length = 18
  sens : ∀ (i : Nat) (sch : Schema) (ms : List Sens), schemas[i]? = some sch → m.sens[i]? = some ms → ∀ s ∈ ms, s.Valid sch
  unknown : UnknownOk recordKnows m.unknown

namespace Proto

/-! ## The published description -/

/-- The types that occur in the file. -/
inductive ProtoType
  | uint32
  | sint32
  | bool
  | fixed32
  | sfixed32
  | float
  | bytes
  deriving DecidableEq

/-- The coding of a type. -/
def ProtoType.kind : ProtoType → Kind
  | .uint32 => .uint32
  | .sint32 => .sint32
  | .bool => .bool
  | .fixed32 => .fixed32
  | .sfixed32 => .fixed32
  | .float => .fixed32
  | .bytes => .bytes

/-- A repeated field of `storage_record`: its name and number, and the optional fields of its message. -/
structure Message where
  name : String
  number : Nat
  fields : List (String × Nat × ProtoType)

/-- The messages in `docs/egts_sr_egtsplus_data.proto`, in the order of the file (lines 68-119 for the fields of
`storage_record`, 123-323 for the messages). -/
def protoFile : List Message :=
  [⟨"sens_accelerometer_data", 18, [("sens_num", 1, .uint32), ("buf", 2, .bytes), ("atm", 3, .uint32),
     ("frequency", 4, .uint32), ("range", 5, .uint32), ("format", 6, .uint32), ("zlib", 7, .uint32)]⟩,
   ⟨"sens_ain_ain_value", 9, [("sens_num", 1, .uint32), ("mv", 2, .uint32)]⟩,
   ⟨"sens_buffer_data", 20, [("sens_num", 1, .uint32), ("data", 2, .bytes), ("is_packed", 3, .bool)]⟩,
   ⟨"sens_button_press_counter", 14, [("sens_num", 1, .uint32), ("state", 2, .bool)]⟩,
   ⟨"sens_can_log_data", 16, [("sens_num", 1, .uint32), ("flag_security_state", 2, .uint32), ("flag_alarm", 3, .uint32),
     ("engine_time_all", 4, .uint32), ("engine_turn_speed", 5, .uint32), ("engine_temperature", 6, .sint32),
     ("fuel_consumption_all", 7, .uint32), ("fuel_level", 8, .uint32), ("track_all", 9, .uint32),
     ("speed", 10, .uint32), ("pressure_axis_1", 11, .uint32), ("pressure_axis_2", 12, .uint32),
     ("pressure_axis_3", 13, .uint32), ("pressure_axis_4", 14, .uint32), ("pressure_axis_5", 15, .uint32)]⟩,
   ⟨"sens_can_log_tmp_data_ext", 17, [("sens_num", 1, .uint32), ("flags_high", 2, .uint32), ("flags_low", 3, .uint32)]⟩,
   ⟨"sens_counter_count", 11, [("sens_num", 1, .uint32), ("value", 2, .uint32)]⟩,
   ⟨"sens_crash_data", 24, [("sens_num", 1, .uint32), ("energy", 2, .uint32), ("is_overturned", 3, .bool)]⟩,
   ⟨"sens_dins_flags", 10, [("sens_num", 1, .uint32), ("device", 2, .uint32), ("external", 3, .uint32)]⟩,
   ⟨"sens_douts_flags", 19, [("sens_num", 1, .uint32), ("device", 2, .uint32), ("external", 3, .uint32)]⟩,
   ⟨"sens_fmeter_frequency", 12, [("sens_num", 1, .uint32), ("value", 2, .uint32)]⟩,
   ⟨"sens_fuel_level", 8, [("sens_num", 1, .uint32), ("value", 2, .float), ("parrots", 3, .uint32),
     ("unit", 4, .uint32), ("t", 5, .uint32), ("status", 6, .uint32)]⟩,
   ⟨"sens_gsm_cell_monotoring_cell_monitoring", 13, [("sens_num", 1, .uint32), ("lac", 4, .bytes), ("cid", 5, .bytes),
     ("rssi", 6, .bytes), ("time_adv", 7, .bytes), ("mcc", 2, .uint32), ("mnc", 3, .uint32)]⟩,
   ⟨"sens_nd_nav_data", 7, [("sens_num", 1, .uint32), ("longitude", 2, .sfixed32), ("latitude", 3, .sfixed32),
     ("altitude", 4, .uint32), ("speed", 5, .uint32), ("course", 6, .uint32), ("sat_count", 7, .uint32),
     ("pdop", 8, .uint32), ("track", 9, .uint32), ("odometer", 10, .uint32)]⟩,
   ⟨"sens_stor_info", 21, [("sens_num", 1, .uint32), ("id_max", 2, .uint32), ("id_min", 3, .uint32),
     ("tm_oldest", 4, .uint32), ("tm_oldest_unack", 5, .uint32), ("cnt_unack", 6, .uint32),
     ("cnt_unack_losted", 7, .uint32)]⟩,
   ⟨"sens_termo_data", 15, [("sens_num", 1, .uint32), ("status", 2, .uint32), ("temperature", 3, .sint32)]⟩,
   ⟨"sens_test_era_tests", 23, [("sens_num", 1, .uint32), ("mic_con_failure", 2, .bool), ("mic_failure", 3, .bool),
     ("ignition_failure", 4, .bool), ("uim_failure", 5, .bool), ("bat_failure", 6, .bool),
     ("bat_volt_low", 7, .bool), ("crash_sens_failure", 8, .bool), ("raim_problem", 9, .bool),
     ("gnss_antenna_failure", 10, .bool), ("events_memory_overflow", 11, .bool)]⟩,
   ⟨"sens_tracker_info", 22, [("sens_num", 1, .uint32), ("cnt_ack", 2, .uint32), ("cnt_ack_realtime", 3, .uint32),
     ("cnt_noack", 4, .uint32), ("cnt_connect", 5, .uint32)]⟩]

end Proto

end Egts
