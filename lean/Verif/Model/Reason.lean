import Verif.Spec.Json
import Verif.Model.PkgJson

/-! # Reasons of EGTS+ records (`libs/egts/egts_sr_egtsplus_data.go`, generated)

A reason is an `int32`, held here by its bits as in `StorageRecord.recordReason`. The functions of `github.com/golang/protobuf` v1.5.2 and
of `encoding/json` are part of the trusted base: `proto.EnumName`, `proto.UnmarshalJSONEnum`, and `json.Unmarshal` into a string and into
an `int32`. For the first the JSON reader of `Spec/Json.lean` is used. It differs from Go's in what it makes of surrogates and of bytes that are
no UTF-8: neither gives an ASCII text, so neither gives a name. The texts of errors are left out. -/

namespace Egts
open Json

/-- `StorageRecordReason_name` (`egts_sr_egtsplus_data.go:92-132`). -/
def reasonNames : List (Int × Bytes) :=
  [(1, go!"DEVICE_RESET"), (2, go!"PROFILE_CHANGE"), (3, go!"IGNITION_ON"), (4, go!"IGNITION_OFF"),
   (5, go!"TRIP_BEGIN"), (6, go!"TRIP_END"), (7, go!"STOP"), (8, go!"MOVE"),
   (9, go!"TOWING_BEGIN"), (10, go!"TOWING_END"), (11, go!"TIMER_MOVE"), (12, go!"TIMER_STOP"),
   (13, go!"ANGLE"), (14, go!"DISTANCE"), (15, go!"SOS_BUTTON"), (16, go!"SERVICE_BUTTON"),
   (17, go!"TAMPER"), (18, go!"ANTENNA_SWITCH"), (19, go!"GSM_LOST"), (20, go!"GSM_RECONNECT"),
   (21, go!"GNSS_LOST"), (22, go!"GNSS_REAQUISITION"), (23, go!"JAMMER_GSM"), (24, go!"JAMMER_GNSS"),
   (25, go!"OVER_SPEED"), (26, go!"OVER_RPM"), (27, go!"OVER_TEMPERATURE"), (28, go!"DANGEROUS_DRIVING"),
   (29, go!"ACCIDENT"), (30, go!"OVERTHROW"), (31, go!"ON_BATTERY"), (32, go!"BATTERY_DISCHARGE"),
   (33, go!"RADIO_TAG_REG"), (34, go!"RADIO_TAG_UNREG"), (35, go!"MOVE_WITHOUT_RADIO_TAG"), (36, go!"ECU_ERROR_CODE"),
   (37, go!"EXTERNAL_REQUEST"), (38, go!"DEVICE_TEST"), (99, go!"OTHER_REASON")]

/-- `StorageRecordReason_value` (`egts_sr_egtsplus_data.go:133-173`). -/
def reasonValues : List (Bytes × Int) :=
  [(go!"DEVICE_RESET", 1), (go!"PROFILE_CHANGE", 2), (go!"IGNITION_ON", 3), (go!"IGNITION_OFF", 4),
   (go!"TRIP_BEGIN", 5), (go!"TRIP_END", 6), (go!"STOP", 7), (go!"MOVE", 8),
   (go!"TOWING_BEGIN", 9), (go!"TOWING_END", 10), (go!"TIMER_MOVE", 11), (go!"TIMER_STOP", 12),
   (go!"ANGLE", 13), (go!"DISTANCE", 14), (go!"SOS_BUTTON", 15), (go!"SERVICE_BUTTON", 16),
   (go!"TAMPER", 17), (go!"ANTENNA_SWITCH", 18), (go!"GSM_LOST", 19), (go!"GSM_RECONNECT", 20),
   (go!"GNSS_LOST", 21), (go!"GNSS_REAQUISITION", 22), (go!"JAMMER_GSM", 23), (go!"JAMMER_GNSS", 24),
   (go!"OVER_SPEED", 25), (go!"OVER_RPM", 26), (go!"OVER_TEMPERATURE", 27), (go!"DANGEROUS_DRIVING", 28),
   (go!"ACCIDENT", 29), (go!"OVERTHROW", 30), (go!"ON_BATTERY", 31), (go!"BATTERY_DISCHARGE", 32),
   (go!"RADIO_TAG_REG", 33), (go!"RADIO_TAG_UNREG", 34), (go!"MOVE_WITHOUT_RADIO_TAG", 35), (go!"ECU_ERROR_CODE", 36),
   (go!"EXTERNAL_REQUEST", 37), (go!"DEVICE_TEST", 38), (go!"OTHER_REASON", 99)]

/-- `proto.EnumName`: the name in the table, or the number in decimal (`strconv.Itoa`). -/
def enumName (m : List (Int × Bytes)) (v : Int) : Bytes :=
  match m.lookup v with
  | some s => s
  | none => decInt v

/-- `StorageRecordReason.String` (`egts_sr_egtsplus_data.go:180-182`). -/
def reasonString (x : UInt32) : Bytes := enumName reasonNames (int32 x)

/-- `json.Unmarshal` into an `int32` that holds 0: white space, an integer in decimal without fraction and exponent, white space. `null`
leaves the variable as it is. -/
def jsonInt32 (data : Bytes) : Option Int :=
  match skipWs data with
  | 110 :: 117 :: 108 :: 108 :: r => if skipWs r = [] then some 0 else none
  | t =>
    let (neg, r) := parseMinus t
    match parseIntPart r with
    | none => none
    | some (ds, r) =>
      let i : Int := if neg then -(digitsVal ds : Int) else digitsVal ds
      if skipWs r = [] ∧ -2 ^ 31 ≤ i ∧ i < 2 ^ 31 then some i else none

/-- `proto.UnmarshalJSONEnum`: a text that begins with a quotation mark is a string and is looked up in the table, any other a number. The
first byte is looked at before there is known to be one. -/
def unmarshalJSONEnum (m : List (Bytes × Int)) (data : Bytes) : Except Fault Int :=
  match data with
  | [] => .error .panic
  | 34 :: _ =>
    match parseJson data with
    | some (.str s) =>
      match m.lookup s with
      | some v => .ok v
      | none => .error (.err .proto)
    | _ => .error (.err .proto)
  | _ =>
    match jsonInt32 data with
    | some v => .ok v
    | none => .error (.err .proto)

/-- `StorageRecordReason.UnmarshalJSON` (`egts_sr_egtsplus_data.go:183-190`): the receiver afterwards and the result. -/
def reasonUnmarshal (x : UInt32) (data : Bytes) : UInt32 × Except Fault Unit :=
  match unmarshalJSONEnum reasonValues data with
  | .error e => (x, .error e)
  | .ok v => (UInt32.ofInt v, .ok ())

end Egts
