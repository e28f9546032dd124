import Mathlib.Data.Nat.Digits.Defs
import Verif.Model.Server

/-! # `NavRecord.ToBytes` (`cli/receiver/storage/packet.go:25-27`)

`json.Marshal` of a `NavRecord`: Go's `encoding/json` and, for numbers, `strconv`, restricted to the types that occur in
that structure. -/

namespace Egts

/-- Decimal digits of a natural number, most significant first (`strconv.AppendUint`). -/
def decNat (n : Nat) : Bytes := if n = 0 then [48] else (Nat.digits 10 n).reverse.map (fun d => UInt8.ofNat (48 + d))

/-- `strconv.AppendInt` in base 10. -/
def decInt (i : Int) : Bytes := if i < 0 then 45 :: decNat i.natAbs else decNat i.natAbs

/-- `10^e` for an integer exponent. -/
def pow10 (e : Int) : Rat :=
  match e with
  | .ofNat n => ((10 ^ n : Nat) : Rat)
  | .negSucc n => 1 / ((10 ^ (n + 1) : Nat) : Rat)

/-- The decimal exponent of a positive rational: the `k` with `10^(k-1) ≤ a < 10^k`. -/
def dexp (a : Rat) : Int :=
  let k : Int := ((Nat.digits 10 a.num.natAbs).length : Int) - ((Nat.digits 10 a.den).length : Int)
  if a < pow10 k then k else k + 1

/-- `n` decimal digits that read back as the positive double `f`, if there are any: those below or above `f`, the
nearer if both will do (`strconv`, `roundShortest`). `k` is the decimal exponent of `f`; the result `(m, e)` stands
for `m * 10^e`. -/
def shortDigits (f : F64) (k : Int) (n : Nat) : Option (Nat × Int) :=
  let e : Int := k - n
  let u := pow10 e
  let lo := (f / u).floor.toNat
  let down := rnd ((lo : Rat) * u) = f
  let up := rnd (((lo + 1 : Nat) : Rat) * u) = f
  if down ∧ up then some ((roundEven (f / u)).toNat, e)
  else if down then some (lo, e)
  else if up then some (lo + 1, e)
  else none

/-- The least number of digits from `n` on that will do, `fuel` attempts. -/
def shortestFrom (f : F64) (k : Int) : Nat → Nat → Nat × Int
  | 0, _ => (0, 0)
  | fuel + 1, n =>
    match shortDigits f k n with
    | some d => d
    | none => shortestFrom f k fuel (n + 1)

/-- The shortest decimal that reads back as the positive double `f` (`strconv.FormatFloat` with precision -1): its
digits, without zeros at the end, and the position of the decimal point, `0.d₁d₂… * 10^dp`. No double needs more than
17 digits (proved in `Verif/Proofs/JsonFloat.lean`). -/
def shortest (f : F64) : Bytes × Int :=
  let (m, e) := shortestFrom f (dexp f) 17 1
  let ds := Nat.digits 10 m
  ((ds.dropWhile (· = 0)).reverse.map (fun d => UInt8.ofNat (48 + d)), (ds.length : Int) + e)

/-- `strconv`'s format `%f` with the digits `ds` (not empty). -/
def fmtF (ds : Bytes) (dp : Int) : Bytes :=
  if dp ≤ 0 then [48, 46] ++ List.replicate dp.natAbs 48 ++ ds
  else if dp.natAbs < ds.length then ds.take dp.natAbs ++ [46] ++ ds.drop dp.natAbs
  else ds ++ List.replicate (dp.natAbs - ds.length) 48

/-- `strconv`'s format `%e` with the digits `ds` (not empty), without the zero that pads a one-digit exponent:
`encoding/json` removes it. -/
def fmtE (ds : Bytes) (dp : Int) : Bytes :=
  let x := dp - 1
  ds.take 1 ++ (if ds.length ≤ 1 then [] else [46] ++ ds.drop 1) ++ [101] ++ (if x < 0 then [45] else [43]) ++ decNat x.natAbs

/-- `encoding/json`, `floatEncoder`, for a positive double. -/
def jsonPos (f : F64) : Bytes :=
  let (ds, dp) := shortest f
  if f < rnd (1 / 1000000) ∨ 1000000000000000000000 ≤ f then fmtE ds dp else fmtF ds dp

/-- `encoding/json`, `floatEncoder`. Simplification: negative zero, which the model of doubles does not have, would be
written `-0`. -/
def jsonFloat (f : F64) : Bytes :=
  if f = 0 then [48] else if f < 0 then 45 :: jsonPos (-f) else jsonPos f

/-- A hexadecimal digit, as `encoding/json` writes it. -/
def hexDigit (n : UInt8) : UInt8 := if n < 10 then 48 + n else 87 + n

/-- `encoding/json`, `appendString` with HTML escaping, for one byte of a string. Simplification: bytes from 0x80 on are
copied; Go also replaces ill-formed UTF-8 and escapes U+2028 and U+2029. -/
def jsonChar (c : UInt8) : Bytes :=
  if c = 34 ∨ c = 92 then [92, c]
  else if c = 10 then [92, 110]
  else if c = 13 then [92, 114]
  else if c = 9 then [92, 116]
  else if c < 32 ∨ c = 60 ∨ c = 62 ∨ c = 38 then [92, 117, 48, 48, hexDigit (c >>> 4), hexDigit (c &&& 15)]
  else [c]

/-- A JSON string (`encoding/json`, `appendString`). -/
def jsonString (s : Bytes) : Bytes := [34] ++ s.flatMap jsonChar ++ [34]

/-- `encoding/json`, `structEncoder`: the members, already encoded, in the order of the fields. -/
def jsonObject (ms : List (Bytes × Bytes)) : Bytes :=
  [123] ++ ([44] : Bytes).intercalate (ms.map (fun m => jsonString m.1 ++ [58] ++ m.2)) ++ [125]

/-- `encoding/json`, `sliceEncoder`: nil is `null`. Simplification: the empty list stands for the nil slice; the
receiver fills the slices with `append` only (`server.go:204-265`), so that they are never empty but not nil. -/
def jsonSlice (es : List Bytes) : Bytes :=
  if es = [] then go!"null" else [91] ++ ([44] : Bytes).intercalate es ++ [93]

/-- `AnSensor` (`packet.go:36-39`). -/
def AnSensor.toJson (s : AnSensor) : Bytes :=
  jsonObject [(go!"sensor_number", decNat s.sensorNumber.toNat), (go!"value", decNat s.value.toNat)]

/-- `LiquidSensor` (`packet.go:29-34`). -/
def LiquidSensor.toJson (s : LiquidSensor) : Bytes :=
  jsonObject [(go!"sensor_number", decNat s.sensorNumber.toNat), (go!"error_flag", jsonString s.errorFlag),
    (go!"value_mm", decNat s.valueMm.toNat), (go!"value_l", decNat s.valueL.toNat)]

/-- `NavRecord.ToBytes` (`packet.go:7-27`). It has no error: no field can hold what JSON cannot express, as the
doubles of the model are finite. -/
def NavRecord.toBytes (r : NavRecord) : Bytes :=
  jsonObject
    [(go!"client", decNat r.client.toNat), (go!"packet_id", decNat r.packetID.toNat),
     (go!"navigation_unix_time", decInt r.navigationTimestamp), (go!"received_unix_time", decInt r.receivedTimestamp),
     (go!"latitude", jsonFloat r.latitude), (go!"longitude", jsonFloat r.longitude),
     (go!"speed", decNat r.speed.toNat), (go!"pdop", decNat r.pdop.toNat), (go!"hdop", decNat r.hdop.toNat),
     (go!"vdop", decNat r.vdop.toNat), (go!"nsat", decNat r.nsat.toNat), (go!"ns", decNat r.ns.toNat),
     (go!"course", decNat r.course.toNat), (go!"an_sensors", jsonSlice (r.anSensors.map AnSensor.toJson)),
     (go!"liquid_sensors", jsonSlice (r.liquidSensors.map LiquidSensor.toJson))]

/-! ## `json.MarshalIndent(msg, "", "    ")` (`cli/receiver/storage/default.go:15`)

The same values with white space between the tokens; `d` is the depth. -/

/-- `appendNewline` of `encoding/json`. -/
def newline (d : Nat) : Bytes := 10 :: List.replicate (4 * d) 32

/-- An object that is not empty. -/
def indObject (d : Nat) (ms : List (Bytes × Bytes)) : Bytes :=
  [123] ++ newline (d + 1) ++ (44 :: newline (d + 1)).intercalate (ms.map (fun m => jsonString m.1 ++ [58, 32] ++ m.2)) ++ newline d ++ [125]

/-- A slice; nil is `null`. -/
def indSlice (d : Nat) (es : List Bytes) : Bytes :=
  if es = [] then go!"null" else [91] ++ newline (d + 1) ++ (44 :: newline (d + 1)).intercalate es ++ newline d ++ [93]

/-- `AnSensor` (`packet.go:36-39`), indented. -/
def AnSensor.indented (d : Nat) (s : AnSensor) : Bytes :=
  indObject d [(go!"sensor_number", decNat s.sensorNumber.toNat), (go!"value", decNat s.value.toNat)]

/-- `LiquidSensor` (`packet.go:29-34`), indented. -/
def LiquidSensor.indented (d : Nat) (s : LiquidSensor) : Bytes :=
  indObject d [(go!"sensor_number", decNat s.sensorNumber.toNat), (go!"error_flag", jsonString s.errorFlag),
    (go!"value_mm", decNat s.valueMm.toNat), (go!"value_l", decNat s.valueL.toNat)]

/-- A `NavRecord` (`packet.go:7-23`), indented. -/
def NavRecord.indented (r : NavRecord) : Bytes :=
  indObject 0
    [(go!"client", decNat r.client.toNat), (go!"packet_id", decNat r.packetID.toNat),
     (go!"navigation_unix_time", decInt r.navigationTimestamp), (go!"received_unix_time", decInt r.receivedTimestamp),
     (go!"latitude", jsonFloat r.latitude), (go!"longitude", jsonFloat r.longitude),
     (go!"speed", decNat r.speed.toNat), (go!"pdop", decNat r.pdop.toNat), (go!"hdop", decNat r.hdop.toNat),
     (go!"vdop", decNat r.vdop.toNat), (go!"nsat", decNat r.nsat.toNat), (go!"ns", decNat r.ns.toNat),
     (go!"course", decNat r.course.toNat), (go!"an_sensors", indSlice 1 (r.anSensors.map (AnSensor.indented 2))),
     (go!"liquid_sensors", indSlice 1 (r.liquidSensors.map (LiquidSensor.indented 2)))]

end Egts
