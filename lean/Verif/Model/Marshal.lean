import Verif.Model.Json
import Verif.Model.Utf8

/-! # `encoding/json`, for all the types that occur in a `Package`

`json.Marshal` walks over a value by reflection; `GoVal` is what it meets there. -/

namespace Egts

/-! ## Strings -/

/-- `encodeState.string` with HTML escaping, between the quotation marks; the first argument bounds the number of steps. Bytes
that are no UTF-8 are written as the escaped replacement character, U+2028 and U+2029 are escaped. -/
def escapeN : Nat → Bytes → Bytes
  | 0, _ => []
  | _ + 1, [] => []
  | k + 1, c :: r =>
    if c < 0x80 then jsonChar c ++ escapeN k r
    else
      match runeAt (c :: r) with
      | none => go!"\\ufffd" ++ escapeN k r
      | some (n, size) =>
        (if n = 0x2028 ∨ n = 0x2029 then go!"\\u202" ++ [hexDigit (UInt8.ofNat (n % 16))] else (c :: r).take size)
          ++ escapeN k ((c :: r).drop size)

/-- A string (`stringEncoder`). -/
def marshalString (s : Bytes) : Bytes := [34] ++ escapeN s.length s ++ [34]

/-! ## `[]byte` -/

/-- The alphabet of `base64.StdEncoding`. -/
def b64Char (n : Nat) : UInt8 :=
  if n < 26 then UInt8.ofNat (65 + n) else if n < 52 then UInt8.ofNat (71 + n) else if n < 62 then UInt8.ofNat (n - 4)
  else if n = 62 then 43 else 47

/-- `base64.StdEncoding.EncodeToString`. -/
def base64 : Bytes → Bytes
  | a :: b :: c :: r =>
    [b64Char (a.toNat / 4), b64Char (a.toNat % 4 * 16 + b.toNat / 16), b64Char (b.toNat % 16 * 4 + c.toNat / 64), b64Char (c.toNat % 64)]
      ++ base64 r
  | [a, b] => [b64Char (a.toNat / 4), b64Char (a.toNat % 4 * 16 + b.toNat / 16), b64Char (b.toNat % 16 * 4), 61]
  | [a] => [b64Char (a.toNat / 4), b64Char (a.toNat % 4 * 16), 61, 61]
  | [] => []

/-! ## `time.Time` -/

/-- `isLeap`. -/
def isLeapYear (y : Int) : Bool := y % 4 = 0 ∧ (y % 100 ≠ 0 ∨ y % 400 = 0)

/-- `daysBefore` of package `time`: the days of the year before each month. -/
def daysBefore (m : Nat) : Nat := [0, 31, 59, 90, 120, 151, 181, 212, 243, 273, 304, 334, 365].getD m 0

/-- `absDate` of package `time`: year, month and day. Simplification: the days are counted from 1 January of year 1 instead of
the beginning of the cycle of 400 years that the library starts from, and divided with rounding down. -/
def civil (days : Int) : Int × Nat × Nat :=
  let n400 := days / 146097
  let d := (days % 146097).toNat
  let n100 := d / 36524 - d / 36524 / 4
  let d := d - 36524 * n100
  let n4 := d / 1461
  let d := d - 1461 * n4
  let n1 := d / 365 - d / 365 / 4
  let yday := d - 365 * n1
  let year : Int := 400 * n400 + 100 * n100 + 4 * n4 + n1 + 1
  if isLeapYear year ∧ yday = 59 then (year, 2, 29)
  else
    let day := if isLeapYear year ∧ 59 < yday then yday - 1 else yday
    let month := day / 31
    if daysBefore (month + 1) ≤ day then (year, month + 2, day - daysBefore (month + 1) + 1)
    else (year, month + 1, day - daysBefore month + 1)

/-- `appendInt` of package `time`: `w` digits. -/
def digitsW : Nat → Nat → Bytes
  | 0, _ => []
  | w + 1, n => digitsW w (n / 10) ++ [UInt8.ofNat (48 + n % 10)]

/-- The fraction `.999999999` of a layout: nine digits without the zeros at the end, nothing if all are zero. -/
def fraction (ns : Nat) : Bytes :=
  let ds := ((digitsW 9 ns).reverse.dropWhile (· = 48)).reverse
  if ds = [] then [] else 46 :: ds

/-- `Time.MarshalJSON` of a time in UTC: RFC 3339, and an error unless the year has four digits. Simplification: the
location of a time is not modelled; the times that `Decode` sets are in UTC. -/
def marshalTime (t : GoTime) : Option Bytes :=
  let secs := t / 1000000000
  let (y, m, d) := civil (secs / 86400 + 719162)
  let s := (secs % 86400).toNat
  if 0 ≤ y ∧ y < 10000 then
    some ([34] ++ digitsW 4 y.toNat ++ [45] ++ digitsW 2 m ++ [45] ++ digitsW 2 d ++ [84] ++ digitsW 2 (s / 3600) ++ [58]
      ++ digitsW 2 (s / 60 % 60) ++ [58] ++ digitsW 2 (s % 60) ++ fraction (t % 1000000000).toNat ++ [90, 34])
  else none

/-! ## `float32` -/

/-- A rational rounded to the nearest `float32`, ties to even; numbers that are too large are not modelled, as they are not
looked at. -/
def rnd32 (x : Rat) : Rat :=
  if x = 0 then 0
  else
    let ulp := pow2 (max (ilog2 (if 0 ≤ x then x else -x) - 23) (-149))
    (roundEven (x / ulp) : Rat) * ulp

/-- The absolute value of the `float32` with these bits; `none` for infinities and what is not a number. -/
def f32Abs (bits : UInt32) : Option Rat :=
  let e : Nat := bits.toNat / 2 ^ 23 % 256
  let m : Nat := bits.toNat % 2 ^ 23
  if e = 255 then none
  else if e = 0 then some ((m : Rat) * pow2 (-149))
  else some (((m + 2 ^ 23 : Nat) : Rat) * pow2 ((e : Int) - 150))

/-- As `shortDigits`, for a `float32`. -/
def shortDigits32 (f : Rat) (k : Int) (n : Nat) : Option (Nat × Int) :=
  let e : Int := k - n
  let u := pow10 e
  let lo := (f / u).floor.toNat
  let down := rnd32 ((lo : Rat) * u) = f
  let up := rnd32 (((lo + 1 : Nat) : Rat) * u) = f
  if down ∧ up then some ((roundEven (f / u)).toNat, e)
  else if down then some (lo, e)
  else if up then some (lo + 1, e)
  else none

/-- The least number of digits from `n` on that will do, `fuel` attempts. -/
def shortestFrom32 (f : Rat) (k : Int) : Nat → Nat → Nat × Int
  | 0, _ => (0, 0)
  | fuel + 1, n =>
    match shortDigits32 f k n with
    | some d => d
    | none => shortestFrom32 f k fuel (n + 1)

/-- The shortest decimal that reads back as the positive `float32` `f` (`strconv.FormatFloat` with precision -1 and 32 bits); see
`shortest`. The number of attempts is more than enough: no `float32` has more than 200 digits. -/
def shortest32 (f : Rat) : Bytes × Int :=
  let (m, e) := shortestFrom32 f (dexp f) 200 1
  let ds := Nat.digits 10 m
  ((ds.dropWhile (· = 0)).reverse.map (fun d => UInt8.ofNat (48 + d)), (ds.length : Int) + e)

/-- `floatEncoder(32)` for a positive number. -/
def jsonPos32 (f : Rat) : Bytes :=
  let (ds, dp) := shortest32 f
  if f < rnd32 (1 / 1000000) ∨ rnd32 1000000000000000000000 ≤ f then fmtE ds dp else fmtF ds dp

/-- `floatEncoder(32)`: an error for infinities and what is not a number. -/
def marshalF32 (bits : UInt32) : Option Bytes :=
  (f32Abs bits).map fun a => (if bits.toNat < 2 ^ 31 then [] else [45]) ++ (if a = 0 then [48] else jsonPos32 a)

/-! ## Values -/

/-- What `json.Marshal` meets in a value. -/
inductive GoVal
  /-- a nil pointer, slice or interface -/
  | null
  | uint (n : Nat)
  | int (i : Int)
  | bool (b : Bool)
  | str (s : Bytes)
  | f64 (x : F64)
  /-- a `float32`, by its bits -/
  | f32 (bits : UInt32)
  | time (t : GoTime)
  /-- a `[]byte` that is not nil -/
  | bytes (b : Bytes)
  /-- another slice that is not nil -/
  | list (vs : List GoVal)
  /-- a structure: the names and values of the fields that are written, in the order of their declaration -/
  | struct (fs : List (Bytes × GoVal))

mutual
/-- `json.Marshal`; `none` stands for an error. -/
def GoVal.json : GoVal → Option Bytes
  | .null => some (go!"null")
  | .uint n => some (decNat n)
  | .int i => some (decInt i)
  | .bool b => some (if b then go!"true" else go!"false")
  | .str s => some (marshalString s)
  | .f64 x => some (jsonFloat x)
  | .f32 bits => marshalF32 bits
  | .time t => marshalTime t
  | .bytes b => some ([34] ++ base64 b ++ [34])
  | .list vs => (GoVal.jsonList vs).map fun es => [91] ++ ([44] : Bytes).intercalate es ++ [93]
  | .struct fs => (GoVal.jsonFields fs).map jsonObject

/-- The elements of a slice. -/
def GoVal.jsonList : List GoVal → Option (List Bytes)
  | [] => some []
  | v :: vs =>
    match v.json, GoVal.jsonList vs with
    | some e, some es => some (e :: es)
    | _, _ => none

/-- The fields of a structure. -/
def GoVal.jsonFields : List (Bytes × GoVal) → Option (List (Bytes × Bytes))
  | [] => some []
  | (k, v) :: fs =>
    match v.json, GoVal.jsonFields fs with
    | some e, some es => some ((k, e) :: es)
    | _, _ => none
end

end Egts
