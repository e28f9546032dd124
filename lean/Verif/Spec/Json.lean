import Verif.Model.Server

/-! # JSON texts (RFC 8259), as a reader of the stored records sees them

`parseJson` is a JSON parser, `readNav` takes a record out of the parsed object. Neither knows how the receiver
writes its records. -/

namespace Egts
namespace Json

/-- A JSON value. A number is the rational it denotes, a string its UTF-8 bytes. -/
inductive Value
  | null
  | bool (b : Bool)
  | num (q : Rat)
  | str (s : Bytes)
  | arr (vs : List Value)
  | obj (ms : List (Bytes × Value))

/-- White space: blank, tab, line feed, carriage return. -/
def isWs (c : UInt8) : Bool := c = 32 || c = 9 || c = 10 || c = 13

def skipWs (b : Bytes) : Bytes := b.dropWhile isWs

def isDigit (c : UInt8) : Bool := 48 ≤ c && c ≤ 57

/-- The number a string of decimal digits denotes. -/
def digitsVal (ds : Bytes) : Nat := ds.foldl (fun a d => 10 * a + (d.toNat - 48)) 0

/-- `[ minus ]`: whether there is a minus sign, and what follows. -/
def parseMinus : Bytes → Bool × Bytes
  | 45 :: r => (true, r)
  | b => (false, b)

/-- `int = zero / ( digit1-9 *DIGIT )` -/
def parseIntPart (b : Bytes) : Option (Bytes × Bytes) :=
  let ds := b.takeWhile isDigit
  if ds = [] ∨ (ds.head? = some 48 ∧ ds.length ≠ 1) then none else some (ds, b.dropWhile isDigit)

/-- `[ frac ]`, `frac = decimal-point 1*DIGIT` -/
def parseFrac : Bytes → Option (Bytes × Bytes)
  | 46 :: r =>
    let ds := r.takeWhile isDigit
    if ds = [] then none else some (ds, r.dropWhile isDigit)
  | b => some ([], b)

/-- `[ minus / plus ] 1*DIGIT` -/
def parseExpDigits (b : Bytes) : Option (Int × Bytes) :=
  let (neg, r) := match b with
    | 45 :: r => (true, r)
    | 43 :: r => (false, r)
    | b => (false, b)
  let ds := r.takeWhile isDigit
  if ds = [] then none
  else some (if neg then -(digitsVal ds : Int) else digitsVal ds, r.dropWhile isDigit)

/-- `[ exp ]`, `exp = e [ minus / plus ] 1*DIGIT` -/
def parseExp : Bytes → Option (Int × Bytes)
  | 101 :: r => parseExpDigits r
  | 69 :: r => parseExpDigits r
  | b => some (0, b)

/-- `number = [ minus ] int [ frac ] [ exp ]`: the value, and what follows. -/
def parseNumber (b : Bytes) : Option (Rat × Bytes) := do
  let (neg, b) := parseMinus b
  let (ip, b) ← parseIntPart b
  let (fp, b) ← parseFrac b
  let (x, b) ← parseExp b
  let q : Rat := ((digitsVal ip : Rat) + (digitsVal fp : Rat) / (10 : Rat) ^ fp.length) * (10 : Rat) ^ x
  pure (if neg then -q else q, b)

/-- The value of a hexadecimal digit. -/
def hexVal (c : UInt8) : Option Nat :=
  if 48 ≤ c ∧ c ≤ 57 then some (c.toNat - 48)
  else if 97 ≤ c ∧ c ≤ 102 then some (c.toNat - 87)
  else if 65 ≤ c ∧ c ≤ 70 then some (c.toNat - 55)
  else none

/-- The UTF-8 bytes of a code point below 0x10000. -/
def utf8 (n : Nat) : Bytes :=
  if n < 0x80 then [UInt8.ofNat n]
  else if n < 0x800 then [UInt8.ofNat (0xC0 + n / 64), UInt8.ofNat (0x80 + n % 64)]
  else [UInt8.ofNat (0xE0 + n / 4096), UInt8.ofNat (0x80 + n / 64 % 64), UInt8.ofNat (0x80 + n % 64)]

/-- `%x75 4HEXDIG` after a backslash. Surrogate pairs are not put together. -/
def unicodeEscape (a b c d : UInt8) : Option Bytes := do
  let a ← hexVal a
  let b ← hexVal b
  let c ← hexVal c
  let d ← hexVal d
  pure (utf8 (((a * 16 + b) * 16 + c) * 16 + d))

/-- The other escapes after a backslash. -/
def simpleEscape (c : UInt8) : Option UInt8 :=
  if c = 34 ∨ c = 92 ∨ c = 47 then some c
  else if c = 98 then some 8
  else if c = 102 then some 12
  else if c = 110 then some 10
  else if c = 114 then some 13
  else if c = 116 then some 9
  else none

/-- The rest of a string after the opening quotation mark: its bytes, and what follows the closing mark. -/
def parseChars : Bytes → Option (Bytes × Bytes)
  | [] => none
  | 34 :: r => some ([], r)
  | 92 :: 117 :: a :: b :: c :: d :: r =>
    match unicodeEscape a b c d, parseChars r with
    | some u, some (s, r) => some (u ++ s, r)
    | _, _ => none
  | 92 :: c :: r =>
    match simpleEscape c, parseChars r with
    | some u, some (s, r) => some (u :: s, r)
    | _, _ => none
  | c :: r =>
    if c < 32 ∨ c = 92 then none
    else
      match parseChars r with
      | some (s, r) => some (c :: s, r)
      | none => none

/-- `string`, with white space before it. -/
def parseString (b : Bytes) : Option (Bytes × Bytes) :=
  match skipWs b with
  | 34 :: r => parseChars r
  | _ => none

mutual
/-- `value`, with white space before it; the first argument bounds the depth of the recursion. -/
def parseValue : Nat → Bytes → Option (Value × Bytes)
  | 0, _ => none
  | n + 1, b =>
    match skipWs b with
    | 110 :: 117 :: 108 :: 108 :: r => some (.null, r)
    | 116 :: 114 :: 117 :: 101 :: r => some (.bool true, r)
    | 102 :: 97 :: 108 :: 115 :: 101 :: r => some (.bool false, r)
    | 34 :: r => (parseChars r).map (fun p => (.str p.1, p.2))
    | 91 :: r =>
      match skipWs r with
      | 93 :: r => some (.arr [], r)
      | _ => (parseElems n r).map (fun p => (.arr p.1, p.2))
    | 123 :: r =>
      match skipWs r with
      | 125 :: r => some (.obj [], r)
      | _ => (parseMembers n r).map (fun p => (.obj p.1, p.2))
    | b => (parseNumber b).map (fun p => (.num p.1, p.2))

/-- `value *( value-separator value ) end-array` -/
def parseElems : Nat → Bytes → Option (List Value × Bytes)
  | 0, _ => none
  | n + 1, b =>
    match parseValue n b with
    | none => none
    | some (v, r) =>
      match skipWs r with
      | 44 :: r => (parseElems n r).map (fun p => (v :: p.1, p.2))
      | 93 :: r => some ([v], r)
      | _ => none

/-- `member *( value-separator member ) end-object`, `member = string name-separator value` -/
def parseMembers : Nat → Bytes → Option (List (Bytes × Value) × Bytes)
  | 0, _ => none
  | n + 1, b =>
    match parseString b with
    | none => none
    | some (key, r) =>
      match skipWs r with
      | 58 :: r =>
        match parseValue n r with
        | none => none
        | some (v, r) =>
          match skipWs r with
          | 44 :: r => (parseMembers n r).map (fun p => ((key, v) :: p.1, p.2))
          | 125 :: r => some ([(key, v)], r)
          | _ => none
      | _ => none
end

/-- A JSON text: one value, and nothing but white space around it. Every level of the recursion reads at least one byte, so that
the bound does not matter. -/
def parseJson (b : Bytes) : Option Value :=
  match parseValue (b.length + 1) b with
  | some (v, r) => if skipWs r = [] then some v else none
  | none => none

/-- The value of a member. -/
def Value.get (key : Bytes) : Value → Option Value
  | .obj ms => (ms.find? (fun m => m.1 = key)).map (·.2)
  | _ => none

/-- A number as a double: the nearest one. -/
def Value.asFloat : Value → Option F64
  | .num q => some (rnd q)
  | _ => none

/-- A number as an integer, if it is one. -/
def Value.asInt : Value → Option Int
  | .num q => if q.den = 1 then some q.num else none
  | _ => none

/-- A number as an unsigned integer below a bound. -/
def Value.asNat (bound : Nat) (v : Value) : Option Nat :=
  match v.asInt with
  | some i => if 0 ≤ i ∧ i < bound then some i.toNat else none
  | none => none

def Value.asString : Value → Option Bytes
  | .str s => some s
  | _ => none

/-- The elements of an array; `null` counts as an empty one. -/
def Value.asList : Value → Option (List Value)
  | .arr vs => some vs
  | .null => some []
  | _ => none

def readU8 (v : Value) (key : Bytes) : Option UInt8 := do
  let x ← v.get key
  (x.asNat 256).map UInt8.ofNat

def readU16 (v : Value) (key : Bytes) : Option UInt16 := do
  let x ← v.get key
  (x.asNat 65536).map UInt16.ofNat

def readU32 (v : Value) (key : Bytes) : Option UInt32 := do
  let x ← v.get key
  (x.asNat 4294967296).map UInt32.ofNat

def readAnSensor (v : Value) : Option AnSensor := do
  let sensorNumber ← readU8 v (go!"sensor_number")
  let value ← readU32 v (go!"value")
  pure { sensorNumber, value }

def readLiquidSensor (v : Value) : Option LiquidSensor := do
  let sensorNumber ← readU8 v (go!"sensor_number")
  let errorFlag ← (← v.get (go!"error_flag")).asString
  let valueMm ← readU32 v (go!"value_mm")
  let valueL ← readU32 v (go!"value_l")
  pure { sensorNumber, errorFlag, valueMm, valueL }

/-- What a reader takes out of a stored record, by the names of the members. -/
def readNavValue (v : Value) : Option NavRecord := do
  let client ← readU32 v (go!"client")
  let packetID ← readU32 v (go!"packet_id")
  let navigationTimestamp ← (← v.get (go!"navigation_unix_time")).asInt
  let receivedTimestamp ← (← v.get (go!"received_unix_time")).asInt
  let latitude ← (← v.get (go!"latitude")).asFloat
  let longitude ← (← v.get (go!"longitude")).asFloat
  let speed ← readU16 v (go!"speed")
  let pdop ← readU16 v (go!"pdop")
  let hdop ← readU16 v (go!"hdop")
  let vdop ← readU16 v (go!"vdop")
  let nsat ← readU8 v (go!"nsat")
  let ns ← readU16 v (go!"ns")
  let course ← readU8 v (go!"course")
  let anSensors ← (← (← v.get (go!"an_sensors")).asList).mapM readAnSensor
  let liquidSensors ← (← (← v.get (go!"liquid_sensors")).asList).mapM readLiquidSensor
  pure { client, packetID, navigationTimestamp, receivedTimestamp, latitude, longitude, speed, pdop, hdop, vdop, nsat, ns, course,
         anSensors, liquidSensors }

/-- Parse a stored record and read it. -/
def readNav (b : Bytes) : Option NavRecord := (parseJson b).bind readNavValue

end Json

/-- A double: a number that rounding leaves alone. -/
def IsDouble (x : Rat) : Prop := rnd x = x

/-- A string of ASCII characters. -/
def IsAscii (s : Bytes) : Prop := ∀ c ∈ s, c < 128

/-- A record as Go can hold it, with strings of ASCII characters. -/
structure NavRecord.Ok (r : NavRecord) : Prop where
  latitude : IsDouble r.latitude
  longitude : IsDouble r.longitude
  flags : ∀ s ∈ r.liquidSensors, IsAscii s.errorFlag

/-- The latitude with its sign: negative in the southern hemisphere. -/
def SrPosData.signedLatitude (d : SrPosData) : Rat := if d.lahs = go!"1" then -d.latitude else d.latitude

/-- The longitude with its sign: negative in the western hemisphere. -/
def SrPosData.signedLongitude (d : SrPosData) : Rat := if d.lohs = go!"1" then -d.longitude else d.longitude

end Egts
